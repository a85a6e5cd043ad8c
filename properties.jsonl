{"id": "C01", "title": "Element ids are unique and lead back to their element", "statement": "In one domain, every registered mixin (feature) has a valid id, get_mixin_info(id) (get_feature_info(id)) with that id returns exactly that element, and two different registered elements never share an id; an id held by no registered element yields null.", "quantifier": "every finite history of register/unregister calls on any set of infos, successful or throwing, in any order, with any name-uniqueness settings", "why_tests_cant": "Id slots are reused after unregistering, so a collision can depend on an arbitrarily long interleaving of registrations and unregistrations; tests try a handful.", "anchors": ["code/dynamix/domain.cpp: basic_register_l, basic_unregister_l, basic_get_by_id_l", "code/dynamix/domain.hpp: register_mixin, register_feature, get_mixin_info, get_feature_info"]}
{"id": "C02", "title": "An element keeps its id for as long as it stays registered", "statement": "Once an element is registered, no later call on the domain except a successful unregister of that very element changes its id or what the id resolves to.", "quantifier": "every history of registry calls and every registered element", "why_tests_cant": "Ids are baked into type tables and caches; stability must hold over all interleavings, not sampled ones.", "anchors": ["code/dynamix/domain.cpp: basic_register_l, basic_unregister_l"]}
{"id": "C03", "title": "Ids stay dense: registration always takes the smallest free id", "statement": "A successful registration is given the least id not currently in use, hence the id table never grows beyond the largest number of elements that were registered simultaneously.", "quantifier": "every history of registry calls", "why_tests_cant": "Growth bounds over unbounded histories cannot be established by running a few of them; two different search loops implement the choice.", "anchors": ["code/dynamix/domain.cpp: basic_register_l (reverse search 204-216 and forward search 219-224)"]}
{"id": "C04", "title": "Names are unique where required and name lookup is exact", "statement": "In a domain that does not allow duplicate names, no two registered elements ever have equal names and none is empty; lookup by name returns the registered element with that name, and null exactly when there is none.", "quantifier": "every history of registry calls, every queried name", "why_tests_cant": "Uniqueness is an invariant of the whole history (including failing calls and slot reuse).", "anchors": ["code/dynamix/domain.cpp: basic_register_l, basic_get_by_name_l", "code/dnmx/domain_settings.h"]}
{"id": "C05", "title": "A failed registration changes nothing", "statement": "If registering a feature throws, the feature and the domain's registry are as before. If registering a mixin throws, the mixin and the mixin registry are as before, and the only possible change is that some of the mixin's own features became registered.", "quantifier": "every reachable registry state, every info, every error cause (foreign domain, already registered, empty name, duplicate name - of the mixin or of any of its features)", "why_tests_cant": "The property is about every state in which the failure may hit and every cause; in particular the feature at which a mixin's registration stops.", "anchors": ["code/dynamix/domain.cpp: register_feature, register_mixin, basic_register_l"]}
{"id": "C06", "title": "Unregistering an element that is not the domain's own throws and changes nothing", "statement": "unregister_mixin / unregister_feature with an info that is not registered in this domain throws and leaves the domain (registry, types, cached queries) unchanged.", "quantifier": "every reachable pair of domains and every info", "why_tests_cant": "Depends on numeric id coincidences between domains over arbitrary histories.", "anchors": ["code/dynamix/domain.cpp: unregister_mixin (287-335), basic_unregister_l (236-243)"]}
{"id": "C07", "title": "A registered type class can be found by its name", "statement": "After register_type_class(tc) returns, get_type_class(tc.name) returns tc until tc is unregistered; registering a second class with the same name throws; unregistering makes the name unknown.", "quantifier": "every history of type class registrations and unregistrations", "why_tests_cant": "The failing case needs a register after an unregister; the space of histories is unbounded.", "anchors": ["code/dynamix/domain.cpp: register_type_class (337-360), unregister_type_class, get_type_class"]}
{"id": "C08", "title": "Type mutation operations edit the mixin list exactly as documented", "statement": "add appends; add_if_lacking appends only when absent and says so; remove deletes one (the first) occurrence, keeps the order of the rest and reports whether it did; to_back moves a present mixin to the end keeping the others in order and throws (list unchanged) if absent; has is membership. The by-name forms act on the first mixin with that name.", "quantifier": "every mixin list (with or without duplicates) and every mixin or name", "why_tests_cant": "Claims about all lists.", "anchors": ["code/dynamix/type_mutation.cpp", "code/dynamix/type_mutation.hpp"]}
{"id": "C09", "title": "dedup leaves every mixin exactly once, at its last position", "statement": "After dedup the list has no duplicates, contains exactly the mixins it contained before, and the surviving occurrences are the last ones in their original relative order; a list without duplicates is unchanged.", "quantifier": "every mixin list", "why_tests_cant": "Nested in-place marking loop; all lists with all duplicate patterns.", "anchors": ["code/dynamix/type_mutation.cpp: dedup (124-141)"]}
{"id": "C10", "title": "Applying mutation rules terminates with a composition that no rule changes any more", "statement": "Resolving a type query runs every rule at most min(5,n)+1 times (n = number of rules) and either fails with an error or yields a mixin list that is left unchanged by one more pass of all rules.", "quantifier": "every set of (pure, possibly failing) rules, every query", "why_tests_cant": "Rules are opaque user functions; the claim ranges over all of them.", "anchors": ["code/dynamix/domain.cpp: apply_mutation_rules_l (438-487)"]}
{"id": "C11", "title": "Dependency mixins exist only by virtue of rules", "statement": "A mixin flagged as dependency is part of the resolved type only if the rules add it to the query with all dependencies stripped: the result does not depend on which dependency mixins were in the query.", "quantifier": "every rule set, every two queries equal up to dependency-flagged mixins", "why_tests_cant": "Equality of outcomes for all rule sets and queries.", "anchors": ["code/dynamix/domain.cpp: apply_mutation_rules_l (458-462)", "code/dnmx/mixin_info.h: dependency"]}
{"id": "C12", "title": "Attach/also-add rules converge to the dependency closure", "statement": "In a domain whose rules are 'if A is present then B is added' rules, with any (also cyclic) dependency graph, every query resolves without error if there are 1 to 5 such rules in any order, or any number of them such that no rule adds what an earlier one looks for; the resolved composition consists of exactly the non-dependency mixins of the query and everything they transitively pull in, each pulled-in mixin once.", "quantifier": "every list of at most 5 such rules, every ordered list of such rules, every query", "why_tests_cant": "All dependency graphs and all rule orders; fails for 6 rules (see the refuting theorem).", "anchors": ["code/dynamix/domain.cpp: apply_mutation_rules_l", "code/dynamix/common_mutation_rules.hpp: attaches_to, also_adds"]}
{"id": "C13", "title": "A query without applicable rules resolves to itself", "statement": "In a domain with no mutation rules get_type(mixins) never fails because of rules; the resolved composition is the query (without dependency mixins).", "quantifier": "every query, in particular those with dependency mixins", "why_tests_cant": "Every query; violated for queries containing dependency mixins.", "anchors": ["code/dynamix/domain.cpp: apply_mutation_rules_l (477)"]}
{"id": "C14", "title": "A rule is in force exactly while it was added more often than removed", "statement": "After any sequence of add_mutation_rule/remove_mutation_rule the active rules are those whose net count (removal of an absent rule being a no-op) is positive, each once, ordered by order_priority, then name, then address - independently of the order in which they were added.", "quantifier": "every history of add/remove calls over any set of rules", "why_tests_cant": "Unbounded histories; ordering independent of insertion order.", "anchors": ["code/dynamix/domain.cpp: rule_compare, add_mutation_rule, remove_mutation_rule"]}
{"id": "C15", "title": "One type per composition", "statement": "At any time a domain holds at most one type for each sequence of mixins: two get_type calls that resolve to the same composition return the same type object as long as it has not been removed in between.", "quantifier": "every history of domain operations (registration, rules, get_type, garbage collection)", "why_tests_cant": "Type identity is what equality and caching rest on; it is an invariant over histories.", "anchors": ["code/dynamix/domain.cpp: get_type, create_type, type_compare"]}
{"id": "C16", "title": "The query cache is transparent", "statement": "get_type returns a type whose composition is exactly the result of applying the rules currently in force to the query from scratch, no matter which queries were cached earlier.", "quantifier": "every history of rule additions/removals, registrations, unregistrations, garbage collections and earlier get_type calls (pure rules)", "why_tests_cant": "Stale-cache bugs need particular histories (rule change after caching, unregister then reuse of ids).", "anchors": ["code/dynamix/domain.cpp: get_type (489-547), add_mutation_rule, remove_mutation_rule, unregister_mixin"]}
{"id": "C17", "title": "Types are well formed", "statement": "Every type returned by get_type has pairwise distinct mixins, all of them registered in this domain.", "quantifier": "every history, every query", "why_tests_cant": "Invariant over all histories including unregistration of mixins.", "anchors": ["code/dynamix/domain.cpp: create_type (692-700), unregister_mixin"]}
{"id": "C18", "title": "Garbage collection removes exactly the unused types", "statement": "garbage_collect_types removes precisely the types without objects; types of living objects stay, and every remaining cached query leads to an existing type.", "quantifier": "every reachable domain state", "why_tests_cant": "All states; a single dangling cache entry is enough to break it.", "anchors": ["code/dynamix/domain.cpp: garbage_collect_types (838-861)"]}
{"id": "C19", "title": "After unregistering a mixin nothing mentions it", "statement": "After a successful unregister_mixin no type has the mixin and no cached query contains it or leads to a removed type; all types without it are untouched.", "quantifier": "every reachable domain state, every registered mixin", "why_tests_cant": "All states and histories; removed types must not remain reachable through any cached query.", "anchors": ["code/dynamix/domain.cpp: unregister_mixin (287-335)"]}
{"id": "C20", "title": "A failing get_type changes nothing", "statement": "If get_type throws (rule error, cyclic rules, unregistered, foreign or duplicate mixin, feature clash) the set of types and cached queries is as before.", "quantifier": "every reachable state, every query, every error cause", "why_tests_cant": "Every failure point.", "anchors": ["code/dynamix/domain.cpp: get_type, apply_mutation_rules_l, create_type"]}
{"id": "C21", "title": "Canonical domains ignore the order of the query", "statement": "In a domain with canonicalize_types and no other rules, two queries that are permutations of each other yield the same type, whose mixins are in canonical order (order_priority, then name).", "quantifier": "every set of mixins and every permutation", "why_tests_cant": "n! permutations for every n.", "anchors": ["code/dynamix/domain.cpp: sort_by_canonical_order (54-58), m_canonicalize_rule", "code/dnmx/mixin_info.h: dnmx_mixin_canonical_order"]}
{"id": "C22", "title": "Canonical mixin order is a strict total order", "statement": "dnmx_mixin_canonical_order is irreflexive, transitive and total on different mixins (it is used as a std::sort comparator, which requires this).", "quantifier": "every triple of mixin infos, wherever their names are stored", "why_tests_cant": "All triples of infos and all memory placements of their names; violated when names alias.", "anchors": ["code/dnmx/mixin_info.h: dnmx_mixin_canonical_order (164-174)", "code/dnmx/bits/sv.h: dnmx_sv_cmp (82-101)"]}
{"id": "C23", "title": "String view comparison is lexicographic comparison of the characters", "statement": "dnmx_sv_cmp(a,b) is negative/zero/positive exactly when the characters of a are lexicographically before/equal to/after those of b; dnmx_sv_eq is equality of contents.", "quantifier": "every two string views into any memory", "why_tests_cant": "All views, including views that share memory.", "anchors": ["code/dnmx/bits/sv.h: dnmx_sv_cmp, dnmx_sv_eq"]}
{"id": "C24", "title": "Object buffer layout is sound", "statement": "For every type, each internal mixin lies inside the object buffer at an address aligned for it, is preceded by its own pointer-aligned slot for the object pointer, and no mixin, object-pointer slot or mixin-data array overlaps another.", "quantifier": "every list of mixins with any sizes and power-of-two (or zero) alignments", "why_tests_cant": "All size/alignment combinations and orders.", "anchors": ["code/dynamix/domain.cpp: create_type (782-806)", "code/dynamix/alloc_util.hpp: next_multiple", "code/dynamix/object_mixin_data.hpp"]}
{"id": "C25", "title": "External mixin buffer layout is sound", "statement": "A separately allocated mixin starts inside its buffer at an aligned offset, fits, and has a pointer-aligned object-pointer slot before it inside the same buffer.", "quantifier": "every size and power-of-two (or zero) alignment", "why_tests_cant": "All sizes/alignments, including overflow of 32-bit sizes.", "anchors": ["code/dnmx/mixin_info.h: dnmx_set_mixin_info_size_and_alignment (176-190)", "code/dynamix/object_mutation.cpp: 123-135"]}
{"id": "C26", "title": "Mixin lookup by id in a type is exact", "statement": "type.has(id) holds exactly if the type has the mixin with this id, and index_of gives its position; for any other id (also out of range or invalid) it reports absence.", "quantifier": "every type, every id value", "why_tests_cant": "Sparse table of arbitrary size; all ids.", "anchors": ["code/dynamix/type.hpp: index_of, has (71-80)", "code/dynamix/domain.cpp: create_type (808-815)"]}
{"id": "C27", "title": "The feature table of a type lists every implementation once, in the documented order", "statement": "For each feature the type's entry contains exactly the implementations provided by its mixins, sorted by bid descending, then priority ascending, then mixin position descending; features nobody provides have an empty entry.", "quantifier": "every type, every set of features, bids and priorities", "why_tests_cant": "All mixin lists and all bid/priority assignments; in-place buffer construction in several passes.", "anchors": ["code/dynamix/domain.cpp: ftable_build_helper (549-686)", "doc/basics/glossary.md: Bid and Priority"]}
{"id": "C28", "title": "Feature clashes are detected exactly", "statement": "Type creation fails with a clash error if and only if some feature that does not allow clashes is provided by two mixins of the type with the same bid and priority.", "quantifier": "every mixin list", "why_tests_cant": "The code only compares neighbours after sorting; the claim is about all pairs.", "anchors": ["code/dynamix/domain.cpp: build_ftable (662-672)"]}
{"id": "C29", "title": "Unicast calls the winner", "statement": "A unicast message on an object calls, once, the implementation with the greatest bid, among those the smallest priority, among those the last mixin, with that mixin's data; if no mixin implements it the default implementation is called with the object; otherwise an error is thrown and nothing is called.", "quantifier": "every type, message and object", "why_tests_cant": "All feature tables.", "anchors": ["code/dynamix/msg/msg_caller.hpp: call_unicast, try_default_payload"]}
{"id": "C30", "title": "Multicast calls all top bidders once, in order", "statement": "A multicast message calls exactly the implementations with the greatest bid, each once, in order of descending priority value and, for equal priority, in mixin order, and returns the result of the unicast winner, which is called last.", "quantifier": "every type, message and object", "why_tests_cant": "All feature tables.", "anchors": ["code/dynamix/msg/msg_caller.hpp: call_multicast", "code/dynamix/domain.cpp: 674-681"]}
{"id": "C31", "title": "Calling the next implementation walks through all overridden implementations", "statement": "Starting from the unicast winner and repeatedly going to the next implementer visits every implementation of the message in the type exactly once, in table order, and then reports that there is none; the next bidder set is exactly the set of implementations with the next lower bid.", "quantifier": "every type, message and implementing mixin", "why_tests_cant": "All chains of all lengths.", "anchors": ["code/dynamix/type.cpp: find_next_implementer, find_next_bidder_set", "code/dynamix/msg/next_impl.hpp"]}
{"id": "C32", "title": "Version-1 combinators fold the results of the multicast calls", "statement": "Calling a multicast with boolean_and/boolean_or/sum/mean gives conjunction/disjunction/sum/mean of the results of the top bidders, boolean combinators stopping at the first deciding result; for a default implementation it is the combination of that single result.", "quantifier": "every type, message and result assignment", "why_tests_cant": "All numbers of implementers and all result values.", "anchors": ["code/dynamix/msg/msg_caller.hpp: call_with_v1_combinator", "v1compat/code/dynamix/v1compat/combinators.hpp"]}
{"id": "C33", "title": "A failed mutation leaves the object untouched", "statement": "If changing an object's type fails at any point - allocation of the object buffer, of any external mixin buffer, a missing or failing or throwing initializer of any new mixin - the object keeps its type, all its mixins with their addresses and values, everything constructed so far is destroyed once, all memory allocated for the attempt is released and the object counts of all types are as before.", "quantifier": "every object, target type and failure point", "why_tests_cant": "Every failure point of every mutation; needs fault injection at every allocation and constructor for unbounded type sizes.", "anchors": ["code/dynamix/object_mutation.cpp", "code/dynamix/object.cpp: reset_type", "code/dynamix/object_mutation.hpp"]}
{"id": "C34", "title": "A successful mutation keeps common mixins, constructs new ones and destroys the rest", "statement": "After a successful change to a type the object has exactly the target's mixins; mixins present before and after keep their value (external ones also their address), new ones are initialized exactly once in type order, removed ones are destroyed exactly once, and moved-from originals are destroyed exactly once.", "quantifier": "every object and target type", "why_tests_cant": "All pairs of types and layouts (internal/external, reordered).", "anchors": ["code/dynamix/object_mutation.cpp: finalize (198-256), allocate_mixin_data", "code/dynamix/object_mutation.hpp: update_next_mixin"]}
{"id": "C35", "title": "No leak, no double destruction, no use of dead mixins", "statement": "Over any history of object operations every memory block is released at most once and only when no live mixin is in it, every constructed mixin is destroyed exactly once, user functions only ever get live (or, for constructors, raw) storage; when all objects are destroyed, no memory and no mixin remains.", "quantifier": "every history of object creation, mutation, copy, move, clear, destruction, with any failures of user functions and allocators", "why_tests_cant": "Unbounded histories with failure at any step.", "anchors": ["code/dynamix/object.cpp", "code/dynamix/object_mutation.cpp"]}
{"id": "C36", "title": "A type's object count is the number of living objects with its mixin data", "statement": "type.num_objects() equals the number of objects currently holding a buffer of this type.", "quantifier": "every history of object operations, successful or failing", "why_tests_cant": "Garbage collection relies on it; the counter is updated at allocation sites spread over success and failure paths.", "anchors": ["code/dynamix/type.cpp: allocate_object_buffer, deallocate_object_buffer"]}
{"id": "C37", "title": "Sealed objects cannot be mutated", "statement": "While an object is sealed, every operation that would change its type or set of mixins throws and leaves it unchanged (clear, reset_type, copy_from, move assignment to it, mutations); sealing ends only by moving the object away.", "quantifier": "every sealed object and every operation", "why_tests_cant": "All operations in all states.", "anchors": ["code/dynamix/object.cpp: 46-57, 89-95, 236-254", "code/dynamix/object_mutation.cpp: 21"]}
{"id": "C38", "title": "A moved-from object is empty and usable", "statement": "After moving from an object it is empty, of the domain's empty type and as usable as a newly constructed empty object (in particular it can be given a new type); the target has the source's type, the very same mixins (addresses, values) and sealed status.", "quantifier": "every object", "why_tests_cant": "All objects in all states; the failing case needs a sealed source and a later mutation.", "anchors": ["code/dynamix/object.cpp: usurp (303-316), operator=, move constructor"]}
{"id": "C39", "title": "A mixin always knows its object", "statement": "object_of(mixin) returns the object that has the mixin, for every mixin of every object at any time outside of a mutation.", "quantifier": "every history of object operations, especially moves of objects", "why_tests_cant": "Back pointers are written at several places; invariant over histories.", "anchors": ["code/dynamix/object_of.hpp", "code/dynamix/object_mixin_data.hpp: set_object", "code/dynamix/object.cpp: usurp"]}
{"id": "C40", "title": "A copy equals its source and is independent of it", "statement": "copy() yields a new object of the same type whose mixins are copies, leaves the source unchanged, and shares no storage with it; if copying fails nothing is leaked and the source is unchanged.", "quantifier": "every object, every failure point", "why_tests_cant": "All types and failure points.", "anchors": ["code/dynamix/object.cpp: copy (68-87)"]}
{"id": "C41", "title": "copy_from gives the source's type and values, or fails without breaking the object", "statement": "After a successful copy_from the object has the source's type and copies of all its mixins' values; if it throws, the object's type and mixin set are unchanged and every mixin is either untouched or was assigned from the source; unavailable copy functions are detected before anything is modified.", "quantifier": "every pair of objects of a domain, every failure point", "why_tests_cant": "All pairs of types and failure points.", "anchors": ["code/dynamix/object.cpp: copy_from (89-123)"]}
{"id": "C42", "title": "copy_matching_from / move_matching_from touch exactly the common mixins", "statement": "They change the values of mixins present in both objects (to the source's values) and nothing else: no type, address or other mixin of either object changes (sources of moves become moved-from); missing functions are detected before anything is modified.", "quantifier": "every pair of objects", "why_tests_cant": "All pairs of types.", "anchors": ["code/dynamix/object.cpp: 125-188"]}
{"id": "C43", "title": "Object comparison is consistent", "statement": "If every mixin's equals/compare functions are lawful, object equality is an equivalence relation and compare is a total preorder refining it: reflexive, antisymmetric in sign, transitive, and types compare as 0 only to themselves.", "quantifier": "every triple of objects", "why_tests_cant": "Laws over all triples.", "anchors": ["code/dynamix/object.cpp: equals, compare (256-293)", "code/dynamix/type.cpp: compare (89-114)"]}
{"id": "C44", "title": "Each initializer given to a mutation initializes its own mixin", "statement": "In mutate(obj, add<M>(args)...) / mutate_to(obj, type, construct(...)...) every given initializer is called for the mixin it was given for - at most once, only if the mixin is new - and all other new mixins are default-initialized.", "quantifier": "every target type, every list of initializer operations", "why_tests_cant": "All lists of operations, in particular several operations for one mixin.", "anchors": ["code/dynamix/mutate_to.hpp: 16-56", "code/dynamix/object_mutation.hpp: update_next_mixin"]}
{"id": "C45", "title": "mutate can remove the last mixin", "statement": "mutate(obj, ops...) gives the object the type resulting from applying the operations to its type's mixin list, also when this is the empty type.", "quantifier": "every object and every list of operations", "why_tests_cant": "All operation lists; tests never remove the last mixin this way.", "anchors": ["code/dynamix/mutate.hpp: mutate (11-20)", "code/dynamix/mutate_to.hpp", "code/dynamix/mutate-c.cpp: dnmx_mutate, dnmx_mutate_to", "code/dynamix/object_mutation.cpp: ~object_mutation, finalize"]}
{"id": "C46", "title": "Piecewise mutation respects mixin order", "statement": "update_at(i) constructs all new mixins before i by default and then i with the given function; an index already passed (or out of range) throws, and the whole mutation is rolled back.", "quantifier": "every sequence of piecewise calls", "why_tests_cant": "All call sequences.", "anchors": ["code/dynamix/object_mutation.hpp: update_at, update_each_mixin"]}
{"id": "C47", "title": "Mutations work during stack unwinding", "statement": "An object mutation (or copy, or construction) performed while an unrelated exception is being propagated has the same effect as otherwise.", "quantifier": "every mutation, with and without an exception in flight", "why_tests_cant": "Global state (uncaught exception count) outside the API; every operation.", "anchors": ["code/dynamix/object_mutation.cpp: 51", "code/dynamix/mutate.hpp: 34"]}
{"id": "C48", "title": "Concurrent requests for the same composition get the same type", "statement": "If several threads call get_type concurrently (and no rule change, unregistration or garbage collection runs concurrently), all calls that resolve to the same composition return the same type object, which is in the registry, and every cached query is correct. When all calls are over, the compositions of the domain's types and the stored queries with their compositions are those of executing the calls one after another.", "quantifier": "every number of threads and every interleaving of their critical sections", "why_tests_cant": "Interleavings cannot be enumerated by tests.", "anchors": ["code/dynamix/domain.cpp: get_type (489-531), create_type (817-835)"]}
{"id": "C49", "title": "Concurrent rule changes do not leave stale query results", "statement": "After add_mutation_rule/remove_mutation_rule returned, get_type calls started later see the new rules, even if other get_type calls were in progress during the rule change.", "quantifier": "every interleaving of get_type with rule changes", "why_tests_cant": "Requires a precise interleaving between two critical sections of one call.", "anchors": ["code/dynamix/domain.cpp: get_type (503-527), create_type (818-834), add_mutation_rule (405-418)"]}
{"id": "C50", "title": "get_type never returns a dead type", "statement": "The type returned by get_type exists in the registry at the moment of return, whatever other threads do (except unregistering its mixins).", "quantifier": "every interleaving of get_type and garbage collection", "why_tests_cant": "Requires a precise interleaving.", "anchors": ["code/dynamix/domain.cpp: get_type (495-527), garbage_collect_types"]}
{"id": "C51", "title": "Type class queries are answered by the named class", "statement": "type.is_of(name)/object.is_of(name) returns what the type class registered under that name says about the type and throws exactly if no such class is registered.", "quantifier": "every history of type class registration, every type", "why_tests_cant": "Histories.", "anchors": ["code/dynamix/type.cpp: is_of (83-87)", "code/dynamix/domain.cpp: get_type_class"]}
{"id": "C52", "title": "Type traits predict whether object operations are available", "statement": "A type is default_constructible / copy_constructible exactly if constructing / copying an object of it cannot fail for lack of a function; equality_comparable / comparable exactly if equals / compare never fails for lack of a function.", "quantifier": "every type", "why_tests_cant": "All types.", "anchors": ["code/dynamix/type.cpp: 116-134", "code/dynamix/object.cpp"]}
{"id": "C53", "title": "Name lookup in a type agrees with id lookup", "statement": "In a domain with unique names, index_of(name)/get(name) on a type finds exactly the mixin registered under this name, i.e. agrees with index_of(id).", "quantifier": "every type, every name", "why_tests_cant": "All types and names over all registration histories.", "anchors": ["code/dynamix/type.cpp: index_of(name) (16-21)", "code/dynamix/object.cpp: get"]}
{"id": "C54", "title": "Version-1 mutation rules keep their promises", "statement": "mutually_exclusive_mixins keeps at most one (the last) of its mixins and all others; deprecated_mixin removes, mandatory_mixin adds, substitute_mixin replaces; dependent mixins are added with their master; each is idempotent on duplicate-free lists.", "quantifier": "every mixin list", "why_tests_cant": "All lists.", "anchors": ["v1compat/code/dynamix/v1compat/mutation_rules.cpp", "v1compat/code/dynamix/v1compat/common_mutation_rules.hpp"]}
{"id": "C55", "title": "Registering and unregistering a mixin definition is symmetric", "statement": "register_in followed by unregister_from restores the domain's rules and mixin registry; if register_in throws, the domain is as before.", "quantifier": "every reachable domain state and every mixin definition with rules", "why_tests_cant": "All states and failure causes.", "anchors": ["code/dynamix/mixin_info_data.cpp: 9-21"]}
{"id": "C56", "title": "A registered mixin's features are registered in the mixin's domain", "statement": "At any time, every feature implemented by a mixin that is registered in a domain is registered in that domain too, so that its id designates that feature in the feature tables of the domain's types.", "quantifier": "every history of registrations and unregistrations of features, mixins, classes and rules in any number of domains", "why_tests_cant": "Quantifies over all interleavings of registrations in all domains; tests try single orders, and the violations need a feature shared by domains or unregistered early.", "anchors": ["code/dynamix/domain.cpp: 245-335 (register_feature, unregister_feature, register_mixin)", "code/dynamix/domain.hpp: register_mixin"]}
{"id": "C57", "title": "Operations change only the objects they are given", "statement": "An operation on objects, whether it succeeds or throws, leaves every object that it is not given exactly as it was: type, sealed status, mixins, their addresses and values. So a program that does not mention an object never changes it.", "quantifier": "every heap with any number of objects, every operation and every sequence of operations", "why_tests_cant": "All programs and all objects that they do not mention.", "anchors": ["code/dynamix/object.cpp", "code/dynamix/object_mutation.cpp", "code/dynamix/mutate_to.hpp"]}
{"id": "C58", "title": "Ending a mutation by hand", "statement": "If finalize() is called on an object mutation after all mixins are updated, then the object has its new type and its new mixins from then on, whatever happens until the mutation goes out of scope, exceptions included. If rollback() is called, the object is as it was before the mutation, and nothing of the mutation stays allocated.", "quantifier": "all heaps, objects, target types, sequences of update calls with any failures, with or without exceptions in flight", "why_tests_cant": "tests call finalize and rollback in a few fixed positions and without later exceptions; the claim is about every sequence of calls and every point of failure", "anchors": ["code/dynamix/object_mutation.cpp: object_mutation::~object_mutation, rollback, finalize", "code/dynamix/object_mutation.hpp: object_mutation"]}
{"id": "C59", "title": "Domains and objects work together", "statement": "A program may freely mix operations on domains (registering and unregistering mixins and features, adding and removing rules, asking for types, collecting garbage) with operations on objects (creating, mutating, copying, moving, destroying). As long as mixins of living objects are not unregistered, the type of every living object stays in its domain with the same mixins, garbage collection removes exactly the types that no living object has, objects hold all mixins of their types, and nothing undefined happens.", "quantifier": "for all declarations of elements, all rules, all behaviours of user functions, and all finite programs of operations on domains and objects", "why_tests_cant": "Tests run a few fixed programs; that no interleaving of type creation, garbage collection, unregistering and object mutations leaves an object with a dangling type needs an invariant over all programs.", "anchors": ["code/dynamix/domain.cpp: get_type, garbage_collect_types, unregister_mixin", "code/dynamix/object_mutation.cpp: finalize, num_objects", "code/dynamix/mutate.hpp: mutate, gradual_mutation", "code/dynamix/mutate-c.cpp: dnmx_mutate"]}
{"id": "C60", "title": "has and get find exactly the mixins that the object has", "statement": "object::has says whether the object's type has the mixin that is asked for by id, info or name; get and get_at give a pointer to exactly this live mixin of this object, and a null pointer if there is none.", "quantifier": "every program that uses domains and objects, every object at every point of it, every id, mixin info, name and index", "why_tests_cant": "All histories of registration, mutation and id reuse.", "anchors": ["code/dynamix/object.cpp: has, get (197-238)", "code/dynamix/object.hpp: get_at (144-151)", "code/dynamix/type.hpp: index_of (71-75)"]}
{"id": "C61", "title": "Ids of version-1 mutation rules lead to the rule they were given for", "statement": "add_mutation_rule of v1compat gives the least id that has no rule; remove_mutation_rule gives back exactly the rule added under the id and not removed since, or null without any effect; a rule is in force in the domain exactly while it is registered under some id.", "quantifier": "every history of additions and removals of rules, with any other calls on domains in between", "why_tests_cant": "All interleavings of additions, removals, reuse of ids and repeated additions of one rule.", "anchors": ["v1compat/code/dynamix/v1compat/mutation_rules.cpp: add_mutation_rule, remove_mutation_rule"]}
{"id": "C62", "title": "implements tells whether a message can be called", "statement": "type::implements_strong (by info, id or name) holds exactly if a mixin of the type provides the feature, implements additionally if the feature has a default implementation; the functions of type_mutation with the same names agree with those of the type. A unicast or multicast call of a feature for which implements is false throws and has no other effect; if implements is true the call reaches an implementation.", "quantifier": "every history of registrations, every type, feature, name, program state", "why_tests_cant": "The answers of the type come from a table indexed by numeric ids, those of the mutation from pointers; agreement for all compositions and id assignments is not testable.", "anchors": ["code/dynamix/type.cpp: implements_strong, implements (26-43)", "code/dynamix/type_mutation.cpp: implements_strong, implements (77-97)", "code/dynamix/msg/msg_caller.hpp: call_unicast, call_multicast (16-80)"]}
{"id": "C63", "title": "C functions report failures by their results and otherwise do what the C++ functions do", "statement": "Every function of the C interface that returns has had the effect of the C++ function it stands for, and reports a failure (a non-zero code, a null handle, false) exactly if this throws; no exception leaves a C function. dnmx_get_type consumes the type mutation whether or not it succeeds; failed registrations and failed requests for types change nothing else; a C program that uses its handles properly never meets undefined behaviour, and domains and objects are in order after it. (The part about exceptions is refuted for dnmx_unregister_feature, dnmx_unregister_mixin and dnmx_object_reset_type with a null type.)", "quantifier": "every C program (list of calls), every state reached by one, every failure of user functions and allocators", "why_tests_cant": "Failures of every call in every state, in particular exceptions thrown by user functions at any point, cannot be enumerated.", "anchors": ["code/dynamix/domain-c.cpp: dnmx_register_feature ... dnmx_garbage_collect_types", "code/dynamix/object-c.cpp: dnmx_create_object_empty ... dnmx_object_compare", "code/dynamix/type_mutation-c.cpp", "code/dynamix/mutate-c.cpp: dnmx_mutate_to, dnmx_mutate", "code/dynamix/type-c.cpp: dnmx_type_is_of_name"]}
{"id": "C64", "title": "Calls on domains from many threads cannot deadlock", "statement": "Threads that call the functions of any number of domains (registrations, requests for types, lookups, traversals, garbage collections) never reach a state in which some of them wait for locks for ever: as long as a call is not over, some thread can go on, and every execution in which threads keep being scheduled ends all calls. No thread takes a lock it already has; nobody writes to what another thread reads or writes; during a traversal nobody changes what is traversed; each part of a call changes only what the lock taken by it protects. (Refuted for dbg_dmp of a domain: it locks a shared mutex a second time, which is undefined, and can deadlock with a thread that wants to write.)", "quantifier": "every number of threads, every list of calls in each of them, every number of domains, every interleaving, mutexes that prefer readers or writers", "why_tests_cant": "A deadlock shows only under particular interleavings; all interleavings of all programs cannot be run.", "anchors": ["code/dynamix/domain.cpp: shared_lock, unique_lock uses in register_mixin, unregister_mixin, get_type, garbage_collect_types, domain_traverse (194-908)", "code/dynamix/dbg_dmp.cpp: dbg_dmp(domain) (116-214)", "code/dynamix/domain_traverse.hpp"]}
{"id": "C65", "title": "A traversal of a domain visits everything in it exactly once", "statement": "traverse_mixins visits exactly the registered mixins and traverse_features exactly the features that can be found by their ids, in the order of ids; traverse_type_classes exactly the registered type classes; traverse_mutation_rules exactly the rules in force, in the order of application, with the number of additions less that of removals; traverse_types every non-empty type once; traverse_type_queries every stored query once with the type a request for it gives. num_types, num_type_queries and num_mutation_rules are the numbers of things visited. (Rules: with names that do not alias, see C14.)", "quantifier": "every history of operations on domains", "why_tests_cant": "Registries with gaps, reused slots and collected types arise from unboundedly many histories.", "anchors": ["code/dynamix/domain.cpp: domain_traverse (864-908), num_types, num_type_queries, num_mutation_rules (988-1003)", "code/dynamix/domain_traverse.hpp"]}
{"id": "C66", "title": "A mixin definition means what its calls say, and its rules hold for all types", "statement": "A definition has the features of its implements calls in order, with bids and priorities from the first perks, else the second, else 0; one rule per rule call, in order; and the dependency status by the last call that decides it (rules and attaches_to make a dependency, also_adds does not). Generated rule names are different within a definition and between mixins with different names, so that the order of such rules does not depend on addresses. Rules of a definition with equal priorities run in the order of definition. After the definition is registered, its rules are in force; while no rule in force takes mixins out, types have all non-dependency mixins that were asked for, and a type that has the primary mixin of a common rule also has the dependent one. Infos made for a type have exactly the functions that the type allows.", "quantifier": "every sequence of builder calls, every mixin name, every number of rules; every history of domain operations, every set of user rules, every query", "why_tests_cant": "Names depend on unboundedly many numbers and texts, and composition on the other rules, on their order and on the history of the domain.", "anchors": ["code/dynamix/mixin_info_data.hpp: mixin_info_data_builder", "code/dynamix/mixin_info_data_literals.hpp: builder_perks", "code/dynamix/common_mutation_rules.hpp: attaches_to, also_adds", "code/dynamix/mixin_info_util.hpp: common_init_mixin_info", "v1compat/code/dynamix/v1compat/define_mixin.hpp: feature_parser"]}
{"id": "C67", "title": "The functions for plain mixins copy, move, compare and destroy exactly the bytes of the mixin", "statement": "The functions that dynamix gives to mixins of trivial types (and offers to C programs) work on the bytes of the mixin and on nothing else: init makes zeros, copy makes the bytes equal to the source's and leaves the source alone, move makes them equal to what the source was and leaves the source like a new mixin, destroy overwrites. compare is lexicographic comparison of the bytes and equals says whether they are the same, so that they meet what object comparison (C43) needs. (Source and destination do not overlap.)", "quantifier": "every memory contents, every size, all addresses", "why_tests_cant": "Sizes, contents and addresses are unbounded; a test only sees a few places outside of the mixin.", "anchors": ["code/dnmx/mixin_common_funcs.c", "code/dynamix/mixin_info_util.hpp: common_init_mixin_info"]}
{"id": "C68", "title": "Destroying a domain and constructing another one is the same as using a new address", "statement": "A domain that was just constructed is empty. A program that destroys domains and constructs others at the same addresses does the same as one that gives every domain an address of its own and destroys none: the same calls succeed and fail, and ids, types, stored queries and compositions are the same. In particular ids lead back to their mixins and are unique, and types have only mixins that are registered in their domain.", "quantifier": "every sequence of calls on any number of domains with destructions and constructions at any addresses, all settings", "why_tests_cant": "Whether an address is used again is decided by the allocator, and what is left in the infos depends on the whole history.", "anchors": ["code/dynamix/domain.cpp: domain::domain, domain::~domain, register_mixin, basic_register_l, create_type", "code/dnmx/mixin_info.h: dom, id"]}
{"id": "C69", "title": "After a plugin is unloaded nothing of it is left in the domain", "statement": "A shared library that defines mixins (with mutation rules and features) and type classes can be loaded, used and unloaded. If the program does not unregister the library's elements itself, unloading does not end the program; afterwards none of its mixins is registered or part of a type, no stored query mentions them, its type classes are not registered, the rules in force are those from before it was loaded (and what the program added itself), and no feature that only it brought is registered. It can be loaded again.", "quantifier": "every history before loading, every sequence of calls while the plugin is loaded, every number of static definitions, all settings", "why_tests_cant": "What is left behind depends on what was called while the plugin was loaded and on other plugins; pointers into memory that is gone often still work in a test.", "anchors": ["code/dynamix/define_mixin.hpp: mixin_info_data_instance", "code/dynamix/define_type_class.hpp: registered_type_class_instance", "code/dynamix/mixin_info_data.cpp: register_in, unregister_from", "test/app-plugin"]}
{"id": "C70", "title": "Constructors and destructors of mixins get a valid object", "statement": "From a constructor or destructor of a mixin, `dm_this` and `object_of(this)` lead to the object, which is valid (the documented contract). As documented for the curious: in a mutation the object has its old type, and in constructors all queries are as before the mutation; the external mixins of the object can be used; when mixins are destroyed with the object, the type and the mixins before the current one can be used; in copies and new objects the type and the mixins made so far can be used.", "quantifier": "every reachable state of all objects, every operation on objects (creation, copy, move, mutation with all functions of the user, destruction), every call of a constructor or destructor in it, every failure", "why_tests_cant": "It is about the state in the middle of an operation, for each of the calls, for all types before and after and all failures; use of freed memory often goes unnoticed in tests.", "anchors": ["doc/advanced/danger.md: Accessing the object from a mixin's constructor or destructor", "code/dynamix/object_mutation.cpp: init_new_mixin, finalize, rollback", "code/dynamix/object.cpp: object::copy, clear_mixin_data", "code/dynamix/object_of.hpp: object_of"]}
{"id": "C71", "title": "Mutating an object within a message is safe under the documented rules", "statement": "If implementations of messages mutate their object only as their last action (anywhere in default implementations; anywhere in external mixins if these are not removed), and in multicasts only the implementation called last does, then no call of a message has undefined behaviour and all objects are well afterwards, also if exceptions are thrown or caught on the way. The mixin of the implementation can be used after a mutation exactly if it is external and was not removed. Breaking any of the rules can lead to undefined behaviour.", "quantifier": "all programs of implementations (lists of uses, operations on objects, calls of messages and of next implementations, exceptions), of any depth, all reachable states of all objects, all messages and receivers, all failures", "why_tests_cant": "It is about all programs that keep to the rules, with calls of any depth; use of freed mixins often goes unnoticed in tests.", "anchors": ["doc/advanced/danger.md: Mutating an object within a message", "code/dynamix/msg/msg_caller.hpp: call_unicast, call_multicast", "code/dynamix/msg/next_impl.hpp: call_next_impl_msg, call_next_bidder_set, call_next_bidder_top", "code/dynamix/object_of.hpp: object_of"]}
{"id": "C72", "title": "The answers of a domain depend only on what is registered", "statement": "If two histories of calls leave the same features, mixins, type classes and mutation rules registered in the same domains, then every further sequence of calls gives the same answers after both: the same successes and the same errors, and types with the same compositions. Ids, existing types, stored queries and the order of the earlier calls do not matter. In particular, asking for types and collecting garbage never changes a later answer.", "quantifier": "all pairs of histories of any length on any number of domains, all continuations, all declarations and settings", "why_tests_cant": "It compares all pairs of histories that lead to the same registrations, under all continuations; the internal states differ in ids, types and stored queries.", "anchors": ["code/dynamix/domain.cpp: register_feature, register_mixin, unregister_mixin, register_type_class, add_mutation_rule, get_type, garbage_collect_types", "code/dynamix/domain.hpp: domain"]}
{"id": "C73", "title": "Domains do not affect each other", "statement": "If every mixin and every feature is registered in one domain only, then the calls on a domain, in any history of calls on many domains, have the effects and answers that they have when there are no calls on other domains: the same elements and rules are registered, the same calls succeed and fail, and the same compositions are returned. (Only the kind of error for a mixin of another domain may differ: foreign or unregistered.)", "quantifier": "all interleavings of calls on any number of domains, all declarations and settings", "why_tests_cant": "It compares every interleaving of calls on several domains with the run of each domain alone.", "anchors": ["code/dynamix/domain.cpp: domain::impl, element_registry, type_registry, register_mixin, get_type", "code/dynamix/domain.hpp: domain"]}
{"id": "C74", "title": "Overlapping calls have the answers of calls made one after the other", "statement": "When many threads call registration functions and get_type of domains at the same time, there is an order of these calls, in which a call that was over before another one began comes first, such that every call has the outcome (success, error, composition of the type) that it has when the calls are made one after the other in this order; and what is registered afterwards is what this order leads to (linearizability).", "quantifier": "all numbers of threads, all calls, all schedules of the locked sections of the calls, all declarations, settings and earlier histories", "why_tests_cant": "It asks for an order for every interleaving of every set of calls; a test sees a few interleavings, and cannot even choose them.", "anchors": ["code/dynamix/domain.cpp: domain::impl::get_type, create_type, unregister_mixin, m_types_mutex, register_mixin, add_mutation_rule"]}
{"id": "C75", "title": "Searching in string views", "statement": "dnmx_sv_starts_with holds exactly if the characters of the view begin with the given ones; dnmx_sv_find_first and dnmx_sv_find_last give the first and the last place of a character inside the view, and null exactly if the character does not occur in it.", "quantifier": "every string view into any memory, every prefix and character", "why_tests_cant": "All views, lengths and contents, including empty and null views.", "anchors": ["code/dnmx/bits/sv.h: dnmx_sv_starts_with, dnmx_sv_find_first, dnmx_sv_find_last"]}
{"id": "C76", "title": "Initializers given by name or by info go to the mixin they name", "statement": "mutate_to(obj, type, construct(name, f), construct(info, g), ...) gives each new mixin of the type the initializer that is given for it, by the info of the mixin or by its name in the domain of the object; the other new mixins are made by default, mixins that the object has already keep their values, and if anything throws the object stays as it is. Initializers for mixins that are not new or not in the type have no effect. The same holds for the overrides of dnmx_mutate_to.", "quantifier": "For all declarations, all reachable states of a domain with objects, all objects, all types of the domain with at least one mixin and all lists of initializers.", "why_tests_cant": "Tests name mixins that exist in the only domain there is; an unknown name dereferences a null pointer and an info of another domain silently hits another mixin, which depends on which ids the domains gave out.", "anchors": ["code/dynamix/mutate_to_ops.hpp: construct_mixin_op_with_func, construct_mixin_op_with_func_by_name::to_obj_mutate", "code/dynamix/mutate_to.hpp: mutate_to", "code/dynamix/mutate-c.cpp: dnmx_mutate_to"]}
{"id": "C77", "title": "Objects of different users do not influence each other", "statement": "When several parts of a program (libraries, modules) each use their own objects, with calls in any order, each call has the same outcome for the caller - the same exception, the same calls of mixin functions and allocators in the same order - and each object ends up the same (type, seal, allocator, mixins, values, back pointers) as if the other parts did not exist.", "quantifier": "all numbers of parts, all programs of all operations on objects including mutations with user functions, copies and moves, all interleavings, all failures of user functions and allocators, all types", "why_tests_cant": "It compares each of infinitely many interleavings with separate runs; a test executes one of them and sees neither stray writes to other objects nor a dependence on their number.", "anchors": ["code/dynamix/object.cpp: object", "code/dynamix/object_mutation.cpp: object_mutation", "code/dynamix/object_mutation.hpp: perform_object_mutation", "code/dynamix/mutate_to.hpp: mutate_to"]}
{"id": "C78", "title": "Threads can use their own objects at the same time without locks", "statement": "When several threads each use their own objects (of shared types and domains), with the single memory accesses of their operations mixed in any way, there is no undefined behaviour and no data race, no thread waits for another, each call has the same outcome and each object ends up the same as if the thread ran alone, and the object counts of types are the sums over the threads. An operation on a shared object is atomic if no other thread does steps during it (a lock is held); without that, sharing is undefined behaviour.", "quantifier": "all numbers of threads, all programs of all operations on objects, all schedules of single steps, all failures of user functions and allocators, all types", "why_tests_cant": "A test executes a few of exponentially many schedules and cannot show that none has a data race; the test file for it in the repository contains only a comment.", "anchors": ["code/dynamix/object.cpp: object", "code/dynamix/object_mutation.cpp: object_mutation", "code/dynamix/object_mutation.hpp: perform_object_mutation", "code/dynamix/type.cpp: type::allocate_object_buffer, type::deallocate_object_buffer", "code/dynamix/type.hpp: type::m_num_objects", "test/t-object-mt.cpp"]}
{"id": "C79", "title": "A type is stored in one block of memory without overlap", "statement": "When a type is created, all writes of its parts (feature table with payloads, mixins, offsets, index table) are inside of the one block that is allocated for it, aligned, and do not overwrite each other; afterwards all reads through the type (ftable_at, index_of, mixins, mixin_offsets, sizes) are defined and give what was computed; and the size that is kept for freeing the block is its size.", "quantifier": "all domains, all declarations of mixins and features, all ids, all lists of mixins", "why_tests_cant": "Tests create a few types; overlap and overflow of the computed sizes depend on the number of entries, payloads, mixins and on ids.", "anchors": ["code/dynamix/domain.cpp: domain::impl::create_type, ftable_build_helper", "code/dnmx/basic_type.h: dnmx_basic_type, dnmx_ftable_entry, dnmx_ftable_payload", "code/dynamix/type.hpp: type"]}
{"id": "C80", "title": "Arguments reach the implementations of a message", "statement": "Each implementation that a message call calls (also through the wrapper of a method) gets the values that the arguments for by-value parameters had at the start of the call, no matter what other implementations do with theirs, and the caller's own variables for reference parameters; the caller's variables which were given by value as lvalues, by const reference or not at all keep their values, those moved into by-value parameters are moved from; numbers of copies and moves are fixed.", "quantifier": "all types, all features, all lists of parameters (T, T&, const T&, T&&), all arguments (lvalues and rvalues), all methods that accept the parameters, all implementations (which may change their parameters, the state, and throw)", "why_tests_cant": "Tests check a few signatures with a counter of copies; that no implementation of a multicast sees a moved-from or changed value depends on the number of implementations, the signature, value categories and aliasing.", "anchors": ["code/dynamix/msg/msg_caller.hpp: msg_caller::call, call_unicast, call_multicast, try_default_payload", "code/dynamix/msg/func_traits.hpp: make_payload_for", "code/dynamix/msg/define_msg.hpp: DYNAMIX_DEFINE_MSG_EX", "code/dynamix/msg/msg_traits.hpp: basic_msg_traits"]}
{"id": "C81", "title": "Exceptions name their cause", "statement": "When an operation on a domain ends with an exception, its text names the domain and the true cause: the element that cannot be registered or unregistered and why, the rule in force which failed, the mixins at which rules go on changing the type, the mixin of the composition which is unregistered, of another domain (named) or there twice, or the feature and the two mixins of the composition which clash on it; and making the text is not undefined.", "quantifier": "all declarations of mixins, features, rules and type classes, all histories, all operations, all names of domains, all behaviours of failing rules", "why_tests_cant": "Tests compare the texts of a few exceptions in small states; that the mixin or rule named is the cause depends on the order of checks, rule passes, sorting and payload indices in all compositions.", "anchors": ["code/dynamix/throw_exception.cpp: e, id_registered, duplicate_name, info_has_domain, unreg_foreign, foreign_mutation, foreign_mixin, mutation_rule_user_error, cyclic_rule_deps, type_mut_error, feature_clash, unknown_type_class", "code/dynamix/domain.cpp: impl::basic_register_l, impl::apply_mutation_rules_l, impl::create_type, ftable_build_helper", "code/dynamix/type_mutation.cpp: to_back, add, add_if_lacking", "code/dynamix/type.cpp: type::is_of"]}
{"id": "C82", "title": "Functions of mixins and allocators may use other objects", "statement": "Functions of mixins and allocators that are called in the middle of operations on objects may themselves do operations on objects of other parts of the program, whose functions do so again, to any depth. There is no undefined behaviour, every call ends and has the same outcome as when its part of the program runs alone, and a call that was interrupted finds its objects, complete or in the middle of a change, as they were. Operations on the object that is being worked on are undefined behaviour.", "quantifier": "all numbers of parts, all programs of all operations on objects, all places of interruption, all depths, all failures of user functions and allocators, all types", "why_tests_cant": "It is about all ways to put operations into the middle of other operations; each test has one place and one depth, and undefined behaviour may go unnoticed.", "anchors": ["code/dynamix/object_mutation.cpp: object_mutation, allocate_mixin_data, finalize, rollback", "code/dynamix/object.cpp: object", "code/dnmx/mixin_info.h: dnmx_mixin_init_func, dnmx_mixin_destroy_func", "code/dynamix/mixin_allocator.hpp: mixin_allocator"]}
{"id": "C83", "title": "The default memory resource gives blocks that are big enough", "statement": "A block from the library's own default memory resource has at least the asked size and alignment, whatever they are, so that objects whose layout is sound fit into their buffers. A failed allocation is an exception, never null. The allocator that the containers of the library use asks for enough bytes for the number of elements it is asked for. (False for rounded sizes of 4 GiB and more, which are truncated, and for alignments of 4 GiB and more, which divide by zero.)", "quantifier": "all sizes, all alignments, all platforms, all types", "why_tests_cant": "Sizes near and above 4 GiB are not tested as they need such memory, and each test has one size and one alignment.", "anchors": ["code/dynamix/compat/pmr/memory_resource.cpp: default_resource::do_allocate", "code/dynamix/alloc_util.hpp: next_multiple", "code/dynamix/type.cpp: allocate_object_buffer", "code/dynamix/mixin_allocator-c.cpp: alloc_mixin_buf", "code/dynamix/compat/pmr/allocator.hpp: allocator::allocate"]}
{"id": "C84", "title": "Exceptions of operations on objects and of messages say what is wrong", "statement": "When an operation on objects throws an exception of the library, its text names the operation, the domain and composition of the type concerned and, if a mixin is to blame, this mixin with what it lacks or the code its function returned; this is always the true reason and the first that arises in the order of the mixins. Each operation throws exactly if there is such a reason, and only one exception fits. Exceptions of user functions pass through unchanged. A message is reported as not implemented exactly if no mixin implements it and it has no default, and a missing next implementation or bidder exactly if none ranks or bids lower; nothing has been called then. (For mutate_to: with operations for different mixins.)", "quantifier": "all compositions, all heaps that programs can reach, all operations with all arguments, all failures of user functions and allocators", "why_tests_cant": "Tests compare few texts of few failing calls; that every failure of every operation is reported with its true first reason, and that nothing else is reported, is about all objects, types and failure points.", "anchors": ["code/dynamix/throw_exception.cpp: obj_mut_error, obj_mut_user_error, obj_mut_sealed_object, obj_error, generic_feature_error", "code/dynamix/object_mutation.cpp: object_mutation, default_init_new_func, throw_bad_piecewise_mutation", "code/dynamix/object.cpp: copy, copy_from, copy_matching_from, move_matching_from, operator=, clear, reset_type", "code/dynamix/msg/msg_caller.hpp: try_default_payload", "code/dynamix/msg/next_impl.hpp: call_next_impl_msg, call_next_bidder_set, call_next_bidder_top"]}
{"id": "C85", "title": "Debug output tells the truth", "statement": "The text that dbg_dmp writes about a domain agrees with what the library's functions say: the sections appear exactly for the given flags; from the features and mixins sections the id of every registered feature and mixin can be recovered by counting lines and empty slots, and the numbers in the titles are right; there is one block for each type with its composition, sizes, traits and object count; the entries for features are exactly the implemented ones with the right numbers of top bidders and implementations, best first; matching type classes are those for which is_of is true and matching queries those which get_type answers with the type; rules are listed in the order of application with their reference counts. The text is always defined for an existing domain.", "quantifier": "all histories of calls on domains, all flags, all declarations, all domains", "why_tests_cant": "No unit test looks at the text, a fuzz test only writes it; that the text never says something wrong is about all states of a domain.", "anchors": ["code/dynamix/dbg_dmp.cpp: dbg_dmp, dbg_dmp_l, output_mixins", "code/dynamix/dbg_dmp.hpp: dnmx_dbg_dmp_flags", "code/dynamix/domain.cpp: domain_traverse"]}
{"id": "C86", "title": "A domain survives running out of memory", "statement": "Whichever allocations fail in whichever calls on domains, and however the caller goes on after std::bad_alloc: no memory of a type leaks or is given back twice, and the destructor of a domain gives back everything; a call that fails leaves nothing behind except registered features of the mixin (register_mixin) or the type that was asked for (get_type); made again with enough memory it has the outcome and the effect that it would have had at once; later calls answer as if the failed calls had never been made.", "quantifier": "all histories of calls on domains, all sets of failing allocations in each call, all declarations, all further calls", "why_tests_cant": "Tests cannot make every allocation of every call fail in every state; that nothing is lost and nothing can be told afterwards is about all of them.", "anchors": ["code/dynamix/domain.cpp: basic_register_l, register_mixin, add_mutation_rule, get_type, create_type, unregister_mixin, garbage_collect_types, type deleter"]}
{"id": "C87", "title": "Definitions of mixins own their memory", "statement": "Whatever functions of the builder are called on definitions of mixins, in whichever order, with whichever allocations failing and whoever frees their own strings and shared pointers (but not a string that still names a definition): nothing undefined happens; all views and pointers in a mixin info lead to exactly what the successful calls put there; all memory in use has an owner, and all is given back when the definitions are destroyed; pointers to rules that domains keep stay valid as long as the definition; so do the pointers to features in types, as long as no feature is added to the definition.", "quantifier": "all programs of calls of the builder on any number of definitions, with strings and shared pointers of the user, all choices of which container reallocates or fails in each call", "why_tests_cant": "Dangling views depend on which call reallocates which container; tests see a few capacities and no failing allocation.", "anchors": ["code/dynamix/mixin_info_data.hpp: mixin_info_data, mixin_info_data_builder (name, store_name, uses_allocator, implements_with_payload, adds_mutation_rule, on_mutation)", "code/dynamix/any.hpp", "code/dynamix/domain.cpp: create_type (data = &feature)"]}
{"id": "C88", "title": "Objects and types of different domains can be used side by side", "statement": "Objects of several domains live in one program. Operations that combine objects and types of one domain, moves of whole objects between places, and complete copies are as safe as in a program with one domain. Resetting or mutating an object to a type of another domain, and copying to an object of another domain, gives a healthy object exactly if no mixin of the one type has the id of a different mixin of the other type.", "quantifier": "all worlds of domains, all programs of operations on objects with types of any of the domains, all failures of user functions and allocations", "why_tests_cant": "Tests of the library use types of one domain per object; whether a combination goes wrong depends on ids that registration order gives.", "anchors": ["code/dynamix/object.cpp: copy_from, copy_matching_from, move_matching_from, reset_type", "code/dynamix/object_mutation.cpp: allocate_mixin_data, deallocate_mixin_data, destroy_new_mixins, finalize", "code/dynamix/object_mutation.hpp: update_next_mixin", "code/dynamix/mutate_to.hpp", "doc/basics/glossary.md: Domain"]}
{"id": "C89", "title": "Objects and next-bidder calls of the version-1 interface behave as those of version 2", "statement": "copy of a version-1 object gives the same objects, values, calls of user functions and exceptions as copy of version 2, if the mixins can be copied. If one cannot, the first such mixin is reported before anything is done. An object that is copyable can be copied. call_next_bidder works exactly if has_next_bidder says so, and calls the implementations with the next lower bid: all of them for multicasts, the best one for unicasts.", "quantifier": "all heaps of objects, all types and mixins with or without copy functions, all failures of user functions and allocations, all feature tables, bids and priorities", "why_tests_cant": "The old interface is implemented by other functions than the new one (copy_from instead of copy); that they agree in every failure is a statement about all pairs of executions.", "anchors": ["v1compat/code/dynamix/v1compat/object.cpp: object, copyable, copy", "v1compat/code/dynamix/v1compat/next_bidder.hpp: has_next_bidder, call_next_bidder", "code/dynamix/object.cpp: copy, copy_from", "code/dynamix/msg/next_impl.hpp"]}
{"id": "C90", "title": "Messages may use the domain if what may change their object comes last", "statement": "Implementations of messages may do whatever the program can do: ask for types, collect garbage, mutate by compositions, register and unregister elements, make and mutate objects, call messages and next implementations, throw and catch. If in each implementation what may change its own object comes last (external mixins may go on after mutations that keep them), if in multicasts all implementations but the one called last leave the objects alone, and if messages destroy no objects and unregister no mixin of a living object, then no call has undefined behaviour, all objects and domains stay consistent, no object is lost, and messages that change no object leave all mixins at their addresses and all types of objects where they are.", "quantifier": "all implementations of messages that decide from the whole state what to do next, all programs that call them, all depths of calls, all failures of user functions and allocations, all places where exceptions are caught", "why_tests_cant": "The documentation gives rules for mutations within messages; that they suffice when types are created and destroyed while calls are in progress is a statement about all implementations and all interleavings of calls, garbage collections and mutations.", "anchors": ["code/dynamix/msg/msg_caller.hpp: msg_caller, call_unicast, call_multicast", "code/dynamix/msg/next_impl.hpp: call_next_impl_msg, call_next_bidder_set, call_next_bidder_top", "code/dynamix/domain.cpp: garbage_collect_types, get_type, unregister_mixin_l", "code/dynamix/mutate.hpp", "doc/advanced/danger.md: Mutating an object within a message"]}
{"id": "C91", "title": "Rules may have state: types stay in order, queries are answered as at first", "statement": "Mutation rules may depend on anything and change anything of the user's (counters, configuration, user_data), also between calls. For a query that is not stored, the rules are called in whole passes in their order, at most min(5, number of rules) + 1 times, each getting what the one before left, the first the query without dependency mixins; a type is given only if the last whole pass changed nothing, or the first gave the query itself, and its composition is what is left. The types of a domain always have different compositions of registered mixins. A query that was answered gets the same type, without any rule called, until rules are added or removed, mixins unregistered or garbage collected. A failing get_type changes no domain. If the answers do not depend on the state, everything is as without one.", "quantifier": "all rules with all kinds of state, all programs of calls of domains with changes of the state in between, all queries", "why_tests_cant": "What stateful rules do is unbounded: a test has some rule and some state. That types stay distinct and queries stay answered is an invariant of all histories.", "anchors": ["code/dynamix/domain.cpp: apply_mutation_rules_l, get_type", "code/dnmx/mutation_rule_info.h: user_data, apply_mutation_rule_func"]}
{"id": "C92", "title": "A type_mutation that was used for get_type can be used again", "statement": "After get_type(type_mutation&) gave a type, asking again with the same type_mutation gives the same type; after it failed, the type_mutation is what it was.", "quantifier": "all domains in all histories, all mutations, all rules as declared", "why_tests_cant": "get_type works in place on the mutation of the caller: whether a second question means the same depends on all rules and on what is stored.", "anchors": ["code/dynamix/domain.cpp: get_type(type_mutation&), apply_mutation_rules_l", "code/dynamix/domain.hpp: get_type", "code/dynamix/type_mutation.hpp"]}
{"id": "C93", "title": "Results do not depend on what the C++ standard leaves open", "statement": "dynamix sorts with std::sort, which leaves the order of equivalent elements open and requires a strict weak order, and keeps mutation rules in a map with binary search. With every std::sort that does what the standard says, the same calls have the same outcomes: types have the same compositions, tables in which the same mixins are called in the same order for each message, the same queries fail with the same errors, and initializers given to mutate are used in the same order. Adding and removing rules by binary search gives the same rules in force as a search from the start.", "quantifier": "all implementations of std::sort that conform to the standard, all declarations of mixins, features and rules, all histories of calls, all queries", "why_tests_cant": "A test runs with one standard library; what another implementation (or another version) may do with equivalent elements or with a comparator that is no order cannot be tried.", "anchors": ["code/dynamix/domain.cpp: sort_by_canonical_order, ftable_build_helper (std::sort), add_mutation_rule, remove_mutation_rule (flat_map)", "code/dynamix/mutate_to.hpp: mutate_to (std::sort)"]}
{"id": "C94", "title": "Objects of plain mixins are values of bytes", "statement": "For mixins with the byte functions of dynamix (C mixins with DNMX_COMMON_INIT_MI, C++ mixins of trivial types): copy_matching_from gives each mixin that both objects have the source's bytes and changes no other byte of memory, or fails with the missing function before anything was written; move_matching_from, with or without the fallback to move_init, gives the target the source's bytes, zeroes the source's, and changes no other byte; moving there and back restores the source. Two objects are equal exactly if they have one type, its mixins can be compared and their bytes are the same; objects of one type compare as their bytes, mixin after mixin, lexicographically; a copy of an object of the same type is equal to it.", "quantifier": "all types, all sizes of mixins, all places of the mixins of two objects that do not overlap, all memory contents, all choices of functions that are missing", "why_tests_cant": "That no other byte changes speaks about all of memory, and equality about all contents; tests look at the values of a few mixins.", "anchors": ["code/dynamix/object.cpp: copy_matching_from, move_matching_from, equals, compare", "code/dnmx/mixin_common_funcs.c", "code/dnmx/mixin_info_util.h: DNMX_COMMON_INIT_MI", "code/dynamix/mixin_info_util.hpp: common_init_mixin_info"]}
{"id": "C95", "title": "Definitions of features own their memory", "statement": "Whatever functions of the builder of feature_info_data are called, in whichever order, with whichever allocations failing and whoever frees their own strings and shared pointers (but not a string that still names a definition): nothing undefined happens; the name in a feature info leads to the characters, and the default payload is the address, of the last call that succeeded; what owns the default payload exists as long as the definition has it; a call that throws changes nothing that can be seen of any definition; store_name may be given the stored name itself; all memory in use has an owner, and all is given back when the definitions are destroyed.", "quantifier": "all programs of calls of the builder on any number of definitions, with strings and shared pointers of the user, all choices of which allocation is needed or fails in each call", "why_tests_cant": "Dangling views depend on whether an assignment reallocates and on who drops the last shared pointer; the test of the builder has one definition, short names and no failing allocation.", "anchors": ["code/dynamix/feature_info_data.hpp: feature_info_data, feature_info_data_builder (name, store_name, default_payload, default_payload_by, default_payload_with)", "code/dynamix/common_feature_info.hpp: common_feature_info", "code/dynamix/any.hpp: make_any, fwd_any"]}
{"id": "C96", "title": "Domains keep only memory of their own allocator", "statement": "A type_mutation may be made with any allocator. If each mutation is made with a memory resource that exists, and a resource is destroyed only when it is not the default one and no domain and no mutation has it, then: nothing undefined happens in get_type (no vectors of different resources are swapped, no block is given back to a resource that it is not from, no destroyed resource is used); everything a domain stores for a query is in memory of the domain's allocator; the blocks in use are those of the stored queries and of the existing mutations, each once; a resource that no domain and no mutation has any more has no block in use; all memory is given back in the end; if there is memory, the answers of the domains and the mixins of the mutations do not depend on allocators. If an allocation fails, get_type throws std::bad_alloc, nothing leaks, the same queries are stored, and the call may be made again with the result that it would have had. A copy of a mutation uses the default resource, a moved one keeps its resource.", "quantifier": "all programs that make, edit, copy, move and destroy mutations, call get_type for them or for lists of mixins and make any other calls on domains, all rules, all allocators of mutations and domains, all choices of how much more than needed the standard library allocates, all choices of which allocations fail", "why_tests_cant": "Memory of a foreign resource is noticed only when the resource is destroyed before the domain; the tests of the library use one allocator for everything, and which vector has which allocator depends on the path through the rules (none, changed in the first pass, changed later, failed).", "anchors": ["code/dynamix/type_mutation.hpp: type_mutation", "code/dynamix/type_mutation.cpp: type_mutation::type_mutation", "code/dynamix/domain.cpp: domain::impl::get_type, apply_mutation_rules_l, create_type, type_queries, m_allocator", "code/dynamix/compat/pmr/allocator.hpp: allocator", "code/dynamix/compat/pmr/memory_resource.hpp: memory_resource"]}
