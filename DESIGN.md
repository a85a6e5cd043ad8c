# Formal model of dynamix: design

This directory contains a Lean 4 model of the dynamix library (`/repo`, C++) and
machine-checked proofs of the properties listed in `properties.jsonl`.

## Layout

* `lean/Verif/Model/*`  - the model, function by function, each definition citing file and lines
* `lean/Verif/Spec/*`   - small specifications which do not use the model's helper functions
* `lean/Verif/Proofs/*` - helper lemmas
* `lean/Verif/Props/*`  - the property theorems, each with a concrete case that meets its hypotheses
* `MANIFEST.json`       - property -> theorem names and status
* `seeded/LOG.jsonl`    - experiments: a bug seeded in a scratch copy of the model, what failed

## Modelling conventions

* Infos (`mixin_info`, `feature_info`, rules, type classes, types) are identified by their address (`Nat`).
  Their immutable attributes come from a declaration function that is universally quantified in the theorems;
  mutable parts (`id`, `dom`, `num_objects`) are in the state.
* C++ exceptions are an error outcome (`Except`), and the state in which an exception leaves the domain/object
  is returned too, so that "changes nothing" is a statement and not a convention.
* Undefined behaviour (use of dead mixins, release of unknown memory, double destruction, null dereference)
  is a distinct outcome (`ub`) in the object model. No theorem assumes its absence; they prove it.
* User functions (initializers, copy, move, compare, rules, allocators) are arbitrary: parameters or oracles which
  may fail. Assumptions about them (e.g. "a rule is a pure function") are hypotheses of the theorems.
* Unbounded integers are used except where stated; the object layout is also analysed modulo 2^32.

## Plan per property

| Property | Model | Proof |
|---|---|---|
| C01-C04 | element registry: id slots, ids stored in the infos, several domains | invariant by induction over histories |
| C05, C06 | the same, with outcome and state after an exception; domain state with types and queries | case analysis; C06 is false for mixins (types are purged before the check): negation + partial |
| C07, C51 | type class slots, the dangling local of `register_type_class` modelled as written | invariant; C07 is false after an unregister: negation + partial |
| C08, C09 | list functions of `type_mutation` | induction on lists against declarative specifications |
| C10-C13 | `apply_mutation_rules_l` with arbitrary rules `List -> Except List` | induction over passes; closure via a least set; C12 negation for 6 rules; C13 false: negation + partial |
| C14 | rule map with reference counts | invariant over histories vs. a net-count specification |
| C15-C20 | domain: types, query cache, rules, registry, object counts | invariant over histories |
| C21, C22, C23 | string views into a memory; canonical order; sort | order laws; aliasing: negation + partial |
| C24, C25 | offsets computed in `create_type`, `set_size_and_alignment` | invariant of the layout loop |
| C26 | sparse index table | loop invariant |
| C27, C28 | multi-pass ftable builder | refinement to a sorted list per feature; adjacent-to-all-pairs for clashes |
| C29-C32 | call functions as lists of calls made and a result | refinement to maxima over the type's implementations |
| C33-C46 | objects, heap, `object_mutation` as a program over an explicit machine with failure oracles | Hoare-style lemmas per function, then invariant over histories |
| C47 | flag "exception in flight" as a parameter of the destructors | false: negation + partial |
| C48-C50 | threads as sequences of atomic lock sections | invariant over interleavings; C49, C50 false: negation + partial |
| C52, C53 | traits and name lookup | case analysis/induction on mixin lists |
| C56-C61 | the above together: reachable programs over domains and objects, name lookup, version-1 ids | invariants over programs |
| C62 | `implements` of types and mutations against "a mixin of the type provides it" | facts about built tables |
| C63 | C functions as wrappers with catch clauses over the modelled C++ functions | simulation of C programs by C++ programs; false for three functions: negation + partial |
| C64 | lock operations of each call, any number of threads, reader or writer preference | lock order invariant, measure of remaining actions; false for dbg_dmp: negation + partial |
| C65 | loops of `domain_traverse` | from the invariants of the registries |
| C67 | `mixin_common_funcs.c` on a byte memory | induction over sizes; lexicographic order |
| C68 | destruction and construction of domains | simulation: calls commute with injective changes of addresses; invariants of infos left behind |
| C69 | static definitions of libraries | the constructors and destructors are histories; induction over the definitions |
| C70 | calls of constructors and destructors | the calls with the heap at the time, from the functions of the object model; a view of the old objects as invariant of each loop; each call in the log is one of them |
| C71 | mutation within messages | implementations as lists of actions, run with fuel on the object model; rules as a predicate on programs; induction on the fuel with two invariants (any / quiet actions) |
| C72 | answers depend on registrations only | bisimulation between states with the same registered elements and rules; closed form of the answer of get_type; induction on the continuation |
| C73 | independence of domains | relation between the full run and the run of the calls on one domain; induction on the history; closed form of the answers of get_type (C72) |
| C74 | linearizability | forward simulation: linearization points at the locked sections (lookup, build, removal); relation between the concurrent state and the sequential state that ignores types and stored queries; answers by C72 |
| C75 | searching in string views | induction on the length |
| C76 | initializers by name or info | the names resolved in a reachable state give a proper list of initializers, then C44; overrides of the C function are equal to resolved ones |
| C77 | objects of different users are independent | simulation: the heap of each program alone is a part of the whole heap, up to addresses and object numbers; every function preserves the parts and leaves the others alone; induction over interleavings |
| C78 | threads with their own objects | operations as sequences of single memory accesses (proved equal to the operations of `Model/Object`); step-by-step simulation of each thread alone by the thread among others; invariant over all schedules; disjointness of what next steps access |
| C79 | memory of a type | byte-level model of the block; simulation of the abstract construction by the writes, with frame conditions; a larger block for the exact limit |
| C80 | arguments of messages | store of variables with copies and moves; simulation of calls on values; counts by induction over the called implementations |
| C81 | exceptions name their cause | texts as pieces; the walk to each throw agrees with the operations; reasons by induction over rules, composition and payloads |
| C82 | calls within calls | a stack of parts with calls in progress over the steps of C78; simulation of each part alone; measure of steps left |
| C83 | blocks of the default memory resource | exact condition in 32-bit arithmetic; composition with the exact layout of C24 |
| C84 | exceptions of objects and messages name their true reason, and are thrown exactly then | induction over the loops of mutations with counts of the calls so far; uniqueness of the first failure |
| C85 | debug output tells the truth | a reader of the text that knows only its words; induction over the slots, table entries and blocks |
| C86 | domains that run out of memory | allocations that may fail in the model of domains; blocks of types as invariant; the failed call classified; simulation by the history without failed calls |
| C87 | memory of mixin definitions | cells of memory with owners; every cell has exactly one owner and every shared object as many pointers as its count, by induction over programs; refinement of the builder without memory (C66) |
| C88 | objects of several domains | environment with the types of all domains and lookups by id; each operation equals that with lookups by identity if there is no clash of ids; invariant "the clashing mixin is never made" for the converse |
| C89 | version-1 objects | simulation between mutations of an object without type and of one of the empty type, through all steps of the mutation and both ends; dispatch via C31 |
| C90 | messages that use domains | implementations decide from the whole system state, run with fuel on `Model.System`; rules as a predicate on what they decide in reachable states; the invariant of C59 extended by what a message keeps (addresses of mixins, types of objects), induction on the fuel |
| C91 | rules with state | rules as functions of a state and the list that give an error or not, a new list and a new state; traces of the calls; invariants of domains over all programs; equality with the stateless model for rules whose answers do not depend on the state |
| C92 | mutations after get_type | on `Model.RuleState`, where the mutation of the caller is part of the result; exact condition by determinism of resolution (C16) |
| C93 | what the standard leaves open | `std::sort` as any function with the postcondition of the standard under its precondition, binary search as the loop of `std::lower_bound`; sorted permutations with respect to a strict total order are unique; loop invariant of the search; induction over histories |
| C94 | objects of plain mixins | the loops of `object.cpp` on bytes; induction over the mixins left, each step changing two ranges that are apart from those of the others; lexicographic order of concatenations |
| C95 | memory of feature definitions | simulation: a feature definition uses memory like a mixin definition of C87 whose allocator is the default payload; temporaries and parameters are strings and shared pointers of the user for the time of the call; invariant by induction over programs |
| C96 | memory resources of queries and mutations | separation: each step gives back what it does not pass on (permutations of owned blocks), by induction over the rule loop and over programs; refinement of the calls of Domain |
| C66 | `mixin_info_data_builder` | induction over the calls; injectivity of generated names; fixpoints of monotone rules |
| C54, C55 | v1 rules as list functions; `register_in` | list laws |

## What is modelled

Every definition in `lean/Verif/Model` cites the file and the lines it follows.

| Model file | Source | Contents |
|---|---|---|
| Sv | dnmx/bits/sv.h, splice of `dnmx_sv_cmp` | views into a memory, comparison as written |
| Decl | dnmx/mixin_info.h, feature_info.h, mutation_rule_info.h | immutable attributes of infos, errors |
| TypeMutation | type_mutation.cpp/.hpp | all list operations, by info and by name, dedup |
| Sort | domain.cpp 54-58 | canonical order, sort |
| TypeBuild | domain.cpp 549-836 | checks, layout (also in 32-bit arithmetic), sparse index, ftable builder with passes |
| Domain | domain.cpp 112-546, 838-861; type.cpp lookups | element registry, rule map with counts, rule application, type registry, query cache, garbage collection, type classes |
| Dispatch | msg/msg_caller.hpp, msg/next_impl.hpp, v1compat combinators, next_bidder | unicast, multicast, next implementation, combinators; implementations are arbitrary state transformers which may throw |
| Object | object.cpp, object_mutation.cpp/.hpp, mutate_to.hpp, object_mutate_ops.hpp, mutate-c.cpp 22-68 | heap with blocks, slots, live mixins and counters; mutation sessions with constructor, steps, destructor, finalize, rollback; copy, move, reset, matching, seal; failure oracles for allocators and user functions |
| System | mutate.hpp, mutate_ops.hpp, mutate-c.cpp 70-122 | programs that use domains and objects together |
| Compare | type.cpp 89-114, object.cpp 189-293 | comparison, equality, has, get |
| RulesV1, RegistryV1 | v1compat common_mutation_rules.hpp, mutation_rules.cpp | rules of version 1 and their registry |
| MixinData | mixin_info_data.cpp | mixin definitions with rules |
| CApi | domain-c.cpp, object-c.cpp, type_mutation-c.cpp, type-c.cpp 54-61, mutate-c.cpp | the C interface: handles of type mutations, result codes, which exceptions are caught |
| Concurrent | domain.cpp, as Domain | the same calls cut into the parts between lock operations, any number of threads, any schedule |
| Locks | locks taken in domain.cpp 245-547, 838-908, 988-1003; dbg_dmp.cpp 116-214 | which lock each call takes and releases, in order; the type registry and the element registry of a domain have one shared mutex each |
| Traverse | domain.cpp 864-908, 988-1003 | domain_traverse, counters |
| Bytes | mixin_common_funcs.c | functions for mixins that are plain bytes |
| Allocators | compat/pmr/allocator.hpp 19-61, type_mutation.cpp 20-30, domain.cpp 438-547, 526, 834 | vectors with the allocator semantics of the C++ standard; any allocation of a list may fail, and that for a new type and for the node of a stored query (in `finishA`; several allocations of the code are one there, `DomainMemory` has them one by one); memory of nodes, types and registries not tracked; other calls have memory; edits of a mutation are assignments of its list |
| FeatureDefs | feature_info_data.hpp 13-76, common_feature_info.hpp 26-27 | memory as in DefMemory; which assignment allocates is left open; the objects that payloads are have no content |
| NextQueries | msg/next_impl.hpp 13-17, 33-37 (`has_next_impl_msg`, `has_next_bidder_set`) | nothing left out |
| PlainObjects | object.cpp 125-188, 256-293 once more, on bytes | two different objects at known places; `type::compare` is a parameter; the byte functions do not fail |
| Standard | domain.cpp 54-58, 405-431, 489-815 and mutate_to.hpp 33-45 once more, with any conforming `std::sort` and with the binary search of `flat_map` | `flat_map` is not in the repository; its search is that of `std::lower_bound` |
| RuleState | domain.cpp 433-547 with rules that have state and work in place on the mutation of the caller | `user_data` and globals are one state; rules do not call the domain |
| Living | msg_caller.hpp 16-80, next_impl.hpp 20-72, on top of System | the type whose payloads are called must exist when the next one is read; fuel; calls outside of unwinding; objects of one domain |
| ObjectV1 | v1compat object.cpp 10-31, next_bidder.hpp 8-22 | the object that `copy` returns is not moved |
| ObjectDomains | object.cpp, object_mutation.cpp, object_mutation.hpp, mutate_to.hpp: the same functions as Object, with `has(id)`/`index_of(id)` for types of any domain | the domains do not change while the objects are used |
| DefMemory | mixin_info_data.hpp 25-54, 84-131, 178-228; any.hpp 20-42; domain.cpp 619-646 (addresses only) | strings, vectors and shared objects are whole cells; growth and failure of every container are choices of the environment; `user_data` and the functions of the mixin are left out |
| DomainMemory | domain.cpp 100-110, 194-285, 287-360, 405-418, 459-547, 553-575, 689-861, 916-918 | the operations of Domain with every allocation, each of which may fail; blocks of types. Nodes and elements of standard containers are not tracked; an insertion that fails has no effect |
| Dump | dbg_dmp.cpp, dbg_dmp.hpp | text as lines of tokens; compositions, addresses and function pointers are one token each, fields that are not modelled are opaque |
| ObjMessages | throw_exception.cpp 194-216 and its calls in object.cpp, object_mutation.cpp, msg/ | texts of exceptions of objects and messages. That of `object::compare` and those of mutate-c.cpp, which the C functions catch, are left out. |
| MemoryResource | compat/pmr/memory_resource.cpp, compat/pmr/allocator.hpp 37-39, alloc_util.hpp, mixin_allocator-c.cpp | what the default resource asks the C library for. The C library is not modelled. |
| Spec/Nested | as ObjectSteps | one thread, calls interrupted by calls of other parts. Calls can be interrupted before any step, in reality only within functions of mixins and allocators. |
| `Messages` | throw_exception.cpp 17-192 (not 194-216) and the throws in domain.cpp 198-700, type_mutation.cpp, type.cpp 85 | which exception each operation on domains throws, with its text as pieces and characters; names of destroyed domains are undefined. For exceptions of objects and of messages (194-216) see `ObjMessages`; no failure of memory while the text is made. |
| `MsgArgs` | msg_caller.hpp 16-80, msg_traits.hpp 25-44, func_traits.hpp 18-21, define_msg.hpp 20-24 | variables with values or moved from, initialization of parameters from lvalues and rvalues, `std::forward`, the wrappers of methods, unicast and multicast calls with arguments. Parameters are initialized from left to right, all types can be copied and moved, only implementations throw. |
| `TypeBuffer` | domain.cpp 549-686, 702-815, basic_type.h 18-75, type.hpp 30-180 | the block of a type byte by byte (64-bit platform): sizes in 32 bits, writes of all parts, reads through `type`. Every access outside of the block, misaligned or to bytes that are not exactly what was written as a value of that width is undefined. `std::sort` reads and writes a whole range. |
| `ObjectSteps` | object.cpp, object_mutation.cpp, object_mutation.hpp, mutate_to.hpp (lines cited in `Object`), type.cpp 136-145 | the operations of `Object` as programs of single accesses to memory, calls of the outside world and atomic counter updates. One access to an object, to one mixin data entry, to one mixin is one step; the real accesses are finer (single words), which makes no difference for steps on disjoint memory. Memory is sequentially consistent; by the absence of data races (`C78_no_races`) this is what C++ guarantees. Allocators are thread-safe. |
| NamedInit | mutate_to_ops.hpp, mutate_to.hpp, mutate-c.cpp | initializers of `mutate_to` by name and by info, overrides of `dnmx_mutate_to` by name |
| Spec/Linear | domain.cpp 489-547, 287-335 | events of threads and orders that explain them (C74), over the parts of calls of Concurrent |
| Acting | msg/msg_caller.hpp 16-80, msg/next_impl.hpp 20-72, type.cpp 54-81, object_of.hpp 13-16 | calls of messages whose implementations act on objects |
| Calls | object.cpp, object_mutation.cpp (see Object) | the calls of mixins' functions in each operation, with the memory at the time |
| Plugin | define_mixin.hpp 17-33, define_type_class.hpp 11-20 | static definitions of a shared library |
| Lifetime | domain.cpp 911-918 | destruction of a domain and construction of another one at the same address |
| Builder | mixin_info_data.hpp 58-233, common_mutation_rules.hpp 14-51, mixin_info_util.hpp 57-89, define_mixin.hpp (v1compat) 100-149 | the builder, common rules, functions by type traits, definitions of version 1 |

Simplifications that matter when reading the theorems:

* Infos are never destroyed and their immutable attributes never change.
* Rules, class predicates and the mixins' comparison functions are pure functions (of the registry view and the list, or of the values). Rules with state are in Model/RuleState.lean (C91, C92).
* Objects belong to one domain; they are used from one thread except in ObjectSteps (C78); domains are used from any number of threads (Concurrent).
* Integers are unbounded except in the layout theorems (C24, C25, C83) and for the memory of types (C79), which are about 32-bit arithmetic as well.
* User functions of mixins and allocators may fail at any call (an oracle decides); they do not call back into dynamix, except in C82 (other objects).

## Not modelled

Compilation-level matters (template machinery, type names from `typeid`, DLL boundaries), real allocator behaviour beyond
"fresh block or failure", weak memory effects below the level of mutexes, performance, fields that users may set and the library does not read (user data, classes, contexts).

## Trusted base

Lean's kernel; the axioms `propext`, `Classical.choice`, `Quot.sound` (nothing else; checked by `#print axioms`
and the gate); the faithfulness of the hand-written model to the C++ text, for which each definition cites its source.

## Findings: where the code does not do what its interface says

Each has a theorem with a concrete witness (`*_refuted`) in `lean/Verif/Props`, unless marked "(read)" - those are only from reading the text.

1. `register_type_class` after an `unregister_type_class`: the free slot is found through a copy, the write goes to a
   dangling local (C07).
2. `unregister_mixin` of a mixin of another domain purges the types and queries of this domain with the same numeric id
   before it throws; living objects then have a type that is gone (C06, C59).
3. With no rules a query that contains a dependency mixin fails with "cyclic rules" (C13).
4. `mutate(obj, remove<Last>())`, `mutate_to(obj, empty, ops...)` and `dnmx_mutate(_to)` to the empty type: the mutation
   is never complete; the object keeps its type or leaks (C35, C36, C45).
5. Destructors of `object_mutation` and `gradual_mutation` use `std::uncaught_exceptions()`: all mutations and copies that
   are made while an unrelated exception is in flight are silently undone (C47).
6. `mutate_to` with two initializers for one mixin applies the second to the next mixin or ignores it (C44).
7. `get_type` gives up the lock between search and store: a rule change in between leaves a stale query (C49), a garbage collection in between makes it return and store a
   dead type (C50), an `unregister_mixin` in between leaves a type with an unregistered mixin (C50).
8. A moved-from object of a sealed object stays sealed (C38).
9. An exception after a manual `finalize()` rolls back and destroys live mixins (C58).
10. `register_mixin` accepts features that are registered in another domain; calls then reach wrong implementations (C27, C29, C56).
11. `unregister_feature` of a feature that a registered mixin uses: creating a type is undefined behaviour (C28, C56).
12. `dnmx_sv_cmp` gives 0 for views with the same begin and different lengths, so that the canonical order and the order of rules
    are not orders (C14, C22, C23, C43).
13. `o.move_matching_from(o, true)` destroys a mixin and constructs it from itself (C42).
14. `register_in` leaves rules in the domain if `register_mixin` throws; `unregister_from` is `noexcept` and terminates for
    mixins of other domains (C55).
15. 32-bit overflow in the layout for memory of 4 GiB and more (C24, C25).
16. Stored queries are not dropped by `register_mixin`, although rules may look up mixins by name (C16).
17. Six chained dependency rules in adverse order throw "cyclic rules" (C12).
18. `mutate_to` the same type is a silent no-op for sealed objects, `reset_type` throws (C37, statement of the theorem).
19. Version-1 `substitute_mixin` with the target already present gives a duplicate error (C54); all version-1 rules have
    an empty name and priority 0, so that their order depends on addresses (C54_order_matters).
20. The first pass of the rule loop compares with the query including its dependency mixins, so that a list is returned that rules still change (C10, C11).
21. A mixin that lists a feature twice makes the walk through next implementations endless (C31).
22. `update_at` accepts the index one past the last mixin (C46).
23. `has`/`get` by mixin info compare only the numeric id, so that infos of other domains are "found" (C60).
24. `object::compare` returns the raw value of the mixin's function where the documentation promises -1, 0 or 1 (C43).
25. (read) `construct(name, func)` in `mutate_to` with an unknown name dereferences null; `add` by name with a function sets a member that does not exist and cannot be instantiated; version-1 `mean`
    used twice mixes sums with the last count; `code/dnmx/object.h` declares `dnmx_object_implements_strong` and its variant by name, which are defined nowhere.
26. Exceptions leave the `extern "C"` functions `dnmx_unregister_feature` and `dnmx_unregister_mixin` (element not registered in the domain) and
    `dnmx_object_reset_type` with a null type (sealed object) (C63). `dnmx_object_compare` leaves its result unset on errors (C63_compare).
27. `type::implements` by info looks up the numeric id only: for a feature of another domain the answer is that of the feature with the same id (C62).
28. `dbg_dmp` of a domain calls `num_mutation_rules`, `num_types` and `num_type_queries` while its `domain_traverse` already has the lock of the type
    registry: locking a `std::shared_mutex` which the thread already owns is undefined; where it blocks behind a waiting writer, both wait for ever (C64).
29. Rules of a definition without names of their own run in the order of generated names, not in the order of definition: "A rule 10" is before
    "A rule 2", and "A also_adds<1>" before "A attaches_to<0>" (C66).
30. A mixin B with `on_mutation(attaches_to<A>)` and `on_mutation(also_adds<C>)`: `get_type<A, B>()` gives the type of A and B without C, while
    `get_type<A>()` gives A, B, C (C66; the same cause as for C10).
31. The function for moving plain mixins is also their `move_asgn`: `o.move_matching_from(o)` calls `memcpy` with source = destination and then clears the
    value (C67).
32. The destructor of a domain does not reset the infos registered in it (domain.cpp 916-918). They can never be registered again, in any domain
    (`id_registered` or `info_has_domain`), and cannot be unregistered (`unreg_foreign`) (C68_left_registered).
33. If a mixin was registered in a destroyed domain and another domain is constructed at the same address, that domain takes the mixin for its own:
    `get_type` makes types with it although it is not registered, and its id is given to another mixin, so that there are types with two mixins of the same
    id, one of which cannot be found (C68_stale_refuted).
34. Features that a plugin's mixin brings are registered when it is loaded and never unregistered (define_mixin.hpp 27-32, mixin_info_data.cpp 16-21): the
    domain has pointers into the unloaded library, and names are compared with those of later features (C69_features_refuted).
35. If the program itself has unregistered a plugin's mixin, the rules of the mixin stay in force after the plugin is unloaded, as the destructor does
    nothing when `info.dom` is null; the next `get_type` calls into the unloaded library (C69_by_hand_refuted).
36. Loading a library with a type class again after unloading is undefined, because of the dangling pointer in `register_type_class` (C07) (C69_reload_refuted).
37. In a mutation, an external mixin of the object cannot be used from constructors and destructors if it is removed by the mutation and its turn was
    before: it is destroyed and freed, but the object still leads to it (object_mutation.cpp 198-247). danger.md says that accessing external mixins in a mutation should be
    safe (C70_external_refuted).
38. In `object::copy` and `object(type)` the object has no type while its mixins are made (object.cpp 24-29, 36-39, 67-85), so `get_type` is null and messages or `get`
    dereference it; danger.md says that when the object is copied touching the type may be safe and getting the mixins before the current one should be (C70_copy_refuted).
39. danger.md says that a mutation in a default implementation is safe. It is for that implementation, but not for a mixin of the same object that called the message and
    goes on (C71_calls_counted_needed): the rules must count what called messages do, which they do in `MayGoOn`.
40. `get_type` of a composition whose mixin has a feature that is not registered any more succeeds if the type exists and is undefined otherwise (C72_discipline_needed),
    so collecting garbage can turn a working call into an undefined one; same cause as C28.
41. The message of the exception for unregistering a foreign mixin names a feature (`unreg_foreign` in code/dynamix/throw_exception.cpp, read only).
42. Adding a mutation rule during a `get_type` of another thread can lead to a type which no order of the calls explains: the rules are applied
    under a first lock, and the mixins are checked later, when the type is created (C74_refuted, domain.cpp 489-531). The same holds for a rule that
    looks into the domain (C74_pure_rules_needed) and for features that are unregistered meanwhile (C74_discipline_needed).
43. Initializers by name (C76): `construct(name, f)` asks the domain of the object for the mixin (mutate_to_ops.hpp 21-24) and stores what it gets. For a name that the domain does not
    know this is a null pointer, which `mutate_to` dereferences (mutate_to.hpp 36): undefined behaviour, where `mutate` with an `add` by name throws `type_error` (`C76_unknown_name_refuted`, for all states).
    An info of a mixin of another domain is looked up by its id only: the initializer is called for another mixin, with memory of the wrong kind (`C76_foreign_mixin_refuted`).
    `dnmx_mutate_to` compares infos and names with the mixins of the type and has neither problem (`C76_c_overrides`).
44. Objects in threads (C78): the library takes no locks in operations on objects and needs none for objects that are not shared: the only shared data that they
    write are the object counts of types, which are atomic. `test/t-object-mt.cpp`, the test for this, consists of a comment. Two threads that call `clear` on the same
    object without a lock destroy its mixins twice (`C78_own_objects_needed`).
45. Memory of types (C79): the sizes of the parts of a type are added in 32 bits without a check. A type needs exactly 4 GiB or more
    if and only if something is written behind its block (`C79_memory_exact`); the index table alone gets there with a mixin id of `2 ^ 30 - 1`
    (`C79_huge_type_refuted`: a block of 108 bytes). Below that all parts are in place.
46. Arguments (C80): a multicast message can not have parameters by rvalue reference (`call(*i, obj, args...)` does not compile,
    `C80_multicast_compiles`). A variable which is moved into one parameter must not be given for another (`C80_once_needed`; this is so for all C++ functions).
47. A domain may be destroyed while mixins are registered in it, and the mixins keep the pointer to it (32). Every later attempt to register or unregister such a
    mixin in another domain, or to make a type with it, makes the text of an exception from the name of the destroyed domain (throw_exception.cpp 126, 136, 160):
    undefined behaviour instead of `domain_error` (C81_destroyed, C81_destroyed_refuted).
48. `default_resource::do_allocate` passes 64-bit sizes to the 32-bit `next_multiple`: a request of 4 GiB asks `aligned_alloc` for
    0 bytes, also when only the rounding up exceeds 4 GiB, and an alignment of 4 GiB divides by zero (C83). Only where the
    library uses its own memory resource (`!DYNAMIX_HAS_PMR`).
49. Texts of exceptions have typing errors that users who look for them will meet: "deafult init" (object_mutation.cpp 263) and
    "mtating" (272). Exceptions of a mutation's own default initialization say "mutate to" whichever operation was called,
    also `reset_type` and constructors (C84, C84_says_the_truth).
50. Debug output (C85): the flag `dnmx_tc_dmp_matching_types` has no effect, since the section about type classes is written by the
    public function, which has no `domain_traverse` (dbg_dmp.cpp 200, 294-296; `C85_matching_types_refuted`). The quote before the name of a type class is never
    closed (105). Empty slots behind the last element are not mentioned. `std::boolalpha` stays set on the user's stream, while the text about a type alone does not set it.
    `dbg_dmp(std::ostream&, const object&)` is declared (dbg_dmp.hpp 61) and nowhere defined. The text about a registered mixin whose domain is destroyed
    is undefined (`C85_mixin_alone`).
51. Memory (C86): `register_mixin` does not have the strong guarantee: if it fails (also for want of memory), the features that were registered so far stay
    registered (`C86_features_left`). `get_type` may leave the new type without its query; it is found by the next call. Nothing is lost in either case, and calling
    again does exactly what the first call would have done (`C86_again`).
52. Definitions (C87): a feature table points into the vector of features of the definition (domain.cpp 636). `implements…` on the definition of a mixin that is
    already in a type leaves dangling pointers if the vector grows (`C87_types_stay_refuted`); next bidders (type.cpp 73-79) and the dump read them. Nothing forbids
    the call: the builder stays usable after registration.
53. Definitions (C87): `on_mutation` with `attach_to…` sets `dependency` before it allocates; if it throws, the mixin is a dependency without a rule (`C87_failed_refuted`).
54. Domains (C88): mutations and copies compare mixins by numeric id only (object_mutation.cpp 119, 150, 180, 215; object.cpp 101, 131, 142, 159), and nothing checks that the types are of the same
    domain. Ids start at 0 in each domain, so `reset_type`/`mutate_to` to a type of another domain takes old mixins for new ones: no error, but the object has a mixin of the
    wrong class, and its destructor destroys one that is not there (`C88_any_domains_refuted`); copies call the copy function of one class on another (`C88_copies_refuted`). The glossary says
    "It is not possible to create types or objects using mixins from different domains"; for objects it is (`C88_one_domain_refuted`). `C88_mutation_exactly` has the exact condition.
55. Objects of version 1 (C89): `copy` is built on `copy_from` (object.cpp 22-26 of v1compat), which checks all mixins before it starts; `copy` of version 2 checks each mixin when it
    comes to it, so mixins before the first one without copy constructor are copied and destroyed again (`C89_missing_function`, `C89_copy_functions_needed`). During unwinding (see C16) version 1 returns
    an object of the empty type, version 2 one without type (`C89_copy_during_unwinding`). `copyable` also asks for copy assignment, which `copy` never uses (`C89_copyable_refuted`).
56. Messages and garbage collection (C90): the rule of doc/advanced/danger.md for mutations in multicasts has a second reason besides addresses of mixins: `call_multicast` walks through the table of the type
    that the object had at the call (msg_caller.hpp 70-77). If an implementation mutates its object, even in a way that moves no data that is used later, and somebody collects garbage before the walk is over, the
    table is gone (`C90_multicast_needed`; the same program without the garbage collection is fine). Garbage collection alone is harmless within messages, since the type of the object has an object.
57. `get_type(type_mutation&)` and the mutation of the caller (C92): the rules work in place on it. (a) With a composition that contains dependency mixins, asking again with the same mutation may give another type:
    dependency mixins are removed first, and the rules that brought them may not apply any more (`C92_again_refuted`; the exact condition is `C92_again_exactly`). (b) When a rule fails, what the rules before it did
    stays in the mutation; asking again after the rules were removed gives a type nobody asked for (`C92_failed_refuted`). (c) If the query is stored, the mutation keeps the query, if not, it becomes the
    composition: what is in it afterwards depends on the history of the domain (`C92_stored_refuted`).
58. What `std::sort` and the binary search of `flat_map` do (C93): (a) if a mixin lists a feature twice with equal bid and priority (and clashes are allowed), the standard leaves open which of the two is called
    (`C93_doubles_refuted`). (b) The same for two initializers for one mixin in one `mutate` (`C93_initializers_refuted`). (c) For names that alias (C22, C23) the precondition of `std::sort` is violated in
    `sort_by_canonical_order`: undefined behaviour (`C93_names_refuted`). (d) For rules with such names the binary search misses rules that are there: a rule added twice is in force twice and applied twice in
    each pass (`C93_rule_twice_refuted`), and a rule that was added once and removed stays in force (`C93_rule_stays_refuted`). The linear search of `Model.Domain` hides this; for rules with other names both are
    the same (`C93_rules_partial`).
59. `move_matching_from` with the object itself as source (C94): nothing checks for it (unlike `equals` and `compare`, object.cpp 257, 279), and for mixins with the common move function each mixin is zeroed
    (`C94_self_move_refuted`); `copy_matching_from` of an object from itself calls `memcpy` with overlapping ranges, which the C standard leaves undefined.
60. **A copy of a type_mutation does not use its allocator** (C96): `select_on_container_copy_construction` (compat/pmr/allocator.hpp 44) gives the default resource, so a copy allocates from there
    although the original was given another allocator. Moves keep the allocator.
61. `allocator<T>::allocate(n)` of the library multiplies `n * sizeof(T)` without a check (C83, compat/pmr/allocator.hpp 37-39): for 2^61 pointers it asks for 0 bytes instead of throwing
    (`C83_elements_refuted`). The containers of the standard library do not ask for that many (`C83_containers_partial`), and callers of `allocate` must not either (`C83_elements_exactly`).
62. A type_mutation for which `get_type` threw `std::bad_alloc` may have been changed by the rules (C96): mixins that rules added stay, dependency mixins stay removed (`C96_mutation_changed`). The domain
    is unharmed, and answers the mutation with its former mixins as if nothing had happened (`C96_try_again_mutation`).

## Status

See `MANIFEST.json`. "partial" means: at least one part of the property is false of the code (there is a `_refuted` theorem) or
is proved under a hypothesis that the property's text does not have; the remaining theorems give the largest part for which a proof exists.
`seeded/LOG.jsonl` lists the edits of the model that were tried; `failed` are the declarations that no longer check, `claims_without_proof` the
property theorems that depend on them.

Theorems whose names end in `_exactly` close the gap between the `_partial` theorem and the `_refuted` witness of a property: they are equivalences or
closed forms, so that what the code does outside the hypothesis is stated as well (C06, C07, C10 - C14, C16, C21, C22, C27 - C32, C35, C36, C38, C42 - C47, C49, C50, C54 - C56, C58 - C60, C62, C64, C66, C68 - C70, C76, C79, C83, C87 - C89, C92 - C94).
The condition of `C56_exactly` (`NeverParts`: no call registers a mixin with a feature of another domain, none unregisters a feature that a mixin of the domain
has) is weaker than `FeatureDiscipline`; theorems whose names end in `_unparted` are those about features in domains with this condition.
