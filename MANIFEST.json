{
 "claims": [
  {
   "property": "C01",
   "status": "proved",
   "theorems": [
    "Dnmx.Props.C01_mixin_by_id",
    "Dnmx.Props.C01_mixin_id_valid",
    "Dnmx.Props.C01_mixin_ids_distinct",
    "Dnmx.Props.C01_feature_by_id",
    "Dnmx.Props.C01_feature_id_valid",
    "Dnmx.Props.C01_feature_ids_distinct",
    "Dnmx.Props.C01_feature_registered"
   ],
   "note": "All histories over all domains; mixin registration defined by the call outcomes alone."
  },
  {
   "property": "C02",
   "status": "proved",
   "theorems": [
    "Dnmx.Props.C02_mixin_id_stable",
    "Dnmx.Props.C02_feature_id_stable"
   ],
   "note": "All histories and continuations."
  },
  {
   "property": "C03",
   "status": "proved",
   "theorems": [
    "Dnmx.Props.C03_mixin_least_id",
    "Dnmx.Props.C03_feature_least_id",
    "Dnmx.Props.C03_ids_dense"
   ],
   "note": "Least free id, and table length bounded by the peak number of registered elements."
  },
  {
   "property": "C04",
   "status": "proved",
   "theorems": [
    "Dnmx.Props.C04_mixin_names_unique",
    "Dnmx.Props.C04_feature_names_unique",
    "Dnmx.Props.C04_mixin_by_name",
    "Dnmx.Props.C04_mixin_by_name_exact",
    "Dnmx.Props.C04_feature_by_name",
    "Dnmx.Props.C04_register_feature_iff",
    "Dnmx.Props.C04_register_mixin_iff"
   ],
   "note": "Uniqueness, exact lookup, and exact success conditions of registrations."
  },
  {
   "property": "C05",
   "status": "proved",
   "theorems": [
    "Dnmx.Props.C05_failed_feature",
    "Dnmx.Props.C05_failed_mixin"
   ],
   "note": "All error causes."
  },
  {
   "property": "C06",
   "status": "partial",
   "theorems": [
    "Dnmx.Props.C06_unregister_foreign_feature",
    "Dnmx.Props.C06_unregister_foreign_mixin_refuted",
    "Dnmx.Props.C06_unregister_foreign_mixin_partial",
    "Dnmx.Props.C06_unregister_foreign_exactly",
    "Dnmx.Props.C06_unregister_foreign_mixin_outcome_partial"
   ],
   "note": "Features proved. Mixins refuted: types of this domain with a mixin of the same numeric id are purged before the ownership test; proved that everything else is unchanged. What unregistering a mixin that is not registered here removes is given exactly (C06_unregister_foreign_exactly): the types with a mixin of the same id, nothing else."
  },
  {
   "property": "C07",
   "status": "partial",
   "theorems": [
    "Dnmx.Props.C07_class_by_name",
    "Dnmx.Props.C07_register_class_refuted",
    "Dnmx.Props.C07_register_class_partial",
    "Dnmx.Props.C07_duplicate_class",
    "Dnmx.Props.C07_register_class_exactly"
   ],
   "note": "Lookup proved; registration proved for domains from which no class was unregistered; refuted otherwise (write through a dangling pointer to a loop variable). Exact condition proved (C07_register_class_exactly): undefined behaviour iff a registered class was unregistered from the domain before, otherwise success."
  },
  {
   "property": "C08",
   "status": "proved",
   "theorems": [
    "Dnmx.Props.C08_has",
    "Dnmx.Props.C08_add",
    "Dnmx.Props.C08_add_if_lacking",
    "Dnmx.Props.C08_remove",
    "Dnmx.Props.C08_to_back",
    "Dnmx.Props.C08_remove_by_name",
    "Dnmx.Props.C08_to_back_by_name",
    "Dnmx.Props.C08_add_by_name"
   ],
   "note": "All lists and mixins; by-name forms included."
  },
  {
   "property": "C09",
   "status": "proved",
   "theorems": [
    "Dnmx.Props.C09_dedup_keeps_last",
    "Dnmx.Props.C09_dedup_nodup",
    "Dnmx.Props.C09_dedup_of_nodup"
   ],
   "note": "All lists."
  },
  {
   "property": "C10",
   "status": "partial",
   "theorems": [
    "Dnmx.Props.C10_number_of_passes",
    "Dnmx.Props.C10_remembered_query",
    "Dnmx.Props.C10_fixpoint_partial",
    "Dnmx.Props.C10_fixpoint_no_deps_partial",
    "Dnmx.Props.C10_fixpoint_refuted",
    "Dnmx.Props.C10_result_exactly",
    "Dnmx.Props.C10_stable_exactly"
   ],
   "note": "Termination, number of passes proved in full. Fixpoint holds when the query has no dependency mixins or at least one pass was compared with the stripped list; refuted in general: the first comparison is with the query including dependency mixins, so a non-fixpoint can be returned. The result of every query is given in closed form (C10_result_exactly) and the queries with a stable result are characterised by an iff (C10_stable_exactly)."
  },
  {
   "property": "C11",
   "status": "partial",
   "theorems": [
    "Dnmx.Props.C11_dependencies_only_by_rules_partial",
    "Dnmx.Props.C11_dependencies_refuted",
    "Dnmx.Props.C11_dependencies_exactly"
   ],
   "note": "Holds for queries that do not trigger the first-pass comparison; refuted in general by a concrete rule and query. The queries for which the result has exactly the needed dependencies are characterised by an iff (C11_dependencies_exactly)."
  },
  {
   "property": "C12",
   "status": "partial",
   "theorems": [
    "Dnmx.Props.C12_rules_in_order",
    "Dnmx.Props.C12_within_five_passes_partial",
    "Dnmx.Props.C12_dependency_closure_partial",
    "Dnmx.Props.C12_up_to_five_rules_partial",
    "Dnmx.Props.C12_six_dependents_refuted",
    "Dnmx.Props.C12_closure_exactly",
    "Dnmx.Props.C12_otherwise_exactly"
   ],
   "note": "Proved for any number of rules none of which adds what an earlier one looks for (every query), for up to five rules in any order and, more generally, if min(5,n) passes reach everything (queries without dependency mixins). Six chained rules in adverse order throw (refuted); a query with dependency mixins can be returned as it is (C10_fixpoint_refuted). The queries for which the result is the closure are characterised by an iff, and so are those that throw (C12_closure_exactly, C12_otherwise_exactly)."
  },
  {
   "property": "C13",
   "status": "partial",
   "theorems": [
    "Dnmx.Props.C13_no_rules_partial",
    "Dnmx.Props.C13_no_rules_refuted",
    "Dnmx.Props.C13_no_rules_exactly"
   ],
   "note": "Proved for queries without dependency mixins; with no rules a query with a dependency mixin throws 'cyclic' (refuted). What a domain without rules answers is given for every query (C13_no_rules_exactly)."
  },
  {
   "property": "C14",
   "status": "partial",
   "theorems": [
    "Dnmx.Props.C14_exactly",
    "Dnmx.Props.C14_cycle_matters",
    "Dnmx.Props.C14_rules_in_force_partial",
    "Dnmx.Props.C14_order_of_calls_irrelevant_partial",
    "Dnmx.Props.C14_outcomes",
    "Dnmx.Props.C14_rule_order_refuted"
   ],
   "note": "Proved for rules whose names do not alias with different lengths; refuted otherwise (cyclic order)."
  },
  {
   "property": "C15",
   "status": "proved",
   "theorems": [
    "Dnmx.Props.C15_compositions_differ",
    "Dnmx.Props.C15_types_listed_once",
    "Dnmx.Props.C15_same_composition_same_type",
    "Dnmx.Props.C15_types_immutable"
   ],
   "note": "Uniqueness of compositions, uniqueness of types across calls, and immutability of types, for all histories."
  },
  {
   "property": "C16",
   "status": "partial",
   "theorems": [
    "Dnmx.Props.C16_composition_seen",
    "Dnmx.Props.C16_exactly",
    "Dnmx.Props.C16_composition_by_rules_partial",
    "Dnmx.Props.C16_cache_transparent_partial",
    "Dnmx.Props.C16_errors",
    "Dnmx.Props.C16_cache_refuted"
   ],
   "note": "Partial: for rules that do not read the registry. For rules that look up mixins by name the stored queries go stale when a mixin is registered; refuted with a concrete history. For all rules: the composition is what the rules in force give on the query with the domain as it was at some time of its history (C16_composition_seen)."
  },
  {
   "property": "C17",
   "status": "proved",
   "theorems": [
    "Dnmx.Props.C17_returned_type_well_formed",
    "Dnmx.Props.C17_types_well_formed",
    "Dnmx.Props.C17_composition_errors"
   ],
   "note": "For the result of get_type and for all types at all times; exact conditions for the composition errors."
  },
  {
   "property": "C18",
   "status": "proved",
   "theorems": [
    "Dnmx.Props.C18_collects_exactly",
    "Dnmx.Props.C18_queries_lead_to_types",
    "Dnmx.Props.C18_collect_all"
   ],
   "note": "Exact effect of garbage collection for every assignment of object counts."
  },
  {
   "property": "C19",
   "status": "proved",
   "theorems": [
    "Dnmx.Props.C19_unregistered_mixin_gone"
   ],
   "note": "Exact effect on types and stored queries."
  },
  {
   "property": "C20",
   "status": "proved",
   "theorems": [
    "Dnmx.Props.C20_failure_changes_nothing",
    "Dnmx.Props.C20_mutation_failure_changes_nothing",
    "Dnmx.Props.C20_success_only_adds"
   ],
   "note": "Both get_type functions; also: success only adds."
  },
  {
   "property": "C21",
   "status": "partial",
   "theorems": [
    "Dnmx.Props.C21_canonical_with_rules_partial",
    "Dnmx.Props.C21_priority_needed",
    "Dnmx.Props.C21_exactly",
    "Dnmx.Props.C21_composition_nocycle",
    "Dnmx.Props.C21_order_of_query_irrelevant_partial",
    "Dnmx.Props.C21_canonical_composition_partial"
   ],
   "note": "Partial: valid names that do not alias with different lengths (see C22/C23). With other rules in the domain: every type is in canonical order as long as no other rule has the greatest order priority (C21_priority_needed). C21_exactly: whatever the names, the order of the query does not matter exactly if no three mixins are in a cycle of the canonical order."
  },
  {
   "property": "C22",
   "status": "partial",
   "theorems": [
    "Dnmx.Props.C22_order_exactly",
    "Dnmx.Props.C22_canonical_order_strict_total_partial",
    "Dnmx.Props.C22_order_priority_decides",
    "Dnmx.Props.C22_name_decides_partial",
    "Dnmx.Props.C22_canonical_order_refuted"
   ],
   "note": "C22_order_exactly gives the relation in closed form for all mixins with proper names, names beginning at the same address included."
  },
  {
   "property": "C23",
   "status": "partial",
   "theorems": [
    "Dnmx.Props.C23_sv_cmp_lexicographic_partial",
    "Dnmx.Props.C23_sv_cmp_correct_iff",
    "Dnmx.Props.C23_sv_eq_content_partial",
    "Dnmx.Props.C23_sv_eq_refuted"
   ],
   "note": "Exact characterisation of when the comparison is right (C23_sv_cmp_correct_iff); counterexample otherwise."
  },
  {
   "property": "C24",
   "status": "partial",
   "theorems": [
    "Dnmx.Props.C24_object_layout_sound_partial",
    "Dnmx.Props.C24_layout_sound_exactly",
    "Dnmx.Props.C24_layout_size",
    "Dnmx.Props.C24_enough_memory",
    "Dnmx.Props.C24_layout_overflow_refuted"
   ],
   "note": "For exact memory need below 4 GiB, which C24_layout_sound_exactly proves to be the exact condition; above, 32-bit overflow makes mixins overlap (refuted)."
  },
  {
   "property": "C25",
   "status": "partial",
   "theorems": [
    "Dnmx.Props.C25_external_layout_sound_partial",
    "Dnmx.Props.C25_external_fits_exactly",
    "Dnmx.Props.C25_external_layout_overflow_refuted",
    "Dnmx.Props.C25_default_layout"
   ],
   "note": "For size plus alignment below 4 GiB, which is exact (C25_external_fits_exactly); overflow counterexample above."
  },
  {
   "property": "C26",
   "status": "proved",
   "theorems": [
    "Dnmx.Props.C26_index_of_exact",
    "Dnmx.Props.C26_has_exact",
    "Dnmx.Props.C26_index_of_in_domain",
    "Dnmx.Props.C26_has_in_domain"
   ],
   "note": "For the index table built from the mixins' ids."
  },
  {
   "property": "C27",
   "status": "partial",
   "theorems": [
    "Dnmx.Props.C27_ftable_in_domain_partial",
    "Dnmx.Props.C27_foreign_feature_refuted",
    "Dnmx.Props.C27_ftable_contents",
    "Dnmx.Props.C27_top_bidders",
    "Dnmx.Props.C27_ftable_unparted",
    "Dnmx.Props.C27_made",
    "Dnmx.Props.C27_ftable_exactly",
    "Dnmx.Props.C27_right_exactly"
   ],
   "note": "C27_ftable_exactly: for all histories, what the table of any type contains in terms of the ids when it was made; C27_right_exactly: it is right for a feature iff this feature and no other one of the mixins had the id then. C27_ftable_contents, C27_top_bidders: any composition whose features have different ids. C27_ftable_in_domain_partial derives this for histories that use each feature in one domain and do not unregister features in use; C27_foreign_feature_refuted shows it false otherwise. FeatureDiscipline weakened to the exact condition of C56 (NeverParts) in the theorems named _unparted."
  },
  {
   "property": "C28",
   "status": "partial",
   "theorems": [
    "Dnmx.Props.C28_clash_in_domain_partial",
    "Dnmx.Props.C28_get_type_defined_partial",
    "Dnmx.Props.C28_unregistered_feature_refuted",
    "Dnmx.Props.C28_clash_iff",
    "Dnmx.Props.C28_clash_unparted",
    "Dnmx.Props.C28_get_type_unparted",
    "Dnmx.Props.C28_undefined_exactly",
    "Dnmx.Props.C28_clash_exactly",
    "Dnmx.Props.C28_get_type_exactly"
   ],
   "note": "C28_undefined_exactly, C28_clash_exactly, C28_get_type_exactly: all histories (undefined iff a feature without id; the clash condition is exact up to ties that std::sort leaves open). C28_clash_iff: any composition whose features have different ids. In-domain versions partial; C28_unregistered_feature_refuted: creating a type of a mixin whose feature was unregistered is undefined behaviour. FeatureDiscipline weakened to the exact condition of C56 (NeverParts) in the theorems named _unparted."
  },
  {
   "property": "C29",
   "status": "partial",
   "theorems": [
    "Dnmx.Props.C29_types_of_domain_partial",
    "Dnmx.Props.C29_unicast_calls_winner",
    "Dnmx.Props.C29_unicast_default",
    "Dnmx.Props.C29_winner_unique",
    "Dnmx.Props.C29_foreign_feature_refuted",
    "Dnmx.Props.C29_called_exactly",
    "Dnmx.Props.C29_types_of_domain_unparted"
   ],
   "note": "C29_called_exactly: what is called, for all types of all histories. Implementations are arbitrary state transformers that may throw. C29_unicast_calls_winner: every type whose table was built with different feature ids; C29_types_of_domain_partial derives this in disciplined histories; C29_foreign_feature_refuted shows a wrong function being called otherwise. FeatureDiscipline weakened to the exact condition of C56 (NeverParts) in the theorems named _unparted."
  },
  {
   "property": "C30",
   "status": "partial",
   "theorems": [
    "Dnmx.Props.C30_multicast_calls",
    "Dnmx.Props.C30_multicast_default",
    "Dnmx.Props.C30_in_domain_partial",
    "Dnmx.Props.C30_called_exactly",
    "Dnmx.Props.C30_in_domain_unparted"
   ],
   "note": "C30_called_exactly: what is called, for all types of all histories. Otherwise as C29; in-domain version with feature discipline. FeatureDiscipline weakened to the exact condition of C56 (NeverParts) in the theorems named _unparted."
  },
  {
   "property": "C31",
   "status": "partial",
   "theorems": [
    "Dnmx.Props.C31_types_of_domain",
    "Dnmx.Props.C31_next_implementer",
    "Dnmx.Props.C31_walk",
    "Dnmx.Props.C31_next_bidder_set",
    "Dnmx.Props.C31_call_next",
    "Dnmx.Props.C31_call_next_bidders",
    "Dnmx.Props.C31_in_domain_partial",
    "Dnmx.Props.C31_duplicate_feature_refuted",
    "Dnmx.Props.C31_has_next",
    "Dnmx.Props.C31_has_next_bidders",
    "Dnmx.Props.C31_in_domain_unparted",
    "Dnmx.Props.C31_next_exactly",
    "Dnmx.Props.C31_walk_ends_exactly"
   ],
   "note": "For features that no mixin of the type lists twice; otherwise the walk can be endless (C31_duplicate_feature_refuted). In-domain version with feature discipline. For every type, the next implementer is given exactly (C31_next_exactly) and the walk ends iff every mixin lists the feature at most once (C31_walk_ends_exactly). FeatureDiscipline weakened to the exact condition of C56 (NeverParts) in the theorems named _unparted."
  },
  {
   "property": "C32",
   "status": "partial",
   "theorems": [
    "Dnmx.Props.C32_called_exactly",
    "Dnmx.Props.C32_results_exactly",
    "Dnmx.Props.C32_boolean_and",
    "Dnmx.Props.C32_boolean_or",
    "Dnmx.Props.C32_sum",
    "Dnmx.Props.C32_mean",
    "Dnmx.Props.C32_pure_results",
    "Dnmx.Props.C32_default",
    "Dnmx.Props.C32_single_result",
    "Dnmx.Props.C32_in_domain_partial",
    "Dnmx.Props.C32_in_domain_unparted"
   ],
   "note": "Combinators of v1compat; results of sum and mean over unbounded integers, mean with truncating division. In-domain version with feature discipline. FeatureDiscipline weakened to the exact condition of C56 (NeverParts) in the theorems named _unparted."
  },
  {
   "property": "C33",
   "status": "proved",
   "theorems": [
    "Dnmx.Props.C33_failure_changes_nothing",
    "Dnmx.Props.C33_failed_updates"
   ],
   "note": "Every careful operation of a program (constructions, copies, resets, mutations of all kinds) that throws leaves types, mixins, values, memory, counts and the balance of lives as before; failures in update functions leave only the changes that those functions made."
  },
  {
   "property": "C34",
   "status": "proved",
   "theorems": [
    "Dnmx.Props.C34_new_object",
    "Dnmx.Props.C34_mutation",
    "Dnmx.Props.C34_same_type",
    "Dnmx.Props.C34_reset_type"
   ],
   "note": "Every completed mutation: common mixins keep address and value, new ones initialized once by the given function or default, removed ones destroyed once; C34_same_type, C34_reset_type for the other paths."
  },
  {
   "property": "C35",
   "status": "partial",
   "theorems": [
    "Dnmx.Props.C35_only_existing_functions",
    "Dnmx.Props.C35_programs_exactly",
    "Dnmx.Props.C35_nothing_remains_exactly",
    "Dnmx.Props.C35_next_on_empty_needed",
    "Dnmx.Props.C35_domains_have_proper_types",
    "Dnmx.Props.C35_programs_are_safe_partial",
    "Dnmx.Props.C35_balance",
    "Dnmx.Props.C35_one_holder",
    "Dnmx.Props.C35_memory_origin",
    "Dnmx.Props.C35_nothing_remains",
    "Dnmx.Props.C35_empty_type_refuted"
   ],
   "note": "All programs over all operations, all failure choices. C35_programs_exactly and C35_nothing_remains_exactly cover mutations to types without mixins as well: exactly one buffer is lost for each of these that succeeds, and nothing else (the refuted part). C35_next_on_empty_needed shows what must be left out. C35_domains_have_proper_types derives the type hypotheses from domain histories. Partial because the leak contradicts the property."
  },
  {
   "property": "C36",
   "status": "partial",
   "theorems": [
    "Dnmx.Props.C36_counts_exactly",
    "Dnmx.Props.C36_types_with_mixins",
    "Dnmx.Props.C36_counts_partial",
    "Dnmx.Props.C36_empty_type_refuted"
   ],
   "note": "All programs. C36_counts_exactly: the count is the number of holders plus the number of lost buffers, also with mutations to types without mixins; right for all types with mixins (C36_types_with_mixins); C36_empty_type_refuted is the counterexample otherwise."
  },
  {
   "property": "C37",
   "status": "proved",
   "theorems": [
    "Dnmx.Props.C37_sealed_refuses",
    "Dnmx.Props.C37_sealed_refuses_mutate_to",
    "Dnmx.Props.C37_sealed_stays"
   ],
   "note": "All operations that would change a sealed object throw with the heap unchanged; a sealed object's record stays as it is through every operation but its destruction and a move from it. mutate_to the same type is a no-op rather than an error."
  },
  {
   "property": "C38",
   "status": "partial",
   "theorems": [
    "Dnmx.Props.C38_source_exactly",
    "Dnmx.Props.C38_move_construct_partial",
    "Dnmx.Props.C38_move_assign_partial",
    "Dnmx.Props.C38_source_like_new_partial",
    "Dnmx.Props.C38_sealed_source_refuted"
   ],
   "note": "C38_source_exactly: the source is like a new object exactly if it was not sealed."
  },
  {
   "property": "C39",
   "status": "proved",
   "theorems": [
    "Dnmx.Props.C39_mixins_know_their_object"
   ],
   "note": "All reachable states of all programs."
  },
  {
   "property": "C40",
   "status": "proved",
   "theorems": [
    "Dnmx.Props.C40_copy",
    "Dnmx.Props.C40_failed_copy",
    "Dnmx.Props.C40_copy_is_defined",
    "Dnmx.Props.C40_independent"
   ],
   "note": "copy() outside stack unwinding (for copies during unwinding see C47)."
  },
  {
   "property": "C41",
   "status": "proved",
   "theorems": [
    "Dnmx.Props.C41_copy_from",
    "Dnmx.Props.C41_failed_copy_from",
    "Dnmx.Props.C41_missing_functions",
    "Dnmx.Props.C41_copy_from_is_defined"
   ],
   "note": "copy_from for all pairs of objects, including self; failure leaves types, mixins and addresses, with values assigned up to the failing mixin."
  },
  {
   "property": "C42",
   "status": "partial",
   "theorems": [
    "Dnmx.Props.C42_self_move_exactly",
    "Dnmx.Props.C42_copy_matching_partial",
    "Dnmx.Props.C42_failed_copy_matching_partial",
    "Dnmx.Props.C42_move_matching_partial",
    "Dnmx.Props.C42_missing_functions_partial",
    "Dnmx.Props.C42_self_move_refuted"
   ],
   "note": "C42_self_move_exactly says for which objects a move from the object itself is undefined."
  },
  {
   "property": "C43",
   "status": "partial",
   "theorems": [
    "Dnmx.Props.C43_equals_meaning",
    "Dnmx.Props.C43_equals_equivalence",
    "Dnmx.Props.C43_compare_meaning",
    "Dnmx.Props.C43_compare_agrees_with_equals",
    "Dnmx.Props.C43_compare_order_partial",
    "Dnmx.Props.C43_type_compare_order_partial",
    "Dnmx.Props.C43_order_of_types_refuted",
    "Dnmx.Props.C43_types_exactly"
   ],
   "note": "equals is proved to be an equivalence with the expected meaning and to agree with compare. That compare orders objects and types is proved for mixins whose names do not begin at the same address with different lengths; for such names the order of types is refuted (a cycle). compare returns the raw value of a mixin's function, though the documentation says -1 or 1."
  },
  {
   "property": "C44",
   "status": "partial",
   "theorems": [
    "Dnmx.Props.C44_initializers_exactly",
    "Dnmx.Props.C44_mutate_to_sorts",
    "Dnmx.Props.C44_initializers_partial",
    "Dnmx.Props.C44_overrides",
    "Dnmx.Props.C44_two_initializers_refuted"
   ],
   "note": "Proved for lists with at most one initializer per mixin, and for all overrides of the C functions. Refuted for two initializers for one mixin: the second one initializes the next mixin. For every list, with several initializers for one mixin and every order std::sort may leave equal ones in, the outcome is given exactly (C44_initializers_exactly)."
  },
  {
   "property": "C45",
   "status": "partial",
   "theorems": [
    "Dnmx.Props.C45_last_mixin_exactly",
    "Dnmx.Props.C45_mutate_partial",
    "Dnmx.Props.C45_gradual",
    "Dnmx.Props.C45_c_mutate_partial",
    "Dnmx.Props.C45_last_mixin_refuted"
   ],
   "note": "mutate, gradual mutations and dnmx_mutate as part of programs with domains and objects; removing the last mixin with mutate or dnmx_mutate leaves the object as it was (refuted); C45_last_mixin_exactly says what it does in all cases."
  },
  {
   "property": "C46",
   "status": "partial",
   "theorems": [
    "Dnmx.Props.C46_update_at_partial",
    "Dnmx.Props.C46_wrong_index_partial",
    "Dnmx.Props.C46_end_index_refuted",
    "Dnmx.Props.C46_update_at_exactly",
    "Dnmx.Props.C46_out_of_order_exactly"
   ],
   "note": "Proved for increasing indices in range, and that passed or too large indices throw and the mutation is undone. Refuted for the index that equals the number of mixins: no exception, the functions are ignored, out of range access for types without mixins. For every list of update_at calls the outcome is given exactly (C46_update_at_exactly, C46_out_of_order_exactly)."
  },
  {
   "property": "C47",
   "status": "partial",
   "theorems": [
    "Dnmx.Props.C47_mutation_exactly",
    "Dnmx.Props.C47_other_operations_partial",
    "Dnmx.Props.C47_mutation_undone_partial",
    "Dnmx.Props.C47_unwinding_refuted"
   ],
   "note": "C47_mutation_exactly: during unwinding a mutation is exactly the mutation with a rollback at the end."
  },
  {
   "property": "C48",
   "status": "proved",
   "theorems": [
    "Dnmx.Props.C48_uninterrupted",
    "Dnmx.Props.C48_calls_end",
    "Dnmx.Props.C48_same_outcome",
    "Dnmx.Props.C48_same_type",
    "Dnmx.Props.C48_same_query_same_type",
    "Dnmx.Props.C48_registry",
    "Dnmx.Props.C48_queries",
    "Dnmx.Props.C48_one_after_another",
    "Dnmx.Props.C48_final_state"
   ],
   "note": "For every number of threads, every list of get_type calls on every reachable world and every interleaving of their parts: outcome as if alone, same composition gives the same type, registry and stored queries correct at every moment, every call ends after four of its parts."
  },
  {
   "property": "C49",
   "status": "partial",
   "theorems": [
    "Dnmx.Props.C49_during",
    "Dnmx.Props.C49_errors",
    "Dnmx.Props.C49_composition_seen",
    "Dnmx.Props.C49_refuted",
    "Dnmx.Props.C49_composition_by_rules_partial",
    "Dnmx.Props.C49_queries_by_rules_partial",
    "Dnmx.Props.C49_exactly"
   ],
   "note": "Refuted: a rule added while a get_type is between its two locked sections leaves a stale query. Proved for all interleavings in which rule changes do not overlap with get_type calls of the same domain (other calls may). For all interleavings without exception: the answer has the composition which the rules gave at a moment at which the call looked, unless the query was stored then (C49_during), at all moments one composition that the rules gave at some moment (C49_composition_seen), and errors are those of the rules or of the creation at a moment of the call (C49_errors). C49_exactly: in all schedules in which types are not removed during get_type, with rule changes at any moment, stored queries are at all times what the rules in force give exactly if whenever a get_type stores its query the rules still give what they gave when it applied them."
  },
  {
   "property": "C50",
   "status": "partial",
   "theorems": [
    "Dnmx.Props.C50_existed",
    "Dnmx.Props.C50_registry_always",
    "Dnmx.Props.C50_unregister_exactly",
    "Dnmx.Props.C50_refuted",
    "Dnmx.Props.C50_type_exists_partial",
    "Dnmx.Props.C50_registry_partial",
    "Dnmx.Props.C50_unregister_refuted"
   ],
   "note": "Refuted: a garbage collection between the two locked sections of get_type removes the type it returns. Proved for all interleavings in which garbage collections and unregistrations do not overlap with get_type calls of the same domain (rule changes and registrations may). For all interleavings without exception: compositions and addresses of types are distinct and a type keeps its composition (C50_registry_always), a type not answered from a stored query existed at a moment of the call (C50_existed), and unregister_mixin has undefined behaviour exactly if a stored query leads to a type that is gone (C50_unregister_exactly)."
  },
  {
   "property": "C51",
   "status": "proved",
   "theorems": [
    "Dnmx.Props.C51_is_of"
   ],
   "note": "All histories, all types and names."
  },
  {
   "property": "C52",
   "status": "proved",
   "theorems": [
    "Dnmx.Props.C52_default_constructible",
    "Dnmx.Props.C52_copy_constructible",
    "Dnmx.Props.C52_copy_from",
    "Dnmx.Props.C52_comparable",
    "Dnmx.Props.C52_equality_comparable"
   ],
   "note": "Each trait is proved to predict the operation, in both directions, in every reachable state and for all failures of user functions and allocators."
  },
  {
   "property": "C53",
   "status": "proved",
   "theorems": [
    "Dnmx.Props.C53_first_with_name",
    "Dnmx.Props.C53_name_lookup_agrees"
   ],
   "note": "Name lookup in a type agrees with lookup by id, for all histories of a domain with unique names."
  },
  {
   "property": "C54",
   "status": "partial",
   "theorems": [
    "Dnmx.Props.C54_substitute_exactly",
    "Dnmx.Props.C54_exclusive",
    "Dnmx.Props.C54_deprecated",
    "Dnmx.Props.C54_mandatory",
    "Dnmx.Props.C54_dependent",
    "Dnmx.Props.C54_substitute_partial",
    "Dnmx.Props.C54_substitute_refuted",
    "Dnmx.Props.C54_promise",
    "Dnmx.Props.C54_idempotent",
    "Dnmx.Props.C54_promises_together",
    "Dnmx.Props.C54_order_matters"
   ],
   "note": "C54_substitute_exactly gives the result of substitute_mixin for all lists without duplicates and says when it has one."
  },
  {
   "property": "C55",
   "status": "partial",
   "theorems": [
    "Dnmx.Props.C55_registration_exactly",
    "Dnmx.Props.C55_register_outcome",
    "Dnmx.Props.C55_registered",
    "Dnmx.Props.C55_unregister_terminates",
    "Dnmx.Props.C55_round_trip_partial",
    "Dnmx.Props.C55_failure_partial",
    "Dnmx.Props.C55_failure_refuted"
   ],
   "note": "C55_registration_exactly gives the domain after register_in in all cases, failures included."
  },
  {
   "property": "C56",
   "status": "partial",
   "theorems": [
    "Dnmx.Props.C56_features_of_mixins_partial",
    "Dnmx.Props.C56_foreign_feature_refuted",
    "Dnmx.Props.C56_unregistered_feature_refuted",
    "Dnmx.Props.C56_exactly",
    "Dnmx.Props.C56_step_exactly"
   ],
   "note": "Proved for histories using each feature in one domain and not unregistering features in use; false otherwise, two witnesses. Exact for all histories: C56_exactly, C56_step_exactly."
  },
  {
   "property": "C57",
   "status": "proved",
   "theorems": [
    "Dnmx.Props.C57_other_objects",
    "Dnmx.Props.C57_programs"
   ],
   "note": "For all operations of the object model and for programs."
  },
  {
   "property": "C58",
   "status": "partial",
   "theorems": [
    "Dnmx.Props.C58_exception_after_finalize_exactly",
    "Dnmx.Props.C58_rollback",
    "Dnmx.Props.C58_finalize_partial",
    "Dnmx.Props.C58_exception_after_finalize_refuted"
   ],
   "note": "C58_exception_after_finalize_exactly: the case of the refutation occurs for every object, every non-empty target type and every mutation that would succeed."
  },
  {
   "property": "C59",
   "status": "partial",
   "theorems": [
    "Dnmx.Props.C59_programs_are_safe_partial",
    "Dnmx.Props.C59_domain_operations_keep_objects_partial",
    "Dnmx.Props.C59_garbage_collection",
    "Dnmx.Props.C59_foreign_mixin_refuted",
    "Dnmx.Props.C59_lost_type_is_undefined",
    "Dnmx.Props.C59_types_stay_exactly"
   ],
   "note": "programs with domains and objects; unregistering a mixin of another domain destroys types of living objects (refuted); C59_types_stay_exactly says which programs keep their types."
  },
  {
   "property": "C60",
   "status": "partial",
   "theorems": [
    "Dnmx.Props.C60_has_and_get_partial",
    "Dnmx.Props.C60_get_at",
    "Dnmx.Props.C60_foreign_mixin_refuted",
    "Dnmx.Props.C60_by_info_exactly"
   ],
   "note": "C60_by_info_exactly says what has and get give for all infos, those of other domains included."
  },
  {
   "property": "C61",
   "status": "proved",
   "theorems": [
    "Dnmx.Props.C61_remove_returns",
    "Dnmx.Props.C61_remove_unknown",
    "Dnmx.Props.C61_least_id",
    "Dnmx.Props.C61_in_force"
   ],
   "note": "All histories of calls on the registry and domains."
  },
  {
   "property": "C62",
   "status": "partial",
   "theorems": [
    "Dnmx.Props.C62_implements_strong",
    "Dnmx.Props.C62_implements",
    "Dnmx.Props.C62_mutation",
    "Dnmx.Props.C62_mutation_name",
    "Dnmx.Props.C62_not_implemented",
    "Dnmx.Props.C62_implemented",
    "Dnmx.Props.C62_types_of_domain_partial",
    "Dnmx.Props.C62_foreign_feature_refuted",
    "Dnmx.Props.C62_implements_exactly",
    "Dnmx.Props.C62_types_of_domain_unparted"
   ],
   "note": "C62_implements_exactly: all types of all histories, by id. Full for every type whose table was built with distinct feature ids; for types of a domain with the feature discipline of C56. Refuted without: a feature of another domain with the same id. FeatureDiscipline weakened to the exact condition of C56 (NeverParts) in the theorems named _unparted."
  },
  {
   "property": "C63",
   "status": "partial",
   "theorems": [
    "Dnmx.Props.C63_effect",
    "Dnmx.Props.C63_no_escape_partial",
    "Dnmx.Props.C63_escapes_iff",
    "Dnmx.Props.C63_failed_get_type",
    "Dnmx.Props.C63_get_type_consumes",
    "Dnmx.Props.C63_failed_registration",
    "Dnmx.Props.C63_mutation_functions",
    "Dnmx.Props.C63_is_of_name",
    "Dnmx.Props.C63_compare",
    "Dnmx.Props.C63_programs",
    "Dnmx.Props.C63_programs_are_safe_partial",
    "Dnmx.Props.C63_unregister_refuted",
    "Dnmx.Props.C63_reset_type_refuted"
   ],
   "note": "The full claim is false: exceptions leave dnmx_unregister_feature, dnmx_unregister_mixin (C63_unregister_refuted) and dnmx_object_reset_type with a null type (C63_reset_type_refuted); C63_escapes_iff says exactly when. For every other function of the interface the claim is proved. Not modelled: bad_alloc from new of the C wrappers themselves, the pure getters of domain, type and object."
  },
  {
   "property": "C64",
   "status": "partial",
   "theorems": [
    "Dnmx.Props.C64_no_deadlock",
    "Dnmx.Props.C64_all_calls_end",
    "Dnmx.Props.C64_no_recursive_lock",
    "Dnmx.Props.C64_exclusion",
    "Dnmx.Props.C64_traversal_is_undisturbed",
    "Dnmx.Props.C64_parts_take_the_locks",
    "Dnmx.Props.C64_parts_change_what_they_own",
    "Dnmx.Props.C64_dump_recursive_refuted",
    "Dnmx.Props.C64_dump_deadlock_refuted",
    "Dnmx.Props.C64_dump_partial",
    "Dnmx.Props.C64_recursive_exactly",
    "Dnmx.Props.C64_dumps_end"
   ],
   "note": "The locks taken by each call are modelled action by action (share, own, release, work); absence of deadlock, of recursive locking and exclusion are proved for every number of threads, calls and interleavings, with reader or writer preference, and the parts of the Concurrent model are shown to take the locks of what they change. Refuted for dbg_dmp of a domain, which locks a shared mutex recursively; C64_dump_partial: dumps with flags that do not count are safe."
  },
  {
   "property": "C65",
   "status": "proved",
   "theorems": [
    "Dnmx.Props.C65_rules_nocycle",
    "Dnmx.Props.C65_mixins",
    "Dnmx.Props.C65_features",
    "Dnmx.Props.C65_classes",
    "Dnmx.Props.C65_types",
    "Dnmx.Props.C65_queries",
    "Dnmx.Props.C65_rules"
   ],
   "note": "Proved for all histories. The part about mutation rules is partial as C14: rule names that alias have no total order. The order in which types and queries are visited is not modelled (set and map ordered by keys). Rules: C65_rules_nocycle needs only that no three rules are in a cycle (the exact condition of C14)."
  },
  {
   "property": "C66",
   "status": "partial",
   "theorems": [
    "Dnmx.Props.C66_contents",
    "Dnmx.Props.C66_rules",
    "Dnmx.Props.C66_generated_names",
    "Dnmx.Props.C66_names_in_definition",
    "Dnmx.Props.C66_order_by_names",
    "Dnmx.Props.C66_definition_order_partial",
    "Dnmx.Props.C66_definition_order_refuted",
    "Dnmx.Props.C66_in_force_partial",
    "Dnmx.Props.C66_asked_for",
    "Dnmx.Props.C66_dependents_partial",
    "Dnmx.Props.C66_dependents_refuted",
    "Dnmx.Props.C66_common_rules_keep",
    "Dnmx.Props.C66_functions",
    "Dnmx.Props.C66_void",
    "Dnmx.Props.C66_minus",
    "Dnmx.Props.C66_v1",
    "Dnmx.Props.C66_name_order_exactly",
    "Dnmx.Props.C66_definition_order_exactly",
    "Dnmx.Props.C66_same_digits",
    "Dnmx.Props.C66_dependents_exactly",
    "Dnmx.Props.C66_dependents_plain_partial"
   ],
   "note": "Contents, rules, generated names, functions by traits, version 1, and mixins asked for: proved for all inputs. Partial: order of definition only for rules of the same kind among the first ten (refuted otherwise; C66_definition_order_exactly says for all rules of one kind which ones keep it); rules in force under the name hypothesis of C14; dependents only for queries without dependency mixins (refuted otherwise). Dependents: a type lacks one exactly if it is what was asked for and the first pass gives it back, and then the other mixin is a dependency mixin (C66_dependents_exactly); so for other mixins none are missing (C66_dependents_plain_partial)."
  },
  {
   "property": "C67",
   "status": "proved",
   "theorems": [
    "Dnmx.Props.C67_init_destroy",
    "Dnmx.Props.C67_copy",
    "Dnmx.Props.C67_move",
    "Dnmx.Props.C67_compare",
    "Dnmx.Props.C67_copies_equal",
    "Dnmx.Props.C67_lawful",
    "Dnmx.Props.C67_self_move_clears"
   ],
   "note": "All sizes, addresses and memories. memcpy is only defined for ranges that do not overlap; C67_self_move_clears shows what happens to a mixin that is moved onto itself where the C library allows it."
  },
  {
   "property": "C68",
   "status": "partial",
   "theorems": [
    "Dnmx.Props.C68_new_domain",
    "Dnmx.Props.C68_apart_partial",
    "Dnmx.Props.C68_ids_partial",
    "Dnmx.Props.C68_types_partial",
    "Dnmx.Props.C68_stale_refuted",
    "Dnmx.Props.C68_orphans",
    "Dnmx.Props.C68_left_registered",
    "Dnmx.Props.C68_exactly"
   ],
   "note": "The comparison with a program that never destroys domains is a simulation over all calls, proved for programs that destroy no domain in which a mixin is still registered (features, rules and classes may be). Without this the full statement is false (C68_stale_refuted). C68_exactly: this condition is the weakest one, an equivalence."
  },
  {
   "property": "C69",
   "status": "partial",
   "theorems": [
    "Dnmx.Props.C69_unload",
    "Dnmx.Props.C69_rules_partial",
    "Dnmx.Props.C69_features_refuted",
    "Dnmx.Props.C69_by_hand_refuted",
    "Dnmx.Props.C69_reload_refuted",
    "Dnmx.Props.C69_unload_exactly"
   ],
   "note": "Mixins, types, stored queries and type classes: proved for all histories (C69_unload). Rules under the name hypothesis of C14. False for features, after unregistering by hand, and for loading again (refuted)."
  },
  {
   "property": "C70",
   "status": "partial",
   "theorems": [
    "Dnmx.Props.C70_view",
    "Dnmx.Props.C70_all_calls",
    "Dnmx.Props.C70_object",
    "Dnmx.Props.C70_constructors",
    "Dnmx.Props.C70_destruction",
    "Dnmx.Props.C70_external_partial",
    "Dnmx.Props.C70_old_mixins",
    "Dnmx.Props.C70_external_refuted",
    "Dnmx.Props.C70_new_objects_partial",
    "Dnmx.Props.C70_copy_refuted",
    "Dnmx.Props.C70_matching",
    "Dnmx.Props.C70_old_mixins_exactly",
    "Dnmx.Props.C70_new_mixins_exactly",
    "Dnmx.Props.C70_external_exactly"
   ],
   "note": "The contract (valid object, old type) and exactly which mixins of which objects can be used: proved for all calls in all operations (C70_view, C70_object), and that these are all calls (C70_all_calls). False for removed external mixins and for copies (refuted). Exactly, for each call of a mutation: C70_old_mixins_exactly, C70_new_mixins_exactly; and which external mixins cannot be used in some call: C70_external_exactly."
  },
  {
   "property": "C71",
   "status": "proved",
   "theorems": [
    "Dnmx.Props.C71_tables",
    "Dnmx.Props.C71_safe",
    "Dnmx.Props.C71_quiet",
    "Dnmx.Props.C71_self_after_mutation",
    "Dnmx.Props.C71_same_calls",
    "Dnmx.Props.C71_same_next_calls",
    "Dnmx.Props.C71_exceptions_end",
    "Dnmx.Props.C71_not_going_on_needed",
    "Dnmx.Props.C71_last_of_multicast_needed",
    "Dnmx.Props.C71_not_removing_itself_needed",
    "Dnmx.Props.C71_calls_counted_needed",
    "Dnmx.Props.C71_no_next_after_mutation_needed"
   ],
   "note": "Safety under the rules for all programs and depths (C71_safe, C71_quiet), exactly which mixins survive a mutation (C71_self_after_mutation), proper tables in domains (C71_tables); programs that break a rule and have undefined behaviour (C71_*_needed). Implementations are lists of actions without arguments and branches."
  },
  {
   "property": "C72",
   "status": "partial",
   "theorems": [
    "Dnmx.Props.C72_registrations",
    "Dnmx.Props.C72_get_type_partial",
    "Dnmx.Props.C72_answers_partial",
    "Dnmx.Props.C72_types_invisible",
    "Dnmx.Props.C72_types_invisible_partial",
    "Dnmx.Props.C72_pure_rules_needed",
    "Dnmx.Props.C72_discipline_needed",
    "Dnmx.Props.C72_get_type_unparted",
    "Dnmx.Props.C72_answers_unparted",
    "Dnmx.Props.C72_parts_without_queries",
    "Dnmx.Props.C72_types_invisible_unparted"
   ],
   "note": "Registrations: for all histories and rules (C72_registrations, C72_types_invisible). All answers including get_type: with FeatureDiscipline and pure rules (C72_answers_partial, C72_get_type_partial gives the answer in closed form); both conditions are needed (C72_pure_rules_needed, C72_discipline_needed). FeatureDiscipline weakened to the exact condition of C56 (NeverParts) in the theorems named _unparted. C72_types_invisible_unparted: with NeverParts, too."
  },
  {
   "property": "C73",
   "status": "partial",
   "theorems": [
    "Dnmx.Props.C73_registered",
    "Dnmx.Props.C73_registrations",
    "Dnmx.Props.C73_answers_partial",
    "Dnmx.Props.C73_one_home_needed",
    "Dnmx.Props.C73_feature_home_needed",
    "Dnmx.Props.C73_answers_unparted"
   ],
   "note": "Registrations: all histories in which each element has one home (C73_registered, C73_registrations). With get_type: also FeatureDiscipline and pure rules (C73_answers_partial). Without one home it is false (C73_one_home_needed, C73_feature_home_needed). FeatureDiscipline weakened to the exact condition of C56 (NeverParts): C73_answers_unparted."
  },
  {
   "property": "C74",
   "status": "partial",
   "theorems": [
    "Dnmx.Props.C74_linearizable_partial",
    "Dnmx.Props.C74_partial",
    "Dnmx.Props.C74_refuted",
    "Dnmx.Props.C74_pure_rules_needed",
    "Dnmx.Props.C74_discipline_needed",
    "Dnmx.Props.C74_collection_refuted",
    "Dnmx.Props.C74_linearizable_unparted",
    "Dnmx.Props.C74_unparted"
   ],
   "note": "Schedules in which rules are not changed and types not removed while types of the domain are being asked for, with FeatureDiscipline and pure rules (C74_partial, C74_linearizable_partial). False without each of these (C74_refuted, C74_collection_refuted, C74_pure_rules_needed, C74_discipline_needed). FeatureDiscipline weakened to: features and mixins do not part during the schedule (C74_linearizable_unparted, C74_unparted)."
  },
  {
   "property": "C75",
   "status": "proved",
   "theorems": [
    "Dnmx.Props.C75_starts_with",
    "Dnmx.Props.C75_find_first",
    "Dnmx.Props.C75_find_last"
   ],
   "note": "All views, prefixes and characters. The prefix is given by its characters (a zero-terminated string in the code)."
  },
  {
   "property": "C76",
   "status": "partial",
   "theorems": [
    "Dnmx.Props.C76_by_info_exactly",
    "Dnmx.Props.C76_initializers_partial",
    "Dnmx.Props.C76_unknown_name_refuted",
    "Dnmx.Props.C76_foreign_mixin_refuted",
    "Dnmx.Props.C76_c_overrides"
   ],
   "note": "C76_by_info_exactly: of infos, only the ids count."
  },
  {
   "property": "C77",
   "status": "proved",
   "theorems": [
    "Dnmx.Props.C77_independent",
    "Dnmx.Props.C77_order_does_not_matter"
   ],
   "note": "All operations on objects, any number of programs, any interleaving, by simulation up to addresses and object numbers, with outcomes (exceptions and calls of functions) and final objects as alone. User functions do not use objects of other programs (as in the whole model of objects; see C71 for functions that do); calls are not concurrent."
  },
  {
   "property": "C78",
   "status": "proved",
   "theorems": [
    "Dnmx.Props.C78_steps_are_operations",
    "Dnmx.Props.C78_threads",
    "Dnmx.Props.C78_no_races",
    "Dnmx.Props.C78_no_waiting",
    "Dnmx.Props.C78_counts",
    "Dnmx.Props.C78_locked",
    "Dnmx.Props.C78_own_objects_needed"
   ],
   "note": "Any number of threads, all schedules of single steps; no undefined behaviour, no data race, outcomes and objects as alone, exact number of own steps until done, counts as sums; calls during which a lock is held are atomic, also for shared objects. Types and domains do not change meanwhile (see C48, C49 and C64 for the locks of the domain); user functions do not use objects of other threads."
  },
  {
   "property": "C79",
   "status": "partial",
   "theorems": [
    "Dnmx.Props.C79_failure_exactly",
    "Dnmx.Props.C79_failure_small",
    "Dnmx.Props.C79_type_in_memory_partial",
    "Dnmx.Props.C79_memory_exact",
    "Dnmx.Props.C79_same_failure_partial",
    "Dnmx.Props.C79_reads_determined",
    "Dnmx.Props.C79_huge_type_refuted"
   ],
   "note": "True for all types that need less than 4 GiB, and exactly for those (C79_memory_exact); types that cannot be built fail in the same way exactly if the table of features is within the truncated block (C79_failure_exactly); 64-bit platform."
  },
  {
   "property": "C80",
   "status": "proved",
   "theorems": [
    "Dnmx.Props.C80_unicast",
    "Dnmx.Props.C80_multicast",
    "Dnmx.Props.C80_default",
    "Dnmx.Props.C80_multicast_compiles",
    "Dnmx.Props.C80_all_get_the_values",
    "Dnmx.Props.C80_variables",
    "Dnmx.Props.C80_unicast_copies",
    "Dnmx.Props.C80_multicast_copies",
    "Dnmx.Props.C80_once_needed"
   ],
   "note": "For unicast and multicast calls and default implementations; parameters are initialized from left to right; calls of next implementations are not covered."
  },
  {
   "property": "C81",
   "status": "partial",
   "theorems": [
    "Dnmx.Props.C81_thrown",
    "Dnmx.Props.C81_true",
    "Dnmx.Props.C81_classes",
    "Dnmx.Props.C81_clash",
    "Dnmx.Props.C81_text_iff",
    "Dnmx.Props.C81_text_partial",
    "Dnmx.Props.C81_destroyed",
    "Dnmx.Props.C81_destroyed_refuted",
    "Dnmx.Props.C81_type_mutation",
    "Dnmx.Props.C81_type_mutation_thrown",
    "Dnmx.Props.C81_is_of",
    "Dnmx.Props.C81_composition",
    "Dnmx.Props.C81_composition_read"
   ],
   "note": "Partial: texts that name the domain of a mixin need this domain to exist (refuted for destroyed domains). All else is proved without this. Exceptions of objects and messages are in C84."
  },
  {
   "property": "C82",
   "status": "proved",
   "theorems": [
    "Dnmx.Props.C82_nested",
    "Dnmx.Props.C82_interrupted",
    "Dnmx.Props.C82_returns",
    "Dnmx.Props.C82_all_return",
    "Dnmx.Props.C82_other_objects_needed"
   ],
   "note": "The parts are fixed: objects that are copied or moved into each other belong to the same part, and calls within calls of the same part are not covered."
  },
  {
   "property": "C83",
   "status": "partial",
   "theorems": [
    "Dnmx.Props.C83_elements_exactly",
    "Dnmx.Props.C83_containers_partial",
    "Dnmx.Props.C83_elements_refuted",
    "Dnmx.Props.C83_good_exactly",
    "Dnmx.Props.C83_good_partial",
    "Dnmx.Props.C83_truncated_refuted",
    "Dnmx.Props.C83_huge_alignment_refuted",
    "Dnmx.Props.C83_zero_bytes",
    "Dnmx.Props.C83_null_is_thrown",
    "Dnmx.Props.C83_objects_fit_partial",
    "Dnmx.Props.C83_object_needed"
   ],
   "note": "Full statement: for all sizes and alignments. False above 4 GiB (C83_truncated_refuted, C83_huge_alignment_refuted); C83_good_exactly gives the exact condition. For several elements the product is not checked (C83_elements_refuted); C83_elements_exactly gives the exact condition, C83_containers_partial is what containers need."
  },
  {
   "property": "C84",
   "status": "proved",
   "theorems": [
    "Dnmx.Props.C84_thrown_iff_text",
    "Dnmx.Props.C84_says_the_truth",
    "Dnmx.Props.C84_throws_exactly",
    "Dnmx.Props.C84_by_hand",
    "Dnmx.Props.C84_library_exceptions_have_text",
    "Dnmx.Props.C84_not_implemented",
    "Dnmx.Props.C84_not_implemented_calls",
    "Dnmx.Props.C84_no_next",
    "Dnmx.Props.C84_no_next_bidder",
    "Dnmx.Props.C84_no_next_calls"
   ],
   "note": "Operations of mutate_to are for different mixins (PlainOps). Mutations with steps by hand: reasons are necessary (C84_by_hand), for all others they are necessary and sufficient (C84_throws_exactly)."
  },
  {
   "property": "C85",
   "status": "partial",
   "theorems": [
    "Dnmx.Props.C85_features",
    "Dnmx.Props.C85_mixins",
    "Dnmx.Props.C85_types",
    "Dnmx.Props.C85_ftable",
    "Dnmx.Props.C85_ftable_in_domain_partial",
    "Dnmx.Props.C85_matching_classes",
    "Dnmx.Props.C85_matching_queries",
    "Dnmx.Props.C85_queries",
    "Dnmx.Props.C85_classes",
    "Dnmx.Props.C85_rules_partial",
    "Dnmx.Props.C85_defined_partial",
    "Dnmx.Props.C85_matching_types_refuted",
    "Dnmx.Props.C85_mixin_alone",
    "Dnmx.Props.C85_sections",
    "Dnmx.Props.C85_feature_line",
    "Dnmx.Props.C85_mixin_line",
    "Dnmx.Props.C85_rule_line",
    "Dnmx.Props.C85_mixin_fields",
    "Dnmx.Props.C85_flags",
    "Dnmx.Props.C85_type_alone",
    "Dnmx.Props.C85_type_minimum",
    "Dnmx.Props.C85_matching_types_of_traverse",
    "Dnmx.Props.C85_settings",
    "Dnmx.Props.C85_mixin_features",
    "Dnmx.Props.C85_rules_nocycle",
    "Dnmx.Props.C85_ftable_in_domain_unparted",
    "Dnmx.Props.C85_defined_unparted"
   ],
   "note": "Feature tables and definedness: with FeatureDiscipline (C27). Rules: with names as in C14. The flag for the types that match a class has no effect (refuted). FeatureDiscipline weakened to the exact condition of C56 (NeverParts) in the theorems named _unparted. C85_rules_nocycle needs only that no three rules are in a cycle (the exact condition of C14)."
  },
  {
   "property": "C86",
   "status": "partial",
   "theorems": [
    "Dnmx.Props.C86_blocks",
    "Dnmx.Props.C86_no_bad_free",
    "Dnmx.Props.C86_destructor",
    "Dnmx.Props.C86_failed_call",
    "Dnmx.Props.C86_other_calls",
    "Dnmx.Props.C86_enough_memory",
    "Dnmx.Props.C86_again",
    "Dnmx.Props.C86_registrations",
    "Dnmx.Props.C86_answers_partial",
    "Dnmx.Props.C86_discipline_needed",
    "Dnmx.Props.C86_features_left",
    "Dnmx.Props.C86_answers_unparted"
   ],
   "note": "Answers of get_type: with FeatureDiscipline and pure rules as in C72 (C86_discipline_needed); everything else for all histories. FeatureDiscipline weakened to NeverParts of the history without the failed calls: C86_answers_unparted."
  },
  {
   "property": "C87",
   "status": "partial",
   "theorems": [
    "Dnmx.Props.C87_definitions",
    "Dnmx.Props.C87_no_leak",
    "Dnmx.Props.C87_all_freed",
    "Dnmx.Props.C87_payloads",
    "Dnmx.Props.C87_apart",
    "Dnmx.Props.C87_rules_stay",
    "Dnmx.Props.C87_types",
    "Dnmx.Props.C87_types_stay_partial",
    "Dnmx.Props.C87_types_stay_refuted",
    "Dnmx.Props.C87_failed_partial",
    "Dnmx.Props.C87_failed_refuted",
    "Dnmx.Props.C87_string_needed",
    "Dnmx.Props.C87_null_allocator_needed",
    "Dnmx.Props.C87_failed_exactly"
   ],
   "note": "Features in types: while no feature is added (C87_types_stay_refuted). Failing calls: all but on_mutation with a rule that attaches (C87_failed_refuted)."
  },
  {
   "property": "C88",
   "status": "partial",
   "theorems": [
    "Dnmx.Props.C88_lookup",
    "Dnmx.Props.C88_operations",
    "Dnmx.Props.C88_within",
    "Dnmx.Props.C88_programs_partial",
    "Dnmx.Props.C88_mutation_exactly",
    "Dnmx.Props.C88_reset_exactly",
    "Dnmx.Props.C88_any_domains_refuted",
    "Dnmx.Props.C88_one_domain_refuted",
    "Dnmx.Props.C88_copies_refuted"
   ],
   "note": "Mutations to types of other domains and copies to objects of other domains: if no ids clash; exactly then (C88_mutation_exactly, C88_any_domains_refuted, C88_copies_refuted). ProperRun as in C35."
  },
  {
   "property": "C89",
   "status": "partial",
   "theorems": [
    "Dnmx.Props.C89_copy_exactly",
    "Dnmx.Props.C89_copyable_exactly",
    "Dnmx.Props.C89_same_as_version2",
    "Dnmx.Props.C89_missing_function",
    "Dnmx.Props.C89_copy_functions_needed",
    "Dnmx.Props.C89_copy_during_unwinding",
    "Dnmx.Props.C89_copyable",
    "Dnmx.Props.C89_copyable_refuted",
    "Dnmx.Props.C89_next_bidder"
   ],
   "note": "Equality with version 2 if all mixins have copy constructors, otherwise the difference is exact (C89_missing_function); copyable is sufficient, not necessary (C89_copyable_refuted)."
  },
  {
   "property": "C90",
   "status": "proved",
   "theorems": [
    "Dnmx.Props.C90_safe",
    "Dnmx.Props.C90_start",
    "Dnmx.Props.C90_call",
    "Dnmx.Props.C90_quiet",
    "Dnmx.Props.C90_bystander",
    "Dnmx.Props.C90_as_in_C71",
    "Dnmx.Props.C90_multicast_needed",
    "Dnmx.Props.C90_unregister_needed"
   ],
   "note": "Calls outside of stack unwinding; rules sufficient, two of them shown necessary (C90_multicast_needed, C90_unregister_needed); without use of the domain it is the model of C71 (C90_as_in_C71)."
  },
  {
   "property": "C91",
   "status": "proved",
   "theorems": [
    "Dnmx.Props.C91_calls",
    "Dnmx.Props.C91_as_done",
    "Dnmx.Props.C91_stable",
    "Dnmx.Props.C91_types",
    "Dnmx.Props.C91_remembered",
    "Dnmx.Props.C91_failure",
    "Dnmx.Props.C91_as_declared",
    "Dnmx.Props.C91_programs_as_declared"
   ],
   "note": "Rules that throw (instead of returning an error) are as rules with an error here. Rules do not call the domain."
  },
  {
   "property": "C92",
   "status": "partial",
   "theorems": [
    "Dnmx.Props.C92_left",
    "Dnmx.Props.C92_again_exactly",
    "Dnmx.Props.C92_again_partial",
    "Dnmx.Props.C92_again_refuted",
    "Dnmx.Props.C92_failed_refuted",
    "Dnmx.Props.C92_stored_refuted"
   ],
   "note": "Refuted in general, exact condition given; holds if the composition has no dependency mixins (C92_again_partial)."
  },
  {
   "property": "C93",
   "status": "partial",
   "theorems": [
    "Dnmx.Props.C93_tables",
    "Dnmx.Props.C93_called",
    "Dnmx.Props.C93_types_partial",
    "Dnmx.Props.C93_canonical_partial",
    "Dnmx.Props.C93_rules_partial",
    "Dnmx.Props.C93_domain_partial",
    "Dnmx.Props.C93_initializers_partial",
    "Dnmx.Props.C93_doubles_refuted",
    "Dnmx.Props.C93_names_refuted",
    "Dnmx.Props.C93_rule_twice_refuted",
    "Dnmx.Props.C93_rule_stays_refuted",
    "Dnmx.Props.C93_initializers_refuted",
    "Dnmx.Props.C93_sort_exactly",
    "Dnmx.Props.C93_canonical_exactly",
    "Dnmx.Props.C93_initializers_exactly",
    "Dnmx.Props.C93_payloads_exactly",
    "Dnmx.Props.C93_rules_nocycle",
    "Dnmx.Props.C93_domain_unparted",
    "Dnmx.Props.C93_types_unparted"
   ],
   "note": "Tables: for all conforming sorts without hypotheses on lists (C93_tables). Whole domain: for names that do not alias and lists without doubles (C93_domain_partial); refuted otherwise. FeatureDiscipline weakened to the exact condition of C56 (NeverParts) in the theorems named _unparted. C93_sort_exactly, C93_canonical_exactly, C93_initializers_exactly and C93_payloads_exactly are equivalences: exactly when all conforming sorts agree. C93_domain_unparted: the whole domain with no three rules and no three mixins in a cycle, instead of names that do not alias."
  },
  {
   "property": "C94",
   "status": "partial",
   "theorems": [
    "Dnmx.Props.C94_self_move",
    "Dnmx.Props.C94_self_move_exactly",
    "Dnmx.Props.C94_copy",
    "Dnmx.Props.C94_move",
    "Dnmx.Props.C94_equals",
    "Dnmx.Props.C94_compare",
    "Dnmx.Props.C94_compare_else",
    "Dnmx.Props.C94_copy_equal",
    "Dnmx.Props.C94_move_back",
    "Dnmx.Props.C94_self_move_refuted"
   ],
   "note": "Two different objects that do not overlap: C94_copy, C94_move, C94_move_back, C94_equals, C94_compare, C94_copy_equal without further hypotheses. An object moved onto itself is zeroed: C94_self_move_refuted; C94_self_move_exactly says which ones keep their contents."
  },
  {
   "property": "C95",
   "status": "proved",
   "theorems": [
    "Dnmx.Props.C95_definitions",
    "Dnmx.Props.C95_no_leak",
    "Dnmx.Props.C95_all_freed",
    "Dnmx.Props.C95_payload_kept",
    "Dnmx.Props.C95_failed",
    "Dnmx.Props.C95_string_needed",
    "Dnmx.Props.C95_store_own"
   ],
   "note": "All proper programs: C95_definitions, C95_no_leak, C95_all_freed, C95_payload_kept, C95_failed, C95_store_own. That the user must keep a string that names a definition: C95_string_needed."
  },
  {
   "property": "C96",
   "status": "proved",
   "theorems": [
    "Dnmx.Props.C96_defined",
    "Dnmx.Props.C96_own_memory",
    "Dnmx.Props.C96_no_leak",
    "Dnmx.Props.C96_resource_free",
    "Dnmx.Props.C96_all_freed",
    "Dnmx.Props.C96_same_answers",
    "Dnmx.Props.C96_same_answers_span",
    "Dnmx.Props.C96_allocators_unseen",
    "Dnmx.Props.C96_no_memory",
    "Dnmx.Props.C96_try_again",
    "Dnmx.Props.C96_no_memory_mutation",
    "Dnmx.Props.C96_try_again_mutation",
    "Dnmx.Props.C96_mutation_changed",
    "Dnmx.Props.C96_stored",
    "Dnmx.Props.C96_copy",
    "Dnmx.Props.C96_move_assign",
    "Dnmx.Props.C96_careful_needed"
   ],
   "note": "All careful programs, whichever allocations fail: C96_defined, C96_own_memory, C96_no_leak, C96_resource_free, C96_all_freed, C96_stored, C96_copy. Answers, if there is memory: C96_same_answers, C96_same_answers_span, C96_allocators_unseen. If there is none: C96_no_memory, C96_no_memory_mutation, and the call may be made again: C96_try_again, C96_try_again_mutation, with the mixins as before: C96_mutation_changed. Move assignment of the lists of mutations: C96_move_assign. That the user must be careful: C96_careful_needed."
  }
 ]
}