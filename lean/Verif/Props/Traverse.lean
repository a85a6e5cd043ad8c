import Verif.Model.Traverse
import Verif.Props.Registry
import Verif.Props.RuleSet
import Verif.Props.Types
import Verif.Proofs.AnswerLemmas

/-!
# C65: traversing a domain

A traversal calls a function with everything that is in the domain, once each.
-/

namespace Dnmx.Props
open Spec

set_option linter.unusedVariables false

theorem visitSparse_eq : ∀ l : List (Option Nat), visitSparse l = l.filterMap id
  | [] => rfl
  | none :: xs => by simp [visitSparse, visitSparse_eq xs]
  | some x :: xs => by simp [visitSparse, visitSparse_eq xs]

/-- If every element knows its place, elements are visited in the order of their places. -/
theorem visitSparse_pairwise (place : Nat → Option Nat) : ∀ (l : List (Option Nat)) (k : Nat), (∀ (i : Nat) (x : Nat), l[i]? = some (some x) → place x = some (k + i)) →
    (visitSparse l).Pairwise (fun x y => ∃ i j, place x = some i ∧ place y = some j ∧ i < j) ∧ ∀ x ∈ visitSparse l, ∃ i, place x = some i ∧ k ≤ i
  | [], k, h => ⟨.nil, by simp [visitSparse]⟩
  | a :: xs, k, h => by
    obtain ⟨h1, h2⟩ := visitSparse_pairwise place xs (k + 1) (fun i x hx => by rw [h (i + 1) x (by simpa using hx)]; congr 1; omega)
    have h3 : ∀ x ∈ visitSparse xs, ∃ i, place x = some i ∧ k ≤ i := by
      intro x hx
      obtain ⟨i, hi, hk⟩ := h2 x hx
      exact ⟨i, hi, by omega⟩
    cases a with
    | none => exact ⟨h1, h3⟩
    | some a =>
      have ha := h 0 a rfl
      simp only [visitSparse, List.pairwise_cons, List.mem_cons]
      refine ⟨⟨fun y hy => ?_, h1⟩, ?_⟩
      · obtain ⟨i, hi, hk⟩ := h2 y hy
        exact ⟨_, i, ha, hi, by omega⟩
      · rintro x (rfl | hx)
        · exact ⟨_, ha, by omega⟩
        · exact h3 x hx

/-- C65: `traverse_mixins` visits exactly the mixins that are registered, in the order of their ids. -/
theorem C65_mixins (D : Decls) (s : DomId → Settings) (ops : List Op) (d : DomId) :
    (∀ m, m ∈ traverseMixins (run D (initWorld s) ops) d ↔ mixinRegistered d m (trace D (initWorld s) ops) = true) ∧
    (traverseMixins (run D (initWorld s) ops) d).Pairwise (fun m m' =>
      ∃ i j, (run D (initWorld s) ops).mixId m = some i ∧ (run D (initWorld s) ops).mixId m' = some j ∧ i < j) := by
  refine ⟨fun m => ?_, ?_⟩
  · unfold traverseMixins
    rw [visitSparse_eq, mixinRegistered_iff]
    rfl
  · exact (visitSparse_pairwise _ _ 0 (fun i x hx => by rw [((reachable_reg D s ops).mixSlot d i x hx).1, Nat.zero_add])).1

/-- C65: `traverse_features` visits exactly the features to which an id of the domain leads, in the order of their ids. -/
theorem C65_features (D : Decls) (s : DomId → Settings) (ops : List Op) (d : DomId) :
    (∀ f, f ∈ traverseFeatures (run D (initWorld s) ops) d ↔
      getFeatureById (run D (initWorld s) ops) d ((run D (initWorld s) ops).featId f) = some f) ∧
    (traverseFeatures (run D (initWorld s) ops) d).Pairwise (fun f f' =>
      ∃ i j, (run D (initWorld s) ops).featId f = some i ∧ (run D (initWorld s) ops).featId f' = some j ∧ i < j) := by
  refine ⟨fun f => ?_, ?_⟩
  · unfold traverseFeatures
    rw [visitSparse_eq, C01_feature_by_id]
    exact ⟨fun h => ⟨h, rfl⟩, fun h => h.1⟩
  · exact (visitSparse_pairwise _ _ 0 (fun i x hx => by rw [(reachable_reg D s ops).featSlot d i x hx, Nat.zero_add])).1

/-- C65: `traverse_type_classes` visits exactly the type classes that are registered, once each. -/
theorem C65_classes (D : Decls) (s : DomId → Settings) (ops : List Op) (d : DomId) :
    (∀ c, c ∈ traverseClasses (run D (initWorld s) ops) d ↔ classRegistered d c (trace D (initWorld s) ops) = true) ∧
    ((traverseClasses (run D (initWorld s) ops) d).map D.clsName).Nodup := by
  refine ⟨fun c => ?_, ?_⟩
  · unfold traverseClasses
    rw [visitSparse_eq, classRegistered_iff]
    rfl
  · have hu := (reachable_cls D s ops d).uniq
    unfold traverseClasses
    generalize ((run D (initWorld s) ops).doms d).classes = l at hu
    induction l with
    | nil => exact List.nodup_nil
    | cons a xs ih =>
      have ih := ih (fun i j c c' hi hj hn => by
        have := hu (i + 1) (j + 1) c c' (by simpa using hi) (by simpa using hj) hn
        omega)
      cases a with
      | none => exact ih
      | some a =>
        simp only [visitSparse, List.map_cons, List.nodup_cons]
        refine ⟨fun hm => ?_, ih⟩
        obtain ⟨c, hc, hn⟩ := List.mem_map.1 hm
        rw [visitSparse_eq] at hc
        simp at hc
        obtain ⟨j, hj⟩ := List.getElem?_of_mem hc
        have := hu 0 (j + 1) a c rfl (by simpa using hj) hn.symm
        omega

/-- C65: `traverse_types` visits every type of the domain except the empty one once; `num_types` is the number of types. -/
theorem C65_types (D : Decls) (s : DomId → Settings) (ops : List Op) (d : DomId) :
    (∀ t, t ∈ traverseTypes (run D (initWorld s) ops) d ↔ compositionOf (run D (initWorld s) ops) d t ≠ none ∧ compositionOf (run D (initWorld s) ops) d t ≠ some []) ∧
    (traverseTypes (run D (initWorld s) ops) d).Nodup ∧ (traverseTypes (run D (initWorld s) ops) d).length = numTypes (run D (initWorld s) ops) d := by
  have hl := C15_types_listed_once D s ops d
  refine ⟨fun t => ?_, hl.2.1, by simp [traverseTypes, numTypes]⟩
  unfold traverseTypes
  rw [List.mem_map]
  constructor
  · rintro ⟨r, hr, rfl⟩
    obtain ⟨h1, h2⟩ := hl.2.2 r hr
    rw [h2]
    exact ⟨by simp, by simpa using h1⟩
  · rintro ⟨h1, h2⟩
    unfold compositionOf at h1 h2
    by_cases ht : t = emptyTid
    · subst ht
      rw [typeAt_empty] at h2
      exact absurd rfl h2
    · unfold Dom.typeAt at h1
      rw [if_neg ht] at h1
      cases hf : ((run D (initWorld s) ops).doms d).types.find? (fun r => r.tid == t) with
      | none => rw [hf] at h1; simp at h1
      | some r => exact ⟨r, List.mem_of_find?_eq_some hf, by simpa using List.find?_some hf⟩

/-- C65: `traverse_type_queries` visits every stored query once, with the type that a request for it gives; `num_type_queries` is the number
of queries. -/
theorem C65_queries (D : Decls) (s : DomId → Settings) (ops : List Op) (d : DomId) :
    ((traverseQueries (run D (initWorld s) ops) d).map (·.1)).Nodup ∧
    (∀ q t, (q, t) ∈ traverseQueries (run D (initWorld s) ops) d → getType D (run D (initWorld s) ops) d q = (.ok t, run D (initWorld s) ops)) ∧
    (∀ q t, (q, t) ∈ traverseQueries (run D (initWorld s) ops) d → compositionOf (run D (initWorld s) ops) d t ≠ none) ∧
    (traverseQueries (run D (initWorld s) ops) d).length = numTypeQueries (run D (initWorld s) ops) d := by
  have h := reachable_types D s ops d
  refine ⟨?_, ?_, ?_, rfl⟩
  · unfold List.Nodup traverseQueries; rw [List.pairwise_map]; exact h.keys
  · intro q t hq
    have : findQuery q ((run D (initWorld s) ops).doms d).queries = some t := findQuery_mem h.keys (q, t) hq
    simp [getType, this]
  · exact fun q t hq => C18_queries_lead_to_types D s ops d (q, t) hq

/-- C65: `traverse_mutation_rules` visits exactly the rules that are in force, with the number of additions less that of
removals, in the order in which they are applied; `num_mutation_rules` is the number of rules in force. -/
theorem C65_rules (D : Decls) (S : Rule → Prop) (hS : RuleNamesOk D S) (s : DomId → Settings) (ops : List Op)
    (hops : ∀ op ∈ ops, op.rulesIn S) (d : DomId) (h0 : (s d).canonicalize = true → S 0) :
    (∀ r n, (r, n) ∈ traverseRules (run D (initWorld s) ops) d ↔ n = ruleCount d r (initialCount (s d) r) (trace D (initWorld s) ops) ∧ 0 < n) ∧
    ((traverseRules (run D (initWorld s) ops) d).map (·.1)).Pairwise (RuleBefore D) ∧
    ((traverseRules (run D (initWorld s) ops) d).map (·.1)).Nodup ∧
    (traverseRules (run D (initWorld s) ops) d).length = numMutationRules (run D (initWorld s) ops) d := by
  have ho := ruleOrder_total D S hS
  obtain ⟨i1, i2⟩ := initWorld_ruleMap D S s d h0
  obtain ⟨h1, h2⟩ := run_ruleMap ho d ops _ (initWorld_reg s) hops i1
  obtain ⟨-, k2, k3⟩ := C14_rules_in_force_partial D S hS s ops hops d h0
  refine ⟨fun r n => ?_, k3, k2, rfl⟩
  rw [← i2 r, ← h2 r]
  unfold traverseRules
  rw [mem_iff_countOf ho _ h1 r n]

example : traverseMixins regWorld 0 = [3, 2, 4] ∧ traverseFeatures regWorld 0 = [1, 2] ∧
    (traverseMixins regWorld 0).map regWorld.mixId = [some 0, some 1, some 2] := by decide +kernel

example : traverseTypes tyWorld 0 = [2, 3, 4] ∧ numTypes tyWorld 0 = 3 := by decide +kernel

example : traverseRules (run ruleDecls (initWorld fun _ => { canonicalize := true }) [.addRule 0 5, .addRule 0 1, .addRule 0 3,
    .removeRule 0 4, .addRule 0 4, .addRule 0 3, .addRule 0 3, .removeRule 0 3, .removeRule 0 5, .addRule 1 5]) 0 = [(4, 1), (3, 2), (1, 1), (0, 1)] := by
  decide +kernel

example : traverseClasses (run regDecls (initWorld fun _ => {}) [.regClass 0 1]) 0 = [1] := by decide +kernel

end Dnmx.Props
