import Verif.Props.Builder
import Verif.Props.RulesExact

/-!
# C66, exactly: when dependents are missing

The common rule "x goes with p" is in force and no rule in force takes mixins out. A type with `p` and without `x` is given only for a query that
has both already like that, and that the first pass of the rules gives back when the dependency mixins are taken out of it. Then `p` is a dependency
mixin itself.
-/

namespace Dnmx.Props
open Spec

/-- C66: `x` is missing from a type with `p` exactly if the type is what was asked for, without `x`, and the rules give that in their first pass. -/
theorem C66_dependents_exactly (D : Decls) (fns : Nat → ElemView → List Mix → Except Err (List Mix)) (s : DomId → Settings) (ops : List Op) (d : DomId)
    (r : Rule) (n : List UInt8) (p x : Mix) (pr : Int) (hr : IsRule D fns r (.stored n (.dep p x) pr))
    (hin : r ∈ inForce (run D (initWorld s) ops) d) (hk : ∀ r' ∈ inForce (run D (initWorld s) ops) d, KeepsMixins D r')
    (q : List Mix) (t : TypeId) (h : (getType D (run D (initWorld s) ops) d q).1 = .ok t) :
    ∃ ms pre, pre <+: ops ∧ compositionOf (getType D (run D (initWorld s) ops) d q).2 d t = some ms ∧
      ((p ∈ ms ∧ x ∉ ms) ↔ (p ∈ q ∧ x ∉ q ∧ (D.mix p).dependency = true ∧
        applyPass (rulesOf D ((run D (initWorld s) pre).view D d) ((run D (initWorld s) ops).doms d)) (q.filter (fun m => !(D.mix m).dependency)) = .ok q)) := by
  obtain ⟨ms, pre, h0, h1, h2⟩ := C16_composition_seen D s ops d q t h
  have hdep : ∀ a b, applyPass (rulesOf D ((run D (initWorld s) pre).view D d) ((run D (initWorld s) ops).doms d)) a = .ok b → p ∈ a → x ∈ b := by
    intro a b hab
    refine applyPass_dep _ ?_ p x ?_ a b hab
    · intro f hf
      rw [rulesOf_keys] at hf
      obtain ⟨r', hr', rfl⟩ := List.mem_map.1 hf
      exact fun ms ms' => ruleFn_keeps (hk r' hr') _ ms ms'
    · rw [rulesOf_keys]
      refine List.mem_map.2 ⟨r, hin, ?_⟩
      rw [ruleFn_isRule hr]
      rfl
  refine ⟨ms, pre, h0, h1, fun hm => ?_, fun hm => ?_⟩
  · rcases C10_fixpoint_partial D _ q ms h2 with hf | ⟨rfl, -, hp⟩
    · exact absurd (hdep ms ms hf hm.1) hm.2
    · refine ⟨hm.1, hm.2, ?_, hp⟩
      cases hd : (D.mix p).dependency with
      | true => rfl
      | false => exact absurd (hdep _ _ hp (List.mem_filter.2 ⟨hm.1, by simp [hd]⟩)) hm.2
  · have hne : rulesOf D ((run D (initWorld s) pre).view D d) ((run D (initWorld s) ops).doms d) ≠ [] := by
      rw [rulesOf_keys]
      intro he
      have hin' : r ∈ ((run D (initWorld s) ops).doms d).rules.map (·.1) := hin
      rw [List.map_eq_nil_iff.1 he] at hin'
      cases hin'
    rw [C10_result_exactly D _ q hne, if_pos hm.2.2.2] at h2
    obtain rfl := Except.ok.inj h2
    exact ⟨hm.1, hm.2.1⟩

/-- C66 (partial: `p` is not a dependency mixin, or was not asked for, or was asked for with `x`): types with `p` have `x`, for all other queries. -/
theorem C66_dependents_plain_partial (D : Decls) (fns : Nat → ElemView → List Mix → Except Err (List Mix)) (s : DomId → Settings) (ops : List Op) (d : DomId)
    (r : Rule) (n : List UInt8) (p x : Mix) (pr : Int) (hr : IsRule D fns r (.stored n (.dep p x) pr))
    (hin : r ∈ inForce (run D (initWorld s) ops) d) (hk : ∀ r' ∈ inForce (run D (initWorld s) ops) d, KeepsMixins D r')
    (q : List Mix) (hp : (D.mix p).dependency = false ∨ p ∉ q ∨ x ∈ q) (t : TypeId) (h : (getType D (run D (initWorld s) ops) d q).1 = .ok t) :
    ∃ ms, compositionOf (getType D (run D (initWorld s) ops) d q).2 d t = some ms ∧ (p ∈ ms → x ∈ ms) := by
  obtain ⟨ms, pre, -, h1, h2⟩ := C66_dependents_exactly D fns s ops d r n p x pr hr hin hk q t h
  refine ⟨ms, h1, fun hm => ?_⟩
  by_cases hx : x ∈ ms
  · exact hx
  · obtain ⟨a, b, c, -⟩ := h2.1 ⟨hm, hx⟩
    rcases hp with hp | hp | hp
    · rw [hp] at c; cases c
    · exact absurd a hp
    · exact absurd hp b

/-- The rules of the example take no mixins out. -/
theorem bdKeeps : ∀ r ∈ inForce (run bdDecls (initWorld fun _ => {}) bdOps) 0, KeepsMixins bdDecls r := C66_dependents_refuted.2.2.2.1

-- the query of mixin 3, to which mixin 1 attaches, which also adds mixin 2: it has mixin 2
example : ∃ ms, compositionOf (getType bdDecls (run bdDecls (initWorld fun _ => {}) bdOps) 0 [3]).2 0 1 = some ms ∧ (1 ∈ ms → 2 ∈ ms) :=
  C66_dependents_plain_partial bdDecls bdFns (fun _ => {}) bdOps 0 2 (bytesOf "B also_adds<1>") 1 2 0 ⟨by decide +kernel, rfl, rfl⟩
    (by rw [C66_dependents_refuted.2.2.1]; decide) bdKeeps [3] (.inr (.inl (by decide))) 1 (by decide +kernel)

end Dnmx.Props
