import Verif.Proofs.ClassExact
import Verif.Props.Types

/-!
# C06, C07: exactly what goes wrong
-/

namespace Dnmx.Props
open Spec

/-- C06: unregistering a mixin that is not registered in the domain removes *exactly* those types which have a mixin with the same id number; the others
stay as they are, in the same order. -/
theorem C06_unregister_foreign_exactly (D : Decls) (s : DomId → Settings) (ops : List Op) (d : DomId) (m : Mix)
    (h : mixinRegistered d m (trace D (initWorld s) ops) = false) :
    ((step D (run D (initWorld s) ops) (.unregMixin d m)).2.doms d).types =
      ((run D (initWorld s) ops).doms d).types.filter (fun t => t.mixins.all (fun m' =>
        !((run D (initWorld s) ops).mixId m' = (run D (initWorld s) ops).mixId m))) := by
  have hr := reachable_reg D s ops
  have hi := reachable_types D s ops d
  generalize run D (initWorld s) ops = W at *
  show ((unregisterMixin W d m).2.doms d).types = _
  rw [(unregisterMixin_effect hi m).1]
  apply List.filter_congr
  intro t ht
  have hok := hi.ok t ht
  have hid := hok.hasId hr (W.mixId m)
  rw [Bool.eq_iff_iff]
  simp only [Bool.not_eq_true', List.all_eq_true, Bool.not_eq_true', decide_eq_false_iff_not]
  constructor
  · intro hf m' hm' he
    have hsome := (hok.reg m' hm').1
    cases hx : W.mixId m' with
    | none => simp [hx] at hsome
    | some x =>
      have := hid.2 ⟨x, m', by rw [← he, hx], hm', hx⟩
      rw [hf] at this; simp at this
  · intro hf
    cases hc : t.hasId (W.mixId m) with
    | false => rfl
    | true =>
      obtain ⟨x, m', h1, h2, h3⟩ := hid.1 hc
      exact absurd (h3.trans h1.symm) (hf m' h2)

/-- C07: registering a class with a name, a function and no namesake is undefined behaviour *exactly* if a registered class was unregistered from the
domain at any time before; otherwise it succeeds. -/
theorem C07_register_class_exactly (D : Decls) (s : DomId → Settings) (ops : List Op) (d : DomId) (c : Cls) (hne : D.clsName c ≠ [])
    (hnn : (D.cls c).isNull = false) (huq : ∀ c', classRegistered d c' (trace D (initWorld s) ops) = true → D.clsName c' ≠ D.clsName c) :
    ((step D (run D (initWorld s) ops) (.regClass d c)).1 = .error .ub ↔
      ∃ before c' after, ops = before ++ .unregClass d c' :: after ∧ classRegistered d c' (trace D (initWorld s) before) = true) ∧
    ((step D (run D (initWorld s) ops) (.regClass d c)).1 ≠ .error .ub →
      (step D (run D (initWorld s) ops) (.regClass d c)).1 = .ok () ∧
      getTypeClass D (step D (run D (initWorld s) ops) (.regClass d c)).2 d (D.clsName c) = some c) := by
  have hfree := run_free D s d ops
  have huq' : ∀ c', c' ∈ classesOf (run D (initWorld s) ops) d → D.clsName c' ≠ D.clsName c :=
    fun c' hc' => huq c' ((classRegistered_iff D s ops d c').2 hc')
  have hreg : ∀ before c', classRegistered d c' (trace D (initWorld s) before) = true ↔ c' ∈ classesOf (run D (initWorld s) before) d :=
    fun before c' => classRegistered_iff D s before d c'
  simp only [hreg]
  have hgot : (step D (run D (initWorld s) ops) (.regClass d c)).1 = .ok () →
      getTypeClass D (step D (run D (initWorld s) ops) (.regClass d c)).2 d (D.clsName c) = some c := by
    intro hok
    have := (C07_class_by_name D s (ops ++ [.regClass d c]) d (D.clsName c) c).2
    rw [run_snoc] at this
    apply this
    refine ⟨?_, rfl⟩
    rw [classRegistered_iff, run_snoc]
    have hok' : (registerTypeClass D (run D (initWorld s) ops) d c).1 = .ok () := hok
    show c ∈ classesOf (registerTypeClass D (run D (initWorld s) ops) d c).2 d
    rcases registerTypeClass_cases D (run D (initWorld s) ops) d c with ⟨h1, -⟩ | ⟨h1, -⟩ | ⟨h1, -⟩ | ⟨h1, -⟩ | ⟨h1, -⟩
    · rw [h1] at hok'; simp at hok'
    · rw [h1] at hok'; simp at hok'
    · rw [h1] at hok'; simp at hok'
    · rw [h1] at hok'; simp at hok'
    · rw [h1]; simp [classesOf, setDom_same]
  rw [← hfree]
  have hcases := registerTypeClass_cases D (run D (initWorld s) ops) d c
  have hstep : step D (run D (initWorld s) ops) (.regClass d c) = registerTypeClass D (run D (initWorld s) ops) d c := rfl
  rcases hcases with ⟨-, h2⟩ | ⟨-, -, h2⟩ | ⟨-, -, -, c', h2, h3⟩ | ⟨h1, -, -, -, h2⟩ | ⟨h1, -, -, -, h2⟩
  · exact absurd h2 hne
  · rw [hnn] at h2; simp at h2
  · exact absurd h3 (huq' c' h2)
  · refine ⟨⟨fun _ => h2, fun _ => by rw [hstep, h1]⟩, fun hn => absurd (by rw [hstep, h1]) hn⟩
  · have hok : (step D (run D (initWorld s) ops) (.regClass d c)).1 = .ok () := by rw [hstep, h1]
    exact ⟨⟨fun h => by rw [hok] at h; simp at h, fun h => absurd h h2⟩, fun _ => ⟨hok, hgot hok⟩⟩

/-- The situation of `C06_unregister_foreign_mixin_refuted` with a second type that stays. -/
example : ((run regDecls (initWorld fun _ => {}) [.regMixin 0 2, .regMixin 0 3, .regMixin 1 1, .getType 0 [2], .getType 0 [3], .getType 0 [2, 3]]).doms 0).types.map (·.mixins) =
      [[2], [3], [2, 3]] ∧
    ((step regDecls (run regDecls (initWorld fun _ => {}) [.regMixin 0 2, .regMixin 0 3, .regMixin 1 1, .getType 0 [2], .getType 0 [3], .getType 0 [2, 3]])
      (.unregMixin 0 1)).2.doms 0).types.map (·.mixins) = [[3]] := by
  decide +kernel

/-- Unregistering a class that is not registered does no harm. -/
example : (step regDecls (run regDecls (initWorld fun _ => {}) [.unregClass 0 1, .regClass 0 1, .unregClass 0 2]) (.regClass 0 2)).1.toOption = some () ∧
    (step regDecls (run regDecls (initWorld fun _ => {}) [.unregClass 0 1, .regClass 0 1, .unregClass 0 1]) (.regClass 0 2)).1.toOption = none := by
  decide +kernel

end Dnmx.Props
