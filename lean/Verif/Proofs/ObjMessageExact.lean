import Verif.Proofs.ObjMessageRuns

/-!
# Exceptions of mutations: at most one fits
-/

set_option linter.unusedSimpArgs false
set_option linter.unusedVariables false
set_option linter.unusedSectionVars false

namespace Dnmx
open Spec

variable {D : Decls} {E : TyEnv} {orc : Orc} {T : Telling}

/-- The functions for new mixins are determined. -/
def Functional (fs : Mix → NewFn → Prop) : Prop := ∀ m f f', fs m f → fs m f' → f = f'

theorem always_functional (f : NewFn) : Functional (always f) := by
  intro m f1 f2 h1 h2
  unfold always at h1 h2
  rw [h1, h2]

theorem chosenBy_functional {ops : List InitOp} (hd : (ops.map Prod.fst).Nodup) : Functional (chosenBy ops) := by
  intro m f1 f2 h1 h2
  have huniq : ∀ k k', (m, k) ∈ ops → (m, k') ∈ ops → k = k' := by
    clear h1 h2
    induction ops with
    | nil => intro k k' h; cases h
    | cons y ops ih =>
      rw [List.map_cons, List.nodup_cons] at hd
      intro k k' h h'
      rcases List.mem_cons.1 h with h | h <;> rcases List.mem_cons.1 h' with h' | h'
      · rw [← h] at h'; injection h' with _ h'; exact h'.symm
      · exact absurd (List.mem_map.2 ⟨(m, k'), h', by rw [← h]⟩) hd.1
      · exact absurd (List.mem_map.2 ⟨(m, k), h, by rw [← h']⟩) hd.1
      · exact ih hd.2 k k' h h'
  rcases h1 with ⟨k, h1, rfl⟩ | ⟨h1, rfl⟩ <;> rcases h2 with ⟨k', h2, rfl⟩ | ⟨h2, rfl⟩
  · rw [huniq k k' h1 h2]
  · exact absurd h1 (h2 k)
  · exact absurd h2 (h1 k')
  · rfl

theorem fnSays_unique {t : TypeId} {m : Mix} {n : Nat} {a : Bool} {f : NewFn} {g : UpdFn} {x x' : ObjThrown} (h : FnSays D E orc T t m n a f g x)
    (h' : FnSays D E orc T t m n a f g x') : x = x' := by
  cases h <;> cases h' <;> simp_all

/-- A mixin for which there is an exception has a function to be called, and that fails or is missing. -/
theorem fnSays_calls {t : TypeId} {m : Mix} {n : Nat} {f : NewFn} {g : UpdFn} {ob : Obj} {x : ObjThrown}
    (h : FnSays D E orc T t m n (hasAlready E ob m) f g x) : callsFor E ob (g != .noop) m = true ∧ (orc.fail n = true ∨ (hasAlready E ob m = false ∧ ¬ HasFn D f m)) := by
  unfold callsFor
  generalize hasAlready E ob m = a at h
  cases h with
  | noInit _ h1 => exact ⟨by simp, .inr ⟨rfl, by simp [HasFn, h1]⟩⟩
  | noCopy _ _ h1 => exact ⟨by simp, .inr ⟨rfl, by simp [HasFn, h1]⟩⟩
  | initFails _ h1 h2 => exact ⟨by simp, .inl h2⟩
  | ownNew _ _ h1 => exact ⟨by simp, .inl h1⟩
  | copyFails _ _ h1 h2 => exact ⟨by simp, .inl h2⟩
  | copyFromFails _ _ h1 h2 => exact ⟨by simp, .inl h2⟩
  | ownUpdate _ _ h1 => exact ⟨by simp, .inl h1⟩
  | assignFails _ _ h1 => exact ⟨by simp, .inl h1⟩

/-- If all went well before an index, the first failure is not before. -/
theorem failed_after_well {h : Heap} {ob : Obj} {t : TypeId} {fs : Mix → NewFn → Prop} (hfs : Functional fs) {g : UpdFn} {i j : Nat} {m : Mix} {f : NewFn} {x : ObjThrown}
    (hw : WellBefore D E orc h ob t (g != .noop) fs j) (hm : (E.mixins t)[i]? = some m) (hf : fs m f)
    (hx : FnSays D E orc T t m (callNumber D E h ob t (g != .noop) i) (hasAlready E ob m) f g x) : j ≤ i := by
  by_cases hij : j ≤ i
  · exact hij
  · obtain ⟨h1, h2⟩ := fnSays_calls hx
    obtain ⟨h3, h4⟩ := hw i m (by omega) hm h1
    rcases h2 with h2 | ⟨h2, h5⟩
    · rw [h2] at h3; cases h3
    · obtain ⟨f', h6, h7⟩ := h4 h2
      rw [hfs m f' f h6 hf] at h7
      exact absurd h7 h5

theorem firstFailed_unique {h : Heap} {ob : Obj} {t : TypeId} {fs : Mix → NewFn → Prop} (hfs : Functional fs) {g : UpdFn} {x x' : ObjThrown}
    (hx : FirstFailed D E orc T h ob t fs g x) (hx' : FirstFailed D E orc T h ob t fs g x') : x = x' := by
  obtain ⟨i, m, h1, ⟨f, h2, h3⟩, h4⟩ := hx
  obtain ⟨i', m', h1', ⟨f', h2', h3'⟩, h4'⟩ := hx'
  have e1 := failed_after_well hfs h4 h1' h2' h3'
  have e2 := failed_after_well hfs h4' h1 h2 h3
  have e : i = i' := Nat.le_antisymm e1 e2
  subst e
  rw [h1] at h1'
  injection h1' with h1'
  subst h1'
  have := hfs m f f' h2 h2'
  subst this
  exact fnSays_unique h3 h3'

theorem mutSays_unique {h : Heap} {ob : Obj} {t : TypeId} {fs : Mix → NewFn → Prop} (hfs : Functional fs) {g : UpdFn} {x x' : ObjThrown}
    (hx : MutSays D E orc T h ob t fs g x) (hx' : MutSays D E orc T h ob t fs g x') : x = x' := by
  cases hx with
  | «sealed» h1 =>
    cases hx' with
    | «sealed» h2 => rw [h1.2, h2.2]
    | alloc h2 => rw [h1.1] at h2; cases h2
    | mixin h2 => rw [h1.1] at h2; cases h2
  | alloc h1 h2 =>
    cases hx' with
    | «sealed» h3 => rw [h3.1] at h1; cases h1
    | alloc _ h3 => rw [h2.1, h3.1]
    | mixin _ h3 =>
      obtain ⟨_, k, h4, h5, _⟩ := h2
      rw [h3 k h4] at h5; cases h5
  | mixin h1 h2 h3 =>
    cases hx' with
    | «sealed» h4 => rw [h4.1] at h1; cases h1
    | alloc _ h4 =>
      obtain ⟨_, k, h5, h6, _⟩ := h4
      rw [h2 k h5] at h6; cases h6
    | mixin _ _ h4 => exact firstFailed_unique hfs h3 h4

theorem wentWell_not {h : Heap} {ob : Obj} {t : TypeId} {fs : Mix → NewFn → Prop} (hfs : Functional fs) {g : UpdFn} (hw : WentWell D E orc h ob t (g != .noop) fs) (x : ObjThrown) :
    ¬ MutSays D E orc T h ob t fs g x := by
  intro hx
  obtain ⟨h1, h2, h3⟩ := hw
  cases hx with
  | «sealed» h4 => rw [h4.1] at h1; cases h1
  | alloc _ h4 =>
    obtain ⟨_, k, h5, h6, _⟩ := h4
    rw [h2 k h5] at h6; cases h6
  | mixin _ _ h4 =>
    obtain ⟨i, m, h5, ⟨f, h6, h7⟩, _⟩ := h4
    have := failed_after_well hfs h3 h5 h6 h7
    obtain ⟨h8, _⟩ := List.getElem?_eq_some_iff.1 h5
    omega

end Dnmx
