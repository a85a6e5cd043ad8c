import Verif.Spec.Initializers
import Verif.Proofs.HandLemmas

set_option linter.unusedSimpArgs false
set_option linter.unusedVariables false
set_option linter.unusedSectionVars false

namespace Dnmx
open Spec

variable {D : Decls} {E : TyEnv} {orc : Orc}

theorem places_ge : ∀ (u : Nat) (l : List (Nat × Nat)), ∀ x ∈ places u l, u ≤ x.1
  | _, [], x, h => by simp [places] at h
  | u, (i, c) :: l, x, h => by
    rcases List.mem_cons.1 h with rfl | h
    · exact Nat.le_max_left ..
    · have := places_ge _ l x h
      omega

theorem places_increase : ∀ (u : Nat) (l : List (Nat × Nat)), (places u l).Pairwise (fun a b => a.1 < b.1)
  | _, [] => List.Pairwise.nil
  | u, (i, c) :: l => List.pairwise_cons.2 ⟨fun x hx => by have := places_ge _ l x hx; simp only; omega, places_increase _ l⟩

/-- Strictly increasing positions are what they are. -/
theorem places_self : ∀ (u : Nat) (l : List (Nat × Nat)), l.Pairwise (fun a b => a.1 < b.1) → (∀ x ∈ l, u ≤ x.1) → places u l = l
  | _, [], _, _ => rfl
  | u, (i, c) :: l, hp, hu => by
    rw [List.pairwise_cons] at hp
    have : u ≤ i := hu (i, c) (by simp)
    rw [places, Nat.max_eq_right this, places_self (i + 1) l hp.2 (fun x hx => hp.1 x hx)]

section
variable (hE : EnvOk D E) {h0 : Heap} (hk : HeapOk D E h0) {o : Nat} {ob : Obj} (ho : h0.obj? o = some ob) {t : TypeId} (hne : E.mixins t ≠ [])
include hE hk ho hne

theorem mutateTo_places {F : Nat → NewFn} : ∀ (l : List (Nat × Nat)) (s : Sess), l.Pairwise (fun a b => a.1 ≤ b.1) → (∀ x ∈ l, x.1 < (E.mixins t).length) →
    SessOk D E h0 o ob t ⟨F, fun _ => .noop, fun _ => false⟩ s → s.alloced = (E.mixins t).length →
    (∀ j, s.updated ≤ j → j < (E.mixins t).length → F j = planOf (places s.updated l) j) →
    StepOk (msteps D E orc (mutateToSteps l) s)
      (fun s' => SessOk D E h0 o ob t ⟨F, fun _ => .noop, fun _ => false⟩ s' ∧ s'.alloced = (E.mixins t).length ∧
        ∀ i, s'.updated ≤ i → i < (E.mixins t).length → F i = .dflt)
      (fun s' _ => SessOk D E h0 o ob t ⟨F, fun _ => .noop, fun _ => false⟩ s')
  | [], s, _, _, hs, hal, hF => ⟨hs, hal, fun i hi hi' => by rw [hF i hi hi']; rfl⟩
  | (i, k) :: l, s, hp, hlt, hs, hal, hF => by
    rw [List.pairwise_cons] at hp
    have hi : i < (E.mixins t).length := hlt (i, k) (by simp)
    have hle := hs.updated
    have hpos : 0 < (E.mixins t).length := List.length_pos_iff.2 hne
    by_cases hp1 : s.updated < (E.mixins t).length
    · have heach : updateEach D E orc .dflt .noop (some i) s = updateEach D E orc .dflt .noop (some (max s.updated i)) s := by
        unfold updateEach
        rw [hs.ty]
        congr 1
        simp only [Option.getD_some]
        omega
      have hm : max s.updated i < (E.mixins t).length := by omega
      have := plan_step (orc := orc) hE hk ho hne hs hal hm (Nat.le_max_left ..) (f := .custom k) (u := .noop) (rest := mutateToSteps l)
        (P := fun s' => SessOk D E h0 o ob t ⟨F, fun _ => .noop, fun _ => false⟩ s' ∧ s'.alloced = (E.mixins t).length ∧
          ∀ i, s'.updated ≤ i → i < (E.mixins t).length → F i = .dflt)
        (Q := fun s' _ => SessOk D E h0 o ob t ⟨F, fun _ => .noop, fun _ => false⟩ s')
        (by
          intro j h1 h2
          refine ⟨?_, rfl⟩
          show F j = .dflt
          rw [hF j h1 (by omega)]
          apply planOf_none
          intro x hx
          rw [places] at hx
          rcases List.mem_cons.1 hx with rfl | hx
          · simp only; omega
          · have := places_ge _ l x hx; omega)
        rfl rfl (by show F _ = _; rw [hF _ (Nat.le_max_left ..) hm, places]; exact planOf_head _ k _) rfl (fun h => absurd rfl h)
        (fun s' a1 a2 a3 => mutateTo_places l s' hp.2 (fun x hx => hlt x (by simp [hx])) a1 a2
          (fun j hj hj' => by rw [hF j (by omega) hj', places, a3]; exact planOf_tail _ (by omega)))
        (fun s' e h => h)
      show StepOk ((updateEach D E orc .dflt .noop (some i) s).bind (fun s => (updateNext D E orc (.custom k) .noop s).bind (msteps D E orc (mutateToSteps l)) .throw) .throw) _ _
      rw [heach]
      exact this
    · have hc : s.complete = true := by
        cases h : s.complete with
        | true => rfl
        | false => exact absurd (hs.complete.2 (by omega)) (by simp [h])
      have heach : updateEach D E orc .dflt .noop (some i) s = .ok s := by
        unfold updateEach
        rw [hs.ty, show min ((some i).getD (E.mixins t).length) (E.mixins t).length - s.updated = 0 by simp only [Option.getD_some]; omega]
        rfl
      have hnext : updateNext D E orc (.custom k) .noop s = .ok s := by unfold updateNext; rw [if_pos hc]
      show StepOk ((updateEach D E orc .dflt .noop (some i) s).bind (fun s => (updateNext D E orc (.custom k) .noop s).bind (msteps D E orc (mutateToSteps l)) .throw) .throw) _ _
      rw [heach]
      simp only [Res.bind, hnext]
      exact mutateTo_places l s hp.2 (fun x hx => hlt x (by simp [hx])) hs hal (fun j h1 h2 => by omega)

end

section
variable (hE : EnvOk D E) {h0 : Heap} (hk : HeapOk D E h0) {o : Nat} {ob : Obj} (ho : h0.obj? o = some ob) (hsl : ob.isSealed = false) {t : TypeId}
  (hty : ob.ty ≠ some t) (hne : E.mixins t ≠ [])
include hE hk ho hsl hty hne

theorem mutateTo_every (l : List (Nat × Nat)) (hp : l.Pairwise (fun a b => a.1 ≤ b.1)) (hlt : ∀ x ∈ l, x.1 < (E.mixins t).length) :
    HStepOk (withMutation D E orc false h0 o t (mutateToSteps l))
      (fun h' => ∃ F, Completed D E h0 o ob t ⟨F, fun _ => .noop, fun _ => false⟩ h' ∧ ∀ i, i < (E.mixins t).length → F i = planOf (places 0 l) i)
      (fun h' _ => Failed D E h0 ob t (fun _ => false) h') := by
  refine (withMutation_of (orc := orc) hE hk ho hsl hty hne false _ (fun _ => false) (fun F G => F = planOf (places 0 l) ∧ G = fun _ => .noop) ?_).mono ?_ (fun _ _ h => h)
  · intro s h1 h2 h3
    have h4 : SessOk D E h0 o ob t ⟨planOf (places 0 l), fun _ => .noop, fun _ => false⟩ s :=
      h1.replan (fun i hi => by omega) (fun i hi => by omega) (fun _ h => h)
    refine (mutateTo_places (orc := orc) hE hk ho hne l s hp hlt h4 h2 (fun j _ _ => by rw [h3])).mono ?_ ?_
    · rintro s' ⟨a1, a2, a3⟩
      exact ⟨_, _, a1, a2, fun i hi hi' => ⟨a3 i hi hi', rfl⟩, rfl, rfl⟩
    · intro s' e a1; exact ⟨_, _, a1⟩
  · rintro h' h
    simp only [Bool.false_eq_true, if_false] at h
    obtain ⟨F, G, h1, rfl, rfl⟩ := h
    exact ⟨_, h1, fun _ _ => rfl⟩

end

end Dnmx
