import Verif.Proofs.HandLemmas

set_option linter.unusedSimpArgs false
set_option linter.unusedVariables false
set_option linter.unusedSectionVars false

namespace Dnmx
open Spec

variable {D : Decls} {E : TyEnv} {orc : Orc}

/-- Indices in order: each larger than the one before, or both just behind the last mixin. -/
def AtsInOrder (n : Nat) (l : List (Nat × NewFn × UpdFn)) : Prop :=
  (∀ x ∈ l, x.1 ≤ n) ∧ l.Pairwise (fun a b => a.1 < b.1 ∨ (a.1 = n ∧ b.1 = n))

theorem ats_in_order : ∀ (l : List (Nat × NewFn × UpdFn)) {s s' : Sess}, AtEnd E s → msteps D E orc (ats l) s = .ok s' →
    (∀ x ∈ l, s.updated ≤ x.1 ∧ x.1 ≤ (E.mixins s.ty).length) ∧
      l.Pairwise (fun a b => a.1 < b.1 ∨ (a.1 = (E.mixins s.ty).length ∧ b.1 = (E.mixins s.ty).length))
  | [], s, s', _, _ => by simp
  | (i, f, g) :: l, s, s', hi, hr => by
    unfold ats at hr
    rw [List.map_cons] at hr
    simp only [msteps, mstep] at hr
    cases h1 : updateAt D E orc i f g s with
    | ub => rw [h1] at hr; simp [Res.bind] at hr
    | throw _ _ => rw [h1] at hr; simp [Res.bind] at hr
    | ok s1 =>
      rw [h1] at hr; simp only [Res.bind] at hr
      obtain ⟨a1, a2, a3, a4, a5⟩ := updateAt_pos hi h1
      obtain ⟨b1, b2⟩ := ats_in_order l a2 hr
      rw [a1] at b1 b2
      constructor
      · intro x hx
        rcases List.mem_cons.1 hx with rfl | hx
        · exact ⟨a3, a4⟩
        · have := b1 x hx; exact ⟨by omega, this.2⟩
      · rw [List.pairwise_cons]
        refine ⟨?_, b2⟩
        intro x hx
        have := b1 x hx
        simp only
        omega

/-- Piecewise calls that succeed are in order. -/
theorem withMutation_in_order {u : Bool} {h : Heap} {o : Nat} {t : TypeId} {l : List (Nat × NewFn × UpdFn)} {h' : Heap}
    (hr : withMutation D E orc u h o t (ats l) = .ok h') : AtsInOrder (E.mixins t).length l := by
  unfold withMutation at hr
  split at hr
  · simp at hr
  · rename_i ob ho
    simp only at hr
    have hunw : ∀ s e, unwindWith D E orc s e ≠ .ok h' := by
      intro s e h
      unfold unwindWith at h
      cases hd : s.dtor D E orc true <;> rw [hd] at h <;> simp [Res.bind] at h
    cases hsl : ob.isSealed with
    | true => simp only [hsl, if_true] at hr; exact absurd hr (hunw _ _)
    | false =>
      simp only [hsl, Bool.false_eq_true, if_false] at hr
      cases ha : allocateMixinData D E orc (Sess.begin h o ob t) with
      | ub => rw [ha] at hr; simp at hr
      | throw s e => rw [ha] at hr; exact absurd hr (hunw s e)
      | ok s =>
        rw [ha] at hr
        simp only at hr
        have hs : s.ty = t ∧ s.complete = false := by
          unfold allocateMixinData at ha
          split at ha
          · simp at ha; subst ha; exact ⟨rfl, rfl⟩
          · split at ha
            · simp at ha
            · have := allocLoop_pos _ ha
              exact ⟨this.1, this.2.2⟩
        cases hm : msteps D E orc (ats l) s with
        | ub => rw [hm] at hr; simp [Res.bind] at hr
        | throw s' e => rw [hm] at hr; simp only [Res.bind] at hr; exact absurd hr (hunw s' e)
        | ok s' =>
          have := ats_in_order l (s := s) (fun h => by rw [hs.2] at h; simp at h) hm
          rw [hs.1] at this
          exact ⟨fun x hx => (this.1 x hx).2, this.2⟩

theorem at_some' {n : Nat} {l : List (Nat × NewFn × UpdFn)} (hl : l.Pairwise (fun a b => a.1 < b.1 ∨ (a.1 = n ∧ b.1 = n))) {x : Nat × NewFn × UpdFn} (h : x ∈ l)
    (hx : x.1 < n) : newAt l x.1 = x.2.1 ∧ updAt l x.1 = x.2.2 := by
  induction l with
  | nil => simp at h
  | cons y l ih =>
    rw [List.pairwise_cons] at hl
    rcases List.mem_cons.1 h with rfl | h
    · exact at_head _ _
    · have h1 := hl.1 x h
      obtain ⟨h2, h3⟩ := at_tail (x := y) l (j := x.1) (by omega)
      rw [h2, h3]
      exact ih hl.2 h

section
variable (hE : EnvOk D E) {h0 : Heap} (hk : HeapOk D E h0) {o : Nat} {ob : Obj} (ho : h0.obj? o = some ob) {t : TypeId} (hne : E.mixins t ≠ [])
include hE hk ho hne

theorem ats_plan' {F : Nat → NewFn} {G : Nat → UpdFn} {T : Nat → Bool} (hT : ∀ i, i < (E.mixins t).length → G i ≠ .noop → T i = true) :
    ∀ (l : List (Nat × NewFn × UpdFn)) (s : Sess), AtsInOrder (E.mixins t).length l → (∀ x ∈ l, ownNew x.2.1 = true ∧ ownUpd x.2.2 = true) →
    (∀ x ∈ l, s.updated ≤ x.1) → SessOk D E h0 o ob t ⟨F, G, T⟩ s → s.alloced = (E.mixins t).length →
    (∀ j, s.updated ≤ j → j < (E.mixins t).length → F j = newAt l j ∧ G j = updAt l j) →
    StepOk (msteps D E orc (ats l) s)
      (fun s' => SessOk D E h0 o ob t ⟨F, G, T⟩ s' ∧ s'.alloced = (E.mixins t).length ∧
        ∀ i, s'.updated ≤ i → i < (E.mixins t).length → F i = .dflt ∧ G i = .noop)
      (fun s' _ => SessOk D E h0 o ob t ⟨F, G, T⟩ s')
  | [], s, _, _, _, hs, hal, hF => ⟨hs, hal, fun i hi hi' => by rw [(hF i hi hi').1, (hF i hi hi').2]; exact ⟨rfl, rfl⟩⟩
  | x :: l, s, hin, hown, hge, hs, hal, hF => by
    obtain ⟨hle, hp⟩ := hin
    rw [List.pairwise_cons] at hp
    have hi : x.1 ≤ (E.mixins t).length := hle x (by simp)
    obtain ⟨hon, hou⟩ := hown x (by simp)
    have hup : s.updated ≤ x.1 := hge x (by simp)
    have hpos : 0 < (E.mixins t).length := List.length_pos_iff.2 hne
    unfold ats
    rw [List.map_cons]
    simp only [msteps, mstep, updateAt]
    rw [if_neg (by rw [hs.ty]; omega)]
    by_cases hlt : x.1 < (E.mixins t).length
    · have hx := at_head x l
      have hFx := hF x.1 hup hlt
      rw [hx.1, hx.2] at hFx
      have := plan_step (orc := orc) hE hk ho hne hs hal hlt hup (f := x.2.1) (u := x.2.2) (rest := ats l)
        (P := fun s' => SessOk D E h0 o ob t ⟨F, G, T⟩ s' ∧ s'.alloced = (E.mixins t).length ∧
          ∀ i, s'.updated ≤ i → i < (E.mixins t).length → F i = .dflt ∧ G i = .noop)
        (Q := fun s' _ => SessOk D E h0 o ob t ⟨F, G, T⟩ s')
        (by
          intro j h1 h2
          obtain ⟨h3, h4⟩ := hF j h1 (by omega)
          show F j = .dflt ∧ G j = .noop
          rw [h3, h4]
          apply at_none
          intro y hy
          rcases List.mem_cons.1 hy with rfl | hy
          · omega
          · have := hp.1 y hy; omega)
        hon hou hFx.1 hFx.2 (fun h => hT x.1 hlt (by rw [hFx.2]; exact h))
        (fun s' a1 a2 a3 => ats_plan' hT l s' ⟨fun y hy => hle y (by simp [hy]), hp.2⟩ (fun y hy => hown y (by simp [hy]))
          (fun y hy => by have := hp.1 y hy; omega) a1 a2
          (fun j hj hj' => by
            obtain ⟨h3, h4⟩ := hF j (by omega) hj'
            obtain ⟨h5, h6⟩ := at_tail (x := x) l (j := j) (by omega)
            rw [h3, h4, h5, h6]; exact ⟨rfl, rfl⟩))
        (fun s' e h => h)
      revert this
      unfold ats
      cases updateEach D E orc .dflt .noop (some x.1) s <;> simp [Res.bind]
    · have hxn : x.1 = (E.mixins t).length := by omega
      have hall : ∀ y ∈ l, y.1 = (E.mixins t).length := fun y hy => by
        have h1 := hp.1 y hy
        have h2 := hle y (by simp [hy])
        omega
      have := (updateEach_ok (orc := orc) hE hk ho hne (f := .dflt) (u := .noop) trivial trivial (some x.1) s hs hal (by
          intro j h1 h2 h3
          obtain ⟨h4, h5⟩ := hF j h1 h3
          have h6 := at_none (j := j) (l := x :: l) (fun y hy => by
            rcases List.mem_cons.1 hy with rfl | hy
            · omega
            · have := hall y hy; omega)
          exact ⟨h4.trans h6.1, h5.trans h6.2, fun h => absurd rfl h⟩)).bind
        (f := fun s => (updateNext D E orc x.2.1 x.2.2 s).bind (msteps D E orc (ats l)) .throw) (k := .throw)
        (P' := fun s' => SessOk D E h0 o ob t ⟨F, G, T⟩ s' ∧ s'.alloced = (E.mixins t).length ∧
          ∀ i, s'.updated ≤ i → i < (E.mixins t).length → F i = .dflt ∧ G i = .noop)
        (Q' := fun s' _ => SessOk D E h0 o ob t ⟨F, G, T⟩ s')
        (by
          rintro s' ⟨k1, k2, k3⟩
          simp only [Option.getD_some] at k3
          have hu := k1.updated
          have hup' : s'.updated = (E.mixins t).length := by omega
          have hc : s'.complete = true := k1.complete.2 ⟨by omega, hup'⟩
          have hnext : updateNext D E orc x.2.1 x.2.2 s' = .ok s' := by unfold updateNext; rw [if_pos hc]
          rw [hnext]
          simp only [Res.bind]
          exact ats_plan' hT l s' ⟨fun y hy => hle y (by simp [hy]), hp.2⟩ (fun y hy => hown y (by simp [hy]))
            (fun y hy => by have := hall y hy; omega) k1 (by omega) (fun j hj hj' => by omega))
        (by rintro s' e ⟨k1, -⟩; exact k1)
      revert this
      unfold ats
      cases updateEach D E orc .dflt .noop (some x.1) s <;> simp [Res.bind]

theorem ats_exactly (hsl : ob.isSealed = false) (hty : ob.ty ≠ some t) (l : List (Nat × NewFn × UpdFn)) (hin : AtsInOrder (E.mixins t).length l)
    (hown : ∀ x ∈ l, ownNew x.2.1 = true ∧ ownUpd x.2.2 = true) :
    HStepOk (withMutation D E orc false h0 o t (ats l))
      (fun h' => Completed D E h0 o ob t ⟨newAt l, updAt l, fun i => decide (updAt l i ≠ .noop)⟩ h')
      (fun h' _ => Failed D E h0 ob t (fun i => decide (updAt l i ≠ .noop)) h') := by
  refine (withMutation_of (orc := orc) hE hk ho hsl hty hne false _ (fun i => decide (updAt l i ≠ .noop)) (fun F G => F = newAt l ∧ G = updAt l) ?_).mono ?_ (fun _ _ h => h)
  · intro s h1 h2 h3
    have h4 : SessOk D E h0 o ob t ⟨newAt l, updAt l, fun i => decide (updAt l i ≠ .noop)⟩ s :=
      h1.replan (fun i hi => by omega) (fun i hi => by omega) (fun _ h => h)
    refine (ats_plan' (orc := orc) hE hk ho hne (fun i _ h => by simpa using h) l s hin hown (fun x hx => by omega) h4 h2 (fun j _ _ => ⟨rfl, rfl⟩)).mono ?_ ?_
    · rintro s' ⟨a1, a2, a3⟩
      exact ⟨_, _, a1, a2, fun i hi hi' => a3 i hi hi', rfl, rfl⟩
    · intro s' e a1; exact ⟨_, _, a1⟩
  · rintro h' h
    simp only [Bool.false_eq_true, if_false] at h
    obtain ⟨F, G, h1, rfl, rfl⟩ := h
    exact h1

end

end Dnmx
