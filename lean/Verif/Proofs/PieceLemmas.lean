import Verif.Proofs.PlanLemmas
import Verif.Proofs.OutcomeLemmas

/-!
# Lemmas: piecewise mutations
-/

set_option linter.unusedSimpArgs false
set_option linter.unusedVariables false
set_option linter.unusedSectionVars false

namespace Dnmx
open Spec

variable {D : Decls} {E : TyEnv} {orc : Orc}

/-- The position is at the end if the mutation is complete. -/
def AtEnd (E : TyEnv) (s : Sess) : Prop := s.complete = true → (E.mixins s.ty).length ≤ s.updated

theorem Res.bind_is_ok {α β : Type} {r : Res α} {f : α → Res β} {k : α → XErr → Res β} {b : β} (hk : ∀ a e, k a e ≠ .ok b) (h : r.bind f k = .ok b) : ∃ a, r = .ok a ∧ f a = .ok b := by
  cases r with
  | ok a => exact ⟨a, rfl, h⟩
  | throw a e => exact absurd h (hk a e)
  | ub => simp [Res.bind] at h

theorem constructNew_pos {f : NewFn} {s s' : Sess} {m : Mix} {ti : Nat} {l : Loc} (hr : constructNew D orc f s m ti l = .ok s') : s'.ty = s.ty ∧ s'.updated = s.updated := by
  unfold constructNew at hr
  cases f with
  | dflt =>
    simp only at hr
    split at hr
    · simp at hr
    · split at hr
      · simp at hr
      · split at hr
        · simp at hr
        · simp at hr; subst hr; exact ⟨rfl, rfl⟩
  | custom k =>
    simp only at hr
    split at hr
    · simp at hr
    · split at hr
      · simp at hr
      · simp at hr; subst hr; exact ⟨rfl, rfl⟩
  | copy src c =>
    simp only at hr
    split at hr
    · simp at hr
    · split at hr
      · simp at hr
      · split at hr
        · split at hr <;> simp at hr
        · split at hr
          · simp at hr
          · split at hr
            · simp at hr
            · simp at hr; subst hr; exact ⟨rfl, rfl⟩

theorem updateCommon_pos {g : UpdFn} {s s' : Sess} {m : Mix} {ti : Nat} {l : Loc} (hr : updateCommon D orc g s m ti l = .ok s') : s'.ty = s.ty ∧ s'.updated = s.updated := by
  unfold updateCommon at hr
  cases g with
  | noop => simp at hr; subst hr; exact ⟨rfl, rfl⟩
  | custom k =>
    simp only at hr
    split at hr
    · simp at hr
    · split at hr
      · simp at hr
      · split at hr
        · simp at hr
        · simp at hr; subst hr; exact ⟨rfl, rfl⟩
  | assign src =>
    simp only at hr
    split at hr
    · split at hr
      · simp at hr
      · split at hr
        · simp at hr
        · simp at hr; subst hr; exact ⟨rfl, rfl⟩
    · simp at hr

theorem advanced_pos {s : Sess} : (s.advanced E).ty = s.ty ∧ (s.advanced E).updated = s.updated + 1 ∧ AtEnd E (s.advanced E) := by
  refine ⟨rfl, rfl, ?_⟩
  unfold AtEnd Sess.advanced
  simp only [beq_iff_eq]
  omega

theorem updateNext_pos {f : NewFn} {g : UpdFn} {s s' : Sess} (hi : AtEnd E s) (hr : updateNext D E orc f g s = .ok s') :
    s'.ty = s.ty ∧ AtEnd E s' ∧ s.updated ≤ s'.updated ∧ min (s.updated + 1) (E.mixins s.ty).length ≤ s'.updated := by
  unfold updateNext at hr
  cases hc : s.complete with
  | true =>
    simp [hc] at hr
    subst hr
    have := hi hc
    exact ⟨rfl, hi, Nat.le_refl _, by omega⟩
  | false =>
    simp only [hc, Bool.false_eq_true, if_false] at hr
    have key : ∀ s1 : Sess, s1.ty = s.ty ∧ s1.updated = s.updated → s1.advanced E = s' → s'.ty = s.ty ∧ AtEnd E s' ∧ s.updated ≤ s'.updated ∧ min (s.updated + 1) (E.mixins s.ty).length ≤ s'.updated := by
      rintro s1 ⟨a, b⟩ rfl
      obtain ⟨c1, c2, c3⟩ := advanced_pos (E := E) (s := s1)
      exact ⟨c1.trans a, c3, by omega, by omega⟩
    split at hr
    · simp at hr
    · split at hr
      · split at hr
        · simp at hr
        · obtain ⟨s1, h1, h2⟩ := Res.bind_is_ok (by simp) hr
          injection h2 with h2
          exact key s1 (updateCommon_pos h1) h2
      · split at hr
        · simp at hr
        · split at hr
          · simp at hr
          · obtain ⟨s1, h1, h2⟩ := Res.bind_is_ok (by simp) hr
            injection h2 with h2
            exact key s1 (constructNew_pos h1) h2

theorem updateLoop_pos {f : NewFn} {g : UpdFn} : ∀ (n : Nat) {s s' : Sess}, AtEnd E s → updateLoop D E orc f g n s = .ok s' →
    s'.ty = s.ty ∧ AtEnd E s' ∧ s.updated ≤ s'.updated ∧ min (s.updated + n) (E.mixins s.ty).length ≤ s'.updated
  | 0, s, s', hi, hr => by
    simp only [updateLoop] at hr
    injection hr with hr; subst hr
    exact ⟨rfl, hi, Nat.le_refl _, by omega⟩
  | n + 1, s, s', hi, hr => by
    unfold updateLoop at hr
    cases h1 : updateNext D E orc f g s with
    | ub => rw [h1] at hr; simp [Res.bind] at hr
    | throw _ _ => rw [h1] at hr; simp [Res.bind] at hr
    | ok s1 =>
      rw [h1] at hr; simp only [Res.bind] at hr
      obtain ⟨a1, a2, a3, a4⟩ := updateNext_pos hi h1
      obtain ⟨b1, b2, b3, b4⟩ := updateLoop_pos n a2 hr
      rw [a1] at b1 b4
      exact ⟨b1, b2, by omega, by omega⟩

theorem updateAt_pos {i : Nat} {f : NewFn} {g : UpdFn} {s s' : Sess} (hi : AtEnd E s) (hr : updateAt D E orc i f g s = .ok s') :
    s'.ty = s.ty ∧ AtEnd E s' ∧ s.updated ≤ i ∧ i ≤ (E.mixins s.ty).length ∧ min (i + 1) (E.mixins s.ty).length ≤ s'.updated := by
  unfold updateAt at hr
  by_cases hb : i < s.updated ∨ i > (E.mixins s.ty).length
  · rw [if_pos hb] at hr; simp at hr
  · rw [if_neg hb] at hr
    unfold updateEach at hr
    simp only [Option.getD_some] at hr
    cases h1 : updateLoop D E orc .dflt .noop (min i (E.mixins s.ty).length - s.updated) s with
    | ub => rw [h1] at hr; simp [Res.bind] at hr
    | throw _ _ => rw [h1] at hr; simp [Res.bind] at hr
    | ok s1 =>
      rw [h1] at hr; simp only [Res.bind] at hr
      obtain ⟨a1, a2, a3, a4⟩ := updateLoop_pos _ hi h1
      obtain ⟨b1, b2, b3, b4⟩ := updateNext_pos a2 hr
      rw [a1] at b1 b4
      exact ⟨b1, b2, by omega, by omega, by omega⟩

/-- A list of piecewise calls. -/
def ats (l : List (Nat × NewFn × UpdFn)) : List (MStep × Bool) := l.map (fun x => (.at x.1 x.2.1 x.2.2, false))

theorem ats_pos : ∀ (l : List (Nat × NewFn × UpdFn)) {s s' : Sess}, AtEnd E s → msteps D E orc (ats l) s = .ok s' →
    (∀ x ∈ l, s.updated ≤ x.1 ∧ x.1 ≤ (E.mixins s.ty).length) ∧ l.Pairwise (fun a b => a.1 < b.1 ∨ a.1 = (E.mixins s.ty).length)
  | [], s, s', _, _ => by simp
  | (i, f, g) :: l, s, s', hi, hr => by
    unfold ats at hr
    rw [List.map_cons] at hr
    simp only [msteps, mstep] at hr
    cases h1 : updateAt D E orc i f g s with
    | ub => rw [h1] at hr; simp [Res.bind] at hr
    | throw _ _ => rw [h1] at hr; simp [Res.bind] at hr
    | ok s1 =>
      rw [h1] at hr; simp only [Res.bind] at hr
      obtain ⟨a1, a2, a3, a4, a5⟩ := updateAt_pos hi h1
      obtain ⟨b1, b2⟩ := ats_pos l a2 hr
      rw [a1] at b1 b2
      constructor
      · intro x hx
        rcases List.mem_cons.1 hx with rfl | hx
        · exact ⟨a3, a4⟩
        · have := b1 x hx; exact ⟨by omega, this.2⟩
      · rw [List.pairwise_cons]
        refine ⟨?_, b2⟩
        intro x hx
        have := (b1 x hx).1
        simp only
        omega

theorem allocLoop_pos : ∀ (n : Nat) {s s' : Sess}, allocLoop D E orc n s = .ok s' → s'.ty = s.ty ∧ s'.updated = s.updated ∧ s'.complete = s.complete
  | 0, s, s', hr => by
    simp only [allocLoop] at hr
    injection hr with hr; subst hr; exact ⟨rfl, rfl, rfl⟩
  | n + 1, s, s', hr => by
    unfold allocLoop at hr
    obtain ⟨s1, h1, h2⟩ := Res.bind_is_ok (by simp) hr
    obtain ⟨a1, a2, a3⟩ := allocLoop_pos n h2
    have : s1.ty = s.ty ∧ s1.updated = s.updated ∧ s1.complete = s.complete := by
      unfold allocOne at h1
      repeat' split at h1
      all_goals first | (simp at h1; done) | (simp at h1; subst h1; exact ⟨rfl, rfl, rfl⟩)
    exact ⟨a1.trans this.1, a2.trans this.2.1, a3.trans this.2.2⟩

/-- Piecewise calls that succeed are in order. -/
theorem withMutation_ats {u : Bool} {h : Heap} {o : Nat} {t : TypeId} {l : List (Nat × NewFn × UpdFn)} {h' : Heap} (hr : withMutation D E orc u h o t (ats l) = .ok h') :
    (∀ x ∈ l, x.1 ≤ (E.mixins t).length) ∧ l.Pairwise (fun a b => a.1 < b.1 ∨ a.1 = (E.mixins t).length) := by
  unfold withMutation at hr
  split at hr
  · simp at hr
  · rename_i ob ho
    simp only at hr
    have hunw : ∀ s e, unwindWith D E orc s e ≠ .ok h' := by
      intro s e h
      unfold unwindWith at h
      cases hd : s.dtor D E orc true <;> rw [hd] at h <;> simp [Res.bind] at h
    cases hsl : ob.isSealed with
    | true => simp only [hsl, if_true] at hr; exact absurd hr (hunw _ _)
    | false =>
      simp only [hsl, Bool.false_eq_true, if_false] at hr
      cases ha : allocateMixinData D E orc (Sess.begin h o ob t) with
      | ub => rw [ha] at hr; simp at hr
      | throw s e => rw [ha] at hr; exact absurd hr (hunw s e)
      | ok s =>
        rw [ha] at hr
        simp only at hr
        have hs : s.ty = t ∧ s.complete = false := by
          unfold allocateMixinData at ha
          split at ha
          · simp at ha; subst ha; exact ⟨rfl, rfl⟩
          · split at ha
            · simp at ha
            · have := allocLoop_pos _ ha
              exact ⟨this.1, this.2.2⟩
        cases hm : msteps D E orc (ats l) s with
        | ub => rw [hm] at hr; simp [Res.bind] at hr
        | throw s' e => rw [hm] at hr; simp only [Res.bind] at hr; exact absurd hr (hunw s' e)
        | ok s' =>
          have := ats_pos l (s := s) (fun h => by rw [hs.2] at h; simp at h) hm
          rw [hs.1] at this
          exact ⟨fun x hx => (this.1 x hx).2, this.2⟩

/-- What a list of piecewise calls means for the mixin at index `i`. -/
def newAt (l : List (Nat × NewFn × UpdFn)) (i : Nat) : NewFn := ((l.find? (fun x => x.1 == i)).map (fun x => x.2.1)).getD .dflt

def updAt (l : List (Nat × NewFn × UpdFn)) (i : Nat) : UpdFn := ((l.find? (fun x => x.1 == i)).map (fun x => x.2.2)).getD .noop

theorem at_head (x : Nat × NewFn × UpdFn) (l : List (Nat × NewFn × UpdFn)) : newAt (x :: l) x.1 = x.2.1 ∧ updAt (x :: l) x.1 = x.2.2 := by
  unfold newAt updAt; simp

theorem at_tail {x : Nat × NewFn × UpdFn} (l : List (Nat × NewFn × UpdFn)) {j : Nat} (h : j ≠ x.1) : newAt (x :: l) j = newAt l j ∧ updAt (x :: l) j = updAt l j := by
  unfold newAt updAt
  rw [List.find?_cons_of_neg (by simpa using fun h' => h h'.symm)]
  exact ⟨rfl, rfl⟩

theorem at_none {j : Nat} {l : List (Nat × NewFn × UpdFn)} (h : ∀ x ∈ l, x.1 ≠ j) : newAt l j = .dflt ∧ updAt l j = .noop := by
  unfold newAt updAt
  rw [List.find?_eq_none.2 (fun x hx => by simpa using h x hx)]
  exact ⟨rfl, rfl⟩

theorem at_some {l : List (Nat × NewFn × UpdFn)} (hl : l.Pairwise (fun a b => a.1 < b.1)) {x : Nat × NewFn × UpdFn} (h : x ∈ l) : newAt l x.1 = x.2.1 ∧ updAt l x.1 = x.2.2 := by
  induction l with
  | nil => simp at h
  | cons y l ih =>
    rw [List.pairwise_cons] at hl
    rcases List.mem_cons.1 h with rfl | h
    · exact at_head _ _
    · have h1 := hl.1 x h
      obtain ⟨h2, h3⟩ := at_tail (x := y) l (j := x.1) (by omega)
      rw [h2, h3]
      exact ih hl.2 h

section
variable (hE : EnvOk D E) {h0 : Heap} (hk : HeapOk D E h0) {o : Nat} {ob : Obj} (ho : h0.obj? o = some ob) {t : TypeId} (hne : E.mixins t ≠ [])
include hE hk ho hne

theorem ats_plan {F : Nat → NewFn} {G : Nat → UpdFn} {T : Nat → Bool} (hT : ∀ i, i < (E.mixins t).length → G i ≠ .noop → T i = true) :
    ∀ (l : List (Nat × NewFn × UpdFn)) (s : Sess), l.Pairwise (fun a b => a.1 < b.1) → (∀ x ∈ l, x.1 < (E.mixins t).length ∧ ownNew x.2.1 = true ∧ ownUpd x.2.2 = true) →
    (∀ x ∈ l, s.updated ≤ x.1) → SessOk D E h0 o ob t ⟨F, G, T⟩ s → s.alloced = (E.mixins t).length → (∀ j, s.updated ≤ j → F j = newAt l j ∧ G j = updAt l j) →
    StepOk (msteps D E orc (ats l) s)
      (fun s' => SessOk D E h0 o ob t ⟨F, G, T⟩ s' ∧ s'.alloced = (E.mixins t).length ∧ ∀ i, s'.updated ≤ i → F i = .dflt ∧ G i = .noop)
      (fun s' _ => SessOk D E h0 o ob t ⟨F, G, T⟩ s')
  | [], s, _, _, _, hs, hal, hF => ⟨hs, hal, fun i hi => by rw [(hF i hi).1, (hF i hi).2]; exact ⟨rfl, rfl⟩⟩
  | x :: l, s, hp, hlt, hge, hs, hal, hF => by
    rw [List.pairwise_cons] at hp
    obtain ⟨hi, hon, hou⟩ := hlt x (by simp)
    have hup : s.updated ≤ x.1 := hge x (by simp)
    have hx := at_head x l
    have hFx := hF x.1 hup
    rw [hx.1, hx.2] at hFx
    unfold ats
    rw [List.map_cons]
    simp only [msteps, mstep, updateAt]
    rw [if_neg (by rw [hs.ty]; omega)]
    have := plan_step (orc := orc) hE hk ho hne hs hal hi hup (f := x.2.1) (u := x.2.2) (rest := ats l)
      (P := fun s' => SessOk D E h0 o ob t ⟨F, G, T⟩ s' ∧ s'.alloced = (E.mixins t).length ∧ ∀ i, s'.updated ≤ i → F i = .dflt ∧ G i = .noop)
      (Q := fun s' _ => SessOk D E h0 o ob t ⟨F, G, T⟩ s')
      (by
        intro j h1 h2
        obtain ⟨h3, h4⟩ := hF j h1
        show F j = .dflt ∧ G j = .noop
        rw [h3, h4]
        apply at_none
        intro y hy
        rcases List.mem_cons.1 hy with rfl | hy
        · omega
        · have := hp.1 y hy; omega)
      hon hou hFx.1 hFx.2 (fun h => hT x.1 hi (by rw [hFx.2]; exact h))
      (fun s' a1 a2 a3 => ats_plan hT l s' hp.2 (fun y hy => hlt y (by simp [hy])) (fun y hy => by have := hp.1 y hy; omega) a1 a2
        (fun j hj => by
          obtain ⟨h3, h4⟩ := hF j (by omega)
          obtain ⟨h5, h6⟩ := at_tail (x := x) l (j := j) (by omega)
          rw [h3, h4, h5, h6]; exact ⟨rfl, rfl⟩))
      (fun s' e h => h)
    revert this
    unfold ats
    cases updateEach D E orc .dflt .noop (some x.1) s <;> simp [Res.bind]

theorem ats_ok (hsl : ob.isSealed = false) (hty : ob.ty ≠ some t) (l : List (Nat × NewFn × UpdFn)) (hp : l.Pairwise (fun a b => a.1 < b.1))
    (hlt : ∀ x ∈ l, x.1 < (E.mixins t).length ∧ ownNew x.2.1 = true ∧ ownUpd x.2.2 = true) :
    HStepOk (withMutation D E orc false h0 o t (ats l))
      (fun h' => Completed D E h0 o ob t ⟨newAt l, updAt l, fun i => decide (updAt l i ≠ .noop)⟩ h')
      (fun h' _ => Failed D E h0 ob t (fun i => decide (updAt l i ≠ .noop)) h') := by
  refine (withMutation_of (orc := orc) hE hk ho hsl hty hne false _ (fun i => decide (updAt l i ≠ .noop)) (fun F G => F = newAt l ∧ G = updAt l) ?_).mono ?_ (fun _ _ h => h)
  · intro s h1 h2 h3
    have h4 : SessOk D E h0 o ob t ⟨newAt l, updAt l, fun i => decide (updAt l i ≠ .noop)⟩ s :=
      h1.replan (fun i hi => by omega) (fun i hi => by omega) (fun _ h => h)
    refine (ats_plan (orc := orc) hE hk ho hne (fun i _ h => by simpa using h) l s hp hlt (fun x hx => by omega) h4 h2 (fun j _ => ⟨rfl, rfl⟩)).mono ?_ ?_
    · rintro s' ⟨a1, a2, a3⟩
      exact ⟨_, _, a1, a2, fun i hi _ => a3 i hi, rfl, rfl⟩
    · intro s' e a1; exact ⟨_, _, a1⟩
  · rintro h' h
    simp only [Bool.false_eq_true, if_false] at h
    obtain ⟨F, G, h1, rfl, rfl⟩ := h
    exact h1

end

end Dnmx
