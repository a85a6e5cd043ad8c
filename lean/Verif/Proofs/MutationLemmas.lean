import Verif.Proofs.WholeLemmas

/-!
# Whole mutations
-/

set_option linter.unusedSimpArgs false

namespace Dnmx
open Spec

variable {D : Decls} {E : TyEnv} {orc : Orc}

theorem HStepOk.bind {r : Res Heap} {P : Heap → Prop} {Q : Heap → XErr → Prop} (h : HStepOk r P Q) {f : Heap → Res Heap} {k : Heap → XErr → Res Heap}
    {P' : Heap → Prop} {Q' : Heap → XErr → Prop} (h1 : ∀ s, P s → HStepOk (f s) P' Q') (h2 : ∀ s e, Q s e → HStepOk (k s e) P' Q') :
    HStepOk (r.bind f k) P' Q' := by
  cases r with
  | ok s => exact h1 s h
  | throw s e => exact h2 s e h
  | ub => exact h.elim

theorem HStepOk.mono {r : Res Heap} {P : Heap → Prop} {Q : Heap → XErr → Prop} (h : HStepOk r P Q) {P' : Heap → Prop} {Q' : Heap → XErr → Prop}
    (h1 : ∀ s, P s → P' s) (h2 : ∀ s e, Q s e → Q' s e) : HStepOk r P' Q' := by
  cases r with
  | ok s => exact h1 s h
  | throw s e => exact h2 s e h
  | ub => exact h.elim

theorem StepOk.mono {r : Res Sess} {P : Sess → Prop} {Q : Sess → XErr → Prop} (h : StepOk r P Q) {P' : Sess → Prop} {Q' : Sess → XErr → Prop}
    (h1 : ∀ s, P s → P' s) (h2 : ∀ s e, Q s e → Q' s e) : StepOk r P' Q' := by
  cases r with
  | ok s => exact h1 s h
  | throw s e => exact h2 s e h
  | ub => exact h.elim

/-- What a failed mutation leaves. -/
def Failed (D : Decls) (E : TyEnv) (h0 : Heap) (ob : Obj) (t : TypeId) (T : Nat → Bool) (h : Heap) : Prop :=
  Undone E h0 ob t T h ∧ UndoneLog D h0 h

theorem unwind_begin {h0 : Heap} {o : Nat} {ob : Obj} {t : TypeId} (n : Nat) (e : XErr) :
    unwindWith D E orc { Sess.begin h0 o ob t with h := { h0 with tick := n } } e = .throw { h0 with tick := n } e := by
  obtain ⟨s', h1, h2, h3⟩ := rollback_begin (D := D) (E := E) (h0 := h0) (o := o) (ob := ob) (t := t) n
  unfold unwindWith Sess.dtor
  simp only [Bool.false_eq_true, if_false, if_true, h1, Res.bind, h3]

/-- A mutation of a sealed object. -/
theorem withMutation_sealed {h0 : Heap} {o : Nat} {ob : Obj} (ho : h0.obj? o = some ob) (hsl : ob.isSealed = true) (u : Bool) (t : TypeId)
    (steps : List (MStep × Bool)) : withMutation D E orc u h0 o t steps = .throw h0 .isSealed := by
  unfold withMutation
  rw [ho]
  simp only [hsl, if_true]
  exact unwind_begin (D := D) (E := E) (orc := orc) (h0 := h0) (o := o) (ob := ob) (t := t) h0.tick .isSealed

section
variable (hE : EnvOk D E) {h0 : Heap} (hk : HeapOk D E h0) {o : Nat} {ob : Obj} (ho : h0.obj? o = some ob) (hsl : ob.isSealed = false) {t : TypeId}
include hE hk ho hsl

/-- A mutation to another type, given what its steps do. -/
theorem withMutation_of (hty : ob.ty ≠ some t) (hne : E.mixins t ≠ []) (u : Bool) (steps : List (MStep × Bool)) (T : Nat → Bool) (K : (Nat → NewFn) → (Nat → UpdFn) → Prop)
    (hst : ∀ s, SessOk D E h0 o ob t ⟨fun _ => .dflt, fun _ => .noop, T⟩ s → s.alloced = (E.mixins t).length → s.updated = 0 →
      StepOk (msteps D E orc steps s)
        (fun s' => ∃ F G, SessOk D E h0 o ob t ⟨F, G, T⟩ s' ∧ s'.alloced = (E.mixins t).length ∧
          (∀ i, s'.updated ≤ i → i < (E.mixins t).length → F i = .dflt ∧ G i = .noop) ∧ K F G)
        (fun s' _ => ∃ F G, SessOk D E h0 o ob t ⟨F, G, T⟩ s')) :
    HStepOk (withMutation D E orc u h0 o t steps)
      (fun h' => if u then Failed D E h0 ob t T h' else ∃ F G, Completed D E h0 o ob t ⟨F, G, T⟩ h' ∧ K F G)
      (fun h' _ => Failed D E h0 ob t T h') := by
  unfold withMutation
  rw [ho]
  simp only [hsl, Bool.false_eq_true, if_false]
  unfold allocateMixinData
  rw [if_neg (show ¬ (Sess.begin h0 o ob t).oldTy = some (Sess.begin h0 o ob t).ty from hty)]
  by_cases hf : orc.fail h0.tick = true
  · simp only [hf, if_true]
    rw [show h0.ticked = { h0 with tick := h0.tick + 1 } from rfl, unwind_begin]
    exact ⟨(Undone.refl E h0 ob t T).ticked, .same rfl rfl⟩
  · simp only [hf, Bool.false_eq_true, if_false]
    have hstart := start_ok (D := D) (E := E) (o := o) (ob := ob) (t := t) hk ⟨fun _ => .dflt, fun _ => .noop, T⟩
    have hal := allocLoop_ok (orc := orc) hE hk ho (E.mixins t).length _ hstart rfl (by simp [Sess.begin])
    cases hr : allocLoop D E orc (E.mixins t).length
      { Sess.begin h0 o ob t with h := (h0.ticked.allocate (.unified t ob.alloc)).countUp t 1, data := some h0.next } with
    | ub => rw [hr] at hal; exact hal.elim
    | throw s e =>
      rw [hr] at hal
      obtain ⟨h1, -⟩ := hal
      obtain ⟨h', k1, k2, k3⟩ := unwindWith_ok (orc := orc) hE hk hty h1 e
      simp only [k1]; exact ⟨k2, k3⟩
    | ok s =>
      rw [hr] at hal
      obtain ⟨h1, h2, h3⟩ := hal
      simp only
      have := hst s h1 h3 h2
      cases hm : msteps D E orc steps s with
      | ub => rw [hm] at this; exact this.elim
      | throw s' e =>
        rw [hm] at this
        obtain ⟨F, G, h4⟩ := this
        obtain ⟨h', k1, k2, k3⟩ := unwindWith_ok (orc := orc) hE hk hty h4 e
        simp only [Res.bind, k1]; exact ⟨k2, k3⟩
      | ok s' =>
        rw [hm] at this
        obtain ⟨F, G, h4, h5, h6, h7⟩ := this
        simp only [Res.bind]
        cases u with
        | true =>
          obtain ⟨h', k1, k2, k3⟩ := dtor_unwinding_ok (orc := orc) hE hk hty h4
          rw [k1]; exact ⟨k2, k3⟩
        | false =>
          exact (dtor_ok (orc := orc) hE hk ho hty hne h4 h5 h6).mono (fun h' hc => ⟨F, G, hc, h7⟩) (fun h' _ hc => hc)

/-- A mutation to another type with arbitrary steps. -/
theorem withMutation_ok (hty : ob.ty ≠ some t) (hne : E.mixins t ≠ []) (u : Bool) (steps : List (MStep × Bool)) (b : Bool)
    (hst : ∀ st ∈ steps, StepFits D E h0 o ob t b st.1) :
    HStepOk (withMutation D E orc u h0 o t steps)
      (fun h' => if u then Failed D E h0 ob t (fun _ => b) h' else ∃ F G, Completed D E h0 o ob t ⟨F, G, fun _ => b⟩ h')
      (fun h' _ => Failed D E h0 ob t (fun _ => b) h') := by
  refine (withMutation_of (orc := orc) hE hk ho hsl hty hne u steps (fun _ => b) (fun _ _ => True) ?_).mono ?_ (fun _ _ h => h)
  · intro s h1 h2 h3
    refine (going_msteps (orc := orc) hE hk ho hne (b := b) steps s ⟨h2, _, _, h1⟩ hst).mono ?_ ?_
    · rintro s' ⟨h4, F, G, h5⟩
      refine ⟨fun i => if i < s'.updated then F i else .dflt, fun i => if i < s'.updated then G i else .noop, ?_, h4, ?_, trivial⟩
      · exact h5.replan (fun i hi => by simp [hi]) (fun i hi => by simp [hi]) (fun _ h => h)
      · intro i hi _
        have : ¬ i < s'.updated := by omega
        simp [this]
    · rintro s' - ⟨-, F, G, h5⟩; exact ⟨F, G, h5⟩
  · intro h'
    cases u with
    | true => exact id
    | false => rintro ⟨F, G, h1, -⟩; exact ⟨F, G, h1⟩

/-- `perform_object_mutation` to another type. -/
theorem perform_ok (hty : ob.ty ≠ some t) (hne : E.mixins t ≠ []) (u : Bool) {f : NewFn} {g : UpdFn} (hf : NewFnOk D E h0 o ob t f) (hg : UpdFnOk D E h0 o ob t g) :
    HStepOk (perform D E orc u h0 o t f g)
      (fun h' => if u then Failed D E h0 ob t (fun _ => decide (g ≠ .noop)) h' else
        ∃ F G, Completed D E h0 o ob t ⟨F, G, fun _ => decide (g ≠ .noop)⟩ h' ∧ ∀ i, F i = f ∧ G i = g)
      (fun h' _ => Failed D E h0 ob t (fun _ => decide (g ≠ .noop)) h') := by
  unfold perform
  refine (withMutation_of (orc := orc) hE hk ho hsl hty hne u _ (fun _ => decide (g ≠ .noop)) (fun F G => ∀ i, F i = f ∧ G i = g) ?_)
  intro s h1 h2 h3
  have h4 : SessOk D E h0 o ob t ⟨fun _ => f, fun _ => g, fun _ => decide (g ≠ .noop)⟩ s :=
    h1.replan (fun i hi => by omega) (fun i hi => by omega) (fun _ h => h)
  have := updateEach_ok (orc := orc) hE hk ho hne hf hg none s h4 h2 (fun i _ _ _ => ⟨rfl, rfl, fun h => by simp [h]⟩)
  unfold msteps mstep
  refine this.bind ?_ ?_
  · rintro s' ⟨k1, k2, k3⟩
    simp only [Option.getD_none] at k3
    refine ⟨_, _, k1, by omega, fun i hi hi' => ?_, fun _ => ⟨rfl, rfl⟩⟩
    have : s'.updated = (E.mixins t).length := by have := k1.updated; omega
    omega
  · rintro s' e ⟨k1, -⟩
    exact ⟨_, _, k1⟩

/-! ## Mutations to the same type -/

/-- What a mutation to the same type leaves. -/
def Kept (E : TyEnv) (h0 : Heap) (ob : Obj) (t : TypeId) (T : Nat → Bool) (h : Heap) : Prop :=
  Undone E h0 ob t T h ∧ initsOf h.log = initsOf h0.log ∧ destroysOf h.log = destroysOf h0.log

omit hE hk ho hsl in
theorem sameDtor_unwinding {g : Ghost} {s : Sess} (hty : ob.ty = some t) (hs : SameOk E h0 o ob t g s) :
    s.dtor D E orc true = .ok s.h ∧ Kept E h0 ob t g.T s.h := by
  refine ⟨?_, hs.und, hs.inits, hs.destroys⟩
  unfold Sess.dtor rollback
  rw [hs.movedOut, hs.oldTy, hs.ty, hty]; simp

omit hE hk ho hsl in
theorem sameUnwind {g : Ghost} {s : Sess} (hty : ob.ty = some t) (hs : SameOk E h0 o ob t g s) (e : XErr) :
    unwindWith D E orc s e = .throw s.h e ∧ Kept E h0 ob t g.T s.h := by
  obtain ⟨h1, h2⟩ := sameDtor_unwinding (D := D) (orc := orc) hty hs
  exact ⟨by unfold unwindWith; rw [h1]; rfl, h2⟩

omit hsl in
theorem sameDtor {G : Nat → UpdFn} {T : Nat → Bool} {s : Sess} (hty : ob.ty = some t) (hne : E.mixins t ≠ []) (hs : SameOk E h0 o ob t ⟨fun _ => .dflt, G, T⟩ s)
    (hG : ∀ i src, s.updated ≤ i → i < (E.mixins t).length → G i ≠ .assign src) :
    HStepOk (s.dtor D E orc false) (fun h' => Kept E h0 ob t T h' ∧ ∃ s1, SameOk E h0 o ob t ⟨fun _ => .dflt, G, T⟩ s1 ∧ s1.updated = (E.mixins t).length ∧ h' = s1.h) (fun _ _ => False) := by
  have hs' : SameOk E h0 o ob t ⟨fun _ => .dflt, fun i => if i < s.updated then G i else .noop, T⟩ s :=
    hs.replan (fun i hi => .inl (by simp [hi])) (fun _ h => h)
  -- the remaining mixins are not touched: assignments below `updated` stay
  have key : ∀ (n : Nat) (s : Sess), SameOk E h0 o ob t ⟨fun _ => .dflt, G, T⟩ s → s.updated + n = (E.mixins t).length →
      (∀ i src, s.updated ≤ i → i < (E.mixins t).length → G i ≠ .assign src) →
      StepOk (updateLoop D E orc .dflt .noop n s) (fun s' => SameOk E h0 o ob t ⟨fun _ => .dflt, G, T⟩ s' ∧ s'.updated = (E.mixins t).length) (fun _ _ => False) := by
    intro n
    induction n with
    | zero => intro s hs hn _; exact ⟨hs, by simpa using hn⟩
    | succ n ih =>
      intro s hs hn hG
      unfold updateLoop
      have hc : s.complete = false := by
        cases h : s.complete with
        | false => rfl
        | true => have := hs.complete.1 h; omega
      refine (same_updateNext_ok (orc := orc) hE hk ho hty hs hne .dflt (u := .noop) trivial (fun _ src h => absurd h (hG _ src (by omega) (by omega)))).bind ?_ ?_
      · rintro s' ⟨k1, k2⟩
        simp only [if_true] at k1
        rw [hc] at k2
        simp at k2
        exact ih s' k1 (by omega) (fun i src hi => hG i src (by omega))
      · rintro s' e ⟨-, -, -, k⟩; exact k rfl
  have := key ((E.mixins t).length - s.updated) s hs (by have := hs.updated; omega) hG
  unfold Sess.dtor
  rw [hs.movedOut]
  simp only [Bool.false_eq_true, if_false]
  unfold updateEach
  rw [hs.ty]
  simp only [Option.getD_none, Nat.min_self]
  cases hr : updateLoop D E orc .dflt .noop ((E.mixins t).length - s.updated) s with
  | ub => rw [hr] at this; exact this.elim
  | throw s' e => rw [hr] at this; exact this.elim
  | ok s' =>
    rw [hr] at this
    obtain ⟨k1, k2⟩ := this
    have hc : s'.complete = true := k1.complete.2 ⟨by have := List.length_pos_iff.2 hne; omega, k2⟩
    simp only [hc, if_true]
    unfold finalize
    rw [hc, k1.oldTy, k1.ty, hty]
    simp only [Bool.not_true, Bool.false_eq_true, if_false, if_true]
    exact ⟨⟨k1.und, k1.inits, k1.destroys⟩, s', k1, k2, rfl⟩

/-- A mutation to the same type, given what its steps do. -/
theorem withMutation_same_of (hty : ob.ty = some t) (hne : E.mixins t ≠ []) (u : Bool) (steps : List (MStep × Bool)) (T : Nat → Bool) (G0 : Nat → UpdFn) (K : Sess → Prop)
    (hst : ∀ s, SameOk E h0 o ob t ⟨fun _ => .dflt, fun _ => .noop, fun _ => false⟩ s → s.updated = 0 →
      StepOk (msteps D E orc steps s)
        (fun s' => SameOk E h0 o ob t ⟨fun _ => .dflt, G0, T⟩ s' ∧ (∀ i src, s'.updated ≤ i → i < (E.mixins t).length → G0 i ≠ .assign src))
        (fun s' _ => SameOk E h0 o ob t ⟨fun _ => .dflt, fun _ => .noop, T⟩ s')) :
    HStepOk (withMutation D E orc u h0 o t steps)
      (fun h' => Kept E h0 ob t T h' ∧ (u = false → ∃ s1, SameOk E h0 o ob t ⟨fun _ => .dflt, G0, T⟩ s1 ∧ s1.updated = (E.mixins t).length ∧ h' = s1.h))
      (fun h' _ => Kept E h0 ob t T h') := by
  unfold withMutation
  rw [ho]
  simp only [hsl, Bool.false_eq_true, if_false]
  unfold allocateMixinData
  rw [if_pos (show (Sess.begin h0 o ob t).oldTy = some (Sess.begin h0 o ob t).ty from hty)]
  simp only
  have hstart : SameOk E h0 o ob t ⟨fun _ => .dflt, fun _ => .noop, fun _ => false⟩ { Sess.begin h0 o ob t with data := ob.data } := by
    refine ⟨rfl, rfl, rfl, rfl, Undone.refl E h0 ob t _, Nat.zero_le _, ?_, rfl, rfl, ?_⟩
    · simp [Sess.begin]
    · intro j m b i sl src hj; simp [Sess.begin] at hj
  have := hst _ hstart rfl
  cases hm : msteps D E orc steps { Sess.begin h0 o ob t with data := ob.data } with
  | ub => rw [hm] at this; exact this.elim
  | throw s' e =>
    rw [hm] at this
    obtain ⟨h1, h2⟩ := sameUnwind (D := D) (orc := orc) hty this e
    simp only [Res.bind, h1]; exact h2
  | ok s' =>
    rw [hm] at this
    obtain ⟨h4, h5⟩ := this
    simp only [Res.bind]
    cases u with
    | true =>
      obtain ⟨k1, k2⟩ := sameDtor_unwinding (D := D) (orc := orc) hty h4
      rw [k1]; exact ⟨k2, fun h => by simp at h⟩
    | false => exact (sameDtor (orc := orc) hE hk ho hty hne h4 h5).mono (fun h' h => ⟨h.1, fun _ => h.2⟩) (fun _ _ h => h.elim)

theorem withMutation_same_ok (hty : ob.ty = some t) (hne : E.mixins t ≠ []) (u : Bool) (steps : List (MStep × Bool)) (b : Bool)
    (hst : ∀ st ∈ steps, StepFitsSame D E h0 t b st.1) :
    HStepOk (withMutation D E orc u h0 o t steps) (Kept E h0 ob t (fun _ => b)) (fun h' _ => Kept E h0 ob t (fun _ => b) h') := by
  refine (withMutation_same_of (orc := orc) hE hk ho hsl hty hne u steps (fun _ => b) (fun _ => .noop) (fun _ => True) ?_).mono (fun _ h => h.1) (fun _ _ h => h)
  intro s h1 h3
  have hg : GoingSame E h0 o ob t b s := h1.replan (fun _ _ => .inl rfl) (fun _ h => by simp at h)
  exact (goingSame_msteps (orc := orc) hE hk ho hne hty steps s hg hst).mono (fun s' h => ⟨h, fun i src _ _ => by simp⟩) (fun s' _ h => h)

/-- `perform_object_mutation` to the same type. -/
theorem perform_same_ok (hty : ob.ty = some t) (hne : E.mixins t ≠ []) (u : Bool) (f : NewFn) {g : UpdFn} (hg : UpdFnOkSame D E h0 t g) :
    HStepOk (perform D E orc u h0 o t f g)
      (fun h' => Kept E h0 ob t (fun _ => decide (g ≠ .noop)) h' ∧
        (u = false → ∃ s1, SameOk E h0 o ob t ⟨fun _ => .dflt, fun _ => g, fun _ => decide (g ≠ .noop)⟩ s1 ∧ s1.updated = (E.mixins t).length ∧ h' = s1.h))
      (fun h' _ => Kept E h0 ob t (fun _ => decide (g ≠ .noop)) h') := by
  unfold perform
  refine (withMutation_same_of (orc := orc) hE hk ho hsl hty hne u _ (fun _ => decide (g ≠ .noop)) (fun _ => g) (fun _ => True) ?_)
  intro s h1 h3
  have h4 : SameOk E h0 o ob t ⟨fun _ => f, fun _ => g, fun _ => false⟩ s := by
    obtain ⟨a1, a2, a3, a4, a5, a6, a7, a8, a9, a10⟩ := h1
    exact ⟨a1, a2, a3, a4, a5, a6, a7, a8, a9, fun j m b i sl src hj => by omega⟩
  have := same_updateLoop_ok (orc := orc) hE hk ho hty hne f hg (G := fun _ => g) (fun i src h => h) (E.mixins t).length s (fun _ => false) h4 (by omega) (fun _ _ _ _ _ => .inr rfl)
  have hl : ∀ (G : Nat → UpdFn) (T : Nat → Bool) (s' : Sess), SameOk E h0 o ob t ⟨fun _ => f, G, T⟩ s' → SameOk E h0 o ob t ⟨fun _ => .dflt, G, T⟩ s' :=
    fun G T s' h => ⟨h.1, h.2, h.3, h.4, h.5, h.6, h.7, h.8, h.9, h.10⟩
  unfold msteps mstep updateEach
  simp only [Option.getD_none, Nat.min_self, h1.ty, h3, Nat.sub_zero]
  refine this.bind ?_ ?_
  · rintro s' ⟨k1, k2⟩
    refine ⟨(hl _ _ _ k1).replan (fun _ _ => .inl rfl) (fun i h => by simpa using h), fun i src hi => ?_⟩
    omega
  · rintro s' e ⟨k1, -⟩
    exact (hl _ _ _ k1).replan (fun _ _ => .inr (fun _ => by simp)) (fun i h => by simpa using h)

end

end Dnmx
