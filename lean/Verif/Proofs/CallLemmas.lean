import Verif.Spec.Calls
import Verif.Proofs.OperationLemmas

/-!
# What functions of mixins see
-/

set_option linter.unusedSimpArgs false
set_option linter.unusedVariables false
set_option linter.unusedSectionVars false

namespace Dnmx
open Spec

variable {D : Decls} {E : TyEnv} {orc : Orc}

/-- The mixin with mixin data `sl` can be used. -/
def Usable (h : Heap) (m : Mix) (sl : Slot) : Prop := (h.blk sl.loc.1).isSome = true ∧ ∃ v, h.live sl.loc = some (m, v)

/-- A heap in the middle of an operation on object `o` that began with `h0`. -/
structure View (E : TyEnv) (h0 h : Heap) (o : Nat) (still : Nat → Mix → Prop) : Prop where
  objs : h.objs = h0.objs
  slot : ∀ a i, a < h0.next → h.slot a i = h0.slot a i
  data : ∀ o' ob a, h0.obj? o' = some ob → ob.data = some a → (h.blk a).isSome = true
  usable : ∀ o' i m sl, SlotOf E h0 o' i m sl → (Usable h m sl ↔ (o' = o → still i m))

theorem View.slots {h0 h : Heap} (hk : HeapOk D E h0) {o : Nat} {still : Nat → Mix → Prop} (hv : View E h0 h o still) {o' i : Nat} {m : Mix} {sl : Slot} :
    SlotOf E h o' i m sl ↔ SlotOf E h0 o' i m sl := by
  have hobj : ∀ o', h.obj? o' = h0.obj? o' := by intro o'; unfold Heap.obj?; rw [hv.objs]
  unfold SlotOf
  constructor
  · rintro ⟨ob, t, a, h1, h2, h3, h4, h5⟩
    rw [hobj] at h1
    exact ⟨ob, t, a, h1, h2, h3, h4, by rw [← hv.slot a i (data_lt hk h1 h3)]; exact h5⟩
  · rintro ⟨ob, t, a, h1, h2, h3, h4, h5⟩
    exact ⟨ob, t, a, by rw [hobj]; exact h1, h2, h3, h4, by rw [hv.slot a i (data_lt hk h1 h3)]; exact h5⟩

theorem reached_old {h0 : Heap} (hk : HeapOk D E h0) {o i : Nat} {m : Mix} {l : Loc} : ReachedAt E h0 o i m l ↔ ∃ sl, SlotOf E h0 o i m sl ∧ sl.loc = l := by
  constructor
  · rintro ⟨ob, t, a, sl, v, h1, h2, h3, h4, -, h6, h7, -, -⟩
    exact ⟨sl, ⟨ob, t, a, h1, h2, h3, h4, h6⟩, h7⟩
  · rintro ⟨sl, hs, rfl⟩
    obtain ⟨ob, t, a, v, h1, h2, h3, h4, h5, -, h7, -, h9⟩ := hs.facts hk
    obtain ⟨b, hb⟩ := hs.allocated hk
    exact ⟨ob, t, a, sl, v, h1, h2, h3, h4, by rw [h9]; rfl, h5, rfl, by rw [hb]; rfl, h7⟩

theorem View.sees {h0 h : Heap} (hk : HeapOk D E h0) {o : Nat} {still : Nat → Mix → Prop} (hv : View E h0 h o still) : Sees E h0 h o still := by
  have hobj : ∀ o', h.obj? o' = h0.obj? o' := by intro o'; unfold Heap.obj?; rw [hv.objs]
  refine ⟨hobj, ?_⟩
  intro o' i m l
  rw [reached_old hk]
  constructor
  · rintro ⟨ob, t, a, sl, v, h1, h2, h3, h4, h5, h6, rfl, h8, h9⟩
    have hs := (hv.slots hk).1 ⟨ob, t, a, h1, h2, h3, h4, h6⟩
    exact ⟨⟨sl, hs, rfl⟩, (hv.usable o' i m sl hs).1 ⟨h8, v, h9⟩⟩
  · rintro ⟨⟨sl, hs, rfl⟩, hst⟩
    obtain ⟨h8, v, h9⟩ := (hv.usable o' i m sl hs).2 hst
    have hs' := (hv.slots hk).2 hs
    obtain ⟨ob, t, a, h1, h2, h3, h4, h5⟩ := hs'
    exact ⟨ob, t, a, sl, v, h1, h2, h3, h4, hv.data o' ob a (by rw [← hobj]; exact h1) h3, h5, rfl, h8, h9⟩

/-- A view at the start of an operation. -/
theorem View.start {h0 : Heap} (hk : HeapOk D E h0) (o : Nat) (still : Nat → Mix → Prop) (hst : ∀ i m sl, SlotOf E h0 o i m sl → still i m) :
    View E h0 h0 o still := by
  refine ⟨rfl, fun _ _ _ => rfl, ?_, ?_⟩
  · intro o' ob a h1 h2
    obtain ⟨t, h3⟩ := data_blk hk h1 h2
    rw [h3]; rfl
  · intro o' i m sl hs
    obtain ⟨ob, t, a, v, h1, h2, h3, h4, h5, -, h7, -, -⟩ := hs.facts hk
    obtain ⟨b, hb⟩ := hs.allocated hk
    exact ⟨fun _ ho => hst i m sl (ho ▸ hs), fun _ => ⟨by rw [hb]; rfl, v, h7⟩⟩

/-- Changes elsewhere and changes of values. -/
theorem View.alter {h0 h h2 : Heap} (hk : HeapOk D E h0) {o : Nat} {still : Nat → Mix → Prop} (hv : View E h0 h o still) (h1 : h2.objs = h.objs)
    (h3 : ∀ a i, a < h0.next → h2.slot a i = h.slot a i) (h4 : ∀ a, a < h0.next → (h2.blk a).isSome = (h.blk a).isSome)
    (h5 : ∀ l : Loc, l.1 < h0.next → (h2.live l).map Prod.fst = (h.live l).map Prod.fst) : View E h0 h2 o still := by
  refine ⟨by rw [h1, hv.objs], fun a i ha => by rw [h3 a i ha, hv.slot a i ha], ?_, ?_⟩
  · intro o' ob a k1 k2
    rw [h4 a (data_lt hk k1 k2)]
    exact hv.data o' ob a k1 k2
  · intro o' i m sl hs
    rw [← hv.usable o' i m sl hs]
    have hlt := slot_lt hk hs
    unfold Usable
    rw [h4 _ hlt]
    have := h5 sl.loc hlt
    constructor
    · rintro ⟨k1, v, k2⟩
      rw [k2] at this
      obtain ⟨⟨m', v'⟩, e1, e2⟩ := Option.map_eq_some_iff.1 this.symm
      simp at e2; subst e2
      exact ⟨k1, v', e1⟩
    · rintro ⟨k1, v, k2⟩
      rw [k2] at this
      obtain ⟨⟨m', v'⟩, e1, e2⟩ := Option.map_eq_some_iff.1 this
      simp at e2; subst e2
      exact ⟨k1, v', e1⟩

/-- The end of mixin number `k`. -/
theorem View.kill (hE : EnvOk D E) {h0 h h2 : Heap} (hk : HeapOk D E h0) {o : Nat} {still still' : Nat → Mix → Prop} (hv : View E h0 h o still)
    {k : Nat} {mk : Mix} {sk : Slot} (hsk : SlotOf E h0 o k mk sk) (h1 : h2.objs = h.objs) (h3 : h2.slot = h.slot) (h4 : h2.blk = h.blk)
    (h5 : ∀ l, l ≠ sk.loc → h2.live l = h.live l) (h6 : h2.live sk.loc = none)
    (h7 : ∀ i m, still' i m ↔ still i m ∧ i ≠ k) : View E h0 h2 o still' := by
  refine ⟨by rw [h1, hv.objs], fun a i ha => by rw [h3, hv.slot a i ha], fun o' ob a k1 k2 => by rw [h4]; exact hv.data o' ob a k1 k2, ?_⟩
  intro o' i m sl hs
  by_cases hl : sl.loc = sk.loc
  · obtain ⟨rfl, rfl, rfl⟩ := hs.same hE hk hsk hl
    unfold Usable
    rw [hl, h6]
    simp only [reduceCtorEq, exists_false, and_false, false_iff, h7]
    intro hx; exact (hx trivial).2 rfl
  · have := hv.usable o' i m sl hs
    unfold Usable at this ⊢
    rw [h4, h5 _ hl, this]
    constructor
    · intro hx ho
      subst ho
      refine (h7 i m).2 ⟨hx rfl, ?_⟩
      rintro rfl
      obtain ⟨ob, t, a, k1, k2, k3, k4, k5⟩ := hs
      obtain ⟨ob', t', a', j1, j2, j3, j4, j5⟩ := hsk
      rw [k1] at j1; simp at j1; subst j1
      rw [k3] at j3; simp at j3; subst j3
      rw [k5] at j5; simp at j5; subst j5
      exact hl rfl
    · intro hx ho; exact ((h7 i m).1 (hx ho)).1

/-! ## Destruction of all mixins -/

/-- Facts about a call in an operation on object `o`. -/
def CallHere (h0 : Heap) (o : Nat) (P : MixinCall → Heap → Prop) (x : MixinCall × Heap) : Prop := x.2.owner x.1.this = some o ∧ P x.1 x.2

theorem callsClear_loop (hE : EnvOk D E) {h0 : Heap} (hk : HeapOk D E h0) {o : Nat} {ob : Obj} (ho : h0.obj? o = some ob) {t : TypeId} {a : Nat}
    (ht : ob.ty = some t) (hd : ob.data = some a) {s : Sess} (e1 : s.data = some a) (e2 : s.ty = t) (e3 : s.oldData = none) :
    ∀ (n : Nat) (h : Heap), n ≤ (E.mixins t).length → View E h0 h o (fun i _ => i < n) → h.blk = h0.blk → h.slot = h0.slot → h.owner = h0.owner →
    ∀ x ∈ callsDestroy D E s n h, CallHere h0 o (InClear E h0 o) x
  | 0, h, _, _, _, _, _ => by simp [callsDestroy]
  | n + 1, h, hn, hv, hb, hsl, how => by
    obtain ⟨m, hm⟩ := mixin_at (l := E.mixins t) (i := n) (by omega)
    have ho' : s.oldIndex E m = none := by unfold Sess.oldIndex; rw [e3]
    have hob := hk.objs o ob ho
    unfold ObjOk at hob
    rw [hd] at hob
    obtain ⟨t', p1, -, p2, p3⟩ := hob
    rw [ht] at p1; simp at p1; subst p1
    obtain ⟨sl, v0, q1, q2, q3, q4⟩ := p3 n m hm
    have hso : SlotOf E h0 o n m sl := ⟨ob, t, a, ho, ht, hd, hm, q1⟩
    obtain ⟨hu1, v, hu2⟩ := (hv.usable o n m sl hso).2 (fun _ => Nat.lt_succ_self n)
    obtain ⟨g, k1, k2⟩ := destroy_spec (D := D) hu2 hu1
    have hslot : h.slot? a n = some sl := by rw [slot?_of (b := .unified t ob.alloc) (by rw [hb]; exact p2), hsl]; exact q1
    unfold callsDestroy
    simp only [e1, e2, hm, ho', hslot, k1]
    intro x hx
    rw [List.mem_append] at hx
    rcases hx with hx | hx
    · split at hx
      · simp at hx; subst hx
        refine ⟨by rw [how]; exact q4, n, m, sl.loc, (reached_old hk).2 ⟨sl, hso, rfl⟩, rfl, ?_⟩
        have := hv.sees hk
        refine ⟨this.objs, fun o' i m l => ?_⟩
        rw [this.mixins]; simp only [Nat.lt_succ_iff]
      · simp at hx
    · refine callsClear_loop hE hk ho ht hd e1 e2 e3 n { h with live := (h.setLive sl.loc none).live, log := h.log ++ g } (by omega) ?_ hb hsl how x hx
      refine hv.kill hE hk hso rfl rfl rfl ?_ ?_ ?_
      · intro l hl; simp [Heap.setLive, hl]
      · simp [Heap.setLive]
      · intro i m; omega

theorem callsClear_ok (hE : EnvOk D E) {h0 : Heap} (hk : HeapOk D E h0) {o : Nat} : ∀ x ∈ callsClear D E h0 o, CallHere h0 o (InClear E h0 o) x := by
  unfold callsClear
  cases ho : h0.obj? o with
  | none => simp
  | some ob =>
    simp only
    cases hd : ob.data with
    | none => simp
    | some a =>
      cases ht : ob.ty with
      | none => simp
      | some t =>
        simp only
        unfold callsRollback
        simp only [reduceCtorEq, if_false]
        refine callsClear_loop hE hk ho ht hd rfl rfl rfl _ _ (Nat.le_refl _) (View.start hk o _ ?_) rfl rfl rfl
        rintro i m sl ⟨ob', t', a', h1, h2, h3, h4, h5⟩
        rw [ho] at h1; simp at h1; subst h1
        rw [ht] at h2; simp at h2; subst h2
        exact lt_of_at h4

theorem callsClear_nil {h : Heap} {o : Nat} {ob : Obj} (ho : h.obj? o = some ob) (hd : ob.data = none) : callsClear D E h o = [] := by
  unfold callsClear; rw [ho]; simp [hd]

/-! ## Mutations -/

section
variable (hE : EnvOk D E) {h0 : Heap} (hk : HeapOk D E h0) {o : Nat} {ob : Obj} (ho : h0.obj? o = some ob) {t : TypeId}
include hE hk ho

theorem sess_view {g : Ghost} {s : Sess} (hs : SessOk D E h0 o ob t g s) : View E h0 s.h o (fun _ _ => True) := by
  refine ⟨hs.objs, hs.slotOld, ?_, ?_⟩
  · intro o' ob' a h1 h2
    rw [hs.blkOld a (data_lt hk h1 h2)]
    obtain ⟨t', h3⟩ := data_blk hk h1 h2
    rw [h3]; rfl
  · intro o' i m sl hsl
    refine ⟨fun _ _ => trivial, fun _ => ?_⟩
    have hlt := slot_lt hk hsl
    obtain ⟨ob', t', a, v, h1, h2, h3, h4, h5, -, h7, -, -⟩ := hsl.facts hk
    obtain ⟨b, hb⟩ := hsl.allocated hk
    refine ⟨by rw [hs.blkOld _ hlt, hb]; rfl, ?_⟩
    rcases hs.liveOld sl.loc hlt with hx | ⟨j, m', b', i', sl', v', -, k1, k2, k3, k4, k5⟩
    · exact ⟨v, by rw [hx]; exact h7⟩
    · obtain ⟨sl2, k6, k7, -⟩ := common_slot hE hk ho (mem_of_at k1) k2
      rw [k3] at k7; simp at k7; subst k7
      obtain ⟨-, -, rfl⟩ := k6.same hE hk hsl k4
      exact ⟨v', k5⟩

theorem fresh_blk {l : Loc} (hl : h0.next ≤ l.1) : h0.blk l.1 = none := by
  cases hx : h0.blk l.1 with
  | none => rfl
  | some b => have := hk.fresh _ _ hx; omega

theorem callsNext_ok {b : Bool} {s : Sess} (hs : Going D E h0 o ob t b s) (f : NewFn) :
    ∀ x ∈ callsNext D E f s, CallHere h0 o (InMutation D E h0 o t) x := by
  obtain ⟨hal, F, G, hs⟩ := hs
  unfold callsNext
  intro x hx
  by_cases hc : s.complete = true
  · simp [hc] at hx
  · simp only [hc, Bool.false_eq_true, if_false, hs.ty] at hx
    cases hm : (E.mixins t)[s.updated]? with
    | none => rw [hm] at hx; simp at hx
    | some m =>
      simp only [hm, hs.oldIndex] at hx
      cases hi : mixinIndex E ob m with
      | some y => simp [hi] at hx
      | none =>
        obtain ⟨sl, k1, k2, ⟨bb, k3⟩, k4, -⟩ := new_place hs (by have := lt_of_at hm; omega) hm hi
        simp only [hi, hs.data, slot?_of hs.blkA, k1] at hx
        split at hx
        · simp at hx; subst hx
          exact ⟨k4, .inl ⟨m, sl.loc, .inl rfl, fresh_blk hE hk ho k2, (sess_view hE hk ho hs).sees hk⟩⟩
        · simp at hx

theorem callsLoop_ok (hne : E.mixins t ≠ []) {b : Bool} {f : NewFn} {u : UpdFn} (hf : NewFnOk D E h0 o ob t f) (hu : UpdFnOk D E h0 o ob t u) (hb : u ≠ .noop → b = true) :
    ∀ (n : Nat) (s : Sess), Going D E h0 o ob t b s → ∀ x ∈ callsLoop D E orc f u n s, CallHere h0 o (InMutation D E h0 o t) x
  | 0, s, _ => by simp [callsLoop]
  | n + 1, s, hs => by
    intro x hx
    unfold callsLoop at hx
    rw [List.mem_append] at hx
    rcases hx with hx | hx
    · exact callsNext_ok hE hk ho hs f x hx
    · have := going_next (orc := orc) hE hk ho hne hs hf hu hb
      cases hr : updateNext D E orc f u s with
      | ok s' =>
        rw [hr] at this hx
        exact callsLoop_ok hne hf hu hb n s' this.1 x hx
      | throw s' e => rw [hr] at hx; simp at hx
      | ub => rw [hr] at hx; simp at hx

theorem callsEach_ok (hne : E.mixins t ≠ []) {b : Bool} {f : NewFn} {u : UpdFn} (hf : NewFnOk D E h0 o ob t f) (hu : UpdFnOk D E h0 o ob t u) (hb : u ≠ .noop → b = true)
    (upto : Option Nat) (s : Sess) (hs : Going D E h0 o ob t b s) : ∀ x ∈ callsEach D E orc f u upto s, CallHere h0 o (InMutation D E h0 o t) x :=
  callsLoop_ok hE hk ho hne hf hu hb _ s hs

theorem callsStep_ok (hne : E.mixins t ≠ []) {b : Bool} {s : Sess} (hs : Going D E h0 o ob t b s) {st : MStep} (hst : StepFits D E h0 o ob t b st) :
    ∀ x ∈ callsStep D E orc s st, CallHere h0 o (InMutation D E h0 o t) x := by
  cases st with
  | next f u => exact callsNext_ok hE hk ho hs f
  | each f u upto => exact callsEach_ok hE hk ho hne (hst.new f rfl) (hst.upd u rfl) (hst.touch u rfl) upto s hs
  | «at» i f u =>
    intro x hx
    simp only [callsStep, callsAt] at hx
    by_cases hc : i < s.updated ∨ i > (E.mixins s.ty).length
    · rw [if_pos hc] at hx; simp at hx
    · rw [if_neg hc, List.mem_append] at hx
      rcases hx with hx | hx
      · exact callsEach_ok hE hk ho hne (f := .dflt) (u := .noop) trivial trivial (fun h => absurd rfl h) _ s hs x hx
      · have := going_each (orc := orc) hE hk ho hne hs (f := .dflt) (u := .noop) trivial trivial (fun h => absurd rfl h) (some i)
        cases hr : updateEach D E orc .dflt .noop (some i) s with
        | ok s' => rw [hr] at this hx; exact callsNext_ok hE hk ho this.1 f x hx
        | throw s' e => rw [hr] at hx; simp at hx
        | ub => rw [hr] at hx; simp at hx
  | finalize => have := hst.plain; simp [MStep.plain] at this
  | rollback => have := hst.plain; simp [MStep.plain] at this
  | throw => intro x hx; simp [callsStep] at hx

theorem callsSteps_ok (hne : E.mixins t ≠ []) {b : Bool} : ∀ (steps : List (MStep × Bool)) (s : Sess), Going D E h0 o ob t b s → (∀ st ∈ steps, StepFits D E h0 o ob t b st.1) →
    ∀ x ∈ callsSteps D E orc steps s, CallHere h0 o (InMutation D E h0 o t) x
  | [], s, _, _ => by simp [callsSteps]
  | (st, caught) :: rest, s, hs, hst => by
    intro x hx
    unfold callsSteps at hx
    rw [List.mem_append] at hx
    rcases hx with hx | hx
    · exact callsStep_ok hE hk ho hne hs (hst (st, caught) (by simp)) x hx
    · have := going_mstep (orc := orc) hE hk ho hne hs (hst (st, caught) (by simp))
      cases hr : mstep D E orc s st with
      | ok s' =>
        rw [hr] at this hx
        exact callsSteps_ok hne rest s' this (fun y hy => hst y (by simp [hy])) x hx
      | throw s' e =>
        rw [hr] at this hx
        cases caught with
        | true => exact callsSteps_ok hne rest s' this (fun y hy => hst y (by simp [hy])) x hx
        | false => simp at hx
      | ub => rw [hr] at hx; simp at hx

/-- Undoing a mutation. -/
theorem callsUndo_ok {g : Ghost} {s : Sess} (hs : SessOk D E h0 o ob t g s) : ∀ (n : Nat) (h : Heap), n ≤ s.updated → View E h0 h o (fun _ _ => True) →
    h.blk = s.h.blk → h.slot = s.h.slot → h.owner = s.h.owner → ∀ x ∈ callsDestroy D E s n h, CallHere h0 o (InMutation D E h0 o t) x
  | 0, h, _, _, _, _, _ => by simp [callsDestroy]
  | n + 1, h, hn, hv, hb, hsl, how => by
    intro x hx
    unfold callsDestroy at hx
    rw [hs.data, hs.ty] at hx
    cases hm : (E.mixins t)[n]? with
    | none => rw [hm] at hx; simp at hx
    | some m =>
      simp only [hm, hs.oldIndex] at hx
      cases hi : mixinIndex E ob m with
      | some y => simp only [hi] at hx; exact callsUndo_ok hs n h (by omega) hv hb hsl how x hx
      | none =>
        obtain ⟨sl, k1, k2, ⟨bb, k3⟩, k4, -⟩ := new_place hs (by have := hs.updated; omega) hm hi
        simp only [hi, slot?_of (h := h) (by rw [hb]; exact hs.blkA), hsl, k1] at hx
        rw [List.mem_append] at hx
        rcases hx with hx | hx
        · split at hx
          · simp at hx; subst hx
            exact ⟨by rw [how]; exact k4, .inl ⟨m, sl.loc, .inr rfl, fresh_blk hE hk ho k2, hv.sees hk⟩⟩
          · simp at hx
        · cases hd : h.destroy D sl.loc m with
          | none => rw [hd] at hx; simp at hx
          | some h' =>
            rw [hd] at hx
            have hfr : h'.objs = h.objs ∧ h'.blk = h.blk ∧ h'.slot = h.slot ∧ h'.owner = h.owner ∧ ∀ l, l ≠ sl.loc → h'.live l = h.live l := by
              unfold Heap.destroy at hd
              split at hd
              · split at hd
                · simp at hd; subst hd
                  split <;> exact ⟨rfl, rfl, rfl, rfl, fun l hl => by simp [Heap.setLive, hl]⟩
                · simp at hd
              · simp at hd
            obtain ⟨f1, f2, f3, f4, f5⟩ := hfr
            refine callsUndo_ok hs n h' (by omega) ?_ (by rw [f2, hb]) (by rw [f3, hsl]) (by rw [f4, how]) x hx
            refine hv.alter hk f1 (fun a i _ => by rw [f3]) (fun a _ => by rw [f2]) ?_
            intro l hl
            rw [f5 l (by rintro rfl; omega)]

theorem callsRollback_ok {g : Ghost} {s : Sess} (hs : SessOk D E h0 o ob t g s) : ∀ x ∈ callsRollback D E s, CallHere h0 o (InMutation D E h0 o t) x := by
  unfold callsRollback
  split
  · simp
  · exact callsUndo_ok hE hk ho hs _ _ (Nat.le_refl _) (sess_view hE hk ho hs) rfl rfl rfl

end

/-! ## The end of mutations -/

/-- What can be used when it is the turn of mixin `k`. -/
def StillFin (D : Decls) (E : TyEnv) (t : TypeId) (k : Nat) (i : Nat) (m : Mix) : Prop := k ≤ i ∨ ((D.mix m).external = true ∧ m ∈ E.mixins t)

section
variable (hE : EnvOk D E) {h0 : Heap} (hk : HeapOk D E h0) {o : Nat} {ob : Obj} (ho : h0.obj? o = some ob) {t told : TypeId} {g : Ghost} {s : Sess}
  (hs : SessOk D E h0 o ob t g s) {b : Nat} (hb : ob.data = some b) (ht : ob.ty = some told) (hal : s.alloced = (E.mixins t).length)
include hE hk ho hs hb ht hal

theorem fin_view {k : Nat} {h : Heap} (hf : FinUpto D E h0 o told t b s.h k h) : View E h0 h o (StillFin D E t k) := by
  have hv := sess_view hE hk ho hs
  -- blocks of objects that are kept
  have hblk : ∀ a, (∀ j m sl, j < k → SlotOf E h0 o j m sl → E.indexOf t m = none → sl.buf ≠ some a) → h.blk a = s.h.blk a := fun a ha => hf.blkKeep a ha
  have hdata : ∀ o' ob' a, h0.obj? o' = some ob' → ob'.data = some a → h.blk a = s.h.blk a := by
    intro o' ob' a h1 h2
    refine hblk a ?_
    intro j m sl _ hsl _ hbuf
    obtain ⟨_, _, _, _, _, _, _, _, _, k6, _, _, _⟩ := hsl.facts hk
    have := (k6.buf_loc hbuf).2.1
    obtain ⟨t', h3⟩ := data_blk hk h1 h2
    rw [h3] at this; simp [provenance] at this
  refine ⟨by rw [hf.objs, hv.objs], fun a i ha => by rw [hf.slot, hv.slot a i ha], ?_, ?_⟩
  · intro o' ob' a h1 h2
    rw [hdata o' ob' a h1 h2]
    exact hv.data o' ob' a h1 h2
  · intro o' i m sl hsl
    have hlt := slot_lt hk hsl
    obtain ⟨hu1, v, hu2⟩ := (hv.usable o' i m sl hsl).2 (fun _ => trivial)
    by_cases hdead : o' = o ∧ i < k ∧ (sl.buf = none ∨ E.indexOf t m = none)
    · obtain ⟨rfl, hik, hx⟩ := hdead
      have hl := hf.dead i m sl hik hsl hx
      unfold Usable
      rw [hl]
      simp only [reduceCtorEq, exists_false, and_false, false_iff]
      intro hst
      rcases hst trivial with h1 | ⟨h1, h2⟩
      · omega
      · obtain ⟨ob', t', a, v', k1, k2, k3, k4, k5, k6, k7, k8, k9⟩ := hsl.facts hk
        rcases hx with hx | hx
        · have := (k6.nobuf_loc hx).2
          rw [hE.internal t' i m k4, h1] at this; simp at this
        · obtain ⟨j, hj⟩ := List.mem_iff_getElem?.1 h2
          rw [(hE.index t t m j h2).2 hj] at hx; simp at hx
    · have hlive : h.live sl.loc = s.h.live sl.loc := by
        apply hf.keep
        · intro j m' sl' hj hsl' hx heq
          obtain ⟨rfl, rfl, rfl⟩ := hsl'.same hE hk hsl heq
          have : sl' = sl := by
            obtain ⟨_, _, _, _, _, _, _, _, c5, _⟩ := hsl.facts hk
            obtain ⟨ob1, t1, a1, p1, p2, p3, p4, p5⟩ := hsl
            obtain ⟨ob2, t2, a2, q1, q2, q3, q4, q5⟩ := hsl'
            rw [p1] at q1; simp at q1; subst q1
            rw [p3] at q3; simp at q3; subst q3
            rw [p5] at q5; simpa using q5.symm
          subst this
          exact hdead ⟨rfl, hj, hx⟩
        · intro j i' m' sl' _ _ _ _ heq
          rw [heq] at hlt; simp at hlt
      have hbl : h.blk sl.loc.1 = s.h.blk sl.loc.1 := by
        obtain ⟨ob', t', a, v', k1, k2, k3, k4, k5, k6, k7, k8, k9⟩ := hsl.facts hk
        rcases k6.blk_loc with ⟨-, c2, -⟩ | ⟨-, c2, c3⟩
        · rw [c2]; exact hdata o' ob' a k1 k3
        · apply hblk
          intro j m' sl' hj hsl' hx hbuf
          obtain ⟨_, _, _, _, _, _, _, _, _, d6, _, _, _⟩ := hsl'.facts hk
          have e1 := (d6.buf_loc hbuf).1
          have e2 := (k6.buf_loc c2).1
          have heq : sl'.loc = sl.loc := by rw [e1, e2]
          obtain ⟨rfl, rfl, rfl⟩ := hsl'.same hE hk hsl heq
          exact hdead ⟨rfl, hj, .inr hx⟩
      unfold Usable
      rw [hlive, hbl]
      refine ⟨fun _ hoo => ?_, fun _ => ⟨hu1, v, hu2⟩⟩
      unfold StillFin
      by_cases hik : k ≤ i
      · exact .inl hik
      · right
        have hx : ¬ (sl.buf = none ∨ E.indexOf t m = none) := fun hx => hdead ⟨hoo, by omega, hx⟩
        obtain ⟨ob', t', a, v', k1, k2, k3, k4, k5, k6, k7, k8, k9⟩ := hsl.facts hk
        refine ⟨?_, ?_⟩
        · rcases k6.blk_loc with ⟨-, -, c3⟩ | ⟨c1, -, -⟩
          · exact absurd (.inl c3) hx
          · rw [hE.internal t' i m k4] at c1; simpa using c1
        · cases hi : E.indexOf t m with
          | none => exact absurd (.inr hi) hx
          | some j => exact mem_of_at ((hE.index t t' m j (mem_of_at k4)).1 hi)

theorem callsFinalizeOne_ok {k : Nat} {h : Heap} (hf : FinUpto D E h0 o told t b s.h k h) {m : Mix} (hm : (E.mixins told)[k]? = some m) :
    ∀ x ∈ callsFinalizeOne D E orc s b h0.next k m h, CallHere h0 o (InMutation D E h0 o t) x := by
  have hv := fin_view hE hk ho hs hb ht hal hf
  have hob := hk.objs o ob ho
  unfold ObjOk at hob
  rw [hb] at hob
  obtain ⟨t', p1, -, p2, p3⟩ := hob
  rw [ht] at p1; simp at p1; subst p1
  obtain ⟨sl, v0, q1, q2, q3, q4⟩ := p3 k m hm
  have hso : SlotOf E h0 o k m sl := ⟨ob, told, b, ho, ht, hb, hm, q1⟩
  have hlt := slot_lt hk hso
  have hblt := data_lt hk ho hb
  obtain ⟨hu1, v, hu2⟩ := (hv.usable o k m sl hso).2 (fun _ => .inl (Nat.le_refl _))
  have hslot : h.slot? b k = some sl := by
    unfold Heap.slot?
    rw [if_pos (hv.data o ob b ho hb), hv.slot b k hblt]; exact q1
  have hown : h.owner sl.loc = some o := by rw [hf.owner, hs.ownerOld _ hlt]; exact q4
  have hre : ReachedAt E h0 o k m sl.loc := (reached_old hk).2 ⟨sl, hso, rfl⟩
  intro x hx
  unfold callsFinalizeOne at hx
  simp only [hslot, hs.ty] at hx
  cases hi : E.indexOf t m with
  | none =>
    simp only [hi] at hx
    split at hx
    · simp at hx; subst hx
      exact ⟨hown, .inr ⟨k, m, sl.loc, hre, .inl rfl, hv.sees hk⟩⟩
    · simp at hx
  | some ti =>
    simp only [hi] at hx
    cases hbuf : sl.buf with
    | some e => simp [hbuf] at hx
    | none =>
      have hti := (hE.index t told m ti (mem_of_at hm)).1 hi
      have hint : E.internal t ti = true := by
        have := (q2.nobuf_loc hbuf).2
        rw [hE.internal told k m hm] at this
        rw [hE.internal t ti m hti]; exact this
      obtain ⟨new, n1, n2⟩ := hs.slots ti m (by have := lt_of_at hti; omega) hti
      unfold SessSlot at n2
      rw [if_pos hint] at n2
      obtain ⟨rfl, n3⟩ := n2
      have hslA : h.slot? h0.next ti = some ⟨none, (h0.next, ti)⟩ ∨ h.slot? h0.next ti = none := by
        unfold Heap.slot?
        split
        · left; rw [hf.slot]; exact n1
        · right; rfl
      rcases hslA with hslA | hslA
      · simp only [hbuf, hslA, hu2] at hx
        rw [List.mem_cons] at hx
        rcases hx with rfl | hx
        · refine ⟨?_, .inr ⟨k, m, sl.loc, hre, .inr ⟨(h0.next, ti), fresh_blk hE hk ho (Nat.le_refl _), rfl⟩, hv.sees hk⟩⟩
          show h.owner (h0.next, ti) = some o
          rw [hf.owner]; exact n3
        · cases hc : h.construct (h0.next, ti) m v (.moved sl.loc) with
          | none => rw [hc] at hx; simp at hx
          | some h' =>
            rw [hc] at hx
            simp only at hx
            split at hx
            · simp at hx; subst hx
              unfold Heap.construct at hc
              split at hc
              · simp at hc; subst hc
                refine ⟨hown, .inr ⟨k, m, sl.loc, hre, .inl rfl, ?_⟩⟩
                refine View.sees hk (hv.alter hk rfl (fun _ _ _ => rfl) (fun _ _ => rfl) ?_)
                intro l hl
                simp only [Heap.setLive]
                split
                · rename_i hx; subst hx; rw [hu2]; rfl
                · rw [if_neg (by rintro rfl; simp at hl)]
              · simp at hc
            · simp at hx
      · simp [hbuf, hslA] at hx

theorem callsFinalizeLoop_ok : ∀ (ms : List Mix) (k : Nat) (h : Heap), k ≤ (E.mixins told).length → (E.mixins told).drop k = ms → FinUpto D E h0 o told t b s.h k h →
    ∀ x ∈ callsFinalizeLoop D E orc s b h0.next k ms h, CallHere h0 o (InMutation D E h0 o t) x
  | [], k, h, _, _, _ => by simp [callsFinalizeLoop]
  | m :: ms, k, h, hle, hd, hf => by
    have hm : (E.mixins told)[k]? = some m := by
      have := congrArg (fun l => l[0]?) hd
      simpa using this
    have hd' : (E.mixins told).drop (k + 1) = ms := by
      rw [← List.drop_drop, hd]; rfl
    intro x hx
    unfold callsFinalizeLoop at hx
    rw [List.mem_append] at hx
    rcases hx with hx | hx
    · exact callsFinalizeOne_ok (orc := orc) hE hk ho hs hb ht hal hf hm x hx
    · obtain ⟨h', k1, k2⟩ := finalizeOne_ok (orc := orc) hE hk ho hs hb ht hal hf hm
      rw [k1] at hx
      exact callsFinalizeLoop_ok ms (k + 1) h' (lt_of_at hm) hd' k2 x hx

end

theorem finUpto_zero {h0 : Heap} {o : Nat} {told t : TypeId} {b : Nat} {h1 : Heap} : FinUpto D E h0 o told t b h1 0 h1 := by
  constructor <;> first | rfl | (intros; omega) | (intros; rfl) | (simp [finDestroys])

theorem callsFinalize_ok (hE : EnvOk D E) {h0 : Heap} (hk : HeapOk D E h0) {o : Nat} {ob : Obj} (ho : h0.obj? o = some ob) {t : TypeId} {g : Ghost} {s : Sess}
    (hs : SessOk D E h0 o ob t g s) (hal : s.alloced = (E.mixins t).length) : ∀ x ∈ callsFinalize D E orc s, CallHere h0 o (InMutation D E h0 o t) x := by
  intro x hx
  unfold callsFinalize at hx
  split at hx
  · simp at hx
  · split at hx
    · simp at hx
    · cases hb : ob.data with
      | none => rw [hs.oldData, hb] at hx; simp at hx
      | some b =>
        cases ht : ob.ty with
        | none => rw [hs.oldData, hb, hs.oldTy, ht] at hx; simp at hx
        | some told =>
          rw [hs.oldData, hb, hs.oldTy, ht, hs.data] at hx
          exact callsFinalizeLoop_ok (orc := orc) hE hk ho hs hb ht hal _ 0 s.h (Nat.zero_le _) rfl finUpto_zero x hx

section
variable (hE : EnvOk D E) {h0 : Heap} (hk : HeapOk D E h0) {o : Nat} {ob : Obj} (ho : h0.obj? o = some ob) {t : TypeId}
include hE hk ho

theorem callsDtor_ok (hne : E.mixins t ≠ []) (u : Bool) {b : Bool} {s : Sess} (hs : Going D E h0 o ob t b s) :
    ∀ x ∈ callsDtor D E orc u s, CallHere h0 o (InMutation D E h0 o t) x := by
  have hs' := hs
  obtain ⟨hal, F, G, hs1⟩ := hs'
  intro x hx
  unfold callsDtor at hx
  rw [hs1.movedOut] at hx
  cases u with
  | true => simp only [Bool.false_eq_true, if_false, if_true] at hx; exact callsRollback_ok hE hk ho hs1 x hx
  | false =>
    simp only [Bool.false_eq_true, if_false] at hx
    rw [List.mem_append] at hx
    rcases hx with hx | hx
    · exact callsEach_ok hE hk ho hne (f := .dflt) (u := .noop) trivial trivial (fun h => absurd rfl h) _ s hs x hx
    · have := going_each (orc := orc) hE hk ho hne hs (f := .dflt) (u := .noop) trivial trivial (fun h => absurd rfl h) none
      cases hr : updateEach D E orc .dflt .noop none s with
      | ub => rw [hr] at hx; simp at hx
      | throw s' e =>
        rw [hr] at hx this
        obtain ⟨-, F', G', h2⟩ := this
        exact callsRollback_ok hE hk ho h2 x hx
      | ok s' =>
        rw [hr] at hx this
        obtain ⟨⟨h1, F', G', h2⟩, h3⟩ := this
        simp only at hx
        by_cases hc : s'.complete = true
        · rw [if_pos hc] at hx
          exact callsFinalize_ok (orc := orc) hE hk ho h2 h1 x hx
        · rw [if_neg hc] at hx
          unfold callsFinalize at hx
          simp [hc] at hx

/-- Mutations to another type. -/
theorem callsMutation_ok (hty : ob.ty ≠ some t) (hne : E.mixins t ≠ []) (u : Bool) (steps : List (MStep × Bool)) (b : Bool)
    (hst : ∀ st ∈ steps, StepFits D E h0 o ob t b st.1) :
    ∀ x ∈ callsMutation D E orc u h0 o t steps, CallHere h0 o (InMutation D E h0 o t) x := by
  intro x hx
  unfold callsMutation at hx
  rw [ho] at hx
  have hbegin : ∀ n, callsDtor D E orc true { Sess.begin h0 o ob t with h := { h0 with tick := n } } = [] := by
    intro n
    simp [callsDtor, callsRollback, callsDestroy, Sess.begin]
  by_cases hsl : ob.isSealed = true
  · simp only [hsl, if_true] at hx
    have := hbegin h0.tick
    rw [show callsDtor D E orc true (Sess.begin h0 o ob t) = [] from this] at hx
    simp at hx
  · simp only [hsl, Bool.false_eq_true, if_false] at hx
    unfold allocateMixinData at hx
    rw [if_neg (show ¬ (Sess.begin h0 o ob t).oldTy = some (Sess.begin h0 o ob t).ty from hty)] at hx
    by_cases hf : orc.fail h0.tick = true
    · simp only [hf, if_true] at hx
      rw [show callsDtor D E orc true { Sess.begin h0 o ob t with h := h0.ticked } = [] from hbegin _] at hx
      simp at hx
    · simp only [hf, Bool.false_eq_true, if_false] at hx
      have hstart := start_ok (D := D) (E := E) (o := o) (ob := ob) (t := t) hk ⟨fun _ => .dflt, fun _ => .noop, fun _ => b⟩
      have hal := allocLoop_ok (orc := orc) hE hk ho (E.mixins t).length _ hstart rfl (by simp [Sess.begin])
      cases hr : allocLoop D E orc (E.mixins t).length
        { Sess.begin h0 o ob t with h := (h0.ticked.allocate (.unified t ob.alloc)).countUp t 1, data := some h0.next } with
      | ub => rw [hr] at hal; exact hal.elim
      | throw s e =>
        rw [hr] at hal
        simp only [hr] at hx
        unfold callsDtor at hx
        rw [hal.1.movedOut] at hx
        simp only [Bool.false_eq_true, if_false, if_true] at hx
        exact callsRollback_ok hE hk ho hal.1 x hx
      | ok s =>
        rw [hr] at hal
        obtain ⟨h1, h2, h3⟩ := hal
        simp only [hr] at hx
        have hgo : Going D E h0 o ob t b s := ⟨h3, _, _, h1⟩
        rw [List.mem_append] at hx
        rcases hx with hx | hx
        · exact callsSteps_ok hE hk ho hne steps s hgo hst x hx
        · have := going_msteps (orc := orc) hE hk ho hne (b := b) steps s hgo hst
          cases hm : msteps D E orc steps s with
          | ub => rw [hm] at hx; simp at hx
          | throw s' e => rw [hm] at hx this; exact callsDtor_ok hE hk ho hne true this x hx
          | ok s' => rw [hm] at hx this; exact callsDtor_ok hE hk ho hne u this x hx

/-! ## Mutations to the same type -/

variable (hty : ob.ty = some t) (hne : E.mixins t ≠ [])
include hty hne

theorem callsNext_same {b : Bool} {s : Sess} (hs : GoingSame E h0 o ob t b s) (f : NewFn) : callsNext D E f s = [] := by
  unfold callsNext
  by_cases hc : s.complete = true
  · simp [hc]
  · simp only [hc, Bool.false_eq_true, if_false]
    cases hm : (E.mixins s.ty)[s.updated]? with
    | none => rfl
    | some m =>
      simp only
      rw [hs.ty] at hm
      obtain ⟨bb, sl, k1, k2, -⟩ := same_slot hE hk ho hty hm
      have : s.oldIndex E m = some (bb, s.updated) := by
        rw [← k2]
        unfold Sess.oldIndex mixinIndex
        rw [hs.oldData, hs.oldTy]
        cases ob.data <;> cases ob.ty <;> rfl
      rw [this]

theorem callsLoop_same {b : Bool} (f : NewFn) {u : UpdFn} (hu : UpdFnOkSame D E h0 t u) (hb : u ≠ .noop → b = true) : ∀ (n : Nat) (s : Sess),
    GoingSame E h0 o ob t b s → callsLoop D E orc f u n s = []
  | 0, s, _ => rfl
  | n + 1, s, hs => by
    unfold callsLoop
    rw [callsNext_same hE hk ho hty hne hs f, List.nil_append]
    have := goingSame_next (orc := orc) hE hk ho hne hty hs f hu hb
    cases hr : updateNext D E orc f u s with
    | ub => rfl
    | throw s' e => rfl
    | ok s' => rw [hr] at this; exact callsLoop_same f hu hb n s' this

theorem callsStep_same {b : Bool} {s : Sess} (hs : GoingSame E h0 o ob t b s) {st : MStep} (hst : StepFitsSame D E h0 t b st) : callsStep D E orc s st = [] := by
  cases st with
  | next f u => exact callsNext_same hE hk ho hty hne hs f
  | each f u upto => exact callsLoop_same hE hk ho hty hne f (hst.upd u rfl) (hst.touch u rfl) _ s hs
  | «at» i f u =>
    simp only [callsStep, callsAt]
    split
    · rfl
    · have h1 : callsEach D E orc .dflt .noop (some i) s = [] := callsLoop_same hE hk ho hty hne .dflt (u := .noop) trivial (fun h => absurd rfl h) _ s hs
      rw [h1, List.nil_append]
      have := goingSame_loop (orc := orc) hE hk ho hne hty .dflt (u := .noop) trivial (fun h => absurd rfl h)
        (min ((some i).getD (E.mixins s.ty).length) (E.mixins s.ty).length - s.updated) s hs
      unfold updateEach
      cases hr : updateLoop D E orc .dflt .noop (min ((some i).getD (E.mixins s.ty).length) (E.mixins s.ty).length - s.updated) s with
      | ub => rfl
      | throw s' e => rfl
      | ok s' => rw [hr] at this; exact callsNext_same hE hk ho hty hne this f
  | finalize => have := hst.plain; simp [MStep.plain] at this
  | rollback => have := hst.plain; simp [MStep.plain] at this
  | throw => rfl

theorem callsSteps_same {b : Bool} : ∀ (steps : List (MStep × Bool)) (s : Sess), GoingSame E h0 o ob t b s → (∀ st ∈ steps, StepFitsSame D E h0 t b st.1) →
    callsSteps D E orc steps s = []
  | [], s, _, _ => rfl
  | (st, caught) :: rest, s, hs, hst => by
    unfold callsSteps
    rw [callsStep_same hE hk ho hty hne hs (hst (st, caught) (by simp)), List.nil_append]
    have := goingSame_mstep (orc := orc) hE hk ho hne hty hs (hst (st, caught) (by simp))
    cases hr : mstep D E orc s st with
    | ub => rfl
    | throw s' e =>
      rw [hr] at this
      cases caught with
      | true => exact callsSteps_same rest s' this (fun y hy => hst y (by simp [hy]))
      | false => rfl
    | ok s' => rw [hr] at this; exact callsSteps_same rest s' this (fun y hy => hst y (by simp [hy]))

theorem callsDtor_same (u : Bool) {b : Bool} {s : Sess} (hs : GoingSame E h0 o ob t b s) : callsDtor D E orc u s = [] := by
  have hr0 : ∀ s : Sess, GoingSame E h0 o ob t b s → callsRollback D E s = [] := by
    intro s hs
    unfold callsRollback
    rw [hs.oldTy, hs.ty, if_pos hty]
  unfold callsDtor
  rw [hs.movedOut]
  cases u with
  | true => simp only [Bool.false_eq_true, if_false, if_true]; exact hr0 s hs
  | false =>
    simp only [Bool.false_eq_true, if_false]
    have h1 : callsEach D E orc .dflt .noop none s = [] := callsLoop_same hE hk ho hty hne .dflt (u := .noop) trivial (fun h => absurd rfl h) _ s hs
    rw [h1, List.nil_append]
    have := goingSame_loop (orc := orc) hE hk ho hne hty .dflt (u := .noop) trivial (fun h => absurd rfl h)
      (min ((none : Option Nat).getD (E.mixins s.ty).length) (E.mixins s.ty).length - s.updated) s hs
    unfold updateEach
    cases hr : updateLoop D E orc .dflt .noop (min ((none : Option Nat).getD (E.mixins s.ty).length) (E.mixins s.ty).length - s.updated) s with
    | ub => rfl
    | throw s' e => rw [hr] at this; exact hr0 s' this
    | ok s' =>
      rw [hr] at this
      have hfin : ∀ x : Sess, x.oldTy = some x.ty → callsFinalize D E orc x = [] := by
        intro x hx
        unfold callsFinalize
        rw [if_pos hx]; split <;> rfl
      have hsame : s'.oldTy = some s'.ty := by rw [this.oldTy, this.ty, hty]
      simp only
      by_cases hc : s'.complete = true
      · rw [if_pos hc]; exact hfin s' hsame
      · rw [if_neg hc]; exact hfin _ hsame

theorem callsMutation_same (u : Bool) (steps : List (MStep × Bool)) (b : Bool) (hst : ∀ st ∈ steps, StepFitsSame D E h0 t b st.1) :
    callsMutation D E orc u h0 o t steps = [] := by
  have hs0 : GoingSame E h0 o ob t b { Sess.begin h0 o ob t with data := ob.data } := by
    have hlen : 0 < (E.mixins t).length := List.length_pos_iff.2 hne
    constructor <;> simp only [Sess.begin]
    · exact Undone.refl E h0 ob t _
    · omega
    · simp
    · intro j m b i sl src hj; omega
  unfold callsMutation
  rw [ho]
  by_cases hsl : ob.isSealed = true
  · simp only [hsl, if_true]
    simp [callsDtor, callsRollback, callsDestroy, Sess.begin]
  · simp only [hsl, Bool.false_eq_true, if_false]
    unfold allocateMixinData
    rw [if_pos (show (Sess.begin h0 o ob t).oldTy = some (Sess.begin h0 o ob t).ty from hty)]
    simp only
    rw [callsSteps_same hE hk ho hty hne steps _ hs0 hst, List.nil_append]
    have := goingSame_msteps (orc := orc) hE hk ho hne hty steps _ hs0 hst
    cases hr : msteps D E orc steps { Sess.begin h0 o ob t with data := ob.data } with
    | ub => rfl
    | throw s' e => rw [hr] at this; exact callsDtor_same hE hk ho hty hne true this
    | ok s' => rw [hr] at this; exact callsDtor_same hE hk ho hty hne u this

end

end Dnmx
