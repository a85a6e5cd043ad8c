import Verif.Proofs.StepLemmas
import Verif.Proofs.OperationLemmas
import Verif.Spec.Lost

/-! Operations on objects do not notice blocks that belong to no object. -/

set_option linter.unusedSimpArgs false
set_option linter.unusedVariables false
set_option linter.unusedSectionVars false

namespace Dnmx
open Spec

/-- The heap with further blocks `L` and counts `c`. -/
@[reducible] def Heap.leak (h : Heap) (L : Nat → Option Blk) (c : TypeId → Int) : Heap :=
  { h with blk := fun a => (L a).or (h.blk a), count := fun t => h.count t + c t }

/-- The further blocks are apart from those of the heap, and older than the next one. -/
def Apart (L : Nat → Option Blk) (h : Heap) : Prop := ∀ a, L a ≠ none → h.blk a = none ∧ a < h.next

section
variable {D : Decls} {E : TyEnv} {orc : Orc} {L : Nat → Option Blk} {c : TypeId → Int}

/-- related outcomes: the first decides unless it is undefined -/
def FrameR {α : Type} (L : Nat → Option Blk) (c : TypeId → Int) : Res (Heap × α) → Res (Heap × α) → Prop
  | .ub, _ => True
  | .ok (h, a), r => Apart L h ∧ r = .ok (h.leak L c, a)
  | .throw (h, a) e, r => Apart L h ∧ r = .throw (h.leak L c, a) e

theorem Apart.none_of {h : Heap} (hA : Apart L h) {a : Nat} (ha : h.blk a ≠ none) : L a = none := by
  cases hl : L a with
  | none => rfl
  | some b => exact absurd (hA a (by rw [hl]; simp)).1 ha

theorem Apart.next_none {h : Heap} (hA : Apart L h) : L h.next = none := by
  cases hl : L h.next with
  | none => rfl
  | some b => exact absurd (hA h.next (by rw [hl]; simp)).2 (Nat.lt_irrefl _)

theorem leak_isSome {h : Heap} {a : Nat} (ha : (h.blk a).isSome) : ((h.leak L c).blk a).isSome := by
  show ((L a).or (h.blk a)).isSome
  cases L a with
  | none => simpa using ha
  | some b => rfl

theorem allocate_leak {h : Heap} (hA : Apart L h) (b : Blk) : (h.leak L c).allocate b = (h.allocate b).leak L c := by
  have hn := hA.next_none
  simp only [Heap.allocate, Heap.leak, Heap.mk.injEq, and_true, true_and]
  funext a
  by_cases ha : a = h.next
  · subst ha; rw [if_pos rfl, if_pos rfl, hn]; rfl
  · rw [if_neg ha, if_neg ha]

theorem allocate_apart {h : Heap} (hA : Apart L h) (b : Blk) : Apart L (h.allocate b) := by
  intro a ha
  have := hA a ha
  refine ⟨?_, ?_⟩
  · show (if a = h.next then some b else h.blk a) = none
    rw [if_neg (by omega)]; exact this.1
  · show a < h.next + 1
    omega

theorem deallocate_leak {h h' : Heap} (hA : Apart L h) {a : Nat} {b : Blk} (hd : h.deallocate a b = some h') :
    Apart L h' ∧ (h.leak L c).deallocate a b = some (h'.leak L c) := by
  unfold Heap.deallocate at hd ⊢
  by_cases hb : h.blk a = some b
  · rw [if_pos hb] at hd
    simp only [Option.some.injEq] at hd
    subst hd
    have hl := hA.none_of (a := a) (by rw [hb]; simp)
    have hb' : (h.leak L c).blk a = some b := by show (L a).or (h.blk a) = _; rw [hl, hb]; rfl
    rw [if_pos hb']
    refine ⟨?_, ?_⟩
    · intro x hx
      have := hA x hx
      refine ⟨?_, this.2⟩
      show (if x = a then none else h.blk x) = none
      by_cases hxa : x = a
      · rw [if_pos hxa]
      · rw [if_neg hxa]; exact this.1
    · simp only [Heap.leak, Option.some.injEq, Heap.mk.injEq, and_true, true_and]
      funext x
      by_cases hxa : x = a
      · subst hxa; rw [if_pos rfl, if_pos rfl, hl]; rfl
      · rw [if_neg hxa, if_neg hxa]
  · rw [if_neg hb] at hd; simp at hd

theorem slot_leak {h : Heap} {a i : Nat} {sl : Slot} (hs : h.slot? a i = some sl) : (h.leak L c).slot? a i = some sl := by
  unfold Heap.slot? at hs ⊢
  by_cases hb : (h.blk a).isSome
  · rw [if_pos hb] at hs
    rw [if_pos (leak_isSome hb)]; exact hs
  · rw [if_neg hb] at hs; simp at hs

theorem construct_leak {h h' : Heap} {l : Loc} {m : Mix} {v : Nat} {how : How} (hA : Apart L h) (hd : h.construct l m v how = some h') :
    Apart L h' ∧ (h.leak L c).construct l m v how = some (h'.leak L c) := by
  unfold Heap.construct at hd ⊢
  by_cases hb : (h.blk l.1).isSome ∧ h.live l = none
  · rw [if_pos hb] at hd
    simp only [Option.some.injEq] at hd
    subst hd
    rw [if_pos ⟨leak_isSome hb.1, hb.2⟩]
    exact ⟨hA, rfl⟩
  · rw [if_neg hb] at hd; simp at hd

theorem destroy_leak {h h' : Heap} {l : Loc} {m : Mix} (hA : Apart L h) (hd : h.destroy D l m = some h') :
    Apart L h' ∧ (h.leak L c).destroy D l m = some (h'.leak L c) := by
  unfold Heap.destroy at hd ⊢
  cases hl : h.live l with
  | none => rw [hl] at hd; simp at hd
  | some p =>
    obtain ⟨m', v⟩ := p
    rw [hl] at hd
    simp only at hd ⊢
    by_cases hb : m' = m ∧ (h.blk l.1).isSome
    · rw [if_pos hb] at hd
      have hb' : m' = m ∧ ((L l.1).or (h.blk l.1)).isSome = true := ⟨hb.1, leak_isSome (c := c) hb.2⟩
      rw [if_pos hb']
      simp only [Option.some.injEq] at hd
      subst hd
      by_cases hd : (D.mix m).hasDestroy = true
      · rw [if_pos hd, if_pos hd]; exact ⟨hA, rfl⟩
      · rw [if_neg hd, if_neg hd]; exact ⟨hA, rfl⟩
    · rw [if_neg hb] at hd; simp at hd

theorem countUp_leak (h : Heap) (t : TypeId) (n : Int) : (h.leak L c).countUp t n = (h.countUp t n).leak L c := by
  simp only [Heap.countUp, Heap.leak, Heap.mk.injEq, and_true, true_and]
  funext x
  by_cases hx : x = t
  · rw [if_pos hx, if_pos hx]; omega
  · rw [if_neg hx, if_neg hx]

/-- Programs of single steps. -/
theorem run_leak {α : Type} (P : Steps.Prog α) : ∀ (h : Heap), Apart L h → FrameR L c (P.run D orc h) (P.run D orc (h.leak L c)) := by
  induction P with
  | ok a => intro h hA; exact ⟨hA, rfl⟩
  | throw a e => intro h hA; exact ⟨hA, rfl⟩
  | ub => intro h hA; trivial
  | getObj o k ih => intro h hA; exact ih _ h hA
  | setObj o x k ih => intro h hA; exact ih (h.setObj o x) hA
  | addObj ob k ih => intro h hA; exact ih _ { h with objs := h.objs ++ [some ob] } hA
  | outside k ih => intro h hA; exact ih _ _ _ h.ticked hA
  | alloc b k ih =>
    intro h hA
    simp only [Steps.Prog.run]
    rw [allocate_leak hA]
    exact ih _ _ (allocate_apart hA b)
  | dealloc a b k ih =>
    intro h hA
    simp only [Steps.Prog.run]
    cases hd : h.deallocate a b with
    | none => trivial
    | some h' =>
      obtain ⟨h1, h2⟩ := deallocate_leak (c := c) hA hd
      rw [h2]
      exact ih h' h1
  | getSlot a i k ih =>
    intro h hA
    simp only [Steps.Prog.run]
    cases hd : h.slot? a i with
    | none => trivial
    | some sl => rw [slot_leak hd]; exact ih sl h hA
  | setSlot a i s k ih => intro h hA; exact ih (h.setSlot a i s) hA
  | setOwner l o k ih => intro h hA; exact ih (h.setOwner l o) hA
  | getLive l k ih => intro h hA; exact ih _ h hA
  | setLive l v k ih => intro h hA; exact ih (h.setLive l v) hA
  | construct l m v how k ih =>
    intro h hA
    simp only [Steps.Prog.run]
    cases hd : h.construct l m v how with
    | none => trivial
    | some h' =>
      obtain ⟨h1, h2⟩ := construct_leak (c := c) hA hd
      rw [h2]
      exact ih h' h1
  | destroy l m k ih =>
    intro h hA
    simp only [Steps.Prog.run]
    cases hd : h.destroy D l m with
    | none => trivial
    | some h' =>
      obtain ⟨h1, h2⟩ := destroy_leak (c := c) hA hd
      rw [h2]
      exact ih h' h1
  | count t n k ih =>
    intro h hA
    simp only [Steps.Prog.run]
    rw [countUp_leak]
    exact ih (h.countUp t n) hA
  | log e k ih => intro h hA; exact ih (h.logged e) hA

/-- An operation on the heap with further blocks does the same. -/
theorem ostep_leak (u : Bool) (op : OOp) {h : Heap} (hA : Apart L h) :
    match ostep D E orc u h op with
    | .ub => True
    | .ok h' => Apart L h' ∧ ostep D E orc u (h.leak L c) op = .ok (h'.leak L c)
    | .throw h' e => Apart L h' ∧ ostep D E orc u (h.leak L c) op = .throw (h'.leak L c) e := by
  rw [← Steps.program_ref, ← Steps.program_ref]
  have hr := run_leak (D := D) (orc := orc) (c := c) (Steps.program D E u op) h hA
  cases h1 : (Steps.program D E u op).run D orc h with
  | ub => trivial
  | ok x =>
    obtain ⟨h', a⟩ := x
    rw [h1] at hr
    exact ⟨hr.1, by rw [hr.2]; rfl⟩
  | throw x e =>
    obtain ⟨h', a⟩ := x
    rw [h1] at hr
    exact ⟨hr.1, by rw [hr.2]; rfl⟩

/-! ## Mutations to types without mixins -/

/-- Only counters and the log are different. -/
structure Quiet (h h' : Heap) : Prop where
  objs : h'.objs = h.objs
  blk : h'.blk = h.blk
  slot : h'.slot = h.slot
  live : h'.live = h.live
  owner : h'.owner = h.owner
  count : h'.count = h.count
  next : h.next ≤ h'.next

theorem Quiet.refl (h : Heap) : Quiet h h := ⟨rfl, rfl, rfl, rfl, rfl, rfl, Nat.le_refl _⟩

theorem Quiet.obj {h h' : Heap} (hq : Quiet h h') (o : Nat) : h'.obj? o = h.obj? o := by unfold Heap.obj?; rw [hq.objs]

theorem Quiet.good {h h' : Heap} (hq : Quiet h h') (hg : Good D E h) : Good D E h' := by
  obtain ⟨objs, blk, slot, live, owner, next, count, tick, log⟩ := h
  obtain ⟨objs', blk', slot', live', owner', next', count', tick', log'⟩ := h'
  obtain ⟨h1, h2, h3, h4, h5, h6, h7⟩ := hq
  simp only at h1 h2 h3 h4 h5 h6 h7
  subst h1 h2 h3 h4 h5 h6
  exact ⟨⟨hg.1.objs, hg.1.blocks, hg.1.lives, fun a b hb => Nat.lt_of_lt_of_le (hg.1.fresh a b hb) h7, hg.1.counts⟩, hg.2⟩

/-- one further block -/
def oneL (a : Nat) (t : TypeId) (al : Nat) : Nat → Option Blk := fun x => if x = a then some (.unified t al) else none

def oneC (t : TypeId) : TypeId → Int := fun x => if x = t then 1 else 0

/-- The state of a mutation to a type without mixins: nothing to do, at work with a buffer, or over. -/
inductive EmptyAt (h : Heap) (t : TypeId) (al : Nat) (rolled : Bool) (s : Sess) : Prop
  | same (h1 : Quiet h s.h) (h2 : s.oldTy = some t) (h3 : s.oldData = none)
  | work (h0 : Heap) (a : Nat) (h1 : Quiet h h0) (h2 : s.h = h0.leak (oneL a t al) (oneC t)) (h3 : h.next ≤ a) (h4 : a < h0.next)
    (h5 : s.data = some a) (h6 : s.oldTy ≠ some t) (h7 : s.movedOut = false) (h8 : s.al = al) (h9 : rolled = false)
  | over (h1 : Quiet h s.h) (h2 : s.data = none) (h3 : s.movedOut = true) (h6 : s.oldTy ≠ some t) (h9 : rolled = true)

structure EmptySess (ot : Option TypeId) (h : Heap) (t : TypeId) (al : Nat) (rolled : Bool) (s : Sess) : Prop where
  ty : s.ty = t
  complete : s.complete = false
  updated : s.updated = 0
  alloced : s.alloced = 0
  now : EmptyAt h t al rolled s
  old : s.oldTy = ot

theorem deallocBuffer_one {h0 : Heap} {a : Nat} {t : TypeId} {al : Nat} (ha : h0.blk a = none) :
    deallocBuffer (h0.leak (oneL a t al) (oneC t)) t al a = some { h0 with log := h0.log ++ [.dealloc a] } := by
  unfold deallocBuffer Heap.deallocate
  have h1 : (h0.leak (oneL a t al) (oneC t)).blk a = some (.unified t al) := by
    show (oneL a t al a).or (h0.blk a) = _
    unfold oneL; rw [if_pos rfl]; rfl
  rw [if_pos h1]
  simp only [Option.map_some, Heap.countUp, Heap.leak, Option.some.injEq, Heap.mk.injEq, and_true, true_and]
  constructor
  · funext x
    unfold oneL
    by_cases hx : x = a
    · subst hx; rw [if_pos rfl, ha]
    · rw [if_neg hx, if_neg hx]; rfl
  · funext x
    unfold oneC
    by_cases hx : x = t
    · rw [if_pos hx]; simp [hx]; omega
    · rw [if_neg hx]; simp [hx]

theorem rollback_empty (hf : ∀ a, h.next ≤ a → h.blk a = none) {t : TypeId} {al : Nat} {rolled : Bool} {s : Sess}
    (hs : EmptySess ot h t al rolled s) : ∃ s', rollback D E s = some s' ∧ EmptySess ot h t al true s' ∧ Quiet h s'.h := by
  unfold rollback
  rw [hs.ty, hs.updated, hs.alloced]
  rcases hs.now with ⟨h1, h2, h3⟩ | ⟨h0, a, h1, h2, h3, h4, h5, h6, h7, h8, h9⟩ | ⟨h1, h2, h3, h6, h9⟩
  · rw [if_pos h2]
    exact ⟨_, rfl, ⟨rfl, rfl, rfl, rfl, .same h1 h2 h3, hs.old⟩, h1⟩
  · rw [if_neg h6, h5]
    simp only [destroyLoop, deallocLoop, Option.bind_some]
    have hb : h0.blk a = none := by rw [h1.blk]; exact hf a h3
    rw [h2, h8, deallocBuffer_one hb]
    refine ⟨_, rfl, ⟨rfl, rfl, rfl, rfl, .over ?_ rfl rfl h6 rfl, hs.old⟩, ?_⟩ <;> exact ⟨h1.objs, h1.blk, h1.slot, h1.live, h1.owner, h1.count, h1.next⟩
  · rw [if_neg h6, h2]
    simp only [destroyLoop, deallocLoop, Option.bind_some]
    exact ⟨_, rfl, ⟨rfl, rfl, rfl, rfl, .over h1 rfl rfl h6 rfl, hs.old⟩, h1⟩

theorem updateEach_empty {t : TypeId} (ht : E.mixins t = []) {s : Sess} (hs : s.ty = t) (f : NewFn) (g : UpdFn) (upto : Option Nat) :
    updateEach D E orc f g upto s = .ok s := by
  unfold updateEach
  rw [hs, ht]
  simp [updateLoop]

theorem mstep_empty (hf : ∀ a, h.next ≤ a → h.blk a = none) {t : TypeId} (ht : E.mixins t = []) {al : Nat} {rolled : Bool} {s : Sess} (hs : EmptySess ot h t al rolled s)
    (st : MStep) (hst : emptyStep st = true) :
    match mstep D E orc s st with
    | .ub => False
    | .ok s' => EmptySess ot h t al (rolled || decide (st = .rollback)) s'
    | .throw s' _ => EmptySess ot h t al (rolled || decide (st = .rollback)) s' := by
  cases st with
  | next f g => simp [emptyStep] at hst
  | each f g upto =>
    simp only [mstep]
    rw [updateEach_empty ht hs.ty]
    simpa using hs
  | «at» i f g =>
    have hi : i ≠ 0 := by simpa [emptyStep] using hst
    simp only [mstep]
    unfold updateAt
    rw [if_pos (by rw [hs.ty, ht]; right; simp; omega)]
    simpa using hs
  | finalize =>
    simp only [mstep]
    unfold finalize
    rw [if_pos (by rw [hs.complete]; rfl)]
    simpa using hs
  | rollback =>
    obtain ⟨s', h1, h2, -⟩ := rollback_empty (D := D) (E := E) hf hs
    simp only [mstep]
    rw [h1]
    simpa using h2
  | throw => simpa [mstep] using hs

theorem msteps_empty (hf : ∀ a, h.next ≤ a → h.blk a = none) {t : TypeId} (ht : E.mixins t = []) {al : Nat} : ∀ (steps : List (MStep × Bool)),
    (∀ st ∈ steps, emptyStep st.1 = true) → ∀ (rolled : Bool) (s : Sess), EmptySess ot h t al rolled s →
    match msteps D E orc steps s with
    | .ub => False
    | .ok s' => EmptySess ot h t al (rolled || steps.any (fun st => decide (st.1 = .rollback))) s'
    | .throw s' _ => ∃ r, EmptySess ot h t al r s'
  | [], _, rolled, s, hs => by simpa [msteps] using hs
  | (st, caught) :: rest, hst, rolled, s, hs => by
    have h1 := mstep_empty (D := D) (orc := orc) hf ht hs st (hst (st, caught) (by simp))
    have ih := fun s' hs' => msteps_empty (ot := ot) (al := al) hf ht rest (fun x hx => hst x (by simp [hx])) (rolled || decide (st = .rollback)) s' hs'
    simp only [msteps, List.any_cons, ← Bool.or_assoc]
    cases h2 : mstep D E orc s st with
    | ub => rw [h2] at h1; exact h1.elim
    | ok s' => rw [h2] at h1; exact ih s' h1
    | throw s' e =>
      rw [h2] at h1
      simp only [Res.bind]
      cases caught
      · exact ⟨_, h1⟩
      · exact ih s' h1

theorem unwindWith_empty (hf : ∀ a, h.next ≤ a → h.blk a = none) {t : TypeId} {al : Nat} {rolled : Bool} {s : Sess} (hs : EmptySess ot h t al rolled s) (e : XErr) :
    ∃ h', unwindWith D E orc s e = .throw h' e ∧ Quiet h h' := by
  unfold unwindWith Sess.dtor
  by_cases hm : s.movedOut = true
  · rw [if_pos hm]
    refine ⟨s.h, rfl, ?_⟩
    rcases hs.now with ⟨h1, h2, h3⟩ | ⟨h0, a, h1, h2, h3, h4, h5, h6, h7, h8, h9⟩ | ⟨h1, h2, h3, h6, h9⟩
    · exact h1
    · rw [h7] at hm; simp at hm
    · exact h1
  · obtain ⟨s', h1, -, h2⟩ := rollback_empty (D := D) (E := E) hf hs
    rw [if_neg hm, if_pos rfl, h1]
    exact ⟨s'.h, rfl, h2⟩

/-- The end of a mutation to a type without mixins that no exception ends. -/
theorem dtor_empty (hf : ∀ a, h.next ≤ a → h.blk a = none) {t : TypeId} (ht : E.mixins t = []) {al : Nat} {rolled : Bool} {s : Sess} (hs : EmptySess ot h t al rolled s) (u : Bool) :
    ∃ h', s.dtor D E orc u = .ok h' ∧
      ((Quiet h h' ∧ (u = true ∨ ot = some t ∨ rolled = true)) ∨
        ((u = false ∧ ot ≠ some t ∧ rolled = false) ∧ ∃ h0 a, Quiet h h0 ∧ h' = h0.leak (oneL a t al) (oneC t) ∧ h.next ≤ a ∧ a < h0.next)) := by
  unfold Sess.dtor
  by_cases hm : s.movedOut = true
  · rw [if_pos hm]
    refine ⟨s.h, rfl, .inl ?_⟩
    rcases hs.now with ⟨h1, h2, h3⟩ | ⟨h0, a, h1, h2, h3, h4, h5, h6, h7, h8, h9⟩ | ⟨h1, h2, h3, h6, h9⟩
    · exact ⟨h1, .inr (.inl (hs.old ▸ h2))⟩
    · rw [h7] at hm; simp at hm
    · exact ⟨h1, .inr (.inr h9)⟩
  · rw [if_neg hm]
    cases u with
    | true =>
      obtain ⟨s', h1, -, h2⟩ := rollback_empty (D := D) (E := E) hf hs
      rw [if_pos rfl, h1]
      exact ⟨s'.h, rfl, .inl ⟨h2, .inl rfl⟩⟩
    | false =>
      rw [if_neg (by simp), updateEach_empty ht hs.ty]
      simp only
      rw [if_neg (by rw [hs.complete]; simp)]
      unfold finalize
      rw [if_pos (by simp only [hs.complete]; rfl)]
      refine ⟨s.h.logged .assertFailed, rfl, ?_⟩
      rcases hs.now with ⟨h1, h2, h3⟩ | ⟨h0, a, h1, h2, h3, h4, h5, h6, h7, h8, h9⟩ | ⟨h1, h2, h3, h6, h9⟩
      · exact .inl ⟨⟨h1.objs, h1.blk, h1.slot, h1.live, h1.owner, h1.count, h1.next⟩, .inr (.inl (hs.old ▸ h2))⟩
      · refine .inr ⟨⟨trivial, hs.old ▸ h6, h9⟩, h0.logged .assertFailed, a, ⟨h1.objs, h1.blk, h1.slot, h1.live, h1.owner, h1.count, h1.next⟩, by rw [h2], h3, h4⟩
      · rw [h3] at hm; simp at hm

/-- What a mutation to a type without mixins does. -/
def EmptyOutcome (h : Heap) (t : TypeId) (al : Nat) (lost : Prop) : Res Heap → Prop
  | .ub => False
  | .throw h' _ => Quiet h h'
  | .ok h' => (Quiet h h' ∧ ¬ lost) ∨ (lost ∧ ∃ h0 a, Quiet h h0 ∧ h' = h0.leak (oneL a t al) (oneC t) ∧ h.next ≤ a ∧ a < h0.next)

theorem withMutation_empty {h : Heap} (hk : HeapOk D E h) {t : TypeId} (ht : E.mixins t = []) {o : Nat} {ob : Obj} (ho : h.obj? o = some ob) (u : Bool)
    (steps : List (MStep × Bool)) (hst : ∀ st ∈ steps, emptyStep st.1 = true) :
    EmptyOutcome h t ob.alloc (u = false ∧ ob.ty ≠ some t ∧ steps.any (fun st => decide (st.1 = .rollback)) = false) (withMutation D E orc u h o t steps) := by
  have hf : ∀ a, h.next ≤ a → h.blk a = none := by
    intro a ha
    cases hb : h.blk a with
    | none => rfl
    | some b => exact absurd (hk.fresh a b hb) (by omega)
  have hdt : ob.ty = some t → ob.data = none := by
    intro h1
    have := hk.objs o ob ho
    unfold ObjOk at this
    cases hd : ob.data with
    | none => rfl
    | some a =>
      rw [hd] at this
      obtain ⟨t', h2, h3, -⟩ := this
      rw [h1] at h2; simp only [Option.some.injEq] at h2; subst h2
      exact absurd ht h3
  unfold withMutation
  rw [ho]
  simp only
  by_cases hsl : ob.isSealed = true
  · rw [if_pos hsl]
    by_cases hty : ob.ty = some t
    · obtain ⟨h', h1, h2⟩ := unwindWith_empty (D := D) (E := E) (orc := orc) (ot := ob.ty) hf (al := ob.alloc) (t := t) (rolled := false)
        (s := Sess.begin h o ob t) ⟨rfl, rfl, rfl, rfl, .same (Quiet.refl h) hty (hdt hty), rfl⟩ .isSealed
      rw [h1]; exact h2
    · have : unwindWith D E orc (Sess.begin h o ob t) .isSealed = .throw h .isSealed := by
        unfold unwindWith Sess.dtor
        rw [if_neg (by simp), if_pos rfl]
        unfold rollback
        rw [if_neg hty]
        simp only [destroyLoop, deallocLoop, Option.bind_some]
        rfl
      rw [this]; exact Quiet.refl h
  · rw [if_neg hsl]
    have hrest : ∀ s, EmptySess ob.ty h t ob.alloc false s →
        EmptyOutcome h t ob.alloc (u = false ∧ ob.ty ≠ some t ∧ steps.any (fun st => decide (st.1 = .rollback)) = false)
          ((msteps D E orc steps s).bind (Sess.dtor D E orc u) (unwindWith D E orc)) := by
      intro s hs
      have hm := msteps_empty (D := D) (orc := orc) hf ht steps hst false s hs
      cases h1 : msteps D E orc steps s with
      | ub => rw [h1] at hm; exact hm.elim
      | throw s1 e =>
        rw [h1] at hm
        obtain ⟨r, hm⟩ := hm
        obtain ⟨h', h2, h3⟩ := unwindWith_empty (D := D) (E := E) (orc := orc) hf hm e
        simp only [Res.bind]
        rw [h2]; exact h3
      | ok s1 =>
        rw [h1] at hm
        simp only [Bool.false_or] at hm
        obtain ⟨h', h2, h3⟩ := dtor_empty (D := D) (E := E) (orc := orc) hf ht hm u
        simp only [Res.bind]
        rw [h2]
        rcases h3 with ⟨h4, h5⟩ | ⟨h4, h5⟩
        · refine .inl ⟨h4, ?_⟩
          rintro ⟨h6, h7, h8⟩
          rcases h5 with h5 | h5 | h5
          · rw [h6] at h5; simp at h5
          · exact h7 h5
          · rw [h8] at h5; simp at h5
        · exact .inr ⟨h4, h5⟩
    unfold allocateMixinData
    simp only [ht, List.length_nil]
    by_cases hty : ob.ty = some t
    · rw [if_pos hty]
      exact hrest _ ⟨rfl, rfl, rfl, rfl, .same (Quiet.refl h) hty (hdt hty), rfl⟩
    · rw [if_neg hty]
      by_cases hfail : orc.fail h.tick = true
      · rw [if_pos hfail]
        have : unwindWith D E orc { Sess.begin h o ob t with h := h.ticked } .badAlloc = .throw h.ticked .badAlloc := by
          unfold unwindWith Sess.dtor
          rw [if_neg (by simp), if_pos rfl]
          unfold rollback
          rw [if_neg hty]
          simp only [destroyLoop, deallocLoop, Option.bind_some]
          rfl
        simp only
        rw [this]; exact ⟨rfl, rfl, rfl, rfl, rfl, rfl, Nat.le_refl _⟩
      · rw [if_neg hfail]
        simp only [allocLoop]
        refine hrest _ ⟨rfl, rfl, rfl, rfl, ?_, rfl⟩
        refine .work { h with next := h.next + 1, tick := h.tick + 1, log := h.log ++ [.alloc h.next (.unified t ob.alloc)] } h.next
          ⟨rfl, rfl, rfl, rfl, rfl, rfl, Nat.le_succ _⟩ ?_ (Nat.le_refl _) (Nat.lt_succ_self _) rfl hty rfl rfl rfl
        simp only [Heap.countUp, Heap.allocate, Heap.ticked, Heap.leak, Heap.mk.injEq, and_true, true_and]
        constructor
        · funext a
          unfold oneL
          by_cases ha : a = h.next
          · rw [if_pos ha, if_pos ha]; rfl
          · rw [if_neg ha, if_neg ha]; rfl
        · funext x
          unfold oneC
          by_cases hx : x = t
          · rw [if_pos hx, if_pos hx]
          · rw [if_neg hx, if_neg hx]; omega

/-! ## Programs -/

/-- the blocks and counts of a list -/
def listL (lost : List (Nat × TypeId × Nat)) : Nat → Option Blk := fun a => (lost.find? (fun x => x.1 == a)).map (fun x => .unified x.2.1 x.2.2)

def listC (lost : List (Nat × TypeId × Nat)) : TypeId → Int := fun t => (lost.countP (fun x => x.2.1 == t) : Nat)

/-- a good heap with further blocks -/
structure Leaks (D : Decls) (E : TyEnv) (h h0 : Heap) (lost : List (Nat × TypeId × Nat)) : Prop where
  eq : h = h0.leak (listL lost) (listC lost)
  good : Good D E h0
  apart : Apart (listL lost) h0
  once : (lost.map Prod.fst).Nodup
  empty : ∀ x ∈ lost, E.mixins x.2.1 = []

theorem listL_of_mem {lost : List (Nat × TypeId × Nat)} (hn : (lost.map Prod.fst).Nodup) {x : Nat × TypeId × Nat} (hx : x ∈ lost) :
    listL lost x.1 = some (.unified x.2.1 x.2.2) := by
  induction lost with
  | nil => simp at hx
  | cons y ys ih =>
    simp only [List.map_cons, List.nodup_cons] at hn
    unfold listL
    by_cases hy : y.1 = x.1
    · rcases List.mem_cons.1 hx with rfl | hx
      · simp [List.find?_cons]
      · exact absurd (hy ▸ List.mem_map.2 ⟨x, hx, rfl⟩) hn.1
    · rcases List.mem_cons.1 hx with rfl | hx
      · exact absurd rfl hy
      · have h1 := ih hn.2 hx
        unfold listL at h1
        have hyb : (y.1 == x.1) = false := by simpa using hy
        simp only [List.find?_cons, hyb]
        exact h1

theorem mem_of_listL {lost : List (Nat × TypeId × Nat)} {a : Nat} {b : Blk} (h : listL lost a = some b) : ∃ t al, (a, t, al) ∈ lost ∧ b = .unified t al := by
  unfold listL at h
  cases hf : lost.find? (fun x => x.1 == a) with
  | none => rw [hf] at h; simp at h
  | some x =>
    rw [hf] at h
    simp only [Option.map_some, Option.some.injEq] at h
    have h1 := List.mem_of_find?_eq_some hf
    have h2 : x.1 = a := by simpa using List.find?_some hf
    obtain ⟨x1, x2, x3⟩ := x
    simp only at h2; subst h2
    exact ⟨x2, x3, h1, h.symm⟩

theorem leak_leak (h : Heap) (lost : List (Nat × TypeId × Nat)) (a : Nat) (t : TypeId) (al : Nat) :
    (h.leak (oneL a t al) (oneC t)).leak (listL lost) (listC lost) = h.leak (fun x => (listL lost x).or (oneL a t al x)) (listC ((a, t, al) :: lost)) := by
  simp only [Heap.leak, Heap.mk.injEq, and_true, true_and]
  constructor
  · funext x
    rw [Option.or_assoc]
  · funext x
    unfold listC oneC
    rw [List.countP_cons]
    by_cases hx : x = t
    · subst hx; simp; omega
    · have : (t == x) = false := by simpa using fun e => hx e.symm
      simp [hx, this]

theorem listL_cons_swap {lost : List (Nat × TypeId × Nat)} {a : Nat} {t : TypeId} {al : Nat} (ha : listL lost a = none) :
    (fun x => (listL lost x).or (oneL a t al x)) = listL ((a, t, al) :: lost) := by
  funext x
  by_cases hx : x = a
  · subst hx
    rw [ha]
    unfold listL oneL
    simp [List.find?_cons]
  · have hxb : (a == x) = false := by simpa using fun e => hx e.symm
    unfold oneL
    rw [if_neg hx, Option.or_none]
    unfold listL
    simp only [List.find?_cons, hxb]

theorem alive_leak {h : Heap} {o : Nat} : Alive (h.leak L c) o ↔ Alive h o := Iff.rfl

theorem decent_leak {h : Heap} {op : OOp} (hd : Decent E (h.leak L c) op) : Decent E h op := by
  cases op <;> exact hd

theorem lostBy_leak (u : Bool) (h : Heap) (op : OOp) : lostBy E u (h.leak L c) op = lostBy E u h op := by
  cases op <;> rfl

/-- One operation on a good heap. -/
theorem decent_step (hE : EnvOk D E) {h : Heap} (hg : Good D E h) {u : Bool} {op : OOp} (hd : Decent E h op) (hu : (u && makesObject op) = false) :
    match ostep D E orc u h op with
    | .ub => False
    | .throw h' _ => Good D E h'
    | .ok h' => (Good D E h' ∧ lostBy E u h op = []) ∨
        ∃ h0 a t al, Good D E h0 ∧ h.next ≤ h0.next ∧ h' = h0.leak (oneL a t al) (oneC t) ∧ h.next ≤ a ∧ a < h0.next ∧ h0.blk a = none ∧ E.mixins t = [] ∧ lostBy E u h op = [(t, al)] := by
  have hproper : Proper E h op → lostBy E u h op = [] → _ := fun hp hl => good_step (orc := orc) hE hg hp hu
  have hfin : Proper E h op → lostBy E u h op = [] → (match ostep D E orc u h op with
    | .ub => False
    | .throw h' _ => Good D E h'
    | .ok h' => (Good D E h' ∧ lostBy E u h op = []) ∨
        ∃ h0 a t al, Good D E h0 ∧ h.next ≤ h0.next ∧ h' = h0.leak (oneL a t al) (oneC t) ∧ h.next ≤ a ∧ a < h0.next ∧ h0.blk a = none ∧ E.mixins t = [] ∧ lostBy E u h op = [(t, al)]) := by
    intro hp hl
    have := hproper hp hl
    cases hr : ostep D E orc u h op with
    | ub => rw [hr] at this; exact this
    | throw h' e => rw [hr] at this; exact this
    | ok h' => rw [hr] at this; exact .inl ⟨this, hl⟩
  have hempty : ∀ (o : Nat) (t : TypeId) (ob : Obj) (ho : h.obj? o = some ob) (ht : E.mixins t = []) (back : Bool) (r : Res Heap),
      EmptyOutcome h t ob.alloc (u = false ∧ ob.ty ≠ some t ∧ back = false) r →
      lostBy E u h op = (match h.obj? o with
        | some ob => if u = false ∧ E.mixins t = [] ∧ ob.ty ≠ some t ∧ back = false then [(t, ob.alloc)] else []
        | none => []) → (match r with
    | .ub => False
    | .throw h' _ => Good D E h'
    | .ok h' => (Good D E h' ∧ lostBy E u h op = []) ∨
        ∃ h0 a t al, Good D E h0 ∧ h.next ≤ h0.next ∧ h' = h0.leak (oneL a t al) (oneC t) ∧ h.next ≤ a ∧ a < h0.next ∧ h0.blk a = none ∧ E.mixins t = [] ∧ lostBy E u h op = [(t, al)]) := by
    intro o t ob ho ht back r hr hl
    rw [ho] at hl
    simp only at hl
    cases r with
    | ub => exact hr
    | throw h' e => exact Quiet.good hr hg
    | ok h' =>
      rcases hr with ⟨h1, h2⟩ | ⟨h2, h0, a, h3, h4, h5, h6⟩
      · refine .inl ⟨h1.good hg, ?_⟩
        rw [hl, if_neg (fun hx => h2 ⟨hx.1, hx.2.2.1, hx.2.2.2⟩)]
      · refine .inr ⟨h0, a, t, ob.alloc, h3.good hg, h3.next, h4, h5, h6, ?_, ht, ?_⟩
        · rw [h3.blk]
          cases hb : h.blk a with
          | none => rfl
          | some b => exact absurd (hg.1.fresh a b hb) (by omega)
        · rw [hl, if_pos ⟨h2.1, ht, h2.2.1, h2.2.2⟩]
  cases op with
  | mutation o t steps =>
    obtain ⟨ha, hst⟩ := hd
    obtain ⟨ob, ho⟩ := alive_obj hE ha
    by_cases ht : E.mixins t = []
    · rw [if_pos ht] at hst
      exact hempty o t ob ho ht _ _ (withMutation_empty hg.1 ht ho u steps hst) rfl
    · rw [if_neg ht] at hst
      refine hfin ⟨ha, ht, hst⟩ ?_
      simp only [lostBy]
      rw [ho]
      simp only
      rw [if_neg (fun hx => ht hx.2.1)]
  | mutateTo o t ops =>
    obtain ⟨ha, hst⟩ := hd
    obtain ⟨ob, ho⟩ := alive_obj hE ha
    by_cases hty : ob.ty = some t ∨ E.mixins t ≠ []
    · refine hfin ⟨ob, ho, hty⟩ ?_
      simp only [lostBy]
      rw [ho]
      simp only
      rw [if_neg (fun hx => ?_)]
      rcases hty with h1 | h1
      · exact hx.2.2.1 h1
      · exact h1 hx.2.1
    · have hn : ob.ty ≠ some t := fun h1 => hty (.inl h1)
      have ht : E.mixins t = [] := Classical.byContradiction fun h1 => hty (.inr h1)
      have hs : sortedOps E t ops = [] := by
        unfold sortedOps
        have : ops.filterMap (fun (m, k) => (E.indexOf t m).map (fun i => (i, k))) = [] := by
          apply List.filterMap_eq_nil_iff.2
          rintro ⟨m, k⟩ hm
          have := hst ht (m, k) hm
          simp only at this ⊢
          rw [this]; rfl
        rw [this]; rfl
      have hr := withMutation_empty (orc := orc) hg.1 ht ho u [] (by simp)
      refine hempty o t ob ho ht false _ ?_ rfl
      show EmptyOutcome h t ob.alloc _ (mutateTo D E orc u h o t ops)
      unfold mutateTo
      rw [ho]
      simp only
      rw [if_neg hn, hs]
      simp only [List.any_nil] at hr
      exact hr
  | _ => exact hfin hd rfl

/-- One operation on a heap with lost blocks. -/
theorem leaks_step (hE : EnvOk D E) {h h0 : Heap} {lost : List (Nat × TypeId × Nat)} (hl : Leaks D E h h0 lost) {u : Bool} {op : OOp} (hd : Decent E h op)
    (hu : (u && makesObject op) = false) :
    match ostep D E orc u h op with
    | .ub => False
    | .throw h' _ => ∃ h0', Leaks D E h' h0' lost
    | .ok h' => ∃ h0' new, Leaks D E h' h0' (new ++ lost) ∧ new.map Prod.snd = lostBy E u h op := by
  have hd0 : Decent E h0 op := by have := hd; rw [hl.eq] at this; exact decent_leak this
  have hs := decent_step (orc := orc) hE hl.good hd0 hu
  have hf := ostep_leak (D := D) (E := E) (orc := orc) (c := listC lost) u op hl.apart
  have hlb : lostBy E u h op = lostBy E u h0 op := by rw [hl.eq]; exact lostBy_leak u h0 op
  rw [hlb]
  rw [hl.eq]
  cases hr : ostep D E orc u h0 op with
  | ub => rw [hr] at hs; exact hs.elim
  | throw h' e =>
    rw [hr] at hs hf
    obtain ⟨h1, h2⟩ := hf
    rw [h2]
    exact ⟨h', rfl, hs, h1, hl.once, hl.empty⟩
  | ok h' =>
    rw [hr] at hs hf
    obtain ⟨h1, h2⟩ := hf
    rw [h2]
    rcases hs with ⟨h3, h4⟩ | ⟨h0', a, t, al, h3, h3', h4, h5, h6, h6', h7, h8⟩
    · exact ⟨h', [], ⟨rfl, h3, h1, hl.once, hl.empty⟩, h4.symm⟩
    · refine ⟨h0', [(a, t, al)], ?_, h8.symm⟩
      have ha : listL lost a = none := by
        cases hx : listL lost a with
        | none => rfl
        | some b =>
          have := (hl.apart a (by rw [hx]; simp)).2
          omega
      refine ⟨?_, h3, ?_, ?_, ?_⟩
      · rw [h4, leak_leak, listL_cons_swap ha]; rfl
      · intro x hx
        show h0'.blk x = none ∧ x < h0'.next
        by_cases hxa : x = a
        · subst hxa; exact ⟨h6', h6⟩
        · have hx' : listL lost x ≠ none := by
            have := hx
            rw [List.singleton_append, ← listL_cons_swap ha] at this
            simp only [oneL, if_neg hxa, Option.or_none] at this
            exact this
          have h9 := h1 x hx'
          rw [h4] at h9
          have h10 : (oneL a t al x).or (h0'.blk x) = none := h9.1
          refine ⟨?_, h9.2⟩
          unfold oneL at h10
          rw [if_neg hxa] at h10
          exact h10
      · simp only [List.singleton_append, List.map_cons, List.nodup_cons]
        refine ⟨?_, hl.once⟩
        intro hm
        obtain ⟨y, hy, hy2⟩ := List.mem_map.1 hm
        have := listL_of_mem hl.once hy
        rw [hy2, ha] at this; simp at this
      · intro x hx
        simp only [List.singleton_append, List.mem_cons] at hx
        rcases hx with rfl | hx
        · exact h7
        · exact hl.empty x hx

theorem leaks_run (hE : EnvOk D E) : ∀ (ops : List (Bool × OOp)) (h h0 : Heap) (lost : List (Nat × TypeId × Nat)), Leaks D E h h0 lost → DecentRun D E orc ops h →
    ∃ h' h0' new, orun D E orc ops h = some h' ∧ Leaks D E h' h0' (new ++ lost) ∧ (new ++ lost).map Prod.snd = losses D E orc ops h (lost.map Prod.snd)
  | [], h, h0, lost, hl, _ => ⟨h, h0, [], rfl, hl, rfl⟩
  | (u, op) :: ops, h, h0, lost, hl, hd => by
    obtain ⟨⟨h1, h2⟩, h3⟩ := hd
    have hs := leaks_step (orc := orc) hE hl h1 h2
    unfold orun losses
    cases hr : ostep D E orc u h op with
    | ub => rw [hr] at hs; exact hs.elim
    | throw h' e =>
      rw [hr] at hs
      obtain ⟨h0', h4⟩ := hs
      exact leaks_run hE ops h' h0' lost h4 (h3 h' (.inr ⟨e, hr⟩))
    | ok h' =>
      rw [hr] at hs
      obtain ⟨h0', new, h4, h5⟩ := hs
      obtain ⟨h6, h7, new', h8, h9, h10⟩ := leaks_run hE ops h' h0' (new ++ lost) h4 (h3 h' (.inl hr))
      refine ⟨h6, h7, new' ++ new, h8, by rw [List.append_assoc]; exact h9, ?_⟩
      rw [List.append_assoc, h10]
      simp only [List.map_append]
      rw [h5]

theorem leaks_start : Leaks D E {} {} [] :=
  ⟨by simp only [Heap.leak, Heap.mk.injEq, and_true, true_and]; exact ⟨by funext a; rfl, by funext t; rfl⟩, good_start, by intro a ha; exact absurd rfl ha, by simp, by simp⟩

theorem slotOf_leak {h : Heap} {o i : Nat} {m : Mix} {sl : Slot} : SlotOf E (h.leak L c) o i m sl ↔ SlotOf E h o i m sl := Iff.rfl

theorem leaks_ok {h h0 : Heap} {lost : List (Nat × TypeId × Nat)} (hl : Leaks D E h h0 lost) : LeakOk D E h lost := by
  have hblk : ∀ a b, h0.blk a = some b → h.blk a = some b := by
    intro a b hb
    rw [hl.eq]
    show (listL lost a).or (h0.blk a) = some b
    rw [hl.apart.none_of (by rw [hb]; simp), hb]; rfl
  have hslots : ∀ o i m sl, SlotOf E h o i m sl → SlotOf E h0 o i m sl := by
    intro o i m sl hs; rw [hl.eq] at hs; exact hs
  have hplace : ∀ o ob t a i m, h0.obj? o = some ob → MixinOk D E h0 o ob.alloc t a i m → MixinOk D E h o ob.alloc t a i m := by
    rintro o ob t a i m ho ⟨sl, v, h1, h2, h3, h4⟩
    refine ⟨sl, v, by rw [hl.eq]; exact h1, ?_, by rw [hl.eq]; exact h3, by rw [hl.eq]; exact h4⟩
    unfold PlaceOk at h2 ⊢
    by_cases hi : E.internal t i = true
    · rw [if_pos hi] at h2 ⊢; exact h2
    · rw [if_neg hi] at h2 ⊢
      obtain ⟨e, h5, h6⟩ := h2
      exact ⟨e, h5, hblk _ _ h6⟩
  have hobj : ∀ o, h.obj? o = h0.obj? o := by intro o; rw [hl.eq]; rfl
  have hown : ∀ a, listL lost a ≠ none → (∀ o ob, h0.obj? o = some ob → ob.data ≠ some a) ∧ ∀ o i m sl, SlotOf E h0 o i m sl → sl.buf ≠ some a ∧ sl.loc.1 ≠ a := by
    intro a ha
    have hb := (hl.apart a ha).1
    have hdat : ∀ o ob, h0.obj? o = some ob → ob.data ≠ some a := by
      intro o ob ho hd
      have := hl.good.1.objs o ob ho
      unfold ObjOk at this
      rw [hd] at this
      obtain ⟨t, -, -, h1, -⟩ := this
      rw [hb] at h1; simp at h1
    refine ⟨hdat, ?_⟩
    rintro o i m sl ⟨ob, t, a', h1, h2, h3, h4, h5⟩
    have := hl.good.1.objs o ob h1
    unfold ObjOk at this
    rw [h3] at this
    obtain ⟨t', h6, h7, h8, h9⟩ := this
    rw [h2] at h6; simp only [Option.some.injEq] at h6; subst h6
    obtain ⟨sl', v, h10, h11, -, -⟩ := h9 i m h4
    rw [h5] at h10; simp only [Option.some.injEq] at h10; subst h10
    unfold PlaceOk at h11
    have hne : a' ≠ a := by rintro rfl; exact hdat o ob h1 h3
    by_cases hi : E.internal t i = true
    · rw [if_pos hi] at h11; subst h11; exact ⟨by simp, hne⟩
    · rw [if_neg hi] at h11
      obtain ⟨e, h12, h13⟩ := h11
      have : e ≠ a := by rintro rfl; rw [hb] at h13; simp at h13
      subst h12
      exact ⟨by simpa using this, this⟩
  refine ⟨?_, ?_, ?_, ?_, ?_, ?_, ?_, hl.once⟩
  · intro o ob ho
    rw [hobj] at ho
    have := hl.good.1.objs o ob ho
    unfold ObjOk at this ⊢
    cases hd : ob.data with
    | none => rw [hd] at this; exact this
    | some a =>
      rw [hd] at this
      obtain ⟨t, h1, h2, h3, h4⟩ := this
      exact ⟨t, h1, h2, hblk _ _ h3, fun i m hi => hplace o ob t a i m ho (h4 i m hi)⟩
  · intro a b hb
    rw [hl.eq] at hb
    have hb : (listL lost a).or (h0.blk a) = some b := hb
    cases hx : listL lost a with
    | none =>
      rw [hx] at hb
      left
      obtain ⟨o, ho⟩ := hl.good.1.blocks a b hb
      refine ⟨o, ?_⟩
      rcases ho with ⟨ob, h1, h2⟩ | ⟨i, m, sl, h1, h2⟩
      · exact .inl ⟨ob, by rw [hobj]; exact h1, h2⟩
      · exact .inr ⟨i, m, sl, by rw [hl.eq]; exact h1, h2⟩
    | some b' =>
      rw [hx] at hb
      simp only [Option.some_or, Option.some.injEq] at hb
      subst hb
      exact .inr (mem_of_listL hx)
  · intro l x hx
    rw [hl.eq] at hx ⊢
    exact hl.good.1.lives l x hx
  · intro a b hb
    rw [hl.eq] at hb ⊢
    have hb : (listL lost a).or (h0.blk a) = some b := hb
    cases hx : listL lost a with
    | none => rw [hx] at hb; exact hl.good.1.fresh a b hb
    | some b' => exact (hl.apart a (by rw [hx]; simp)).2
  · intro t
    have := hl.good.1.counts t
    rw [hl.eq]
    show h0.count t + listC lost t = _
    rw [this]; rfl
  · intro x hx
    refine ⟨?_, hl.empty x hx⟩
    rw [hl.eq]
    show (listL lost x.1).or (h0.blk x.1) = _
    rw [listL_of_mem hl.once hx]; rfl
  · intro x hx
    have := hown x.1 (by rw [listL_of_mem hl.once hx]; simp)
    exact ⟨fun o ob ho => this.1 o ob (by rw [← hobj]; exact ho), fun o i m sl hs => this.2 o i m sl (hslots o i m sl hs)⟩

end

end Dnmx
