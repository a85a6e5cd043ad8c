import Verif.Proofs.HeapLemmas

/-! # Lemmas about mutation sessions -/

namespace Dnmx
open Spec

variable {D : Decls} {E : TyEnv} {orc : Orc}

/-- What happened to the mixins of the target so far: the functions used for them, and which common mixins were touched. -/
structure Ghost where
  F : Nat → NewFn
  G : Nat → UpdFn
  T : Nat → Bool

/-- Initialization calls for new mixins among the first `n`. -/
def newInits (E : TyEnv) (ob : Obj) (t : TypeId) (F : Nat → NewFn) (slot : Nat → Option Slot) (n : Nat) : List (Mix × Loc × Kind) :=
  (List.range n).filterMap (fun i => ((E.mixins t)[i]?).bind (fun m => if (mixinIndex E ob m).isNone then (slot i).map (fun sl => (m, sl.loc, kindOf (F i))) else none))

/-- The mixin data for target index `i`, during a mutation with new buffer `A`. -/
def SessSlot (D : Decls) (E : TyEnv) (h0 h : Heap) (o : Nat) (ob : Obj) (t : TypeId) (i : Nat) (m : Mix) (sl : Slot) : Prop :=
  if E.internal t i then sl = ⟨none, (h0.next, i)⟩ ∧ h.owner (h0.next, i) = some o
  else match mixinIndex E ob m with
    | some (b, j) => h0.slot b j = some sl
    | none => ∃ e, sl = ⟨some e, (e, 0)⟩ ∧ h0.next < e ∧ e < h.next ∧ h.blk e = some (provenance D m ob.alloc) ∧ h.owner (e, 0) = some o

/-- The invariant of a mutation of object `o` to another type, that started with heap `h0`. -/
structure SessOk (D : Decls) (E : TyEnv) (h0 : Heap) (o : Nat) (ob : Obj) (t : TypeId) (g : Ghost) (s : Sess) : Prop where
  so : s.o = o
  sal : s.al = ob.alloc
  oldTy : s.oldTy = ob.ty
  oldData : s.oldData = ob.data
  ty : s.ty = t
  movedOut : s.movedOut = false
  data : s.data = some h0.next
  objs : s.h.objs = h0.objs
  next : h0.next < s.h.next
  blkOld : ∀ a, a < h0.next → s.h.blk a = h0.blk a
  blkA : s.h.blk h0.next = some (.unified t ob.alloc)
  slotOld : ∀ a i, a < h0.next → s.h.slot a i = h0.slot a i
  ownerOld : ∀ l : Loc, l.1 < h0.next → s.h.owner l = h0.owner l
  liveOld : ∀ l : Loc, l.1 < h0.next → s.h.live l = h0.live l ∨
    ∃ (j : Nat) (m : Mix) (b i : Nat) (sl : Slot) (v : Nat), g.T j = true ∧ (E.mixins t)[j]? = some m ∧ mixinIndex E ob m = some (b, i) ∧
      h0.slot b i = some sl ∧ sl.loc = l ∧ s.h.live l = some (m, v)
  count : ∀ x, s.h.count x = h0.count x + if x = t then 1 else 0
  alloced : s.alloced ≤ (E.mixins t).length
  updated : s.updated ≤ s.alloced
  complete : s.complete = true ↔ 0 < s.updated ∧ s.updated = (E.mixins t).length
  slots : ∀ (i : Nat) (m : Mix), i < s.alloced → (E.mixins t)[i]? = some m → ∃ sl, s.h.slot h0.next i = some sl ∧ SessSlot D E h0 s.h o ob t i m sl
  blkNew : ∀ a b, h0.next < a → s.h.blk a = some b → ∃ (i : Nat) (m : Mix) (sl : Slot), i < s.alloced ∧ (E.mixins t)[i]? = some m ∧
    mixinIndex E ob m = none ∧ s.h.slot h0.next i = some sl ∧ sl.buf = some a
  liveNew : ∀ (i : Nat) (m : Mix) (sl : Slot), i < s.updated → (E.mixins t)[i]? = some m → mixinIndex E ob m = none → s.h.slot h0.next i = some sl →
    ∃ v, s.h.live sl.loc = some (m, v)
  liveOnly : ∀ (l : Loc) x, h0.next ≤ l.1 → s.h.live l = some x → ∃ (i : Nat) (m : Mix) (sl : Slot), i < s.updated ∧ (E.mixins t)[i]? = some m ∧
    mixinIndex E ob m = none ∧ s.h.slot h0.next i = some sl ∧ sl.loc = l
  fresh : ∀ a b, s.h.blk a = some b → a < s.h.next
  inits : initsOf s.h.log = initsOf h0.log ++ newInits E ob t g.F (s.h.slot h0.next) s.updated
  destroys : destroysOf s.h.log = destroysOf h0.log
  copied : ∀ (j : Nat) (m : Mix) (sl : Slot) (src : Nat) (c : Bool), j < s.updated → (E.mixins t)[j]? = some m → mixinIndex E ob m = none →
    s.h.slot h0.next j = some sl → g.F j = .copy src c → ∃ x v, sourceAt h0 src j = some (x, m, v) ∧ s.h.live sl.loc = some (m, v)
  assigned : ∀ (j : Nat) (m : Mix) (b i : Nat) (sl : Slot) (src : Nat), j < s.updated → (E.mixins t)[j]? = some m → mixinIndex E ob m = some (b, i) →
    h0.slot b i = some sl → g.G j = .assign src → ∃ x v, sourceAt h0 src j = some (x, m, v) ∧ s.h.live sl.loc = some (m, v)

theorem SessOk.oldIndex {h0 : Heap} {o : Nat} {ob : Obj} {t : TypeId} {g : Ghost} {s : Sess} (hs : SessOk D E h0 o ob t g s) (m : Mix) :
    s.oldIndex E m = mixinIndex E ob m := by
  unfold Sess.oldIndex mixinIndex
  rw [hs.oldData, hs.oldTy]
  cases ob.data <;> cases ob.ty <;> rfl

/-- The old data of a common mixin. -/
theorem common_slot (hE : EnvOk D E) {h0 : Heap} (hk : HeapOk D E h0) {o : Nat} {ob : Obj} (ho : h0.obj? o = some ob) {u : TypeId} {m : Mix}
    (hm : m ∈ E.mixins u) {b j : Nat} (hi : mixinIndex E ob m = some (b, j)) :
    ∃ sl, SlotOf E h0 o j m sl ∧ h0.slot b j = some sl ∧ ob.data = some b := by
  unfold mixinIndex at hi
  cases hd : ob.data with
  | none => rw [hd] at hi; simp at hi
  | some b' =>
    cases ht : ob.ty with
    | none => rw [hd, ht] at hi; simp at hi
    | some t' =>
      rw [hd, ht] at hi; simp only [Option.map_eq_some_iff, Prod.mk.injEq] at hi
      obtain ⟨j', h1, rfl, rfl⟩ := hi
      have hm' := (hE.index t' u m j' hm).1 h1
      have hob := hk.objs o ob ho
      unfold ObjOk at hob
      rw [hd] at hob
      obtain ⟨t'', h6, -, h7, h8⟩ := hob
      rw [ht] at h6; simp at h6; subst h6
      obtain ⟨sl, v, h9, -⟩ := h8 j' m hm'
      exact ⟨sl, ⟨ob, t', b', ho, ht, hd, hm', h9⟩, h9, rfl⟩

theorem data_lt {h0 : Heap} (hk : HeapOk D E h0) {o : Nat} {ob : Obj} (ho : h0.obj? o = some ob) {b : Nat} (hb : ob.data = some b) : b < h0.next := by
  have hob := hk.objs o ob ho
  unfold ObjOk at hob
  rw [hb] at hob
  obtain ⟨_, -, -, h7, -⟩ := hob
  exact hk.fresh _ _ h7

theorem data_blk {h0 : Heap} (hk : HeapOk D E h0) {o : Nat} {ob : Obj} (ho : h0.obj? o = some ob) {b : Nat} (hb : ob.data = some b) :
    ∃ t, h0.blk b = some (.unified t ob.alloc) := by
  have hob := hk.objs o ob ho
  unfold ObjOk at hob
  rw [hb] at hob
  obtain ⟨t, -, -, h7, -⟩ := hob
  exact ⟨t, h7⟩

/-- reading from the buffer of an object -/
theorem slot?_data {h0 h : Heap} (hk : HeapOk D E h0) {o : Nat} {ob : Obj} (ho : h0.obj? o = some ob) {b : Nat} (hb : ob.data = some b) (hbk : h.blk b = h0.blk b) (i : Nat) :
    h.slot? b i = h.slot b i := by
  obtain ⟨t, h1⟩ := data_blk hk ho hb
  exact slot?_of (by rw [hbk]; exact h1) i

theorem slot_lt {h : Heap} (hk : HeapOk D E h) {o i : Nat} {m : Mix} {sl : Slot} (hs : SlotOf E h o i m sl) : sl.loc.1 < h.next := by
  obtain ⟨b, hb⟩ := hs.allocated hk
  exact hk.fresh _ _ hb

theorem mem_of_at {l : List Mix} {i : Nat} {m : Mix} (h : l[i]? = some m) : m ∈ l := List.mem_of_getElem? h

theorem not_live_fresh {h0 : Heap} (hk : HeapOk D E h0) {l : Loc} (h : h0.next ≤ l.1) : h0.live l = none := by
  cases hl : h0.live l with
  | none => rfl
  | some x => have := live_lt hk hl; omega

/-! ## The start -/

/-- The session right after the allocation of the unified buffer. -/
theorem start_ok {h0 : Heap} (hk : HeapOk D E h0) {o : Nat} {ob : Obj} {t : TypeId} (g : Ghost) :
    SessOk D E h0 o ob t g { Sess.begin h0 o ob t with h := (h0.ticked.allocate (.unified t ob.alloc)).countUp t 1, data := some h0.next } := by
  constructor <;> simp only [Sess.begin, Heap.ticked, Heap.allocate, Heap.countUp]
  · omega
  · intro a ha; rw [if_neg (by omega)]
  · simp
  · intros; trivial
  · intros; trivial
  · intro l _; left; trivial
  · intro x; split <;> simp
  · omega
  · omega
  · simp
  · intro i m hi; omega
  · intro a b ha hb
    rw [if_neg (by omega)] at hb
    have := hk.fresh a b hb; omega
  · intro i m sl hi; omega
  · intro l x hl hx
    rw [not_live_fresh hk hl] at hx; simp at hx
  · intro a b hb
    split at hb
    · omega
    · have := hk.fresh a b hb; omega
  · simp [initsOf, newInits, initOf]
  · simp [destroysOf, destroyOf]
  · intro j m sl src c hj; omega
  · intro j m b i sl src hj; omega

theorem tick_ok {h0 : Heap} {o : Nat} {ob : Obj} {t : TypeId} {g : Ghost} {s : Sess} (hs : SessOk D E h0 o ob t g s) :
    SessOk D E h0 o ob t g { s with h := s.h.ticked } := by
  obtain ⟨h1, h2, h3, h4, h5, h6, h7, h8, h9, h10, h11, h12, h13, h14, h15, h16, h17, h18, h19, h20, h21, h22, h23, h24, h25, h26, h27⟩ := hs
  exact ⟨h1, h2, h3, h4, h5, h6, h7, h8, h9, h10, h11, h12, h13, h14, h15, h16, h17, h18, h19, h20, h21, h22, h23, h24, h25, h26, h27⟩

/-- Outcomes of a step of a session. -/
def StepOk (r : Res Sess) (P : Sess → Prop) (Q : Sess → XErr → Prop) : Prop :=
  match r with
  | .ok s => P s
  | .throw s e => Q s e
  | .ub => False

theorem StepOk.bind {r : Res Sess} {P : Sess → Prop} {Q : Sess → XErr → Prop} (h : StepOk r P Q) {f : Sess → Res Sess} {k : Sess → XErr → Res Sess}
    {P' : Sess → Prop} {Q' : Sess → XErr → Prop} (h1 : ∀ s, P s → StepOk (f s) P' Q') (h2 : ∀ s e, Q s e → StepOk (k s e) P' Q') :
    StepOk (r.bind f k) P' Q' := by
  cases r with
  | ok s => exact h1 s h
  | throw s e => exact h2 s e h
  | ub => exact h.elim

theorem allocOne_ok (hE : EnvOk D E) {h0 : Heap} (hk : HeapOk D E h0) {o : Nat} {ob : Obj} (ho : h0.obj? o = some ob) {t : TypeId} {g : Ghost} {s : Sess}
    (hs : SessOk D E h0 o ob t g s) (hu : s.updated = 0) (hlt : s.alloced < (E.mixins t).length) :
    StepOk (allocOne D E orc s) (fun s' => SessOk D E h0 o ob t g s' ∧ s'.updated = 0 ∧ s'.alloced = s.alloced + 1)
      (fun s' e => SessOk D E h0 o ob t g s' ∧ e = .badAlloc) := by
  obtain ⟨m, hm⟩ := mixin_at hlt
  have hcf : s.complete = false := by
    cases hc : s.complete with
    | false => rfl
    | true => have := hs.complete.1 hc; omega
  have hc' : ¬ (s.complete = true) := by rw [hcf]; simp
  have hnl : ∀ l : Loc, h0.next ≤ l.1 → s.h.live l = none := by
    intro l hl
    cases hx : s.h.live l with
    | none => rfl
    | some x =>
      obtain ⟨i, _, _, hi, -⟩ := hs.liveOnly l x hl hx
      omega
  unfold allocOne
  simp only [hs.data, hs.ty, hm, hs.so, hs.sal]
  by_cases hint : E.internal t s.alloced = true
  · rw [if_pos hint]
    refine ⟨⟨rfl, rfl, hs.oldTy, hs.oldData, rfl, hs.movedOut, rfl, ?_, ?_, ?_, ?_, ?_, ?_, ?_, ?_, ?_, ?_, ?_, ?_, ?_, ?_, ?_, ?_, ?_, ?_, ?_, ?_⟩, hu, rfl⟩ <;>
      simp only [Heap.setSlot, Heap.setOwner]
    · exact hs.objs
    · exact hs.next
    · exact hs.blkOld
    · exact hs.blkA
    · intro a i ha; rw [if_neg (by omega)]; exact hs.slotOld a i ha
    · intro l hl
      rw [if_neg (by intro h; rw [h] at hl; simp at hl)]; exact hs.ownerOld l hl
    · exact hs.liveOld
    · exact hs.count
    · exact hlt
    · have := hs.updated; omega
    · exact hs.complete
    · intro i m' hi hm'
      by_cases hin : i = s.alloced
      · subst hin
        refine ⟨⟨none, (h0.next, s.alloced)⟩, by simp, ?_⟩
        unfold SessSlot; rw [if_pos hint]; simp
      · obtain ⟨sl, h1, h2⟩ := hs.slots i m' (by omega) hm'
        refine ⟨sl, by rw [if_neg (by omega)]; exact h1, ?_⟩
        unfold SessSlot at h2 ⊢
        split
        · rename_i hi'; rw [if_pos hi'] at h2
          refine ⟨h2.1, ?_⟩
          simp only [Prod.mk.injEq]; rw [if_neg (by omega)]; exact h2.2
        · rename_i hi'; rw [if_neg hi'] at h2
          cases hx : mixinIndex E ob m' with
          | some p => rw [hx] at h2; exact h2
          | none =>
            rw [hx] at h2
            obtain ⟨e, e1, e2, e3, e4, e5⟩ := h2
            refine ⟨e, e1, e2, e3, e4, ?_⟩
            simp only [Prod.mk.injEq]; rw [if_neg (by omega)]; exact e5
    · intro a b ha hb
      obtain ⟨i, m', sl, h1, h2, h3, h4, h5⟩ := hs.blkNew a b ha hb
      exact ⟨i, m', sl, by omega, h2, h3, by rw [if_neg (by omega)]; exact h4, h5⟩
    · intro i m' sl hi; omega
    · intro l x hl hx; rw [hnl l hl] at hx; simp at hx
    · exact hs.fresh
    · have := hs.inits; rw [hu] at this ⊢; exact this
    · exact hs.destroys
    · intro j m' sl src c hj; omega
    · intro j m' b i sl src hj; omega
  · rw [if_neg hint, hs.oldIndex]
    cases hix : mixinIndex E ob m with
    | some p =>
      obtain ⟨b, j⟩ := p
      obtain ⟨sl, hsl, hslot, hdata⟩ := common_slot hE hk ho (mem_of_at hm) hix
      have hb := data_lt hk ho hdata
      simp only
      rw [slot?_data hk ho hdata (hs.blkOld b hb), hs.slotOld b j hb, hslot]
      refine ⟨⟨rfl, rfl, hs.oldTy, hs.oldData, rfl, hs.movedOut, rfl, ?_, ?_, ?_, ?_, ?_, ?_, ?_, ?_, ?_, ?_, ?_, ?_, ?_, ?_, ?_, ?_, ?_, ?_, ?_, ?_⟩, hu, rfl⟩ <;>
        simp only [Heap.setSlot]
      · exact hs.objs
      · exact hs.next
      · exact hs.blkOld
      · exact hs.blkA
      · intro a i ha; rw [if_neg (by omega)]; exact hs.slotOld a i ha
      · exact hs.ownerOld
      · exact hs.liveOld
      · exact hs.count
      · exact hlt
      · have := hs.updated; omega
      · exact hs.complete
      · intro i m' hi hm'
        by_cases hin : i = s.alloced
        · subst hin
          rw [hm] at hm'; simp at hm'; subst hm'
          refine ⟨sl, by simp, ?_⟩
          unfold SessSlot; rw [if_neg hint, hix]; exact hslot
        · obtain ⟨sl, h1, h2⟩ := hs.slots i m' (by omega) hm'
          exact ⟨sl, by rw [if_neg (by omega)]; exact h1, h2⟩
      · intro a b ha hb
        obtain ⟨i, m', sl, h1, h2, h3, h4, h5⟩ := hs.blkNew a b ha hb
        exact ⟨i, m', sl, by omega, h2, h3, by rw [if_neg (by omega)]; exact h4, h5⟩
      · intro i m' sl hi; omega
      · intro l x hl hx; rw [hnl l hl] at hx; simp at hx
      · exact hs.fresh
      · have := hs.inits; rw [hu] at this ⊢; exact this
      · exact hs.destroys
      · intro j m' sl src c hj; omega
      · intro j m' b i sl src hj; omega
    | none =>
      simp only
      by_cases hf : orc.fail s.h.tick = true
      · rw [if_pos hf]
        have := tick_ok hs
        rw [hs.so, hs.sal, hs.ty, hs.data] at this
        exact ⟨this, rfl⟩
      · rw [if_neg hf]
        have hnx := hs.next
        refine ⟨⟨rfl, rfl, hs.oldTy, hs.oldData, rfl, hs.movedOut, rfl, ?_, ?_, ?_, ?_, ?_, ?_, ?_, ?_, ?_, ?_, ?_, ?_, ?_, ?_, ?_, ?_, ?_, ?_, ?_, ?_⟩, hu, rfl⟩ <;>
          simp only [Heap.setSlot, Heap.setOwner, Heap.ticked, Heap.allocate]
        · exact hs.objs
        · omega
        · intro a ha; rw [if_neg (by omega)]; exact hs.blkOld a ha
        · rw [if_neg (by omega)]; exact hs.blkA
        · intro a i ha; rw [if_neg (by omega)]; exact hs.slotOld a i ha
        · intro l hl
          rw [if_neg (by intro h; rw [h] at hl; simp at hl; omega)]; exact hs.ownerOld l hl
        · exact hs.liveOld
        · exact hs.count
        · exact hlt
        · have := hs.updated; omega
        · exact hs.complete
        · intro i m' hi hm'
          by_cases hin : i = s.alloced
          · subst hin
            rw [hm] at hm'; simp at hm'; subst hm'
            refine ⟨_, by simp; rfl, ?_⟩
            unfold SessSlot; rw [if_neg hint, hix]
            exact ⟨s.h.next, rfl, hnx, by simp, by simp, by simp⟩
          · obtain ⟨sl, h1, h2⟩ := hs.slots i m' (by omega) hm'
            refine ⟨sl, by rw [if_neg (by omega)]; exact h1, ?_⟩
            unfold SessSlot at h2 ⊢
            split
            · rename_i hi'; rw [if_pos hi'] at h2
              refine ⟨h2.1, ?_⟩
              simp only [Prod.mk.injEq]; rw [if_neg (by omega)]; exact h2.2
            · rename_i hi'; rw [if_neg hi'] at h2
              cases hx : mixinIndex E ob m' with
              | some p => rw [hx] at h2; exact h2
              | none =>
                rw [hx] at h2
                obtain ⟨e, e1, e2, e3, e4, e5⟩ := h2
                refine ⟨e, e1, e2, by simp only; omega, ?_, ?_⟩
                · simp only; rw [if_neg (by omega)]; exact e4
                · simp only [Prod.mk.injEq]; rw [if_neg (by omega)]; exact e5
        · intro a b ha hb
          by_cases hane : a = s.h.next
          · subst hane
            exact ⟨s.alloced, m, ⟨some s.h.next, (s.h.next, 0)⟩, by omega, hm, hix, by simp, rfl⟩
          · rw [if_neg hane] at hb
            obtain ⟨i, m', sl, h1, h2, h3, h4, h5⟩ := hs.blkNew a b ha hb
            exact ⟨i, m', sl, by omega, h2, h3, by rw [if_neg (by omega)]; exact h4, h5⟩
        · intro i m' sl hi; omega
        · intro l x hl hx; rw [hnl l hl] at hx; simp at hx
        · intro a b hb
          by_cases hane : a = s.h.next
          · omega
          · rw [if_neg hane] at hb
            have := hs.fresh a b hb; omega
        · have := hs.inits; rw [hu] at this ⊢; simp only [newInits, List.range_zero, List.filterMap_nil] at this ⊢
          rw [← this]; simp [initsOf, initOf]
        · rw [← hs.destroys]; simp [destroysOf, destroyOf]
        · intro j m' sl src c hj; omega
        · intro j m' b i sl src hj; omega

theorem allocLoop_ok (hE : EnvOk D E) {h0 : Heap} (hk : HeapOk D E h0) {o : Nat} {ob : Obj} (ho : h0.obj? o = some ob) {t : TypeId} {g : Ghost} :
    ∀ (k : Nat) (s : Sess), SessOk D E h0 o ob t g s → s.updated = 0 → s.alloced + k = (E.mixins t).length →
    StepOk (allocLoop D E orc k s) (fun s' => SessOk D E h0 o ob t g s' ∧ s'.updated = 0 ∧ s'.alloced = (E.mixins t).length)
      (fun s' e => SessOk D E h0 o ob t g s' ∧ e = .badAlloc)
  | 0, s, hs, hu, hk' => ⟨hs, hu, by omega⟩
  | k + 1, s, hs, hu, hk' => by
    unfold allocLoop
    refine (allocOne_ok (orc := orc) hE hk ho hs hu (by omega)).bind ?_ ?_
    · rintro s' ⟨h1, h2, h3⟩
      exact allocLoop_ok hE hk ho k s' h1 h2 (by omega)
    · rintro s' e h; exact h

end Dnmx
