import Verif.Proofs.RollbackLemmas

/-! # Lemmas about completed mutations -/

set_option linter.unusedSimpArgs false

namespace Dnmx
open Spec

variable {D : Decls} {E : TyEnv} {orc : Orc}

theorem index_of_slot (hE : EnvOk D E) {h : Heap} {o : Nat} {ob : Obj} (ho : h.obj? o = some ob) {j : Nat} {m : Mix} {sl : Slot} (hs : SlotOf E h o j m sl) :
    ∃ b, ob.data = some b ∧ mixinIndex E ob m = some (b, j) ∧ h.slot b j = some sl := by
  obtain ⟨ob', t, a, h1, h2, h3, h4, h5⟩ := hs
  rw [ho] at h1; simp at h1; subst h1
  refine ⟨a, h3, ?_, h5⟩
  unfold mixinIndex
  rw [h3, h2]; simp only
  rw [(hE.index t t m j (mem_of_at h4)).2 h4]; rfl

/-- The destructor calls for the old mixins with index below `k`. -/
def finDestroys (D : Decls) (E : TyEnv) (told t : TypeId) (slot : Nat → Option Slot) (k : Nat) : List (Mix × Loc) :=
  (List.range k).filterMap (fun j => ((E.mixins told)[j]?).bind (fun m => (slot j).bind (fun sl =>
    if (D.mix m).hasDestroy && ((E.indexOf t m).isNone || sl.buf.isNone) then some (m, sl.loc) else none)))

/-- State of the loop of `finalize`, which started in heap `h1`, after `k` old mixins. -/
structure FinUpto (D : Decls) (E : TyEnv) (h0 : Heap) (o : Nat) (told t : TypeId) (b : Nat) (h1 : Heap) (k : Nat) (h : Heap) : Prop where
  objs : h.objs = h1.objs
  next : h.next = h1.next
  slot : h.slot = h1.slot
  owner : h.owner = h1.owner
  count : h.count = h1.count
  dead : ∀ (j : Nat) (m : Mix) (sl : Slot), j < k → SlotOf E h0 o j m sl → (sl.buf = none ∨ E.indexOf t m = none) → h.live sl.loc = none
  moved : ∀ (j i : Nat) (m : Mix) (sl : Slot), j < k → SlotOf E h0 o j m sl → sl.buf = none → (E.mixins t)[i]? = some m →
    ∃ v, h1.live sl.loc = some (m, v) ∧ h.live (h0.next, i) = some (m, v)
  keep : ∀ l, (∀ (j : Nat) (m : Mix) (sl : Slot), j < k → SlotOf E h0 o j m sl → (sl.buf = none ∨ E.indexOf t m = none) → sl.loc ≠ l) →
    (∀ (j i : Nat) (m : Mix) (sl : Slot), j < k → SlotOf E h0 o j m sl → sl.buf = none → (E.mixins t)[i]? = some m → l ≠ (h0.next, i)) → h.live l = h1.live l
  blkDead : ∀ (j : Nat) (m : Mix) (sl : Slot) (e : Nat), j < k → SlotOf E h0 o j m sl → E.indexOf t m = none → sl.buf = some e → h.blk e = none
  blkKeep : ∀ a, (∀ (j : Nat) (m : Mix) (sl : Slot), j < k → SlotOf E h0 o j m sl → E.indexOf t m = none → sl.buf ≠ some a) → h.blk a = h1.blk a
  inits : initsOf h.log = initsOf h1.log
  destroys : destroysOf h.log = destroysOf h1.log ++ finDestroys D E told t (h0.slot b) k

section
variable (hE : EnvOk D E) {h0 : Heap} (hk : HeapOk D E h0) {o : Nat} {ob : Obj} (ho : h0.obj? o = some ob) {t told : TypeId} {g : Ghost} {s : Sess}
  (hs : SessOk D E h0 o ob t g s) {b : Nat} (hb : ob.data = some b) (ht : ob.ty = some told) (hal : s.alloced = (E.mixins t).length)
include hE hk ho hs hb ht hal

theorem finalizeOne_ok {k : Nat} {h : Heap} (hf : FinUpto D E h0 o told t b s.h k h) {m : Mix} (hm : (E.mixins told)[k]? = some m) :
    ∃ h', finalizeOne D E orc s b h0.next k m h = some h' ∧ FinUpto D E h0 o told t b s.h (k + 1) h' := by
  have hblt := data_lt hk ho hb
  have hob := hk.objs o ob ho
  unfold ObjOk at hob; rw [hb] at hob
  obtain ⟨t', h1, -, h2, h3⟩ := hob
  rw [ht] at h1; simp at h1; subst h1
  obtain ⟨sl, v0, k1, k2, k3, k4⟩ := h3 k m hm
  have hsl : SlotOf E h0 o k m sl := ⟨ob, told, b, ho, ht, hb, hm, k1⟩
  have hlt := slot_lt hk hsl
  -- the place of this mixin was not treated before
  have hinj : ∀ (j : Nat) (m' : Mix) (sl' : Slot), j < k → SlotOf E h0 o j m' sl' → sl'.loc ≠ sl.loc := by
    intro j m' sl' hj hsl' hl
    have := (hsl'.same hE hk hsl hl).2.1
    omega
  have hlive1 : ∃ v, s.h.live sl.loc = some (m, v) := by
    rcases hs.liveOld sl.loc hlt with h9 | ⟨j', m', b', i', sl', v', a1, a2, a3, a4, a5, a6⟩
    · exact ⟨v0, by rw [h9, k3]⟩
    · obtain ⟨x, x1, x2, -⟩ := common_slot hE hk ho (mem_of_at a2) a3
      rw [a4] at x2; simp at x2; subst x2
      obtain ⟨-, -, rfl⟩ := x1.same hE hk hsl a5
      exact ⟨v', a6⟩
  obtain ⟨v, hv⟩ := hlive1
  have hlive : h.live sl.loc = some (m, v) := by
    rw [hf.keep sl.loc (fun j m' sl' hj hsl' _ => hinj j m' sl' hj hsl') (fun j i m' sl' _ _ _ _ heq => by rw [heq] at hlt; simp at hlt)]
    exact hv
  have hblkb : h.blk b = some (.unified told ob.alloc) := by
    rw [hf.blkKeep b, hs.blkOld b hblt, h2]
    intro j m' sl' hj hsl' _ hbe
    obtain ⟨ob', t', a', v', c1, c2, c3, c4, c5, c6, -⟩ := hsl'.facts hk
    have := (c6.buf_loc hbe).2.1
    rw [h2] at this; simp [provenance] at this
  have hlb : (h.blk sl.loc.1).isSome = true := by
    rcases k2.blk_loc with ⟨-, p1, -⟩ | ⟨-, p2, p3⟩
    · rw [p1, hblkb]; rfl
    · rw [hf.blkKeep sl.loc.1, hs.blkOld _ hlt]
      · obtain ⟨bk, hbk⟩ := hsl.allocated hk
        rw [hbk]; rfl
      · intro j m' sl' hj hsl' _ hbe
        obtain ⟨ob', t', a', v', c1, c2, c3, c4, c5, c6, -⟩ := hsl'.facts hk
        have q1 := (c6.buf_loc hbe).1
        have q2 := (k2.buf_loc p2).1
        exact hinj j m' sl' hj hsl' (by rw [q1, q2])
  have hslot : h.slot? b k = some sl := by rw [slot?_of hblkb, hf.slot, hs.slotOld b k hblt]; exact k1
  have hinit : initsOf h.log = initsOf s.h.log := hf.inits
  have hdestr : ∀ L : List Ev, destroysOf (h.log ++ L) = destroysOf s.h.log ++ finDestroys D E told t (h0.slot b) k ++ destroysOf L := by
    intro L; unfold destroysOf; rw [List.filterMap_append]; rw [show h.log.filterMap destroyOf = _ from hf.destroys]; rfl
  have hinits : ∀ L : List Ev, initsOf (h.log ++ L) = initsOf s.h.log ++ initsOf L := by
    intro L; unfold initsOf; rw [List.filterMap_append]; rw [show h.log.filterMap initOf = _ from hf.inits]; rfl
  have hfin : finDestroys D E told t (h0.slot b) (k + 1) = finDestroys D E told t (h0.slot b) k ++
      (if (D.mix m).hasDestroy && ((E.indexOf t m).isNone || sl.buf.isNone) then [(m, sl.loc)] else []) := by
    unfold finDestroys
    rw [List.range_succ, List.filterMap_append]
    simp only [List.filterMap_cons, List.filterMap_nil, hm, Option.bind, k1]
    congr 1
    cases ((D.mix m).hasDestroy && ((E.indexOf t m).isNone || sl.buf.isNone)) <;> simp
  -- facts about index `k` itself
  have hself : ∀ (m' : Mix) (sl' : Slot), SlotOf E h0 o k m' sl' → m' = m ∧ sl' = sl := by
    intro m' sl' hsl'
    obtain ⟨ob', t', a', b1, b2, b3, b4, b5⟩ := hsl'
    rw [ho] at b1; simp at b1; subst b1
    rw [ht] at b2; simp at b2; subst b2
    rw [hb] at b3; simp at b3; subst b3
    rw [hm] at b4; simp at b4; subst b4
    rw [k1] at b5; simp at b5; subst b5
    exact ⟨rfl, rfl⟩
  unfold finalizeOne
  rw [hslot]; simp only
  rw [hs.ty]
  cases hti : E.indexOf t m with
  | some i =>
    have hmi : (E.mixins t)[i]? = some m := (hE.index t told m i (mem_of_at hm)).1 hti
    simp only
    cases hbuf : sl.buf with
    | some e =>
      refine ⟨h, rfl, ⟨hf.objs, hf.next, hf.slot, hf.owner, hf.count, ?_, ?_, ?_, ?_, ?_, hf.inits, ?_⟩⟩
      · intro j m' sl' hj hsl' hor
        by_cases hjk : j = k
        · subst hjk
          obtain ⟨rfl, rfl⟩ := hself m' sl' hsl'
          rcases hor with h' | h'
          · rw [hbuf] at h'; simp at h'
          · rw [hti] at h'; simp at h'
        · exact hf.dead j m' sl' (by omega) hsl' hor
      · intro j i' m' sl' hj hsl' hn hmi'
        by_cases hjk : j = k
        · subst hjk
          obtain ⟨rfl, rfl⟩ := hself m' sl' hsl'
          rw [hbuf] at hn; simp at hn
        · exact hf.moved j i' m' sl' (by omega) hsl' hn hmi'
      · intro l q1 q2
        exact hf.keep l (fun j m' sl' hj => q1 j m' sl' (by omega)) (fun j i' m' sl' hj => q2 j i' m' sl' (by omega))
      · intro j m' sl' e' hj hsl' hn hbe
        by_cases hjk : j = k
        · subst hjk
          obtain ⟨rfl, rfl⟩ := hself m' sl' hsl'
          rw [hti] at hn; simp at hn
        · exact hf.blkDead j m' sl' e' (by omega) hsl' hn hbe
      · intro a q1
        exact hf.blkKeep a (fun j m' sl' hj => q1 j m' sl' (by omega))
      · rw [hfin, hf.destroys]; simp [hti, hbuf]
    | none =>
      simp only
      obtain ⟨hloc, hint⟩ := k2.nobuf_loc hbuf
      have hext : (D.mix m).external = false := by
        have := hE.internal told k m hm; rw [hint] at this; simpa using this.symm
      have hint' : E.internal t i = true := by rw [hE.internal t i m hmi, hext]; rfl
      have hmove : (D.mix m).hasMoveInit = true := by
        unfold MixDecl.external at hext; simp at hext; exact hext.1.1
      obtain ⟨new, n1, n2⟩ := hs.slots i m (by rw [hal]; exact lt_of_at hmi) hmi
      unfold SessSlot at n2; rw [if_pos hint'] at n2
      obtain ⟨rfl, n3⟩ := n2
      have hix := index_of_slot hE ho hsl
      obtain ⟨b', hb', hix, -⟩ := hix
      have hraw : h.live (h0.next, i) = none := by
        have h5 : h.live (h0.next, i) = s.h.live (h0.next, i) := by
          apply hf.keep
          · intro j m' sl' hj hsl' _ heq
            have := slot_lt hk hsl'; rw [heq] at this; simp at this
          · intro j i' m' sl' hj hsl' _ hmi' heq
            simp at heq; subst heq
            rw [hmi] at hmi'; simp at hmi'; subst hmi'
            obtain ⟨_, _, hx, _⟩ := index_of_slot hE ho hsl'
            rw [hix] at hx; simp at hx; omega
        rw [h5]
        cases hx : s.h.live (h0.next, i) with
        | none => rfl
        | some x =>
          exfalso
          obtain ⟨j, m', sl', a1, a2, a3, a4, a5⟩ := hs.liveOnly (h0.next, i) x (by simp) hx
          obtain ⟨y, y1, -, -, -, y5, y6⟩ := new_place hs (by have := hs.updated; omega) a2 a3
          rw [a4] at y1; simp at y1; subst y1
          cases hb2 : sl'.buf with
          | some e =>
            obtain ⟨-, z2, z3, -⟩ := y5 e hb2
            rw [a5] at z3; simp at z3; omega
          | none =>
            obtain ⟨z1, -⟩ := y6 hb2
            rw [a5] at z1; simp at z1; subst z1
            rw [hmi] at a2; simp at a2; subst a2
            rw [hix] at a3; simp at a3
      have hblkA : h.blk h0.next = some (.unified t ob.alloc) := by
        rw [hf.blkKeep h0.next]
        · exact hs.blkA
        · intro j m' sl' hj hsl' _ hbe
          obtain ⟨ob', t', a', v', c1, c2, c3, c4, c5, c6, -⟩ := hsl'.facts hk
          have := (c6.buf_loc hbe).2.1
          have := hk.fresh _ _ this; omega
      rw [slot?_of hblkA, hf.slot, n1, hlive]; simp only
      rw [if_pos ⟨trivial, hmove⟩]
      have hcon : h.construct (h0.next, i) m v (.moved sl.loc) = some ((h.setLive (h0.next, i) (some (m, v))).logged (.init m (h0.next, i) (.moved sl.loc))) := by
        unfold Heap.construct
        rw [if_pos ⟨by simp [hblkA], hraw⟩]
      rw [hcon]; simp only [Option.bind]
      have hneq : sl.loc ≠ (h0.next, i) := by intro heq; rw [heq] at hlt; simp at hlt
      obtain ⟨gg, hdes, hgg⟩ := destroy_spec (D := D) (h := (((h.setLive (h0.next, i) (some (m, v))).logged (.init m (h0.next, i) (.moved sl.loc))).setLive sl.loc (some (m, orc.val h.tick))).ticked)
        (l := sl.loc) (m := m) (v := orc.val h.tick) (by simp) hlb
      rw [hdes]
      refine ⟨_, rfl, ⟨hf.objs, hf.next, by rw [← hf.slot], by rw [← hf.owner], by rw [← hf.count], ?_, ?_, ?_, ?_, ?_, ?_, ?_⟩⟩
      · intro j m' sl' hj hsl' hor
        simp only
        by_cases hjk : j = k
        · subst hjk
          obtain ⟨rfl, rfl⟩ := hself m' sl' hsl'
          simp
        · rw [if_neg (hinj j m' sl' (by omega) hsl'), if_neg (hinj j m' sl' (by omega) hsl')]
          rw [if_neg]; exact hf.dead j m' sl' (by omega) hsl' hor
          intro heq; have := slot_lt hk hsl'; rw [heq] at this; simp at this
      · intro j i' m' sl' hj hsl' hn hmi'
        simp only
        have hne2 : (h0.next, i') ≠ sl.loc := by intro heq; rw [← heq] at hlt; simp at hlt
        rw [if_neg hne2, if_neg hne2]
        by_cases hjk : j = k
        · subst hjk
          obtain ⟨rfl, rfl⟩ := hself m' sl' hsl'
          have : i' = i := nodup_index (hE.nodup t) hmi' hmi
          subst this
          exact ⟨v, hv, by simp⟩
        · obtain ⟨v', q1, q2⟩ := hf.moved j i' m' sl' (by omega) hsl' hn hmi'
          refine ⟨v', q1, ?_⟩
          rw [if_neg]; exact q2
          simp only [Prod.mk.injEq, true_and]
          intro heq
          rw [heq, hraw] at q2; simp at q2
      · intro l q1 q2
        simp only
        have r1 := q1 k m sl (by omega) hsl (.inl hbuf)
        have r2 := q2 k i m sl (by omega) hsl hbuf hmi
        rw [if_neg (Ne.symm r1), if_neg (Ne.symm r1), if_neg r2]
        exact hf.keep l (fun j m' sl' hj => q1 j m' sl' (by omega)) (fun j i' m' sl' hj => q2 j i' m' sl' (by omega))
      · intro j m' sl' e' hj hsl' hn hbe
        by_cases hjk : j = k
        · subst hjk
          obtain ⟨rfl, rfl⟩ := hself m' sl' hsl'
          rw [hti] at hn; simp at hn
        · exact hf.blkDead j m' sl' e' (by omega) hsl' hn hbe
      · intro a q1
        exact hf.blkKeep a (fun j m' sl' hj => q1 j m' sl' (by omega))
      · simp only [List.append_assoc]
        rw [hinits, hgg]; split <;> simp [initsOf, initOf]
      · simp only [List.append_assoc]
        rw [hdestr, hfin, hgg]
        cases hdd : (D.mix m).hasDestroy
        · simp [destroysOf, destroyOf, hbuf, hdd]
        · simp [destroysOf, hbuf, hdd]; rfl
  | none =>
    simp only
    obtain ⟨gg, hdes, hgg⟩ := destroy_spec (D := D) hlive hlb
    rw [hdes]; simp only
    have hdead : ∀ (j : Nat) (m' : Mix) (sl' : Slot), j < k + 1 → SlotOf E h0 o j m' sl' → (sl'.buf = none ∨ E.indexOf t m' = none) →
        (h.setLive sl.loc none).live sl'.loc = none := by
      intro j m' sl' hj hsl' hor
      simp only [Heap.setLive]
      by_cases hjk : j = k
      · subst hjk
        obtain ⟨rfl, rfl⟩ := hself m' sl' hsl'
        simp
      · rw [if_neg (hinj j m' sl' (by omega) hsl')]
        exact hf.dead j m' sl' (by omega) hsl' hor
    have hmoved : ∀ (j i : Nat) (m' : Mix) (sl' : Slot), j < k + 1 → SlotOf E h0 o j m' sl' → sl'.buf = none → (E.mixins t)[i]? = some m' →
        ∃ v, s.h.live sl'.loc = some (m', v) ∧ (h.setLive sl.loc none).live (h0.next, i) = some (m', v) := by
      intro j i' m' sl' hj hsl' hn hmi'
      by_cases hjk : j = k
      · subst hjk
        obtain ⟨rfl, rfl⟩ := hself m' sl' hsl'
        have := (hE.index t told m' i' (mem_of_at hm)).2 hmi'
        rw [hti] at this; simp at this
      · obtain ⟨v', q1, q2⟩ := hf.moved j i' m' sl' (by omega) hsl' hn hmi'
        refine ⟨v', q1, ?_⟩
        simp only [Heap.setLive]
        rw [if_neg]; exact q2
        intro heq; rw [← heq] at hlt; simp at hlt
    have hkeep : ∀ l, (∀ (j : Nat) (m' : Mix) (sl' : Slot), j < k + 1 → SlotOf E h0 o j m' sl' → (sl'.buf = none ∨ E.indexOf t m' = none) → sl'.loc ≠ l) →
        (∀ (j i : Nat) (m' : Mix) (sl' : Slot), j < k + 1 → SlotOf E h0 o j m' sl' → sl'.buf = none → (E.mixins t)[i]? = some m' → l ≠ (h0.next, i)) →
        (h.setLive sl.loc none).live l = s.h.live l := by
      intro l q1 q2
      have r1 := q1 k m sl (by omega) hsl (.inr hti)
      simp only [Heap.setLive]
      rw [if_neg (Ne.symm r1)]
      exact hf.keep l (fun j m' sl' hj => q1 j m' sl' (by omega)) (fun j i' m' sl' hj => q2 j i' m' sl' (by omega))
    cases hbuf : sl.buf with
    | none =>
      refine ⟨_, rfl, ⟨hf.objs, hf.next, hf.slot, hf.owner, hf.count, hdead, hmoved, hkeep, ?_, ?_, ?_, ?_⟩⟩
      · intro j m' sl' e' hj hsl' hn hbe
        by_cases hjk : j = k
        · subst hjk
          obtain ⟨rfl, rfl⟩ := hself m' sl' hsl'
          rw [hbuf] at hbe; simp at hbe
        · exact hf.blkDead j m' sl' e' (by omega) hsl' hn hbe
      · intro a q1
        exact hf.blkKeep a (fun j m' sl' hj => q1 j m' sl' (by omega))
      · rw [hinits, hgg]; split <;> simp [initsOf, initOf]
      · rw [hdestr, hfin, hgg]
        cases hdd : (D.mix m).hasDestroy <;> simp [destroysOf, destroyOf, hti, hdd]
    | some e =>
      simp only
      obtain ⟨p1, p2, p3⟩ := k2.buf_loc hbuf
      have hblke : h.blk e = some (provenance D m s.al) := by
        rw [hf.blkKeep e]
        · rw [hs.blkOld e (hk.fresh _ _ p2), hs.sal]; exact p2
        · intro j m' sl' hj hsl' _ hbe
          have := hinj j m' sl' hj hsl'
          obtain ⟨ob', t', a', v', c1, c2, c3, c4, c5, c6, -⟩ := hsl'.facts hk
          rw [(c6.buf_loc hbe).1, p1] at this
          simp at this
      simp only [Heap.deallocate, hblke, if_true]
      refine ⟨_, rfl, ⟨hf.objs, hf.next, hf.slot, hf.owner, hf.count, hdead, hmoved, hkeep, ?_, ?_, ?_, ?_⟩⟩
      · intro j m' sl' e' hj hsl' hn hbe
        simp only
        by_cases hjk : j = k
        · subst hjk
          obtain ⟨rfl, rfl⟩ := hself m' sl' hsl'
          rw [hbuf] at hbe; simp at hbe; simp [hbe]
        · split
          · rfl
          · exact hf.blkDead j m' sl' e' (by omega) hsl' hn hbe
      · intro a q1
        have r1 := q1 k m sl (by omega) hsl hti
        rw [hbuf] at r1
        simp only
        rw [if_neg (by intro heq; exact r1 (by rw [heq]))]
        exact hf.blkKeep a (fun j m' sl' hj => q1 j m' sl' (by omega))
      · simp only [List.append_assoc]
        rw [hinits, hgg]; split <;> simp [initsOf, initOf]
      · simp only [List.append_assoc]
        rw [hdestr, hfin, hgg]
        cases hdd : (D.mix m).hasDestroy <;> simp [destroysOf, destroyOf, hti, hdd]

theorem finalizeLoop_ok : ∀ (ms : List Mix) (k : Nat) (h : Heap), k ≤ (E.mixins told).length → (E.mixins told).drop k = ms → FinUpto D E h0 o told t b s.h k h →
    ∃ h', finalizeLoop D E orc s b h0.next k ms h = some h' ∧ FinUpto D E h0 o told t b s.h (E.mixins told).length h'
  | [], k, h, hle, hd, hf => by
    have : k = (E.mixins told).length := by
      have := congrArg List.length hd; simp at this; omega
    exact ⟨h, rfl, this ▸ hf⟩
  | m :: ms, k, h, hle, hd, hf => by
    have hm : (E.mixins told)[k]? = some m := by
      have : ((E.mixins told).drop k)[0]? = some m := by rw [hd]; rfl
      rw [List.getElem?_drop] at this; simpa using this
    obtain ⟨h', h1, h2⟩ := finalizeOne_ok (orc := orc) hE hk ho hs hb ht hal hf hm
    unfold finalizeLoop
    rw [h1]; simp only [Option.bind]
    exact finalizeLoop_ok ms (k + 1) h' (lt_of_at hm) (by rw [← List.drop_drop, hd]; rfl) h2

end

end Dnmx
