import Verif.Proofs.MoveLemmas

/-!
# Copies and moves of matching mixins
-/

set_option linter.unusedSimpArgs false
set_option linter.unusedVariables false
set_option linter.unusedSectionVars false

namespace Dnmx
open Spec

variable {D : Decls} {E : TyEnv} {orc : Orc}

/-- Only values of mixins differ. -/
structure Revalued (h0 h : Heap) : Prop where
  objs : h.objs = h0.objs
  next : h.next = h0.next
  blk : h.blk = h0.blk
  slot : h.slot = h0.slot
  owner : h.owner = h0.owner
  count : h.count = h0.count
  live : ∀ l, (h.live l).map Prod.fst = (h0.live l).map Prod.fst

theorem Revalued.refl (h : Heap) : Revalued h h := ⟨rfl, rfl, rfl, rfl, rfl, rfl, fun _ => rfl⟩

theorem Revalued.heapOk {h0 h : Heap} (hk : HeapOk D E h0) (hr : Revalued h0 h) : HeapOk D E h :=
  HeapOk_transfer hk hr.objs (fun a => by rw [hr.blk]) (fun a i _ => by rw [hr.slot]) (fun l _ => by rw [hr.owner]) hr.live
    (fun x => by rw [hr.count]) (by rw [hr.next]; exact Nat.le_refl _)

theorem Revalued.slots {h0 h : Heap} (hr : Revalued h0 h) {o i : Nat} {m : Mix} {sl : Slot} : SlotOf E h o i m sl ↔ SlotOf E h0 o i m sl := by
  unfold SlotOf Heap.obj?
  rw [hr.objs, hr.slot]

theorem Revalued.set {h0 h : Heap} (hr : Revalued h0 h) {l : Loc} {m : Mix} {v0 : Nat} (hl : h0.live l = some (m, v0)) (v : Nat) (tk : Nat) (L : List Ev) :
    Revalued h0 { h with live := (h.setLive l (some (m, v))).live, tick := tk, log := L } := by
  refine ⟨hr.objs, hr.next, hr.blk, hr.slot, hr.owner, hr.count, ?_⟩
  intro l'
  simp only
  split
  · rename_i h1; subst h1; rw [hl]; rfl
  · exact hr.live l'

/-- The mixin data of the mixin of `o` that matches mixin `j` of `src`. -/
def Match (E : TyEnv) (h0 : Heap) (o src j : Nat) (m : Mix) (sl sl' : Slot) : Prop := SlotOf E h0 src j m sl' ∧ ∃ oi, SlotOf E h0 o oi m sl

section
variable (hE : EnvOk D E) {h0 : Heap} (hk : HeapOk D E h0) {o src : Nat}
include hE hk

theorem matching_same {o src j j' : Nat} {m m' : Mix} {sl sl' sl2 sl2' : Slot} (h1 : Match E h0 o src j m sl sl') (h2 : Match E h0 o src j' m' sl2 sl2') (hl : sl.loc = sl2.loc) :
    j = j' ∧ m = m' ∧ sl = sl2 ∧ sl' = sl2' := by
  obtain ⟨a1, oi, a2⟩ := h1
  obtain ⟨b1, oi', b2⟩ := h2
  obtain ⟨-, h3, h4⟩ := a2.same hE hk b2 hl
  subst h3; subst h4
  have e1 : j = j' := by
    obtain ⟨ob, t, a, p1, p2, p3, p4, p5⟩ := a1
    obtain ⟨ob', t', a', q1, q2, q3, q4, q5⟩ := b1
    rw [p1] at q1; simp at q1; subst q1
    rw [p2] at q2; simp at q2; subst q2
    exact nodup_index (hE.nodup t) p4 q4
  subst e1
  refine ⟨rfl, rfl, ?_, ?_⟩
  · obtain ⟨ob, t, a, p1, p2, p3, p4, p5⟩ := a2
    obtain ⟨ob', t', a', q1, q2, q3, q4, q5⟩ := b2
    rw [p1] at q1; simp at q1; subst q1
    rw [p3] at q3; simp at q3; subst q3
    rw [p5] at q5; simpa using q5
  · obtain ⟨ob, t, a, p1, p2, p3, p4, p5⟩ := a1
    obtain ⟨ob', t', a', q1, q2, q3, q4, q5⟩ := b1
    rw [p1] at q1; simp at q1; subst q1
    rw [p3] at q3; simp at q3; subst q3
    rw [p5] at q5; simpa using q5

/-- The matching mixins with index below `k` have been copied. -/
structure CopiedUpto (E : TyEnv) (h0 : Heap) (o src k : Nat) (h : Heap) : Prop where
  rev : Revalued h0 h
  copied : ∀ j m sl sl', j < k → Match E h0 o src j m sl sl' → h.live sl.loc = h0.live sl'.loc
  rest : ∀ l, (∀ j m sl sl', j < k → Match E h0 o src j m sl sl' → sl.loc ≠ l) → h.live l = h0.live l
  inits : initsOf h.log = initsOf h0.log
  destroys : destroysOf h.log = destroysOf h0.log

theorem copied_source {k : Nat} {h : Heap} (hc : CopiedUpto E h0 o src k h) {j : Nat} {m : Mix} {sl' : Slot} (hs : SlotOf E h0 src j m sl') :
    h.live sl'.loc = h0.live sl'.loc := by
  by_cases hex : ∃ j' m' sl2 sl2', j' < k ∧ Match E h0 o src j' m' sl2 sl2' ∧ sl2.loc = sl'.loc
  · obtain ⟨j', m', sl2, sl2', h1, h2, h3⟩ := hex
    have h4 := hc.copied j' m' sl2 sl2' h1 h2
    rw [h3] at h4
    obtain ⟨h5, oi, h6⟩ := h2
    obtain ⟨h7, h8, h9⟩ := h6.same hE hk hs h3
    subst h7; subst h8; subst h9
    have := (matching_same hE hk (⟨hs, _, hs⟩ : Match E h0 o o oi m' sl' sl') ⟨h5, _, h6⟩ h3.symm).2.2.2
    rw [h4, this]
  · exact hc.rest _ (fun j' m' sl2 sl2' h1 h2 h3 => hex ⟨j', m', sl2, sl2', h1, h2, h3⟩)

variable {ob sb : Obj} {own t : TypeId} (ho : h0.obj? o = some ob) (hs : h0.obj? src = some sb) (hty : ob.ty = some own) (hsty : sb.ty = some t)
include ho hs hty hsty

omit hs hsty in
/-- Where a mixin of the type of an object is. -/
theorem typed_slot {i : Nat} {m : Mix} (hm : (E.mixins own)[i]? = some m) : ∃ a sl v, ob.data = some a ∧ SlotOf E h0 o i m sl ∧ h0.slot a i = some sl ∧ h0.live sl.loc = some (m, v) := by
  have hob := hk.objs o ob ho
  unfold ObjOk at hob
  cases hd : ob.data with
  | none => rw [hd] at hob; rw [hob own hty] at hm; simp at hm
  | some a =>
    rw [hd] at hob
    obtain ⟨t', p1, p2, p3, p4⟩ := hob
    rw [hty] at p1; simp at p1; subst p1
    obtain ⟨sl, v, q1, q2, q3, q4⟩ := p4 i m hm
    exact ⟨a, sl, v, rfl, ⟨ob, own, a, ho, hty, hd, hm, q1⟩, q1, q3⟩

theorem copyMatchingLoop_ok (hck : ∀ m ∈ E.mixins t, m ∈ E.mixins own → (D.mix m).hasCopyAsgn = true) :
    ∀ (ms : List Mix) (k : Nat) (h : Heap), (E.mixins t).drop k = ms → k ≤ (E.mixins t).length → CopiedUpto E h0 o src k h →
    HStepOk (copyMatchingLoop D E orc own ob.data sb.data k ms h) (CopiedUpto E h0 o src (E.mixins t).length)
      (fun h' _ => ∃ k h1 m sl sl' v tk L, CopiedUpto E h0 o src k h1 ∧ Match E h0 o src k m sl sl' ∧
        h' = { h1 with live := (h1.setLive sl.loc (some (m, v))).live, tick := tk, log := L } ∧ initsOf L = initsOf h1.log ∧ destroysOf L = destroysOf h1.log)
  | [], k, h, hd, hle, hc => by
    have : k = (E.mixins t).length := by
      have := List.drop_eq_nil_iff.1 hd; omega
    unfold copyMatchingLoop
    rw [← this]; exact hc
  | m :: ms, k, h, hd, hle, hc => by
    have hm : (E.mixins t)[k]? = some m := by
      have := congrArg (fun l => l[0]?) hd
      simpa using this
    have hlt := lt_of_at hm
    have hd' : (E.mixins t).drop (k + 1) = ms := by
      rw [← List.drop_drop, hd]; rfl
    unfold copyMatchingLoop
    cases hi : E.indexOf own m with
    | none =>
      simp only
      refine copyMatchingLoop_ok hck ms (k + 1) h hd' hlt ⟨hc.rev, ?_, ?_, hc.inits, hc.destroys⟩
      · intro j m' sl sl' hj hmt
        by_cases hjk : j = k
        · exfalso
          subst hjk
          obtain ⟨h1, oi, ob', t', a', p1, p2, p3, p4, p5⟩ := hmt
          rw [ho] at p1; simp at p1; subst p1
          rw [hty] at p2; simp at p2; subst p2
          have h2 := slotOf_lt hE h1 hs hsty
          rw [hm] at h2; simp at h2; subst h2
          rw [(hE.index own t m oi (mem_of_at hm)).2 p4] at hi; simp at hi
        · exact hc.copied j m' sl sl' (by omega) hmt
      · intro l hl
        exact hc.rest l (fun j m' sl sl' hj => hl j m' sl sl' (by omega))
    | some oi =>
      simp only
      have hoi := (hE.index own t m oi (mem_of_at hm)).1 hi
      obtain ⟨a, sl, v1, hda, hsl, hslot, hlive⟩ := typed_slot hE hk ho hty hoi
      obtain ⟨b, sl', v2, hdb, hsl', hslot', hlive'⟩ := typed_slot hE hk hs hsty hm
      have hmt : Match E h0 o src k m sl sl' := ⟨hsl', oi, hsl⟩
      have hsrc : h.live sl'.loc = some (m, v2) := by rw [copied_source hE hk hc hsl']; exact hlive'
      have hdst : ∃ v, h.live sl.loc = some (m, v) := by
        have := hc.rev.live sl.loc
        rw [hlive] at this
        simp only [Option.map_some, Option.map_eq_some_iff] at this
        obtain ⟨⟨m', v'⟩, e1, e2⟩ := this
        simp at e2; subst e2; exact ⟨v', e1⟩
      obtain ⟨v3, hdst⟩ := hdst
      have hca := hck m (mem_of_at hm) (mem_of_at hoi)
      have hra := fun i => slot?_data (h := h) hk ho hda (by rw [hc.rev.blk]) i
      have hrb := fun i => slot?_data (h := h) hk hs hdb (by rw [hc.rev.blk]) i
      simp only [hda, hdb, Option.bind, mixinAt, hra, hrb, hc.rev.slot, hslot, hslot', hdst, hsrc, Option.map_some, ne_eq, not_true_eq_false, hca, Bool.true_eq_false, or_self, if_false]
      split
      · refine ⟨k, h, m, sl, sl', orc.val h.tick, h.tick + 1, h.log ++ [.copyAsgn m sl.loc sl'.loc], hc, hmt, rfl, ?_, ?_⟩
        · simp [initsOf, initOf]
        · simp [destroysOf, destroyOf]
      · have hr := hc.rev.set hlive v2 (h.tick + 1) (h.log ++ [.copyAsgn m sl.loc sl'.loc])
        have := copyMatchingLoop_ok hck ms (k + 1) _ hd' hlt (⟨hr, ?_, ?_, ?_, ?_⟩ : CopiedUpto E h0 o src (k + 1) _)
        · simp only [hda, hdb] at this; exact this
        · intro j m' sl2 sl2' hj hmt2
          simp only
          by_cases hl : sl2.loc = sl.loc
          · obtain ⟨-, h1, h2, h3⟩ := matching_same hE hk hmt2 hmt hl
            subst h1; subst h2; subst h3
            simp only [if_true]; exact hlive'.symm
          · simp only [hl, if_false]
            have : j ≠ k := by
              rintro rfl
              obtain ⟨h1, oi', h2⟩ := hmt2
              have e1 := slotOf_lt hE h1 hs hsty
              rw [hm] at e1; simp at e1; subst e1
              have e2 := slotOf_lt hE h2 ho hty
              have := nodup_index (hE.nodup own) e2 hoi
              subst this
              obtain ⟨ob', t', a', p1, p2, p3, p4, p5⟩ := h2
              rw [ho] at p1; simp at p1; subst p1
              rw [hda] at p3; simp at p3; subst p3
              rw [hslot] at p5; simp at p5; subst p5
              exact hl rfl
            exact hc.copied j m' sl2 sl2' (by omega) hmt2
        · intro l hl
          have : l ≠ sl.loc := fun h => hl k m sl sl' (by omega) hmt h.symm
          simp only [this, if_false]
          exact hc.rest l (fun j m' sl2 sl2' hj => hl j m' sl2 sl2' (by omega))
        · have := hc.inits
          simp only [initsOf, List.filterMap_append] at this ⊢
          rw [this]; simp [initOf]
        · have := hc.destroys
          simp only [destroysOf, List.filterMap_append] at this ⊢
          rw [this]; simp [destroyOf]

/-- The matching mixins with index below `k` have been moved; `src` is another object. -/
structure MovedUpto (E : TyEnv) (h0 : Heap) (o src k : Nat) (h : Heap) : Prop where
  rev : Revalued h0 h
  moved : src ≠ o → ∀ j m sl sl', j < k → Match E h0 o src j m sl sl' → h.live sl.loc = h0.live sl'.loc
  rest : ∀ l, (∀ j m sl sl', j < k → Match E h0 o src j m sl sl' → sl.loc ≠ l ∧ sl'.loc ≠ l) → h.live l = h0.live l

theorem moveMatchingLoop_ok (fb : Bool) (hself : o = src → fb = false)
    (hck : ∀ m ∈ E.mixins t, m ∈ E.mixins own → (D.mix m).hasMoveAsgn = true ∨ (fb = true ∧ (D.mix m).hasMoveInit = true)) :
    ∀ (ms : List Mix) (k : Nat) (h : Heap), (E.mixins t).drop k = ms → k ≤ (E.mixins t).length → MovedUpto E h0 o src k h →
    HStepOk (moveMatchingLoop D E orc own ob.data sb.data k ms h) (MovedUpto E h0 o src (E.mixins t).length) (fun h' _ => False)
  | [], k, h, hd, hle, hc => by
    have : k = (E.mixins t).length := by
      have := List.drop_eq_nil_iff.1 hd; omega
    unfold moveMatchingLoop
    rw [← this]; exact hc
  | m :: ms, k, h, hd, hle, hc => by
    have hm : (E.mixins t)[k]? = some m := by
      have := congrArg (fun l => l[0]?) hd
      simpa using this
    have hlt := lt_of_at hm
    have hd' : (E.mixins t).drop (k + 1) = ms := by
      rw [← List.drop_drop, hd]; rfl
    unfold moveMatchingLoop
    cases hi : E.indexOf own m with
    | none =>
      simp only
      refine moveMatchingLoop_ok fb hself hck ms (k + 1) h hd' hlt ⟨hc.rev, ?_, ?_⟩
      · intro hne j m' sl sl' hj hmt
        by_cases hjk : j = k
        · exfalso
          subst hjk
          obtain ⟨h1, oi, ob', t', a', p1, p2, p3, p4, p5⟩ := hmt
          rw [ho] at p1; simp at p1; subst p1
          rw [hty] at p2; simp at p2; subst p2
          have h2 := slotOf_lt hE h1 hs hsty
          rw [hm] at h2; simp at h2; subst h2
          rw [(hE.index own t m oi (mem_of_at hm)).2 p4] at hi; simp at hi
        · exact hc.moved hne j m' sl sl' (by omega) hmt
      · intro l hl
        exact hc.rest l (fun j m' sl sl' hj => hl j m' sl sl' (by omega))
    | some oi =>
      simp only
      have hoi := (hE.index own t m oi (mem_of_at hm)).1 hi
      obtain ⟨a, sl, v1, hda, hsl, hslot, hlive⟩ := typed_slot hE hk ho hty hoi
      obtain ⟨b, sl', v2, hdb, hsl', hslot', hlive'⟩ := typed_slot hE hk hs hsty hm
      have hmt : Match E h0 o src k m sl sl' := ⟨hsl', oi, hsl⟩
      have hcur : ∀ (x : Slot) (v : Nat), h0.live x.loc = some (m, v) → ∃ v', h.live x.loc = some (m, v') := by
        intro x v hx
        have := hc.rev.live x.loc
        rw [hx] at this
        simp only [Option.map_some, Option.map_eq_some_iff] at this
        obtain ⟨⟨m', v'⟩, e1, e2⟩ := this
        simp at e2; subst e2; exact ⟨v', e1⟩
      obtain ⟨v3, hdst⟩ := hcur sl v1 hlive
      obtain ⟨v4, hsrc⟩ := hcur sl' v2 hlive'
      -- the source has not been touched so far
      have huniq : ∀ j m' sl2 sl2', j < k → Match E h0 o src j m' sl2 sl2' → sl2'.loc ≠ sl'.loc := by
        intro j m' sl2 sl2' hj hmt2 heq
        obtain ⟨-, h5, -⟩ := hmt2.1.same hE hk hsl' heq
        omega
      have hv4 : src ≠ o → v4 = v2 := by
        intro hne
        have : h.live sl'.loc = h0.live sl'.loc := by
          apply hc.rest
          intro j m' sl2 sl2' hj hmt2
          refine ⟨?_, huniq j m' sl2 sl2' hj hmt2⟩
          intro heq
          obtain ⟨h1, oi', h2⟩ := hmt2
          exact hne ((h2.same hE hk hsl' heq).1.symm)
        rw [this, hlive'] at hsrc; simp at hsrc; exact hsrc.symm
      -- what both ways of moving lead to
      have hnext : ∀ (v w : Nat) (L : List Ev), (src ≠ o → v = v2) → MovedUpto E h0 o src (k + 1)
          { h with live := fun x => if x = sl'.loc then some (m, w) else if x = sl.loc then some (m, v) else h.live x, tick := h.tick + 1, log := L } := by
        intro v w L hv
        have hr1 := hc.rev.set hlive v (h.tick + 1) L
        have hr2 := hr1.set hlive' w (h.tick + 1) L
        refine ⟨hr2, ?_, ?_⟩
        · intro hne j m' sl2 sl2' hj hmt2
          have hnl : sl2.loc ≠ sl'.loc := by
            intro heq
            obtain ⟨h1, oi', h2⟩ := hmt2
            exact hne ((h2.same hE hk hsl' heq).1.symm)
          simp only [hnl, if_false]
          by_cases hl : sl2.loc = sl.loc
          · obtain ⟨-, h1, h2, h3⟩ := matching_same hE hk hmt2 hmt hl
            subst h1; subst h2; subst h3
            simp only [if_true]; rw [hv hne]; exact hlive'.symm
          · simp only [hl, if_false]
            have : j ≠ k := by
              rintro rfl
              obtain ⟨h1, oi', h2⟩ := hmt2
              have e1 := slotOf_lt hE h1 hs hsty
              rw [hm] at e1; simp at e1; subst e1
              have e2 := slotOf_lt hE h2 ho hty
              have := nodup_index (hE.nodup own) e2 hoi
              subst this
              obtain ⟨ob', t', a', p1, p2, p3, p4, p5⟩ := h2
              rw [ho] at p1; simp at p1; subst p1
              rw [hda] at p3; simp at p3; subst p3
              rw [hslot] at p5; simp at p5; subst p5
              exact hl rfl
            exact hc.moved hne j m' sl2 sl2' (by omega) hmt2
        · intro l hl
          obtain ⟨h1, h2⟩ := hl k m sl sl' (by omega) hmt
          have h1' : ¬ l = sl.loc := fun h => h1 h.symm
          have h2' : ¬ l = sl'.loc := fun h => h2 h.symm
          simp only [h1', h2', if_false]
          exact hc.rest l (fun j m' sl2 sl2' hj => hl j m' sl2 sl2' (by omega))
      have hra := fun i => slot?_data (h := h) hk ho hda (by rw [hc.rev.blk]) i
      have hrb := fun i => slot?_data (h := h) hk hs hdb (by rw [hc.rev.blk]) i
      simp only [hda, hdb, Option.bind, mixinAt, hra, hrb, hc.rev.slot, hslot, hslot', hdst, hsrc, Option.map_some, ne_eq, not_true_eq_false, or_self, if_false]
      by_cases hma : (D.mix m).hasMoveAsgn = true
      · simp only [hma, if_true]
        have := moveMatchingLoop_ok fb hself hck ms (k + 1) _ hd' hlt (hnext v4 (orc.val h.tick) (h.log ++ [.moveAsgn m sl.loc sl'.loc]) hv4)
        simp only [hda, hdb] at this; exact this
      · have hfb := (hck m (mem_of_at hm) (mem_of_at hoi)).resolve_left hma
        have hne : src ≠ o := fun h => by have := hself h.symm; rw [this] at hfb; simp at hfb
        have hnl : sl'.loc ≠ sl.loc := fun h => hne ((hsl'.same hE hk hsl h).1)
        simp only [hma, Bool.false_eq_true, if_false]
        have hblk : (h.blk sl.loc.1).isSome = true := by
          rw [hc.rev.blk]
          obtain ⟨b', hb'⟩ := hsl.allocated hk
          rw [hb']; rfl
        obtain ⟨g, hdes, hg⟩ := destroy_spec (D := D) hdst hblk
        rw [hdes]
        simp only [hnl, if_false, hsrc, hfb.2, Bool.true_eq_false]
        unfold Heap.construct
        simp only [hblk, true_and, if_true]
        have := moveMatchingLoop_ok fb hself hck ms (k + 1) _ hd' hlt (hnext v4 (orc.val h.tick) (h.log ++ g ++ [.init m sl.loc (.moved sl'.loc)]) hv4)
        simp only [hda, hdb] at this
        have heq : (fun x => if x = sl'.loc then some (m, orc.val h.tick) else if x = sl.loc then some (m, v4) else h.live x) =
            (fun x => if x = sl'.loc then some (m, orc.val h.tick) else if x = sl.loc then some (m, v4) else if x = sl.loc then none else h.live x) := by
          funext x
          by_cases h1 : x = sl.loc <;> simp [h1]
        rw [heq] at this
        exact this

end

theorem copyMatchingCheck_none (hE : EnvOk D E) {own t : TypeId} : ∀ (ms : List Mix), (∀ m ∈ ms, m ∈ E.mixins t) → copyMatchingCheck D E own ms = none →
    ∀ m ∈ ms, m ∈ E.mixins own → (D.mix m).hasCopyAsgn = true
  | [], _, _, m, hm, _ => by simp at hm
  | x :: ms, hsub, hc, m, hm, hmo => by
    unfold copyMatchingCheck at hc
    split at hc
    · simp at hc
    · rename_i hn
      rcases List.mem_cons.1 hm with rfl | hm
      · obtain ⟨i, hi⟩ := List.getElem?_of_mem hmo
        have := (hE.index own t m i (hsub m (by simp))).2 hi
        rw [this] at hn
        simpa using hn
      · exact copyMatchingCheck_none hE ms (fun y hy => hsub y (by simp [hy])) hc m hm hmo

theorem copyMatchingCheck_some (hE : EnvOk D E) {own t : TypeId} : ∀ (ms : List Mix), (∀ m ∈ ms, m ∈ E.mixins t) → ∀ m, copyMatchingCheck D E own ms = some m →
    m ∈ ms ∧ m ∈ E.mixins own ∧ (D.mix m).hasCopyAsgn = false
  | [], _, m, hc => by simp [copyMatchingCheck] at hc
  | x :: ms, hsub, m, hc => by
    unfold copyMatchingCheck at hc
    split at hc
    · rename_i hn
      simp at hc; subst hc
      obtain ⟨h1, h2⟩ := hn
      obtain ⟨i, hi⟩ := Option.isSome_iff_exists.1 h1
      exact ⟨by simp, mem_of_at ((hE.index own t x i (hsub x (by simp))).1 hi), h2⟩
    · obtain ⟨h1, h2, h3⟩ := copyMatchingCheck_some hE ms (fun y hy => hsub y (by simp [hy])) m hc
      exact ⟨by simp [h1], h2, h3⟩

theorem moveMatchingCheck_none (hE : EnvOk D E) {own t : TypeId} {fb : Bool} : ∀ (ms : List Mix), (∀ m ∈ ms, m ∈ E.mixins t) → moveMatchingCheck D E own fb ms = none →
    ∀ m ∈ ms, m ∈ E.mixins own → (D.mix m).hasMoveAsgn = true ∨ (fb = true ∧ (D.mix m).hasMoveInit = true)
  | [], _, _, m, hm, _ => by simp at hm
  | x :: ms, hsub, hc, m, hm, hmo => by
    unfold moveMatchingCheck at hc
    split at hc
    · simp at hc
    · rename_i hn
      rcases List.mem_cons.1 hm with rfl | hm
      · obtain ⟨i, hi⟩ := List.getElem?_of_mem hmo
        have := (hE.index own t m i (hsub m (by simp))).2 hi
        rw [this] at hn
        cases h1 : (D.mix m).hasMoveAsgn with
        | true => exact .inl rfl
        | false =>
          rw [h1] at hn
          simp at hn
          exact .inr hn
      · exact moveMatchingCheck_none hE ms (fun y hy => hsub y (by simp [hy])) hc m hm hmo

theorem moveMatchingCheck_some (hE : EnvOk D E) {own t : TypeId} {fb : Bool} : ∀ (ms : List Mix), (∀ m ∈ ms, m ∈ E.mixins t) → ∀ m, moveMatchingCheck D E own fb ms = some m →
    m ∈ ms ∧ m ∈ E.mixins own ∧ (D.mix m).hasMoveAsgn = false ∧ (fb && (D.mix m).hasMoveInit) = false
  | [], _, m, hc => by simp [moveMatchingCheck] at hc
  | x :: ms, hsub, m, hc => by
    unfold moveMatchingCheck at hc
    split at hc
    · rename_i hn
      simp at hc; subst hc
      obtain ⟨h1, h2, h3⟩ := hn
      obtain ⟨i, hi⟩ := Option.isSome_iff_exists.1 h1
      exact ⟨by simp, mem_of_at ((hE.index own t x i (hsub x (by simp))).1 hi), h2, h3⟩
    · obtain ⟨h1, h2, h3⟩ := moveMatchingCheck_some hE ms (fun y hy => hsub y (by simp [hy])) m hc
      exact ⟨by simp [h1], h2, h3⟩

theorem copyFromCheck_none (hE : EnvOk D E) {own t : TypeId} : ∀ (ms : List Mix), (∀ m ∈ ms, m ∈ E.mixins t) → copyFromCheck D E own ms = none →
    ∀ m ∈ ms, (m ∈ E.mixins own → (D.mix m).hasCopyAsgn = true) ∧ (m ∉ E.mixins own → (D.mix m).hasCopyInit = true)
  | [], _, _, m, hm => by simp at hm
  | x :: ms, hsub, hc, m, hm => by
    unfold copyFromCheck at hc
    have hix : (E.indexOf own x).isSome = true ↔ x ∈ E.mixins own := by
      constructor
      · intro h
        obtain ⟨i, hi⟩ := Option.isSome_iff_exists.1 h
        exact mem_of_at ((hE.index own t x i (hsub x (by simp))).1 hi)
      · intro h
        obtain ⟨i, hi⟩ := List.getElem?_of_mem h
        rw [(hE.index own t x i (hsub x (by simp))).2 hi]; rfl
    have ih := copyFromCheck_none hE (own := own) (t := t) ms (fun y hy => hsub y (by simp [hy]))
    by_cases h1 : x ∈ E.mixins own
    · rw [if_pos (hix.2 h1)] at hc
      by_cases h2 : (D.mix x).hasCopyAsgn = true
      · rw [if_pos h2] at hc
        rcases List.mem_cons.1 hm with rfl | hm
        · exact ⟨fun _ => h2, fun h => absurd h1 h⟩
        · exact ih hc m hm
      · rw [if_neg h2] at hc; simp at hc
    · rw [if_neg (fun h => h1 (hix.1 h))] at hc
      by_cases h2 : (D.mix x).hasCopyInit = true
      · rw [if_pos h2] at hc
        rcases List.mem_cons.1 hm with rfl | hm
        · exact ⟨fun h => absurd h h1, fun _ => h2⟩
        · exact ih hc m hm
      · rw [if_neg h2] at hc; simp at hc

end Dnmx
