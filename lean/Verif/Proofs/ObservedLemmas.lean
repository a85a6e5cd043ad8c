import Verif.Proofs.ClearLemmas

/-!
# What can be observed of mutations
-/

set_option linter.unusedSimpArgs false
set_option linter.unusedVariables false
set_option linter.unusedSectionVars false

namespace Dnmx
open Spec

variable {D : Decls} {E : TyEnv} {orc : Orc}

/-! ## Lists over indices -/

theorem range_filterMap {α β : Type} (g : β → α) : ∀ (l : List α) (p : α → Bool) (f : Nat → α → Option β),
    (∀ (i : Nat) (m : α), l[i]? = some m → p m = true → ∃ y, f i m = some y ∧ g y = m) →
    ((List.range l.length).filterMap (fun i => (l[i]?).bind (fun m => if p m then f i m else none))).map g = l.filter p
  | [], p, f, _ => rfl
  | x :: l, p, f, hf => by
    rw [List.length_cons, List.range_succ_eq_map, List.filterMap_cons, List.filterMap_map]
    have ih := range_filterMap g l p (fun i m => f (i + 1) m) (fun i m hm hp => hf (i + 1) m (by simpa using hm) hp)
    have hcomp : ((fun i => ((x :: l)[i]?).bind (fun m => if p m = true then f i m else none)) ∘ Nat.succ) =
        (fun i => (l[i]?).bind (fun m => if p m = true then f (i + 1) m else none)) := by
      funext i; simp
    rw [hcomp]
    by_cases hp : p x = true
    · obtain ⟨y, h1, h2⟩ := hf 0 x (by simp) hp
      simp only [List.getElem?_cons_zero, Option.bind, hp, if_true, h1, List.map_cons, h2]
      rw [List.filter_cons, if_pos hp]
      congr 1
    · simp only [List.getElem?_cons_zero, Option.bind, hp, Bool.false_eq_true, if_false]
      rw [List.filter_cons, if_neg hp]
      exact ih

/-! ## Objects and their mixins -/

theorem mixinIndex_none (hE : EnvOk D E) {h : Heap} (hk : HeapOk D E h) {o : Nat} {ob : Obj} (ho : h.obj? o = some ob) {u : TypeId} {m : Mix} (hm : m ∈ E.mixins u) :
    mixinIndex E ob m = none ↔ m ∉ ownMixins E ob := by
  have hob := hk.objs o ob ho
  unfold ObjOk at hob
  unfold mixinIndex ownMixins
  cases hd : ob.data with
  | none =>
    rw [hd] at hob
    simp only [true_iff]
    cases hty : ob.ty with
    | none => simp
    | some t => simp only [Option.elim]; rw [hob t hty]; simp
  | some a =>
    rw [hd] at hob
    obtain ⟨t, hty, -, -, -⟩ := hob
    rw [hty]
    simp only [Option.map_eq_none_iff, Option.elim]
    constructor
    · intro h1 h2
      obtain ⟨i, hi⟩ := List.getElem?_of_mem h2
      rw [(hE.index t u m i hm).2 hi] at h1; simp at h1
    · intro h1
      cases h2 : E.indexOf t m with
      | none => rfl
      | some i => exact absurd (mem_of_at ((hE.index t u m i hm).1 h2)) h1

/-- Objects have exactly the mixins of their type. -/
theorem holds_iff (hE : EnvOk D E) {h : Heap} (hk : HeapOk D E h) {o : Nat} {ob : Obj} (ho : h.obj? o = some ob) {m : Mix} :
    (∃ l v, Holds E h o m l v) ↔ m ∈ ownMixins E ob := by
  constructor
  · rintro ⟨l, v, i, sl, ⟨ob', t, a, h1, h2, h3, h4, h5⟩, -, -⟩
    rw [ho] at h1; simp at h1; subst h1
    unfold ownMixins; rw [h2]; exact mem_of_at h4
  · intro hm
    unfold ownMixins at hm
    cases hty : ob.ty with
    | none => rw [hty] at hm; simp at hm
    | some t =>
      rw [hty] at hm
      simp only [Option.elim] at hm
      have hob := hk.objs o ob ho
      unfold ObjOk at hob
      cases hd : ob.data with
      | none => rw [hd] at hob; rw [hob t hty] at hm; simp at hm
      | some a =>
        rw [hd] at hob
        obtain ⟨t', h2, -, -, h5⟩ := hob
        rw [hty] at h2; simp at h2; subst h2
        obtain ⟨i, hi⟩ := List.getElem?_of_mem hm
        obtain ⟨sl, v, k1, -, k3, -⟩ := h5 i m hi
        exact ⟨sl.loc, v, i, sl, ⟨ob, t, a, ho, hty, hd, hi, k1⟩, rfl, k3⟩

/-- A mixin of an object lives at one place and has one value. -/
theorem holds_unique (hE : EnvOk D E) {h : Heap} {o : Nat} {m : Mix} {l l' : Loc} {v v' : Nat} (h1 : Holds E h o m l v) (h2 : Holds E h o m l' v') : l = l' ∧ v = v' := by
  obtain ⟨i, sl, ⟨ob, t, a, a1, a2, a3, a4, a5⟩, rfl, a6⟩ := h1
  obtain ⟨j, sl', ⟨ob', t', a', b1, b2, b3, b4, b5⟩, rfl, b6⟩ := h2
  rw [a1] at b1; simp at b1; subst b1
  rw [a2] at b2; simp at b2; subst b2
  rw [a3] at b3; simp at b3; subst b3
  have := nodup_index (hE.nodup t) a4 b4
  subst this
  rw [a5] at b5; simp at b5; subst b5
  rw [a6] at b6; simp at b6
  exact ⟨rfl, b6⟩

/-! ## Successful mutations -/

section
variable (hE : EnvOk D E) {h0 : Heap} (hk : HeapOk D E h0) {o : Nat} {ob : Obj} (ho : h0.obj? o = some ob) {t : TypeId} (hne : E.mixins t ≠ [])
  {g : Ghost} {h' : Heap} (hc : Completed D E h0 o ob t g h')
include hE hk ho hne hc

theorem completed_heapOk : HeapOk D E h' := by
  obtain ⟨s, h2, h3, h4, h5, h6, rfl⟩ := hc
  exact fin_heapOk hE hk ho hne h3 h4 h5 h6

theorem completed_obj (o' : Nat) : h'.obj? o' = if o' = o then some (mutatedObj h0 ob t) else h0.obj? o' := by
  obtain ⟨s, h2, h3, h4, h5, h6, rfl⟩ := hc
  exact obj?_set (h := h2.setObj o _) (l := h0.objs) (by simp [Heap.setObj, h6.objs, h3.objs]) ho o'

theorem completed_slots {o' : Nat} (hoo : o' ≠ o) {i : Nat} {m : Mix} {sl : Slot} : SlotOf E h' o' i m sl ↔ SlotOf E h0 o' i m sl := by
  have hobj := completed_obj hE hk ho hne hc o'
  rw [if_neg hoo] at hobj
  obtain ⟨s, h2, h3, h4, h5, h6, rfl⟩ := hc
  unfold SlotOf
  rw [hobj]
  constructor
  · rintro ⟨ob', t', a, k1, k2, k3, k4, k5⟩
    refine ⟨ob', t', a, k1, k2, k3, k4, ?_⟩
    have : h2.slot a i = some sl := k5
    rw [h6.slot, h3.slotOld a i (data_lt hk k1 k3)] at this
    exact this
  · rintro ⟨ob', t', a, k1, k2, k3, k4, k5⟩
    refine ⟨ob', t', a, k1, k2, k3, k4, ?_⟩
    show h2.slot a i = some sl
    rw [h6.slot, h3.slotOld a i (data_lt hk k1 k3)]
    exact k5

/-- Other objects are not affected. -/
theorem completed_other {o' : Nat} (hoo : o' ≠ o) {m : Mix} {l : Loc} {v : Nat} : Holds E h' o' m l v ↔ Holds E h0 o' m l v := by
  have hsl : ∀ {i : Nat} {m : Mix} {sl : Slot}, SlotOf E h' o' i m sl ↔ SlotOf E h0 o' i m sl := completed_slots hE hk ho hne hc hoo
  have hlive : ∀ i m sl, SlotOf E h0 o' i m sl → h'.live sl.loc = h0.live sl.loc := by
    intro i m sl hs
    obtain ⟨s, h2, h3, h4, h5, h6, rfl⟩ := hc
    exact (fin_other hE hk ho h3 h6 hoo hs).1
  unfold Holds
  constructor
  · rintro ⟨i, sl, h1, rfl, h3⟩
    have h1 := hsl.1 h1
    exact ⟨i, sl, h1, rfl, by rw [← hlive i m sl h1]; exact h3⟩
  · rintro ⟨i, sl, h1, rfl, h3⟩
    exact ⟨i, sl, hsl.2 h1, rfl, by rw [hlive i m sl h1]; exact h3⟩

/-- New mixins. -/
theorem completed_new {i : Nat} {m : Mix} (hm : (E.mixins t)[i]? = some m) (hn : m ∉ ownMixins E ob) :
    ∃ l v, Holds E h' o m l v ∧ h0.next ≤ l.1 ∧ (∀ src c, g.F i = .copy src c → ∃ x, sourceAt h0 src i = some (x, m, v)) := by
  have hobj := completed_obj hE hk ho hne hc o
  rw [if_pos rfl] at hobj
  have hn' := (mixinIndex_none hE hk ho (mem_of_at hm)).2 hn
  obtain ⟨s, h2, h3, h4, h5, h6, rfl⟩ := hc
  obtain ⟨sl, v, k1, k2, k3, k4, k5, k6⟩ := fin_mixin hE hk ho hne h3 h4 h5 h6 hm
  have hup : s.updated = (E.mixins t).length := (h3.complete.1 h5).2
  refine ⟨sl.loc, v, ⟨i, sl, ⟨mutatedObj h0 ob t, t, h0.next, hobj, rfl, rfl, hm, k1⟩, rfl, k3⟩, ?_, ?_⟩
  · obtain ⟨sl', p1, p2, -⟩ := new_place h3 (i := i) (by rw [h4]; exact lt_of_at hm) hm hn'
    rw [h6.slot] at k1
    rw [k1] at p1; simp at p1; subst p1; exact p2
  · intro src c hF
    rw [h6.slot] at k1
    obtain ⟨x, v', q1, q2⟩ := h3.copied i m sl src c (by rw [hup]; exact lt_of_at hm) hm hn' k1 hF
    rw [k5 hn'] at q2; simp at q2; subst q2
    exact ⟨x, q1⟩

/-- Common mixins. -/
theorem completed_common {i : Nat} {m : Mix} (hm : (E.mixins t)[i]? = some m) {l : Loc} {v : Nat} (hh : Holds E h0 o m l v) :
    ∃ l' v', Holds E h' o m l' v' ∧ ((D.mix m).external = true → l' = l) ∧ ((D.mix m).external = false → h0.next ≤ l'.1) ∧ (g.T i = false → v' = v) ∧
      (∀ src, g.G i = .assign src → ∃ x, sourceAt h0 src i = some (x, m, v')) := by
  have hobj := completed_obj hE hk ho hne hc o
  rw [if_pos rfl] at hobj
  obtain ⟨s, h2, h3, h4, h5, h6, rfl⟩ := hc
  obtain ⟨j, sl0, hs0, rfl, hl0⟩ := hh
  obtain ⟨b, hb1, hb2, hb3⟩ := index_of_slot hE ho hs0
  obtain ⟨sl, v', k1, k2, k3, k4, k5, k6⟩ := fin_mixin hE hk ho hne h3 h4 h5 h6 hm
  obtain ⟨k7, k8, k9⟩ := k6 b j sl0 hb2 hb3
  have hup : s.updated = (E.mixins t).length := (h3.complete.1 h5).2
  obtain ⟨ob', t', a', v0, f1, f2, f3, f4, f5, f6, f7, f8, f9⟩ := hs0.facts hk
  have hint := hE.internal t' j m f4
  refine ⟨sl.loc, v', ⟨i, sl, ⟨mutatedObj h0 ob t, t, h0.next, hobj, rfl, rfl, hm, k1⟩, rfl, k3⟩, ?_, ?_, ?_, ?_⟩
  · intro hx
    rw [hx] at hint
    rcases f6.blk_loc with ⟨p1, -⟩ | ⟨-, p2, -⟩
    · rw [hint] at p1; simp at p1
    · rw [k8 (by rw [p2]; simp)]
  · intro hx
    rw [hx] at hint
    rcases f6.blk_loc with ⟨-, -, p1⟩ | ⟨p1, -⟩
    · rw [k9 p1]; exact Nat.le_refl _
    · rw [hint] at p1; simp at p1
  · intro hT
    rcases h3.liveOld sl0.loc (slot_lt hk hs0) with p | ⟨j', m', b', i', sl', v'', p1, p2, p3, p4, p5, p6⟩
    · rw [k7, hl0] at p; simp at p; exact p
    · exfalso
      have := common_place_inj hE hk ho h3 p2 hm p3 hb2 p4 hb3 p5
      subst this
      rw [hT] at p1; simp at p1
  · intro src hG
    obtain ⟨x, v'', q1, q2⟩ := h3.assigned i m b j sl0 src (by rw [hup]; exact lt_of_at hm) hm hb2 hb3 hG
    rw [k7] at q2; simp at q2; subst q2
    exact ⟨x, q1⟩

/-- Each new mixin is constructed once, in the order of the type, at its place, and the functions are used as planned. -/
theorem completed_inits : ∃ l, initsOf h'.log = initsOf h0.log ++ l ∧
    l.map Prod.fst = (E.mixins t).filter (fun m => decide (m ∉ ownMixins E ob)) ∧
    (∀ m p k, (m, p, k) ∈ l → (∃ v, Holds E h' o m p v) ∧ ∃ i : Nat, (E.mixins t)[i]? = some m ∧ k = kindOf (g.F i)) := by
  have hobj := completed_obj hE hk ho hne hc o
  rw [if_pos rfl] at hobj
  obtain ⟨s, h2, h3, h4, h5, h6, rfl⟩ := hc
  have hup : s.updated = (E.mixins t).length := (h3.complete.1 h5).2
  refine ⟨newInits E ob t g.F (s.h.slot h0.next) s.updated, ?_, ?_, ?_⟩
  · show initsOf h2.log = _
    rw [h6.inits, h3.inits]
  · unfold newInits
    rw [hup]
    have := range_filterMap Prod.fst (E.mixins t) (fun m => (mixinIndex E ob m).isNone) (fun i m => (s.h.slot h0.next i).map (fun sl => (m, sl.loc, kindOf (g.F i)))) (by
      intro i m hm _
      obtain ⟨sl, hsl, -⟩ := h3.slots i m (by rw [h4]; exact lt_of_at hm) hm
      exact ⟨_, by rw [hsl]; rfl, rfl⟩)
    rw [this]
    apply List.filter_congr
    intro m hm
    have := mixinIndex_none hE hk ho hm
    rw [Bool.eq_iff_iff]
    simp only [Option.isNone_iff_eq_none, decide_eq_true_eq]
    exact this
  · intro m p k hmem
    unfold newInits at hmem
    rw [List.mem_filterMap] at hmem
    obtain ⟨i, hi, he⟩ := hmem
    cases hm : (E.mixins t)[i]? with
    | none => rw [hm] at he; simp at he
    | some m' =>
      rw [hm] at he
      simp only [Option.bind] at he
      split at he
      · rename_i hx
        simp only [Option.isNone_iff_eq_none] at hx
        cases hsl : s.h.slot h0.next i with
        | none => rw [hsl] at he; simp at he
        | some sl =>
          rw [hsl] at he
          simp at he
          obtain ⟨rfl, rfl, rfl⟩ := he
          obtain ⟨sl', v, k1, k2, k3, k4, k5, k6⟩ := fin_mixin hE hk ho hne h3 h4 h5 h6 hm
          have k1' := k1
          rw [h6.slot, hsl] at k1'; simp at k1'; subst k1'
          exact ⟨⟨v, i, sl, ⟨mutatedObj h0 ob t, t, h0.next, hobj, rfl, rfl, hm, k1⟩, rfl, k3⟩, i, hm, rfl⟩
      · simp at he

/-- Each removed mixin and each mixin that was moved to the new buffer is destroyed once, at its old place. -/
theorem completed_destroys : ∃ d, destroysOf h'.log = destroysOf h0.log ++ d ∧
    d.map Prod.fst = (ownMixins E ob).filter (fun m => (D.mix m).hasDestroy && decide (m ∉ E.mixins t ∨ (D.mix m).external = false)) ∧
    (∀ m p, (m, p) ∈ d → ∃ v, Holds E h0 o m p v) := by
  obtain ⟨s, h2, h3, h4, h5, h6, rfl⟩ := hc
  have hob := hk.objs o ob ho
  unfold ObjOk at hob
  have hd := h6.destroys
  rw [h3.destroys] at hd
  cases hda : ob.data with
  | none =>
    rw [hda] at hd hob
    refine ⟨[], hd, ?_, by simp⟩
    have : ownMixins E ob = [] := by
      unfold ownMixins
      cases hty : ob.ty with
      | none => rfl
      | some t => exact hob t hty
    rw [this]; rfl
  | some b =>
    rw [hda] at hd hob
    obtain ⟨told, hty, hne', hblk, hmix⟩ := hob
    rw [hty] at hd
    simp only at hd
    have hmo : ownMixins E ob = E.mixins told := by unfold ownMixins; rw [hty]; rfl
    refine ⟨finDestroys D E told t (h0.slot b) (E.mixins told).length, hd, ?_, ?_⟩
    · rw [hmo]
      unfold finDestroys
      have hcong : (List.range (E.mixins told).length).filterMap (fun j => ((E.mixins told)[j]?).bind (fun m => (h0.slot b j).bind (fun sl =>
          if (D.mix m).hasDestroy && ((E.indexOf t m).isNone || sl.buf.isNone) then some (m, sl.loc) else none))) =
          (List.range (E.mixins told).length).filterMap (fun j => ((E.mixins told)[j]?).bind (fun m =>
            if ((D.mix m).hasDestroy && decide (m ∉ E.mixins t ∨ (D.mix m).external = false)) = true then (h0.slot b j).map (fun sl => (m, sl.loc)) else none)) := by
        apply filterMap_same
        intro j _
        cases hm : (E.mixins told)[j]? with
        | none => rfl
        | some m =>
          simp only [Option.bind]
          obtain ⟨sl, v, k1, k2, k3, k4⟩ := hmix j m hm
          rw [k1]
          simp only [Option.map_some]
          have hint := hE.internal told j m hm
          have hbuf : sl.buf.isNone = !(D.mix m).external := by
            rcases k2.blk_loc with ⟨p1, -, p2⟩ | ⟨p1, p2, -⟩
            · rw [← hint, p1, p2]; rfl
            · rw [← hint, p1, p2]; rfl
          have hix : (E.indexOf t m).isNone = decide (m ∉ E.mixins t) := by
            rw [Bool.eq_iff_iff]
            simp only [Option.isNone_iff_eq_none, decide_eq_true_eq]
            constructor
            · intro h1 h2
              obtain ⟨i, hi⟩ := List.getElem?_of_mem h2
              rw [(hE.index t told m i (mem_of_at hm)).2 hi] at h1; simp at h1
            · intro h1
              cases h2 : E.indexOf t m with
              | none => rfl
              | some i => exact absurd (mem_of_at ((hE.index t told m i (mem_of_at hm)).1 h2)) h1
          rw [hbuf, hix]
          congr 1
          rw [Bool.decide_or]
          cases (D.mix m).external <;> simp
      rw [hcong]
      exact range_filterMap Prod.fst (E.mixins told) _ (fun j m => (h0.slot b j).map (fun sl => (m, sl.loc))) (by
        intro j m hm _
        obtain ⟨sl, v, k1, -⟩ := hmix j m hm
        exact ⟨_, by rw [k1]; rfl, rfl⟩)
    · intro m p hmem
      unfold finDestroys at hmem
      rw [List.mem_filterMap] at hmem
      obtain ⟨i, hi, he⟩ := hmem
      cases hm : (E.mixins told)[i]? with
      | none => rw [hm] at he; simp at he
      | some m' =>
        rw [hm] at he
        simp only [Option.bind] at he
        obtain ⟨sl, v, k1, k2, k3, k4⟩ := hmix i m' hm
        rw [k1] at he
        simp only at he
        split at he
        · simp at he
          obtain ⟨rfl, rfl⟩ := he
          exact ⟨v, i, sl, ⟨ob, told, b, ho, hty, hda, hm, k1⟩, rfl, k3⟩
        · simp at he

end

/-! ## Failed mutations -/

section
variable (hE : EnvOk D E) {h0 : Heap} (hk : HeapOk D E h0) {o : Nat} {ob : Obj} (ho : h0.obj? o = some ob) {t : TypeId} {T : Nat → Bool} {h : Heap} (hu : Undone E h0 ob t T h)
include hE hk ho hu

theorem undone_obj (o' : Nat) : h.obj? o' = h0.obj? o' := by unfold Heap.obj?; rw [hu.objs]

theorem undone_slots {o' i : Nat} {m : Mix} {sl : Slot} : SlotOf E h o' i m sl ↔ SlotOf E h0 o' i m sl := by
  unfold SlotOf
  rw [undone_obj hE hk ho hu]
  constructor
  · rintro ⟨ob', t', a, k1, k2, k3, k4, k5⟩
    exact ⟨ob', t', a, k1, k2, k3, k4, by rw [← hu.slot a i (data_lt hk k1 k3)]; exact k5⟩
  · rintro ⟨ob', t', a, k1, k2, k3, k4, k5⟩
    exact ⟨ob', t', a, k1, k2, k3, k4, by rw [hu.slot a i (data_lt hk k1 k3)]; exact k5⟩

theorem undone_live {o' i : Nat} {m : Mix} {sl : Slot} (hs : SlotOf E h0 o' i m sl) (hT : o' ≠ o ∨ ∀ j, T j = false) : h.live sl.loc = h0.live sl.loc := by
  rcases hu.live sl.loc with p | ⟨j', m', b', i', sl', v'', p1, p2, p3, p4, p5, p6⟩
  · exact p
  · rcases hT with h1 | h1
    · exfalso
      obtain ⟨sl2, q1, q2, q3⟩ := common_slot hE hk ho (mem_of_at p2) p3
      rw [p4] at q2; simp at q2; subst q2
      exact h1 (q1.same hE hk hs p5).1.symm
    · rw [h1 j'] at p1; simp at p1

/-- A failed mutation leaves all objects with the same mixins, at the same places, with the same values, apart from values of
common mixins that update functions have changed. -/
theorem undone_holds {o' : Nat} (hT : o' ≠ o ∨ ∀ j, T j = false) {m : Mix} {l : Loc} {v : Nat} : Holds E h o' m l v ↔ Holds E h0 o' m l v := by
  unfold Holds
  constructor
  · rintro ⟨i, sl, h1, rfl, h3⟩
    have h1 := (undone_slots hE hk ho hu).1 h1
    exact ⟨i, sl, h1, rfl, by rw [← undone_live hE hk ho hu h1 hT]; exact h3⟩
  · rintro ⟨i, sl, h1, rfl, h3⟩
    exact ⟨i, sl, (undone_slots hE hk ho hu).2 h1, rfl, by rw [undone_live hE hk ho hu h1 hT]; exact h3⟩

theorem undone_places {o' : Nat} {m : Mix} {l : Loc} : (∃ v, Holds E h o' m l v) ↔ ∃ v, Holds E h0 o' m l v := by
  constructor
  · rintro ⟨v, i, sl, h1, rfl, h3⟩
    have h1 := (undone_slots hE hk ho hu).1 h1
    obtain ⟨_, _, _, v0, -, -, -, -, -, -, f7, -⟩ := h1.facts hk
    exact ⟨v0, i, sl, h1, rfl, f7⟩
  · rintro ⟨v, i, sl, h1, rfl, h3⟩
    obtain ⟨v', hv⟩ := touched_live hE hk ho hu h1
    exact ⟨v', i, sl, (undone_slots hE hk ho hu).2 h1, rfl, hv⟩

end

end Dnmx
