import Verif.Proofs.IndependentObjects

/-!
# Lemmas on the independence of objects: programs
-/

set_option linter.unusedSimpArgs false
set_option linter.unusedVariables false

namespace Dnmx.Indep
open Spec

theorem extend_numberIn (l : List Nat) (m : Nat) : extend (numberIn l) l.length m = numberIn (l ++ [m]) := by
  funext x
  unfold extend numberIn
  by_cases hx : x = l.length
  · rw [if_pos hx, hx]; simp
  · rw [if_neg hx]
    by_cases h2 : x < l.length
    · rw [List.getElem?_append_left h2]
    · rw [List.getElem?_eq_none (by omega), List.getElem?_eq_none (by simp; omega)]

/-- The heap of each program alone is a part of the whole heap, and the parts do not overlap. -/
structure Parts (ρ : Nat → Nat → Nat) (H : Nat → Heap) (N : Nat → List Nat) (h : Heap) : Prop where
  core : ∀ p, Core (numberIn (N p)) (ρ p) (H p) h
  num : ∀ p, (N p).length = (H p).objs.length
  disj : ∀ p q a b, p ≠ q → a < (H p).next → b < (H q).next → ρ p a ≠ ρ q b
  sdisj : ∀ p q o x, p ≠ q → o < (H p).objs.length → x < (H q).objs.length → numberIn (N p) o ≠ numberIn (N q) x

theorem parts_start : Parts (fun _ => id) (fun _ => {}) (fun _ => []) {} := by
  have hf : Fresh {} := ⟨fun _ _ => rfl, fun _ _ _ => rfl, fun _ _ _ => rfl, fun _ _ _ => rfl⟩
  refine ⟨fun p => ?_, fun _ => rfl, ?_, ?_⟩
  · refine ⟨?_, ?_, ?_, hf, hf, ?_, ?_, ?_, ?_, ?_, ?_, ?_, ?_, ?_⟩
    all_goals first | (intro a b h; exact absurd h (Nat.not_lt_zero _)) | (intro a h; exact absurd h (Nat.not_lt_zero _)) | (intro a b c h; exact absurd h (Nat.not_lt_zero _)) | skip
    intro o ob a h; simp [Heap.obj?] at h
  · intro p q a b _ h; exact absurd h (Nat.not_lt_zero _)
  · intro p q a b _ h; exact absurd h (Nat.not_lt_zero _)

variable {D : Decls} {E : TyEnv}

/-- A part stays what it is when another part is changed. -/
theorem Core.keep {σ ρ σ' ρ' : Nat → Nat} {h1 h2 h h2' h' : Heap} (hc : Core σ ρ h1 h) (hs : HSim ⟨h2, h, ρ', σ'⟩ σ'' ρ'' h2' h')
    (hd : ∀ a b, a < h1.next → b < h2.next → ρ a ≠ ρ' b) (hsd : ∀ o x, o < h1.objs.length → x < h2.objs.length → σ o ≠ σ' x) : Core σ ρ h1 h' := by
  have hf : ∀ a, a < h1.next → _ := fun a ha => hs.frame (ρ a) (hc.bound a ha) (fun b hb => (hd a b ha hb).symm)
  have ho : ∀ o, o < h1.objs.length → _ := fun o h => hs.objFrame (σ o) (hc.sbound o h) (fun p hp => (hsd o p h hp).symm)
  exact { hc with
    bound := fun a ha => Nat.lt_of_lt_of_le (hc.bound a ha) hs.le
    blk := fun a ha => by rw [(hf a ha).1]; exact hc.blk a ha
    fresh := hs.fresh
    slot := fun a i ha => by rw [(hf a ha).2.1 i]; exact hc.slot a i ha
    live := fun a i ha => by rw [((hf a ha).2.2 i).1]; exact hc.live a i ha
    owner := fun a i ha => by rw [((hf a ha).2.2 i).2]; exact hc.owner a i ha
    sbound := fun o h => Nat.lt_of_lt_of_le (hc.sbound o h) hs.sle
    obj := fun o h => by rw [ho o h]; exact hc.obj o h }

/-- The parts after a call of program `p`. -/
theorem Parts.afterWith {ρ : Nat → Nat → Nat} {H : Nat → Heap} {N : Nat → List Nat} {h : Heap} (hp : Parts ρ H N h) (p : Nat) (op : OOp) {a b : Heap} {ρp : Nat → Nat} {n : Nat}
    (hs : HS ⟨H p, h, ρ p, numberIn (N p)⟩ (nextσ op (numberIn (N p)) (H p).objs.length h.objs.length) ρp n (nextL op (H p).objs.length) a b) :
    Parts (fun q => if q = p then ρp else ρ q) (fun q => if q = p then a else H q) (if addsObject op then fun q => if q = p then N p ++ [h.objs.length] else N q else N) b := by
  have hN : ∀ q, (if addsObject op then fun q => if q = p then N p ++ [h.objs.length] else N q else N) q =
      if q = p then (if addsObject op then N p ++ [h.objs.length] else N p) else N q := by
    intro q
    by_cases hq : q = p
    · subst hq; cases addsObject op <;> simp
    · cases addsObject op <;> simp [hq]
  have hσ : numberIn (if addsObject op then N p ++ [h.objs.length] else N p) = nextσ op (numberIn (N p)) (H p).objs.length h.objs.length := by
    unfold nextσ
    cases addsObject op with
    | true => simp only [if_true]; rw [← hp.num p, extend_numberIn]
    | false => rfl
  refine ⟨?_, ?_, ?_, ?_⟩
  · intro q
    rw [hN q]
    by_cases hq : q = p
    · simp only [if_pos hq]
      rw [hσ]; exact hs.toHSim.toCore
    · simp only [if_neg hq]
      exact (hp.core q).keep hs.toHSim (fun x y hx hy => hp.disj q p x y hq hx hy) (fun x y hx hy => hp.sdisj q p x y hq hx hy)
  · intro q
    rw [hN q]
    by_cases hq : q = p
    · simp only [if_pos hq]
      rw [hs.len]; unfold nextL
      have := hp.num p
      cases addsObject op <;> simp [this]
    · simp only [if_neg hq]; exact hp.num q
  · have key : ∀ q x y, q ≠ p → x < a.next → y < (H q).next → ρp x ≠ ρ q y := by
      intro q x y hq hx hy heq
      by_cases h2 : x < (H p).next
      · rw [hs.old x h2] at heq; exact hp.disj p q x y (Ne.symm hq) h2 hy heq
      · have h3 := hs.new x (Nat.le_of_not_lt h2) hx
        have h4 := (hp.core q).bound y hy
        have h5 : h.next ≤ ρp x := h3
        omega
    intro q r x y hqr hx hy
    by_cases hq : q = p
    · have hr : r ≠ p := fun h => hqr (hq.trans h.symm)
      simp only [if_pos hq, if_neg hr] at hx hy ⊢
      exact key r x y hr hx hy
    · by_cases hr : r = p
      · simp only [if_neg hq, if_pos hr] at hx hy ⊢
        exact fun h => key q y x hq hy hx h.symm
      · simp only [if_neg hq, if_neg hr] at hx hy ⊢
        exact hp.disj q r x y hqr hx hy
  · have key : ∀ q x y, q ≠ p → x < a.objs.length → y < (H q).objs.length → nextσ op (numberIn (N p)) (H p).objs.length h.objs.length x ≠ numberIn (N q) y := by
      intro q x y hq hx hy heq
      by_cases h2 : x < (H p).objs.length
      · rw [hs.sold x h2] at heq; exact hp.sdisj p q x y (Ne.symm hq) h2 hy heq
      · have h3 := hs.snew x (Nat.le_of_not_lt h2) hx
        have h4 := (hp.core q).sbound y hy
        have h5 : h.objs.length ≤ nextσ op (numberIn (N p)) (H p).objs.length h.objs.length x := h3
        omega
    intro q r x y hqr hx hy
    rw [hN q, hN r]
    by_cases hq : q = p
    · have hr : r ≠ p := fun h => hqr (hq.trans h.symm)
      simp only [if_pos hq, if_neg hr] at hx hy ⊢
      rw [hσ]
      exact key r x y hr hx hy
    · by_cases hr : r = p
      · simp only [if_neg hq, if_pos hr] at hx hy ⊢
        rw [hσ]
        exact fun h => key q y x hq hy hx h.symm
      · simp only [if_neg hq, if_neg hr] at hx hy ⊢
        exact hp.sdisj q r x y hqr hx hy

theorem Parts.after {ρ : Nat → Nat → Nat} {H : Nat → Heap} {N : Nat → List Nat} {h : Heap} (hp : Parts ρ H N h) (p : Nat) (op : OOp) {a b : Heap}
    (hr : RH ⟨H p, h, ρ p, numberIn (N p)⟩ (nextσ op (numberIn (N p)) (H p).objs.length h.objs.length) (nextL op (H p).objs.length) a b) :
    ∃ ρ', Parts ρ' (fun q => if q = p then a else H q) (if addsObject op then fun q => if q = p then N p ++ [h.objs.length] else N q else N) b := by
  obtain ⟨ρp, n, hs⟩ := hr
  exact ⟨_, hp.afterWith p op hs⟩

theorem HSim.outcome {c : Base} {σ ρ : Nat → Nat} {a b : Heap} (hs : HSim c σ ρ a b) {e1 e : Option XErr} (he : e.map (errorSince c.h.tick) = e1.map (errorSince c.h1.tick)) :
    outcomeOf c.h e b = outcomeOf c.h1 e1 a := by
  obtain ⟨s1, s, k1, k2, k3⟩ := hs.log
  unfold outcomeOf
  rw [he, k1, k2]
  simp [k3]

theorem osim_start (w : Orc) (c : Base) : OSim c (startingAt w c.h1.tick) (startingAt w c.h.tick) := by
  constructor <;> intro k <;> simp [startingAt]

theorem ownOf_cons_self (p : Nat) (x : α) (l : List (Nat × α)) : ownOf p ((p, x) :: l) = x :: ownOf p l := by simp [ownOf]
theorem ownOf_cons_ne {p q : Nat} (h : q ≠ p) (x : α) (l : List (Nat × α)) : ownOf p ((q, x) :: l) = ownOf p l := by simp [ownOf, h]

theorem together : ∀ (calls : List (Nat × Call)) (ρ : Nat → Nat → Nat) (H : Nat → Heap) (N : Nat → List Nat) (h : Heap), Parts ρ H N h →
    (∀ p, (execAll D E (ownOf p calls) (H p)).isSome = true) →
    ∃ outs N' h' ρ' H', execTogether D E calls N h = some (outs, N', h') ∧ Parts ρ' H' N' h' ∧ ∀ p, execAll D E (ownOf p calls) (H p) = some (ownOf p outs, H' p) := by
  intro calls
  induction calls with
  | nil => intro ρ H N h hp _; exact ⟨[], N, h, ρ, H, rfl, hp, fun p => rfl⟩
  | cons x calls ih =>
    intro ρ H N h hp hok
    obtain ⟨p, c⟩ := x
    have h0 : HS ⟨H p, h, ρ p, numberIn (N p)⟩ (numberIn (N p)) (ρ p) (H p).next (H p).objs.length (H p) h := ⟨hsim_refl (hp.core p), rfl, rfl⟩
    have hr := ostep_sim (D := D) (E := E) (osim_start c.world ⟨H p, h, ρ p, numberIn (N p)⟩) h0 c.unwinding c.op
    have hokp := hok p
    rw [ownOf_cons_self] at hokp
    simp only [execAll, exec] at hokp
    have hrest : ∀ (a : Heap), (execAll D E (ownOf p calls) a).isSome = true → ∀ q, (execAll D E (ownOf q calls) (if q = p then a else H q)).isSome = true := by
      intro a ha q
      by_cases hq : q = p
      · subst hq; simpa using ha
      · rw [if_neg hq]
        have := hok q
        rw [ownOf_cons_ne (Ne.symm hq)] at this; exact this
    rcases hr.cases with hr | ⟨a, b, hr1, hr2, hr3⟩ | ⟨a, b, e1, e, hr1, hr2, hr3, hr4⟩
    · simp only at hr; rw [hr] at hokp; simp at hokp
    · simp only at hr1 hr2
      rw [hr1] at hokp
      simp only [Option.isSome_map] at hokp
      obtain ⟨ρ', hP⟩ := hp.after p c.op hr3
      obtain ⟨outs, N', h', ρ'', H', k1, k2, k3⟩ := ih _ _ _ _ hP (hrest a hokp)
      refine ⟨(p, outcomeOf h none b) :: outs, N', h', ρ'', H', ?_, k2, ?_⟩
      · simp only [execTogether, exec]
        rw [hr2]
        simp only
        rw [k1]; rfl
      · intro q
        have k3q := k3 q
        by_cases hq : q = p
        · subst hq
          rw [ownOf_cons_self, ownOf_cons_self]
          simp only [execAll, exec]
          rw [hr1]
          simp only
          simp only [if_true] at k3q
          rw [k3q]
          obtain ⟨ρp, n, hs⟩ := hr3
          have := hs.toHSim.outcome (e1 := none) (e := none) rfl
          simp only at this
          simp [this]
        · rw [ownOf_cons_ne (Ne.symm hq), ownOf_cons_ne (Ne.symm hq)]
          rw [if_neg hq] at k3q; exact k3q
    · simp only at hr1 hr2
      rw [hr1] at hokp
      simp only [Option.isSome_map] at hokp
      obtain ⟨ρ', hP⟩ := hp.after p c.op hr3
      obtain ⟨outs, N', h', ρ'', H', k1, k2, k3⟩ := ih _ _ _ _ hP (hrest a hokp)
      refine ⟨(p, outcomeOf h (some e) b) :: outs, N', h', ρ'', H', ?_, k2, ?_⟩
      · simp only [execTogether, exec]
        rw [hr2]
        simp only
        rw [k1]; rfl
      · intro q
        have k3q := k3 q
        by_cases hq : q = p
        · subst hq
          rw [ownOf_cons_self, ownOf_cons_self]
          simp only [execAll, exec]
          rw [hr1]
          simp only
          simp only [if_true] at k3q
          rw [k3q]
          obtain ⟨ρp, n, hs⟩ := hr3
          have := hs.toHSim.outcome (e1 := some e1) (e := some e) (by simpa using hr4)
          simp only at this
          simp [this]
        · rw [ownOf_cons_ne (Ne.symm hq), ownOf_cons_ne (Ne.symm hq)]
          rw [if_neg hq] at k3q; exact k3q

/-- Objects of a part are the same in the whole. -/
theorem Core.same {σ ρ : Nat → Nat} {h1 h : Heap} (hc : Core σ ρ h1 h) {o : Nat} (ho : o < h1.objs.length) : SameObject E h1 o h (σ o) := by
  have hob := hc.obj o ho
  have slots : ∀ (i : Nat) (m : Mix) (sl : Slot), SlotOf E h (σ o) i m sl ↔ ∃ sl1, SlotOf E h1 o i m sl1 ∧ sl = renSlot ρ sl1 ∧ sl1.loc.1 < h1.next := by
    intro i m sl
    constructor
    · rintro ⟨ob, t, a, k1, k2, k3, k4, k5⟩
      cases h2 : h1.obj? o with
      | none => rw [h2] at hob; rw [hob] at k1; simp at k1
      | some ob1 =>
        rw [h2] at hob; rw [hob] at k1
        simp at k1; subst k1
        cases h3 : ob1.data with
        | none => simp [renObj, h3] at k3
        | some a1 =>
          have ha := hc.objIn o ob1 a1 h2 h3
          simp [renObj, h3] at k3
          subst k3
          rw [hc.slot a1 i ha] at k5
          cases h4 : h1.slot a1 i with
          | none => rw [h4] at k5; simp at k5
          | some sl1 =>
            rw [h4] at k5; simp at k5; subst k5
            exact ⟨sl1, ⟨ob1, t, a1, h2, k2, h3, k4, h4⟩, rfl, (hc.slotIn a1 i sl1 ha h4).1⟩
    · rintro ⟨sl1, ⟨ob, t, a, k1, k2, k3, k4, k5⟩, rfl, hl⟩
      have ha := hc.objIn o ob a k1 k3
      exact ⟨renObj ρ ob, t, ρ a, by rw [hob, k1]; rfl, k2, by simp [renObj, k3], k4, by rw [hc.slot a i ha, k5]; rfl⟩
  have inside : ∀ (i : Nat) (m : Mix) (sl : Slot), SlotOf E h1 o i m sl → sl.loc.1 < h1.next := by
    rintro i m sl ⟨ob, t, a, k1, k2, k3, k4, k5⟩
    exact (hc.slotIn a i sl (hc.objIn o ob a k1 k3) k5).1
  have order : ∀ (i : Nat) (m : Mix) (v : Nat), (∃ sl, SlotOf E h (σ o) i m sl ∧ h.live sl.loc = some (m, v)) ↔ (∃ sl, SlotOf E h1 o i m sl ∧ h1.live sl.loc = some (m, v)) := by
    intro i m v
    constructor
    · rintro ⟨sl, k1, k2⟩
      obtain ⟨sl1, k3, rfl, k4⟩ := (slots i m sl).1 k1
      refine ⟨sl1, k3, ?_⟩
      rw [← k2]; exact (hc.live sl1.loc.1 sl1.loc.2 k4).symm
    · rintro ⟨sl, k1, k2⟩
      refine ⟨renSlot ρ sl, (slots i m _).2 ⟨sl, k1, rfl, inside i m sl k1⟩, ?_⟩
      rw [← k2]; exact hc.live sl.loc.1 sl.loc.2 (inside i m sl k1)
  have back : ∀ (i : Nat) (m : Mix), (∃ sl, SlotOf E h (σ o) i m sl ∧ h.owner sl.loc = some (σ o)) ↔ (∃ sl, SlotOf E h1 o i m sl ∧ h1.owner sl.loc = some o) := by
    intro i m
    constructor
    · rintro ⟨sl, k1, k2⟩
      obtain ⟨sl1, k3, rfl, k4⟩ := (slots i m sl).1 k1
      refine ⟨sl1, k3, ?_⟩
      have h2 := hc.owner sl1.loc.1 sl1.loc.2 k4
      rw [show (ρ sl1.loc.1, sl1.loc.2) = (renSlot ρ sl1).loc from rfl, k2] at h2
      cases h3 : h1.owner (sl1.loc.1, sl1.loc.2) with
      | none => rw [h3] at h2; simp at h2
      | some p =>
        rw [h3] at h2; simp at h2
        have := hc.sinj o p ho (hc.ownerIn _ _ p k4 h3) h2
        subst this; rfl
    · rintro ⟨sl, k1, k2⟩
      refine ⟨renSlot ρ sl, (slots i m _).2 ⟨sl, k1, rfl, inside i m sl k1⟩, ?_⟩
      have h2 := hc.owner sl.loc.1 sl.loc.2 (inside i m sl k1)
      rw [show (sl.loc.1, sl.loc.2) = sl.loc from rfl, k2] at h2
      exact h2
  refine ⟨?_, ?_, ?_, order, back⟩
  · rw [hob]; simp
  · intro ob ob' h2 h3
    rw [hob, h2] at h3
    simp at h3; subst h3
    exact ⟨rfl, rfl, rfl, by simp [renObj]⟩
  · intro m v
    constructor
    · rintro ⟨l, i, sl, k1, k2, k3⟩
      obtain ⟨sl1, k4, k5⟩ := (order i m v).1 ⟨sl, k1, by rw [k2]; exact k3⟩
      exact ⟨_, i, sl1, k4, rfl, k5⟩
    · rintro ⟨l, i, sl, k1, k2, k3⟩
      obtain ⟨sl1, k4, k5⟩ := (order i m v).2 ⟨sl, k1, by rw [k2]; exact k3⟩
      exact ⟨_, i, sl1, k4, rfl, k5⟩

end Dnmx.Indep
