import Verif.Proofs.MutatedLemmas

/-! # Lemmas about whole mutations -/

set_option linter.unusedSimpArgs false

namespace Dnmx
open Spec

variable {D : Decls} {E : TyEnv} {orc : Orc}

/-! ## Mutations to the same type -/

/-- The invariant of a mutation of object `o` to its own type. -/
structure SameOk (E : TyEnv) (h0 : Heap) (o : Nat) (ob : Obj) (t : TypeId) (g : Ghost) (s : Sess) : Prop where
  oldTy : s.oldTy = ob.ty
  oldData : s.oldData = ob.data
  ty : s.ty = t
  movedOut : s.movedOut = false
  und : Undone E h0 ob t g.T s.h
  updated : s.updated ≤ (E.mixins t).length
  complete : s.complete = true ↔ 0 < s.updated ∧ s.updated = (E.mixins t).length
  inits : initsOf s.h.log = initsOf h0.log
  destroys : destroysOf s.h.log = destroysOf h0.log
  assigned : ∀ (j : Nat) (m : Mix) (b i : Nat) (sl : Slot) (src : Nat), j < s.updated → (E.mixins t)[j]? = some m → mixinIndex E ob m = some (b, i) →
    h0.slot b i = some sl → g.G j = .assign src → ∃ x v, sourceAt h0 src j = some (x, m, v) ∧ s.h.live sl.loc = some (m, v)

/-- An update function has what it needs (same type: the source may be the object itself). -/
def UpdFnOkSame (D : Decls) (E : TyEnv) (h0 : Heap) (t : TypeId) (u : UpdFn) : Prop :=
  match u with
  | .assign src => (∃ sb, h0.obj? src = some sb ∧ sb.ty = some t ∧ sb.data ≠ none) ∧ (∀ m ∈ E.mixins t, (D.mix m).hasCopyAsgn = true)
  | _ => True

section
variable (hE : EnvOk D E) {h0 : Heap} (hk : HeapOk D E h0) {o : Nat} {ob : Obj} (ho : h0.obj? o = some ob) {t : TypeId}
include hE hk ho

/-- all mixins are common -/
theorem same_slot (hty : ob.ty = some t) {j : Nat} {m : Mix} (hm : (E.mixins t)[j]? = some m) :
    ∃ b sl, ob.data = some b ∧ mixinIndex E ob m = some (b, j) ∧ h0.slot b j = some sl ∧ SlotOf E h0 o j m sl := by
  have hob := hk.objs o ob ho
  unfold ObjOk at hob
  cases hd : ob.data with
  | none => rw [hd] at hob; rw [hob t hty] at hm; simp at hm
  | some b =>
    rw [hd] at hob
    obtain ⟨t', h1, h2, h3, h4⟩ := hob
    rw [hty] at h1; simp at h1; subst h1
    obtain ⟨sl, v, k1, -⟩ := h4 j m hm
    have hsl : SlotOf E h0 o j m sl := ⟨ob, t, b, ho, hty, hd, hm, k1⟩
    obtain ⟨b', x1, x2, x3⟩ := index_of_slot hE ho hsl
    rw [hd] at x1; simp at x1; subst x1
    exact ⟨b, sl, rfl, x2, k1, hsl⟩

theorem touched_live {h : Heap} {T : Nat → Bool} (hu : Undone E h0 ob t T h) {o' i : Nat} {m : Mix} {sl : Slot} (hs : SlotOf E h0 o' i m sl) :
    ∃ v, h.live sl.loc = some (m, v) := by
  obtain ⟨_, _, _, v, -, -, -, -, -, -, h7, -⟩ := hs.facts hk
  rcases hu.live sl.loc with h1 | ⟨j, m', b, i', sl', v', -, h2, h3, h4, h5, h6⟩
  · exact ⟨v, by rw [h1, h7]⟩
  · obtain ⟨x, x1, x2, -⟩ := common_slot hE hk ho (mem_of_at h2) h3
    rw [h4] at x2; simp at x2; subst x2
    obtain ⟨-, -, rfl⟩ := x1.same hE hk hs h5
    exact ⟨v', h6⟩

theorem undone_source {h : Heap} {T : Nat → Bool} (hu : Undone E h0 ob t T h) {src : Nat} {sb : Obj} (hsrc : h0.obj? src = some sb) (hty : sb.ty = some t)
    (hd : sb.data ≠ none) {j : Nat} {m : Mix} (hm : (E.mixins t)[j]? = some m) :
    ∃ x v v0, sourceAt h src j = some (x, m, v) ∧ sourceAt h0 src j = some (x, m, v0) ∧ (src ≠ o ∨ T j = false → v = v0) := by
  obtain ⟨b, sl, h1, h2, h3, h4⟩ := same_slot hE hk hsrc hty hm
  obtain ⟨v, h5⟩ := touched_live hE hk ho hu h4
  obtain ⟨_, _, _, v0, -, -, -, -, -, -, h7, -⟩ := h4.facts hk
  have hobj : h.obj? src = some sb := by unfold Heap.obj? at hsrc ⊢; rw [hu.objs]; exact hsrc
  refine ⟨sl.loc, v, v0, ?_, ?_, ?_⟩
  · unfold sourceAt; rw [hobj]; simp only [Option.bind, h1]
    rw [slot?_data hk hsrc h1 (hu.blk b), hu.slot b j (data_lt hk hsrc h1), h3]; simp [h5]
  · unfold sourceAt; rw [hsrc]; simp only [Option.bind, h1]
    rw [slot?_data hk hsrc h1 rfl, h3]; simp [h7]
  · intro hor
    rcases hu.live sl.loc with k1 | ⟨j', m', b', i', sl', v', k0, k2, k3, k4, k5, k6⟩
    · rw [k1, h7] at h5; simp at h5; exact h5.symm
    · exfalso
      obtain ⟨x, x1, x2, -⟩ := common_slot hE hk ho (mem_of_at k2) k3
      rw [k4] at x2; simp at x2; subst x2
      obtain ⟨e1, e2, e3⟩ := x1.same hE hk h4 k5
      rcases hor with hor | hor
      · exact hor e1.symm
      · subst e3
        have := nodup_index (hE.nodup t) k2 hm
        subst this; rw [hor] at k0; simp at k0

/-- the value of a mixin of the object changes -/
theorem undone_touch {h : Heap} {T : Nat → Bool} (hu : Undone E h0 ob t T h) {j : Nat} {m : Mix} {b i : Nat} {sl : Slot} (hm : (E.mixins t)[j]? = some m)
    (hix : mixinIndex E ob m = some (b, i)) (hsl : h0.slot b i = some sl) (v tk : Nat) (L : List Ev) :
    Undone E h0 ob t (setAt T j true) { h with live := (h.setLive sl.loc (some (m, v))).live, tick := tk, log := L } := by
  refine ⟨hu.objs, hu.next, hu.blk, hu.slot, hu.owner, ?_, hu.count⟩
  intro l
  simp only [Heap.setLive]
  by_cases hl : l = sl.loc
  · right
    exact ⟨j, m, b, i, sl, v, setAt_same _ _ _, hm, hix, hsl, hl.symm, by simp [hl]⟩
  · rw [if_neg hl]
    rcases hu.live l with k1 | ⟨j', m', b', i', sl', v', k0, k2, k3, k4, k5, k6⟩
    · exact .inl k1
    · refine .inr ⟨j', m', b', i', sl', v', ?_, k2, k3, k4, k5, k6⟩
      unfold setAt; split
      · rfl
      · exact k0

omit hE hk ho in
theorem Undone.mono {h : Heap} {T T' : Nat → Bool} (hu : Undone E h0 ob t T h) (hT : ∀ i, T i = true → T' i = true) : Undone E h0 ob t T' h := by
  refine ⟨hu.objs, hu.next, hu.blk, hu.slot, hu.owner, ?_, hu.count⟩
  intro l
  rcases hu.live l with k1 | ⟨j', m', b', i', sl', v', k0, k2⟩
  · exact .inl k1
  · exact .inr ⟨j', m', b', i', sl', v', hT _ k0, k2⟩

omit hE hk ho in
/-- replanning -/
theorem SameOk.replan {g g' : Ghost} {s : Sess} (hs : SameOk E h0 o ob t g s) (hG : ∀ i, i < s.updated → g.G i = g'.G i ∨ ∀ src, g'.G i ≠ .assign src)
    (hT : ∀ i, g.T i = true → g'.T i = true) : SameOk E h0 o ob t g' s := by
  refine ⟨hs.oldTy, hs.oldData, hs.ty, hs.movedOut, hs.und.mono hT, hs.updated, hs.complete, hs.inits, hs.destroys, ?_⟩
  intro j m b i sl src a1 a2 a3 a4 a5
  rcases hG j a1 with h | h
  · exact hs.assigned j m b i sl src a1 a2 a3 a4 (by rw [h]; exact a5)
  · exact absurd a5 (h src)

theorem same_updateNext_ok (hty : ob.ty = some t) {g : Ghost} {s : Sess} (hs : SameOk E h0 o ob t g s) (hne : E.mixins t ≠ []) (f : NewFn) {u : UpdFn}
    (hu : UpdFnOkSame D E h0 t u) (hG : s.complete = false → ∀ src, g.G s.updated = .assign src → u = .assign src ∧ (src ≠ o ∨ g.T s.updated = false)) :
    StepOk (updateNext D E orc f u s)
      (fun s' => SameOk E h0 o ob t { g with T := if u = .noop then g.T else setAt g.T s.updated true } s' ∧ s'.updated = s.updated + (if s.complete then 0 else 1))
      (fun s' _ => SameOk E h0 o ob t { g with T := if u = .noop then g.T else setAt g.T s.updated true } s' ∧ s'.updated = s.updated ∧ s.complete = false ∧ u ≠ .noop) := by
  unfold updateNext
  cases hc : s.complete with
  | true =>
    refine ⟨hs.replan (fun _ _ => .inl rfl) (fun i h => ?_), by simp⟩
    simp only; split
    · exact h
    · unfold setAt; split
      · rfl
      · exact h
  | false =>
    simp only [Bool.false_eq_true, if_false]
    have hG := hG hc
    have hlt : s.updated < (E.mixins t).length := by
      have h1 := hs.updated
      have h2 : ¬ (0 < s.updated ∧ s.updated = (E.mixins t).length) := fun h => by
        have := hs.complete.2 h; rw [hc] at this; simp at this
      have h3 : (E.mixins t).length ≠ 0 := by simpa using hne
      omega
    obtain ⟨m, hm⟩ := mixin_at hlt
    obtain ⟨b, sl, q1, q2, q3, q4⟩ := same_slot hE hk ho hty hm
    have hold : s.oldIndex E m = some (b, s.updated) := by
      have : s.oldIndex E m = mixinIndex E ob m := by
        unfold Sess.oldIndex mixinIndex
        rw [hs.oldData, hs.oldTy]
        cases ob.data <;> cases ob.ty <;> rfl
      rw [this, q2]
    rw [hs.ty, hm]; simp only
    rw [hold]; simp only
    rw [slot?_data hk ho q1 (hs.und.blk b), hs.und.slot b _ (data_lt hk ho q1), q3]; simp only
    obtain ⟨w, hlive⟩ := touched_live hE hk ho hs.und q4
    -- other mixins of the object are at other places
    have hother : ∀ (j : Nat) (m' : Mix) (b' i' : Nat) (sl' : Slot), j < s.updated → (E.mixins t)[j]? = some m' → mixinIndex E ob m' = some (b', i') →
        h0.slot b' i' = some sl' → sl'.loc ≠ sl.loc := by
      intro j m' b' i' sl' hj hm' hix' hsl' heq
      obtain ⟨y, y1, y2, -⟩ := common_slot hE hk ho (mem_of_at hm') hix'
      rw [hsl'] at y2; simp at y2; subst y2
      obtain ⟨-, -, rfl⟩ := y1.same hE hk q4 heq
      have := nodup_index (hE.nodup t) hm' hm
      omega
    have htouch : ∀ (v tk : Nat) (ev : Ev), initOf ev = none → destroyOf ev = none →
        SameOk E h0 o ob t { g with T := setAt g.T s.updated true }
          { s with h := { s.h with live := (s.h.setLive sl.loc (some (m, v))).live, tick := tk, log := s.h.log ++ [ev] } } := by
      intro v tk ev e1 e2
      refine ⟨hs.oldTy, hs.oldData, hs.ty, hs.movedOut, undone_touch hE hk ho hs.und hm q2 q3 v tk _, hs.updated, hs.complete, ?_, ?_, ?_⟩
      · rw [← hs.inits]; simp only [initsOf, List.filterMap_append, List.filterMap_cons, List.filterMap_nil, e1, List.append_nil]
      · rw [← hs.destroys]; simp only [destroysOf, List.filterMap_append, List.filterMap_cons, List.filterMap_nil, e2, List.append_nil]
      · intro j m' b' i' sl' src hj hm' hix' hsl' hGj
        simp only [Heap.setLive]
        rw [if_neg (hother j m' b' i' sl' hj hm' hix' hsl')]
        exact hs.assigned j m' b' i' sl' src hj hm' hix' hsl' hGj
    have hadv : ∀ (g' : Ghost) (s' : Sess), SameOk E h0 o ob t g' s' → s'.updated = s.updated →
        (∀ src, g'.G s.updated = .assign src → ∃ x v, sourceAt h0 src s.updated = some (x, m, v) ∧ s'.h.live sl.loc = some (m, v)) →
        SameOk E h0 o ob t g' (s'.advanced E) := by
      intro g' s' hs' hup' hval
      refine ⟨hs'.oldTy, hs'.oldData, hs'.ty, hs'.movedOut, hs'.und, ?_, ?_, hs'.inits, hs'.destroys, ?_⟩
      · simp only [Sess.advanced]; omega
      · simp only [Sess.advanced, hs'.ty, beq_iff_eq]; omega
      · intro j m' b' i' sl' src hj hm' hix' hsl' hGj
        simp only [Sess.advanced] at hj ⊢
        by_cases hju : j = s.updated
        · subst hju
          rw [hm] at hm'; simp at hm'; subst hm'
          rw [q2] at hix'; simp at hix'; obtain ⟨rfl, rfl⟩ := hix'
          rw [q3] at hsl'; simp at hsl'; subst hsl'
          exact hval src hGj
        · exact hs'.assigned j m' b' i' sl' src (by omega) hm' hix' hsl' hGj
    cases u with
    | noop =>
      refine ⟨hadv g s hs rfl (fun src h => ?_), rfl⟩
      have := (hG src h).1; simp at this
    | custom k =>
      simp only [updateCommon, hlive, ne_eq, not_true_eq_false, if_false, reduceCtorEq]
      split
      · exact ⟨htouch (orc.val s.h.tick) (s.h.tick + 1) (.update m sl.loc k) rfl rfl, rfl, trivial, fun h => h⟩
      · refine ⟨hadv _ _ (htouch (orc.val s.h.tick) (s.h.tick + 1) (.update m sl.loc k) rfl rfl) rfl (fun src h => ?_), rfl⟩
        have := (hG src h).1; simp at this
    | assign src =>
      obtain ⟨⟨sb, u2, u3, u4⟩, u5⟩ := hu
      obtain ⟨x, v, v0, s1, s2, s3⟩ := undone_source hE hk ho hs.und u2 u3 u4 hm
      have hca : (D.mix m).hasCopyAsgn = true := u5 m (mem_of_at hm)
      simp only [updateCommon, hlive, s1, ne_eq, not_true_eq_false, hca, Bool.not_true, Bool.false_eq_true, or_self, if_false, reduceCtorEq]
      split
      · exact ⟨htouch (orc.val s.h.tick) (s.h.tick + 1) (.copyAsgn m sl.loc x) rfl rfl, rfl, trivial, fun h => h⟩
      · refine ⟨hadv _ _ (htouch v (s.h.tick + 1) (.copyAsgn m sl.loc x) rfl rfl) rfl (fun src' h => ?_), rfl⟩
        obtain ⟨h1, h2⟩ := hG src' h
        simp at h1; subst h1
        exact ⟨x, v0, s2, by simp [Heap.setLive, s3 h2]⟩

/-- rounds of updates -/
theorem same_updateLoop_ok (hty : ob.ty = some t) (hne : E.mixins t ≠ []) (f : NewFn) {u : UpdFn} (hu : UpdFnOkSame D E h0 t u) {G : Nat → UpdFn}
    (hG : ∀ i src, G i = .assign src → u = .assign src) : ∀ (n : Nat) (s : Sess) (T : Nat → Bool),
    SameOk E h0 o ob t ⟨fun _ => f, G, T⟩ s → s.updated + n ≤ (E.mixins t).length →
    (∀ i src, s.updated ≤ i → i < s.updated + n → G i = .assign src → src ≠ o ∨ T i = false) →
    StepOk (updateLoop D E orc f u n s)
      (fun s' => SameOk E h0 o ob t ⟨fun _ => f, G, fun i => T i || decide (u ≠ .noop)⟩ s' ∧ s'.updated = s.updated + n)
      (fun s' _ => SameOk E h0 o ob t ⟨fun _ => f, G, fun i => T i || decide (u ≠ .noop)⟩ s' ∧ u ≠ .noop)
  | 0, s, T, hs, _, _ => ⟨hs.replan (fun _ _ => .inl rfl) (fun i h => by simp only at h ⊢; rw [h]; rfl), rfl⟩
  | n + 1, s, T, hs, hn, hGT => by
    have hc : s.complete = false := by
      cases hc : s.complete with
      | false => rfl
      | true => have := hs.complete.1 hc; omega
    have hmono : ∀ i, (if u = .noop then T else setAt T s.updated true) i = true → (T i || decide (u ≠ .noop)) = true := by
      intro i h
      by_cases hun : u = .noop
      · rw [if_pos hun] at h; simp [h]
      · simp [hun]
    unfold updateLoop
    refine (same_updateNext_ok (orc := orc) hE hk ho hty hs hne f hu (fun _ src h => ⟨hG _ src h, hGT s.updated src (Nat.le_refl _) (by omega) h⟩)).bind ?_ ?_
    · rintro s' ⟨h1, h2⟩
      rw [hc] at h2; simp at h2
      have := same_updateLoop_ok hty hne f hu hG n s' _ h1 (by omega) (by
        intro i src a b c
        rcases hGT i src (by omega) (by omega) c with d | d
        · exact .inl d
        · right
          simp only; split
          · exact d
          · rw [setAt_ne _ _ (by omega)]; exact d)
      revert this
      unfold StepOk
      split
      · rintro ⟨k1, k2⟩
        refine ⟨k1.replan (fun _ _ => .inl rfl) (fun i h => ?_), by omega⟩
        simp only [Bool.or_eq_true] at h ⊢
        rcases h with h | h
        · exact Bool.or_eq_true_iff.1 (hmono i h)
        · exact .inr h
      · rintro ⟨k1, k2⟩
        refine ⟨k1.replan (fun _ _ => .inl rfl) (fun i h => ?_), k2⟩
        simp only [Bool.or_eq_true] at h ⊢
        rcases h with h | h
        · exact Bool.or_eq_true_iff.1 (hmono i h)
        · exact .inr h
      · exact id
    · rintro s' e ⟨h1, h2, -, h4⟩
      exact ⟨h1.replan (fun _ _ => .inl rfl) (fun i h => hmono i h), h4⟩

end

/-! ## Steps -/

/-- The functions of a step. -/
def MStep.newFn : MStep → Option NewFn
  | .next f _ => some f
  | .each f _ _ => some f
  | .at _ f _ => some f
  | _ => none

def MStep.updFn : MStep → Option UpdFn
  | .next _ u => some u
  | .each _ u _ => some u
  | .at _ _ u => some u
  | _ => none

/-- A step other than a manual `finalize` or `rollback`. -/
def MStep.plain : MStep → Bool
  | .finalize => false
  | .rollback => false
  | _ => true

/-- Plain steps that have what they need in a mutation to another type. -/
structure StepFits (D : Decls) (E : TyEnv) (h0 : Heap) (o : Nat) (ob : Obj) (t : TypeId) (b : Bool) (st : MStep) : Prop where
  plain : st.plain = true
  new : ∀ f, st.newFn = some f → NewFnOk D E h0 o ob t f
  upd : ∀ u, st.updFn = some u → UpdFnOk D E h0 o ob t u
  touch : ∀ u, st.updFn = some u → u ≠ .noop → b = true

/-- A session in which updates are made; `b`: common mixins may have been touched. -/
def Going (D : Decls) (E : TyEnv) (h0 : Heap) (o : Nat) (ob : Obj) (t : TypeId) (b : Bool) (s : Sess) : Prop :=
  s.alloced = (E.mixins t).length ∧ ∃ F G, SessOk D E h0 o ob t ⟨F, G, fun _ => b⟩ s

section
variable (hE : EnvOk D E) {h0 : Heap} (hk : HeapOk D E h0) {o : Nat} {ob : Obj} (ho : h0.obj? o = some ob) {t : TypeId} (hne : E.mixins t ≠ [])
include hE hk ho hne

theorem going_next {b : Bool} {s : Sess} (hs : Going D E h0 o ob t b s) {f : NewFn} {u : UpdFn} (hf : NewFnOk D E h0 o ob t f) (hu : UpdFnOk D E h0 o ob t u)
    (hb : u ≠ .noop → b = true) :
    StepOk (updateNext D E orc f u s) (fun s' => Going D E h0 o ob t b s' ∧ s'.updated = s.updated + (if s.complete then 0 else 1))
      (fun s' _ => Going D E h0 o ob t b s') := by
  obtain ⟨hal, F, G, hs⟩ := hs
  have hs' : SessOk D E h0 o ob t ⟨setAt F s.updated f, setAt G s.updated u, fun _ => b⟩ s :=
    hs.replan (fun i hi => (setAt_ne _ _ (by omega)).symm) (fun i hi => (setAt_ne _ _ (by omega)).symm) (fun _ h => h)
  have := updateNext_ok (orc := orc) hE hk ho hs' hal hne (f := f) (u := u) (fun _ => setAt_same _ _ _) (fun _ => setAt_same _ _ _) hb hf hu
  revert this
  unfold StepOk
  split
  · rintro ⟨k1, k2, k3⟩; exact ⟨⟨by omega, _, _, k1⟩, k3⟩
  · rintro ⟨k1, k2, -⟩; exact ⟨by omega, _, _, k1⟩
  · exact id

theorem going_each {b : Bool} {s : Sess} (hs : Going D E h0 o ob t b s) {f : NewFn} {u : UpdFn} (hf : NewFnOk D E h0 o ob t f) (hu : UpdFnOk D E h0 o ob t u)
    (hb : u ≠ .noop → b = true) (upto : Option Nat) :
    StepOk (updateEach D E orc f u upto s) (fun s' => Going D E h0 o ob t b s' ∧ s'.updated = max s.updated (min (upto.getD (E.mixins t).length) (E.mixins t).length))
      (fun s' _ => Going D E h0 o ob t b s') := by
  obtain ⟨hal, F, G, hs⟩ := hs
  have hs' : SessOk D E h0 o ob t ⟨fun i => if i < s.updated then F i else f, fun i => if i < s.updated then G i else u, fun _ => b⟩ s :=
    hs.replan (fun i hi => by simp [hi]) (fun i hi => by simp [hi]) (fun _ h => h)
  have := updateEach_ok (orc := orc) hE hk ho hne (f := f) (u := u) hf hu upto s hs' hal (by
    intro i hi _ _
    have : ¬ i < s.updated := by omega
    simp only [this, if_false]; exact ⟨trivial, trivial, hb⟩)
  revert this
  unfold StepOk
  split
  · rintro ⟨k1, k2, k3⟩; exact ⟨⟨by omega, _, _, k1⟩, k3⟩
  · rintro ⟨k1, k2, -⟩; exact ⟨by omega, _, _, k1⟩
  · exact id

theorem going_at {b : Bool} {s : Sess} (hs : Going D E h0 o ob t b s) {f : NewFn} {u : UpdFn} (hf : NewFnOk D E h0 o ob t f) (hu : UpdFnOk D E h0 o ob t u)
    (hb : u ≠ .noop → b = true) (i : Nat) :
    StepOk (updateAt D E orc i f u s) (fun s' => Going D E h0 o ob t b s') (fun s' _ => Going D E h0 o ob t b s') := by
  unfold updateAt
  split
  · exact hs
  · refine (going_each (orc := orc) hE hk ho hne hs (f := .dflt) (u := .noop) trivial trivial (fun h => absurd rfl h) (some i)).bind ?_ ?_
    · rintro s' ⟨h1, -⟩
      have := going_next (orc := orc) hE hk ho hne h1 hf hu hb
      revert this
      unfold StepOk
      split
      · rintro ⟨k1, -⟩; exact k1
      · exact id
      · exact id
    · rintro s' e h; exact h

theorem going_mstep {b : Bool} {s : Sess} (hs : Going D E h0 o ob t b s) {st : MStep} (hst : StepFits D E h0 o ob t b st) :
    StepOk (mstep D E orc s st) (fun s' => Going D E h0 o ob t b s') (fun s' _ => Going D E h0 o ob t b s') := by
  cases st with
  | next f u =>
    have := going_next (orc := orc) hE hk ho hne hs (hst.new f rfl) (hst.upd u rfl) (hst.touch u rfl)
    revert this
    unfold StepOk
    simp only [mstep]
    split
    · rintro ⟨k1, -⟩; exact k1
    · exact id
    · exact id
  | each f u upto =>
    have := going_each (orc := orc) hE hk ho hne hs (hst.new f rfl) (hst.upd u rfl) (hst.touch u rfl) upto
    revert this
    unfold StepOk
    simp only [mstep]
    split
    · rintro ⟨k1, -⟩; exact k1
    · exact id
    · exact id
  | «at» i f u => exact going_at (orc := orc) hE hk ho hne hs (hst.new f rfl) (hst.upd u rfl) (hst.touch u rfl) i
  | finalize => have := hst.plain; simp [MStep.plain] at this
  | rollback => have := hst.plain; simp [MStep.plain] at this
  | throw => exact hs

theorem going_msteps {b : Bool} : ∀ (steps : List (MStep × Bool)) (s : Sess), Going D E h0 o ob t b s → (∀ st ∈ steps, StepFits D E h0 o ob t b st.1) →
    StepOk (msteps D E orc steps s) (fun s' => Going D E h0 o ob t b s') (fun s' _ => Going D E h0 o ob t b s')
  | [], s, hs, _ => hs
  | (st, caught) :: rest, s, hs, hst => by
    unfold msteps
    refine (going_mstep (orc := orc) hE hk ho hne hs (hst (st, caught) (by simp))).bind ?_ ?_
    · intro s' hs'
      exact going_msteps rest s' hs' (fun x hx => hst x (by simp [hx]))
    · intro s' e hs'
      cases caught with
      | true => exact going_msteps rest s' hs' (fun x hx => hst x (by simp [hx]))
      | false => exact hs'

end

/-- Plain steps that have what they need in a mutation to the same type. -/
structure StepFitsSame (D : Decls) (E : TyEnv) (h0 : Heap) (t : TypeId) (b : Bool) (st : MStep) : Prop where
  plain : st.plain = true
  upd : ∀ u, st.updFn = some u → UpdFnOkSame D E h0 t u
  touch : ∀ u, st.updFn = some u → u ≠ .noop → b = true

/-- A session of a mutation to the same type. -/
def GoingSame (E : TyEnv) (h0 : Heap) (o : Nat) (ob : Obj) (t : TypeId) (b : Bool) (s : Sess) : Prop :=
  SameOk E h0 o ob t ⟨fun _ => .dflt, fun _ => .noop, fun _ => b⟩ s

section
variable (hE : EnvOk D E) {h0 : Heap} (hk : HeapOk D E h0) {o : Nat} {ob : Obj} (ho : h0.obj? o = some ob) {t : TypeId} (hne : E.mixins t ≠ [])
  (hty : ob.ty = some t)
include hE hk ho hne hty

theorem goingSame_next {b : Bool} {s : Sess} (hs : GoingSame E h0 o ob t b s) (f : NewFn) {u : UpdFn} (hu : UpdFnOkSame D E h0 t u)
    (hb : u ≠ .noop → b = true) :
    StepOk (updateNext D E orc f u s) (fun s' => GoingSame E h0 o ob t b s') (fun s' _ => GoingSame E h0 o ob t b s') := by
  have := same_updateNext_ok (orc := orc) hE hk ho hty hs hne f hu (fun _ src h => by simp at h)
  have hmono : ∀ i, (if u = .noop then (fun _ => b) else setAt (fun _ => b) s.updated true) i = true → b = true := by
    intro i h
    by_cases hun : u = .noop
    · rw [if_pos hun] at h; exact h
    · exact hb hun
  revert this
  unfold StepOk
  split
  · rintro ⟨k1, -⟩; exact k1.replan (fun _ _ => .inl rfl) hmono
  · rintro ⟨k1, -⟩; exact k1.replan (fun _ _ => .inl rfl) hmono
  · exact id

theorem goingSame_loop {b : Bool} (f : NewFn) {u : UpdFn} (hu : UpdFnOkSame D E h0 t u) (hb : u ≠ .noop → b = true) : ∀ (n : Nat) (s : Sess),
    GoingSame E h0 o ob t b s → StepOk (updateLoop D E orc f u n s) (fun s' => GoingSame E h0 o ob t b s') (fun s' _ => GoingSame E h0 o ob t b s')
  | 0, s, hs => hs
  | n + 1, s, hs => by
    unfold updateLoop
    refine (goingSame_next (orc := orc) hE hk ho hne hty hs f hu hb).bind ?_ ?_
    · intro s' hs'; exact goingSame_loop f hu hb n s' hs'
    · intro s' e hs'; exact hs'

theorem goingSame_mstep {b : Bool} {s : Sess} (hs : GoingSame E h0 o ob t b s) {st : MStep} (hst : StepFitsSame D E h0 t b st) :
    StepOk (mstep D E orc s st) (fun s' => GoingSame E h0 o ob t b s') (fun s' _ => GoingSame E h0 o ob t b s') := by
  cases st with
  | next f u => exact goingSame_next (orc := orc) hE hk ho hne hty hs f (hst.upd u rfl) (hst.touch u rfl)
  | each f u upto => exact goingSame_loop (orc := orc) hE hk ho hne hty f (hst.upd u rfl) (hst.touch u rfl) _ s hs
  | «at» i f u =>
    unfold mstep updateAt
    simp only
    split
    · exact hs
    · refine (goingSame_loop (orc := orc) hE hk ho hne hty .dflt (u := .noop) trivial (fun h => absurd rfl h) _ s hs).bind ?_ ?_
      · intro s' hs'; exact goingSame_next (orc := orc) hE hk ho hne hty hs' f (hst.upd u rfl) (hst.touch u rfl)
      · intro s' e h; exact h
  | finalize => have := hst.plain; simp [MStep.plain] at this
  | rollback => have := hst.plain; simp [MStep.plain] at this
  | throw => exact hs

theorem goingSame_msteps {b : Bool} : ∀ (steps : List (MStep × Bool)) (s : Sess), GoingSame E h0 o ob t b s → (∀ st ∈ steps, StepFitsSame D E h0 t b st.1) →
    StepOk (msteps D E orc steps s) (fun s' => GoingSame E h0 o ob t b s') (fun s' _ => GoingSame E h0 o ob t b s')
  | [], s, hs, _ => hs
  | (st, caught) :: rest, s, hs, hst => by
    unfold msteps
    refine (goingSame_mstep (orc := orc) hE hk ho hne hty hs (hst (st, caught) (by simp))).bind ?_ ?_
    · intro s' hs'
      exact goingSame_msteps rest s' hs' (fun x hx => hst x (by simp [hx]))
    · intro s' e hs'
      cases caught with
      | true => exact goingSame_msteps rest s' hs' (fun x hx => hst x (by simp [hx]))
      | false => exact hs'

end

/-! ## The end -/

/-- What a mutation that failed leaves in the log: what was constructed was destroyed again, in reverse order. -/
def UndoneLog (D : Decls) (h0 h : Heap) : Prop :=
  ∃ l : List (Mix × Loc × Kind), initsOf h.log = initsOf h0.log ++ l ∧
    destroysOf h.log = destroysOf h0.log ++ ((l.filter (fun x => (D.mix x.1).hasDestroy)).map (fun x => (x.1, x.2.1))).reverse

theorem UndoneLog.same {h0 h : Heap} (h1 : initsOf h.log = initsOf h0.log) (h2 : destroysOf h.log = destroysOf h0.log) : UndoneLog D h0 h :=
  ⟨[], by simp [h1], by simp [h2]⟩

/-- the calls of a session are undone by those of a rollback -/
theorem undo_matches (ob : Obj) (t : TypeId) (F : Nat → NewFn) (slot : Nat → Option Slot) (n : Nat) :
    undoDestroys D E ob t slot n = (((newInits E ob t F slot n).filter (fun x => (D.mix x.1).hasDestroy)).map (fun x => (x.1, x.2.1))).reverse := by
  unfold undoDestroys newInits
  congr 1
  rw [List.filter_filterMap, List.map_filterMap]
  apply filterMap_same
  intro i _
  cases (E.mixins t)[i]? with
  | none => rfl
  | some m =>
    simp only [Option.bind]
    cases hx : mixinIndex E ob m with
    | some p => simp
    | none =>
      cases hd : (D.mix m).hasDestroy <;> cases slot i <;> simp [Option.filter, hd]

/-- A completed mutation of `o` to `t`. -/
structure Completed (D : Decls) (E : TyEnv) (h0 : Heap) (o : Nat) (ob : Obj) (t : TypeId) (g : Ghost) (h' : Heap) : Prop where
  out : ∃ s h2, SessOk D E h0 o ob t g s ∧ s.alloced = (E.mixins t).length ∧ s.complete = true ∧ Fin D E h0 o ob t s.h h2 ∧
    h' = h2.setObj o (some (mutatedObj h0 ob t))

/-- Outcomes of operations on heaps. -/
def HStepOk (r : Res Heap) (P : Heap → Prop) (Q : Heap → XErr → Prop) : Prop :=
  match r with
  | .ok s => P s
  | .throw s e => Q s e
  | .ub => False

theorem unwindWith_ok (hE : EnvOk D E) {h0 : Heap} (hk : HeapOk D E h0) {o : Nat} {ob : Obj} {t : TypeId} (hty : ob.ty ≠ some t) {g : Ghost} {s : Sess}
    (hs : SessOk D E h0 o ob t g s) (e : XErr) :
    ∃ h', unwindWith D E orc s e = .throw h' e ∧ Undone E h0 ob t g.T h' ∧ UndoneLog D h0 h' := by
  obtain ⟨s', h1, h2, h3, h4, h5, -⟩ := rollback_ok (D := D) hE hk hty hs
  refine ⟨s'.h, ?_, h3, newInits E ob t g.F (s.h.slot h0.next) s.updated, ?_, ?_⟩
  · unfold unwindWith Sess.dtor
    rw [hs.movedOut]; simp [h1, Res.bind]
  · rw [h4, hs.inits]
  · rw [h5, hs.destroys, undo_matches]

theorem dtor_unwinding_ok (hE : EnvOk D E) {h0 : Heap} (hk : HeapOk D E h0) {o : Nat} {ob : Obj} {t : TypeId} (hty : ob.ty ≠ some t) {g : Ghost} {s : Sess}
    (hs : SessOk D E h0 o ob t g s) :
    ∃ h', s.dtor D E orc true = .ok h' ∧ Undone E h0 ob t g.T h' ∧ UndoneLog D h0 h' := by
  obtain ⟨s', h1, h2, h3, h4, h5, -⟩ := rollback_ok (D := D) hE hk hty hs
  refine ⟨s'.h, ?_, h3, newInits E ob t g.F (s.h.slot h0.next) s.updated, ?_, ?_⟩
  · unfold Sess.dtor
    rw [hs.movedOut]; simp [h1]
  · rw [h4, hs.inits]
  · rw [h5, hs.destroys, undo_matches]

/-- the destructor without exception in flight; the rest is default-initialized -/
theorem dtor_ok (hE : EnvOk D E) {h0 : Heap} (hk : HeapOk D E h0) {o : Nat} {ob : Obj} (ho : h0.obj? o = some ob) {t : TypeId} (hty : ob.ty ≠ some t)
    (hne : E.mixins t ≠ []) {g : Ghost} {s : Sess} (hs : SessOk D E h0 o ob t g s) (hal : s.alloced = (E.mixins t).length)
    (hF : ∀ i, s.updated ≤ i → i < (E.mixins t).length → g.F i = .dflt ∧ g.G i = .noop) :
    HStepOk (s.dtor D E orc false) (Completed D E h0 o ob t g) (fun h' _ => Undone E h0 ob t g.T h' ∧ UndoneLog D h0 h') := by
  have := updateEach_ok (orc := orc) hE hk ho hne (f := .dflt) (u := .noop) trivial trivial none s hs hal
    (fun i a _ c => ⟨(hF i a c).1, (hF i a c).2, fun h => absurd rfl h⟩)
  unfold Sess.dtor
  rw [hs.movedOut]
  simp only [Bool.false_eq_true, if_false]
  cases hr : updateEach D E orc .dflt .noop none s with
  | ub => rw [hr] at this; exact this.elim
  | throw s' e =>
    rw [hr] at this
    obtain ⟨k1, -⟩ := this
    obtain ⟨s'', h1, h2, h3, h4, h5, -⟩ := rollback_ok (D := D) hE hk hty k1
    simp only [h1]
    exact ⟨h3, newInits E ob t g.F (s'.h.slot h0.next) s'.updated, by rw [h4, k1.inits], by rw [h5, k1.destroys, undo_matches]⟩
  | ok s' =>
    rw [hr] at this
    obtain ⟨k1, k2, k3⟩ := this
    have hlen : 0 < (E.mixins t).length := List.length_pos_iff.2 hne
    have hc : s'.complete = true := k1.complete.2 ⟨by simp at k3; have := hs.updated; omega, by simp at k3; have := k1.updated; have := hs.updated; omega⟩
    obtain ⟨s'', h2, h1, h3, h4, -⟩ := finalize_fin (orc := orc) hE hk ho hty k1 (by omega) hc
    simp only [hc, if_true, h1]
    exact ⟨s', h2, k1, by omega, hc, h3, h4⟩

end Dnmx
