import Verif.Proofs.SessionLemmas

/-! # Lemmas about the updates of a mutation -/

set_option linter.unusedSimpArgs false

namespace Dnmx
open Spec

variable {D : Decls} {E : TyEnv} {orc : Orc}

def setAt {α : Type} (f : Nat → α) (i : Nat) (x : α) : Nat → α := fun j => if j = i then x else f j

theorem setAt_same {α : Type} (f : Nat → α) (i : Nat) (x : α) : setAt f i x i = x := by simp [setAt]
theorem setAt_ne {α : Type} (f : Nat → α) {i j : Nat} (x : α) (h : j ≠ i) : setAt f i x j = f j := by simp [setAt, h]

theorem newInits_succ (ob : Obj) (t : TypeId) (F : Nat → NewFn) {slot : Nat → Option Slot} {n : Nat} {m : Mix} {sl : Slot} (hm : (E.mixins t)[n]? = some m)
    (hn : mixinIndex E ob m = none) (hsl : slot n = some sl) :
    newInits E ob t F slot (n + 1) = newInits E ob t F slot n ++ [(m, sl.loc, kindOf (F n))] := by
  unfold newInits
  rw [List.range_succ, List.filterMap_append]
  simp [hm, hn, hsl]

theorem filterMap_same {α β : Type} {f g : α → Option β} : ∀ {l : List α}, (∀ x ∈ l, f x = g x) → l.filterMap f = l.filterMap g
  | [], _ => rfl
  | x :: l, h => by
    rw [List.filterMap_cons, List.filterMap_cons, h x (by simp), filterMap_same (fun y hy => h y (by simp [hy]))]

theorem newInits_congr (ob : Obj) (t : TypeId) {F F' : Nat → NewFn} {slot : Nat → Option Slot} {n : Nat} (h : ∀ i, i < n → F i = F' i) :
    newInits E ob t F slot n = newInits E ob t F' slot n := by
  unfold newInits
  apply filterMap_same
  intro i hi
  rw [h i (List.mem_range.1 hi)]

theorem newInits_same (ob : Obj) (t : TypeId) (F : Nat → NewFn) {slot : Nat → Option Slot} {n : Nat} {m : Mix} (hm : (E.mixins t)[n]? = some m) (hc : mixinIndex E ob m ≠ none) :
    newInits E ob t F slot (n + 1) = newInits E ob t F slot n := by
  unfold newInits
  rw [List.range_succ, List.filterMap_append]
  simp [hm, hc]

section
variable (hE : EnvOk D E) {h0 : Heap} (hk : HeapOk D E h0) {o : Nat} {ob : Obj} (ho : h0.obj? o = some ob) {t : TypeId} {g : Ghost} {s : Sess}
  (hs : SessOk D E h0 o ob t g s)
include hs

theorem new_place {i : Nat} {m : Mix} (hi : i < s.alloced) (hm : (E.mixins t)[i]? = some m) (hn : mixinIndex E ob m = none) :
    ∃ sl, s.h.slot h0.next i = some sl ∧ h0.next ≤ sl.loc.1 ∧ (∃ b, s.h.blk sl.loc.1 = some b) ∧ s.h.owner sl.loc = some o ∧
      (∀ e, sl.buf = some e → s.h.blk e = some (provenance D m ob.alloc) ∧ h0.next < e ∧ sl.loc = (e, 0) ∧ E.internal t i = false) ∧
      (sl.buf = none → sl.loc = (h0.next, i) ∧ E.internal t i = true) := by
  obtain ⟨sl, h1, h2⟩ := hs.slots i m hi hm
  refine ⟨sl, h1, ?_⟩
  unfold SessSlot at h2
  split at h2
  · rename_i hint
    obtain ⟨h2, h3⟩ := h2
    subst h2
    exact ⟨Nat.le_refl _, ⟨_, hs.blkA⟩, h3, fun e he => by simp at he, fun _ => ⟨rfl, hint⟩⟩
  · rename_i hint
    rw [hn] at h2
    obtain ⟨e, e1, e2, e3, e4, e5⟩ := h2
    subst e1
    refine ⟨Nat.le_of_lt e2, ⟨_, e4⟩, e5, fun e' he' => ?_, fun h => by simp at h⟩
    simp at he'; subst he'
    exact ⟨e4, e2, rfl, by simpa using hint⟩

theorem new_place_inj {i j : Nat} {m m' : Mix} {sl sl' : Slot} (hi : i < s.alloced) (hj : j < s.alloced) (hm : (E.mixins t)[i]? = some m)
    (hm' : (E.mixins t)[j]? = some m') (hn : mixinIndex E ob m = none) (hn' : mixinIndex E ob m' = none) (h1 : s.h.slot h0.next i = some sl)
    (h2 : s.h.slot h0.next j = some sl') (hl : sl.loc = sl'.loc) (hnd : (E.mixins t).Nodup) : i = j := by
  obtain ⟨x, x1, -, -, -, x5, x6⟩ := new_place hs hi hm hn
  obtain ⟨y, y1, -, -, -, y5, y6⟩ := new_place hs hj hm' hn'
  rw [h1] at x1; simp at x1; subst x1
  rw [h2] at y1; simp at y1; subst y1
  cases hb : sl.buf with
  | none =>
    obtain ⟨a1, -⟩ := x6 hb
    cases hb' : sl'.buf with
    | none =>
      obtain ⟨b1, -⟩ := y6 hb'
      rw [a1, b1] at hl; simp at hl; exact hl
    | some e =>
      obtain ⟨-, b2, b3, -⟩ := y5 e hb'
      rw [a1, b3] at hl; simp at hl; omega
  | some e =>
    obtain ⟨a1, a2, a3, -⟩ := x5 e hb
    cases hb' : sl'.buf with
    | none =>
      obtain ⟨b1, -⟩ := y6 hb'
      rw [a3, b1] at hl; simp at hl; omega
    | some e' =>
      obtain ⟨b1, b2, b3, -⟩ := y5 e' hb'
      rw [a3, b3] at hl; simp at hl; subst hl
      rw [a1] at b1; simp only [Option.some.injEq] at b1
      have := provenance_inj b1
      subst this
      exact nodup_index hnd hm hm'

/-- nothing lives at the place of a new mixin that was not made yet -/
theorem new_place_raw (hnd : (E.mixins t).Nodup) {i : Nat} {m : Mix} {sl : Slot} (hi : i < s.alloced) (hu : s.updated ≤ i)
    (hm : (E.mixins t)[i]? = some m) (hn : mixinIndex E ob m = none) (h1 : s.h.slot h0.next i = some sl) : s.h.live sl.loc = none := by
  obtain ⟨x, x1, x2, -⟩ := new_place hs hi hm hn
  rw [h1] at x1; simp at x1; subst x1
  cases hl : s.h.live sl.loc with
  | none => rfl
  | some v =>
    obtain ⟨j, m', sl', j1, j2, j3, j4, j5⟩ := hs.liveOnly sl.loc v x2 hl
    have := new_place_inj hs hi (by have := hs.updated; omega) hm j2 hn j3 h1 j4 j5.symm hnd
    omega

/-- a new mixin is constructed -/
theorem construct_ok (hnd : (E.mixins t).Nodup) {m : Mix} {sl : Slot} (hi : s.updated < s.alloced)
    (hm : (E.mixins t)[s.updated]? = some m) (hn : mixinIndex E ob m = none) (h1 : s.h.slot h0.next s.updated = some sl) (v tk : Nat) (how : How)
    (hhow : initOf (.init m sl.loc how) = some (m, sl.loc, kindOf (g.F s.updated)))
    (hcopy : ∀ src c, g.F s.updated = .copy src c → ∃ x, sourceAt h0 src s.updated = some (x, m, v)) :
    SessOk D E h0 o ob t g
      (({ s with h := { s.h with live := (s.h.setLive sl.loc (some (m, v))).live, tick := tk, log := s.h.log ++ [.init m sl.loc how] } } : Sess).advanced E) := by
  obtain ⟨x, x1, x2, -⟩ := new_place hs hi hm hn
  rw [h1] at x1; simp at x1; subst x1
  have hup := hs.updated
  have hal := hs.alloced
  have hdiff : ∀ (j : Nat) (m' : Mix) (sl' : Slot), j < s.updated → (E.mixins t)[j]? = some m' → mixinIndex E ob m' = none → s.h.slot h0.next j = some sl' → sl'.loc ≠ sl.loc := by
    intro j m' sl' hj hm' hn' hsl' hl
    have := new_place_inj hs (i := j) (j := s.updated) (by omega) hi hm' hm hn' hn hsl' h1 hl hnd
    omega
  constructor <;> simp only [Sess.advanced, Heap.setLive]
  · exact hs.so
  · exact hs.sal
  · exact hs.oldTy
  · exact hs.oldData
  · exact hs.ty
  · exact hs.movedOut
  · exact hs.data
  · exact hs.objs
  · exact hs.next
  · exact hs.blkOld
  · exact hs.blkA
  · exact hs.slotOld
  · exact hs.ownerOld
  · intro l hl
    rw [if_neg (by intro h; rw [h] at hl; omega)]
    exact hs.liveOld l hl
  · exact hs.count
  · exact hs.alloced
  · omega
  · simp only [hs.ty, beq_iff_eq]; omega
  · exact hs.slots
  · exact hs.blkNew
  · intro j m' sl' hj hm' hn' hsl'
    by_cases hju : j = s.updated
    · subst hju
      rw [h1] at hsl'; simp at hsl'; subst hsl'
      rw [hm] at hm'; simp at hm'; subst hm'
      exact ⟨v, by simp⟩
    · rw [if_neg (hdiff j m' sl' (by omega) hm' hn' hsl')]
      exact hs.liveNew j m' sl' (by omega) hm' hn' hsl'
  · intro l y hl hy
    by_cases hls : l = sl.loc
    · subst hls
      exact ⟨s.updated, m, sl, by omega, hm, hn, h1, rfl⟩
    · rw [if_neg hls] at hy
      obtain ⟨i, m', sl', a1, a2⟩ := hs.liveOnly l y hl hy
      exact ⟨i, m', sl', by omega, a2⟩
  · exact hs.fresh
  · rw [newInits_succ ob t g.F hm hn h1]
    rw [← List.append_assoc, ← hs.inits]
    simp only [initsOf, List.filterMap_append, List.filterMap_cons, List.filterMap_nil, hhow]
  · rw [← hs.destroys]; simp [destroysOf, destroyOf]
  · intro j m' sl' src c hj hm' hn' hsl' hF
    by_cases hju : j = s.updated
    · subst hju
      rw [h1] at hsl'; simp at hsl'; subst hsl'
      rw [hm] at hm'; simp at hm'; subst hm'
      obtain ⟨y, hy⟩ := hcopy src c hF
      exact ⟨y, v, hy, by simp⟩
    · rw [if_neg (hdiff j m' sl' (by omega) hm' hn' hsl')]
      exact hs.copied j m' sl' src c (by omega) hm' hn' hsl' hF
  · intro j m' b i sl' src hj hm' hix hsl' hG
    by_cases hju : j = s.updated
    · subst hju
      rw [hm] at hm'; simp at hm'; subst hm'
      rw [hn] at hix; simp at hix
    · obtain ⟨y, v', h5, h6⟩ := hs.assigned j m' b i sl' src (by omega) hm' hix hsl' hG
      refine ⟨y, v', h5, ?_⟩
      rw [if_neg]; exact h6
      intro hl
      rw [hl] at h6
      rw [new_place_raw hs hnd hi (Nat.le_refl _) hm hn h1] at h6; simp at h6

include hE hk ho

/-- two common mixins have different places -/
theorem common_place_inj {j j' : Nat} {m m' : Mix} {b i b' i' : Nat} {sl sl' : Slot} (hm : (E.mixins t)[j]? = some m) (hm' : (E.mixins t)[j']? = some m')
    (hix : mixinIndex E ob m = some (b, i)) (hix' : mixinIndex E ob m' = some (b', i')) (hsl : h0.slot b i = some sl) (hsl' : h0.slot b' i' = some sl')
    (hl : sl.loc = sl'.loc) : j = j' := by
  obtain ⟨x, x1, x2, -⟩ := common_slot hE hk ho (mem_of_at hm) hix
  obtain ⟨y, y1, y2, -⟩ := common_slot hE hk ho (mem_of_at hm') hix'
  rw [hsl] at x2; simp at x2; subst x2
  rw [hsl'] at y2; simp at y2; subst y2
  obtain ⟨-, -, rfl⟩ := x1.same hE hk y1 hl
  exact nodup_index (hE.nodup t) hm hm'

/-- a common mixin is alive -/
theorem common_live {j : Nat} {m : Mix} {b i : Nat} {sl : Slot} (hm : (E.mixins t)[j]? = some m) (hix : mixinIndex E ob m = some (b, i))
    (hsl : h0.slot b i = some sl) : (∃ v, s.h.live sl.loc = some (m, v)) ∧ sl.loc.1 < h0.next := by
  obtain ⟨x, x1, x2, -⟩ := common_slot hE hk ho (mem_of_at hm) hix
  rw [hsl] at x2; simp at x2; subst x2
  have hlt := slot_lt hk x1
  refine ⟨?_, hlt⟩
  rcases hs.liveOld sl.loc hlt with h1 | ⟨j', m', b', i', sl', v, h1, h2, h3, h4, h5, h6⟩
  · obtain ⟨_, _, _, v, -, -, -, -, -, -, h2, -⟩ := x1.facts hk
    exact ⟨v, by rw [h1, h2]⟩
  · have := common_place_inj hE hk ho hs hm h2 hix h3 hsl h4 h5.symm
    subst this
    rw [hm] at h2; simp at h2; subst h2
    exact ⟨v, h6⟩

/-- the value of a common mixin changes -/
theorem touch_ok {j : Nat} {m : Mix} {b i : Nat} {sl : Slot} (hj : s.updated ≤ j) (hm : (E.mixins t)[j]? = some m) (hix : mixinIndex E ob m = some (b, i))
    (hsl : h0.slot b i = some sl) (v tk : Nat) (ev : Ev) (hev1 : initOf ev = none) (hev2 : destroyOf ev = none) (hT : g.T j = true) :
    SessOk D E h0 o ob t g
      { s with h := { s.h with live := (s.h.setLive sl.loc (some (m, v))).live, tick := tk, log := s.h.log ++ [ev] } } := by
  obtain ⟨-, hlt⟩ := common_live hE hk ho hs hm hix hsl
  constructor <;> simp only [Heap.setLive]
  · exact hs.so
  · exact hs.sal
  · exact hs.oldTy
  · exact hs.oldData
  · exact hs.ty
  · exact hs.movedOut
  · exact hs.data
  · exact hs.objs
  · exact hs.next
  · exact hs.blkOld
  · exact hs.blkA
  · exact hs.slotOld
  · exact hs.ownerOld
  · intro l hl
    by_cases hls : l = sl.loc
    · right
      exact ⟨j, m, b, i, sl, v, hT, hm, hix, hsl, hls.symm, by simp [hls]⟩
    · simp only [if_neg hls]
      rcases hs.liveOld l hl with h1 | ⟨j', m', b', i', sl', v', h1, h2, h3, h4, h5, h6⟩
      · exact .inl h1
      · exact .inr ⟨j', m', b', i', sl', v', h1, h2, h3, h4, h5, h6⟩
  · exact hs.count
  · exact hs.alloced
  · exact hs.updated
  · exact hs.complete
  · exact hs.slots
  · exact hs.blkNew
  · intro j' m' sl' hj' hm' hn' hsl'
    have hup := hs.updated
    obtain ⟨x, x1, x2, -⟩ := new_place hs (by omega) hm' hn'
    rw [hsl'] at x1; simp at x1; subst x1
    rw [if_neg (by intro h; rw [h] at x2; omega)]
    exact hs.liveNew j' m' sl' hj' hm' hn' hsl'
  · intro l y hl hy
    rw [if_neg (by intro h; rw [h] at hl; omega)] at hy
    exact hs.liveOnly l y hl hy
  · exact hs.fresh
  · rw [← hs.inits]; simp only [initsOf, List.filterMap_append, List.filterMap_cons, List.filterMap_nil, hev1, List.append_nil]
  · rw [← hs.destroys]; simp only [destroysOf, List.filterMap_append, List.filterMap_cons, List.filterMap_nil, hev2, List.append_nil]
  · intro j' m' sl' src c hj' hm' hn' hsl' hF
    have hup := hs.updated
    obtain ⟨x, x1, x2, -⟩ := new_place hs (by omega) hm' hn'
    rw [hsl'] at x1; simp at x1; subst x1
    rw [if_neg (by intro h; rw [h] at x2; omega)]
    exact hs.copied j' m' sl' src c hj' hm' hn' hsl' hF
  · intro j' m' b' i' sl' src hj' hm' hix' hsl' hG
    have hne : sl'.loc ≠ sl.loc := by
      intro hl
      have := common_place_inj hE hk ho hs hm' hm hix' hix hsl' hsl hl
      omega
    rw [if_neg hne]
    exact hs.assigned j' m' b' i' sl' src hj' hm' hix' hsl' hG

omit hE hk ho in
/-- a common mixin is done -/
theorem advance_ok {m : Mix} {b i : Nat} (hi : s.updated < s.alloced) (hm : (E.mixins t)[s.updated]? = some m) (hix : mixinIndex E ob m = some (b, i))
    (hassign : ∀ src sl, g.G s.updated = .assign src → h0.slot b i = some sl → ∃ x v, sourceAt h0 src s.updated = some (x, m, v) ∧ s.h.live sl.loc = some (m, v)) :
    SessOk D E h0 o ob t g (s.advanced E) := by
  have hup := hs.updated
  have hal := hs.alloced
  constructor <;> simp only [Sess.advanced]
  · exact hs.so
  · exact hs.sal
  · exact hs.oldTy
  · exact hs.oldData
  · exact hs.ty
  · exact hs.movedOut
  · exact hs.data
  · exact hs.objs
  · exact hs.next
  · exact hs.blkOld
  · exact hs.blkA
  · exact hs.slotOld
  · exact hs.ownerOld
  · exact hs.liveOld
  · exact hs.count
  · exact hs.alloced
  · omega
  · simp only [hs.ty, beq_iff_eq]; omega
  · exact hs.slots
  · exact hs.blkNew
  · intro j m' sl' hj hm' hn' hsl'
    by_cases hju : j = s.updated
    · subst hju; rw [hm] at hm'; simp at hm'; subst hm'; rw [hix] at hn'; simp at hn'
    · exact hs.liveNew j m' sl' (by omega) hm' hn' hsl'
  · intro l y hl hy
    obtain ⟨i, m', sl', a1, a2⟩ := hs.liveOnly l y hl hy
    exact ⟨i, m', sl', by omega, a2⟩
  · exact hs.fresh
  · rw [newInits_same ob t g.F hm (by rw [hix]; simp)]; exact hs.inits
  · exact hs.destroys
  · intro j m' sl' src c hj hm' hn' hsl' hF
    by_cases hju : j = s.updated
    · subst hju; rw [hm] at hm'; simp at hm'; subst hm'; rw [hix] at hn'; simp at hn'
    · exact hs.copied j m' sl' src c (by omega) hm' hn' hsl' hF
  · intro j m' b' i' sl' src hj hm' hix' hsl' hG
    by_cases hju : j = s.updated
    · subst hju
      rw [hm] at hm'; simp at hm'; subst hm'
      rw [hix] at hix'; simp at hix'; obtain ⟨rfl, rfl⟩ := hix'
      exact hassign src sl' hG hsl'
    · exact hs.assigned j m' b' i' sl' src (by omega) hm' hix' hsl' hG

/-- the mixins of a source of copies are as at the start -/
theorem source_ok {src : Nat} {sb : Obj} (hsrc : h0.obj? src = some sb) (hty : sb.ty = some t) (hd : sb.data ≠ none) (hne : src ≠ o) {j : Nat} {m : Mix}
    (hm : (E.mixins t)[j]? = some m) : ∃ x v, sourceAt s.h src j = some (x, m, v) ∧ sourceAt h0 src j = some (x, m, v) := by
  cases hb : sb.data with
  | none => exact absurd hb hd
  | some b =>
    have hob := hk.objs src sb hsrc
    unfold ObjOk at hob
    rw [hb] at hob
    obtain ⟨t', h1, h2, h3, h4⟩ := hob
    rw [hty] at h1; simp at h1; subst h1
    obtain ⟨sl, v, h5, h6, h7, h8⟩ := h4 j m hm
    have hslot : SlotOf E h0 src j m sl := ⟨sb, t, b, hsrc, hty, hb, hm, h5⟩
    have hlt := slot_lt hk hslot
    have hblt := data_lt hk hsrc hb
    have hlive : s.h.live sl.loc = h0.live sl.loc := by
      rcases hs.liveOld sl.loc hlt with h9 | ⟨j', m', b', i', sl', v', k1, k2, k3, k4, k5, k6⟩
      · exact h9
      · exfalso
        obtain ⟨x, x1, x2, -⟩ := common_slot hE hk ho (mem_of_at k2) k3
        rw [k4] at x2; simp at x2; subst x2
        obtain ⟨h, -⟩ := x1.same hE hk hslot k5
        exact hne h.symm
    have hobj : s.h.obj? src = some sb := by unfold Heap.obj? at hsrc ⊢; rw [hs.objs]; exact hsrc
    refine ⟨sl.loc, v, ?_, ?_⟩
    · unfold sourceAt; rw [hobj]; simp only [Option.bind, hb]
      rw [slot?_data hk hsrc hb (hs.blkOld b hblt), hs.slotOld b j hblt, h5]; simp [hlive, h7]
    · unfold sourceAt; rw [hsrc]; simp only [Option.bind, hb]
      rw [slot?_data hk hsrc hb rfl, h5]; simp [h7]

end

/-- A function for new mixins of the mutation has what it needs: if it copies, the source is another object of the target type, and
an unchecked copy function is there. -/
def NewFnOk (D : Decls) (E : TyEnv) (h0 : Heap) (o : Nat) (ob : Obj) (t : TypeId) (f : NewFn) : Prop :=
  match f with
  | .copy src c => src ≠ o ∧ (∃ sb, h0.obj? src = some sb ∧ sb.ty = some t ∧ sb.data ≠ none) ∧
      (c = false → ∀ m ∈ E.mixins t, mixinIndex E ob m = none → (D.mix m).hasCopyInit = true)
  | _ => True

def UpdFnOk (D : Decls) (E : TyEnv) (h0 : Heap) (o : Nat) (ob : Obj) (t : TypeId) (u : UpdFn) : Prop :=
  match u with
  | .assign src => src ≠ o ∧ (∃ sb, h0.obj? src = some sb ∧ sb.ty = some t ∧ sb.data ≠ none) ∧
      (∀ m ∈ E.mixins t, mixinIndex E ob m ≠ none → (D.mix m).hasCopyAsgn = true)
  | _ => True

/-- The plan may be changed for what is still to come. -/
theorem SessOk.replan {h0 : Heap} {o : Nat} {ob : Obj} {t : TypeId} {g g' : Ghost} {s : Sess} (hs : SessOk D E h0 o ob t g s)
    (hF : ∀ i, i < s.updated → g.F i = g'.F i) (hG : ∀ i, i < s.updated → g.G i = g'.G i) (hT : ∀ i, g.T i = true → g'.T i = true) :
    SessOk D E h0 o ob t g' s := by
  obtain ⟨h1, h2, h3, h4, h5, h6, h7, h8, h9, h10, h11, h12, h13, h14, h15, h16, h17, h18, h19, h20, h21, h22, h23, h24, h25, h26, h27⟩ := hs
  refine ⟨h1, h2, h3, h4, h5, h6, h7, h8, h9, h10, h11, h12, h13, ?_, h15, h16, h17, h18, h19, h20, h21, h22, h23, ?_, h25, ?_, ?_⟩
  · intro l hl
    rcases h14 l hl with k1 | ⟨j', m', b', i', sl', v', k1, k2⟩
    · exact .inl k1
    · exact .inr ⟨j', m', b', i', sl', v', hT _ k1, k2⟩
  · rw [h24, newInits_congr ob t hF]
  · intro j m sl src c a1 a2 a3 a4 a5
    exact h26 j m sl src c a1 a2 a3 a4 (by rw [hF j a1]; exact a5)
  · intro j m b i sl src a1 a2 a3 a4 a5
    exact h27 j m b i sl src a1 a2 a3 a4 (by rw [hG j a1]; exact a5)

theorem construct_heap {h : Heap} {l : Loc} {m : Mix} {v : Nat} {how : How} (hb : ∃ b, h.blk l.1 = some b) (hl : h.live l = none) :
    h.ticked.construct l m v how = some { h with live := (h.setLive l (some (m, v))).live, tick := h.tick + 1, log := h.log ++ [.init m l how] } := by
  obtain ⟨b, hb⟩ := hb
  unfold Heap.construct
  rw [if_pos ⟨by simp [hb], hl⟩]

/-- One update goes on, or throws and keeps what was there. -/
theorem updateNext_ok (hE : EnvOk D E) {h0 : Heap} (hk : HeapOk D E h0) {o : Nat} {ob : Obj} (ho : h0.obj? o = some ob) {t : TypeId} {g : Ghost} {s : Sess}
    (hs : SessOk D E h0 o ob t g s) (hal : s.alloced = (E.mixins t).length) (hne : E.mixins t ≠ []) {f : NewFn} {u : UpdFn}
    (hF : s.complete = false → g.F s.updated = f) (hG : s.complete = false → g.G s.updated = u) (hT : u ≠ .noop → g.T s.updated = true)
    (hf : NewFnOk D E h0 o ob t f) (hu : UpdFnOk D E h0 o ob t u) :
    StepOk (updateNext D E orc f u s)
      (fun s' => SessOk D E h0 o ob t g s' ∧ s'.alloced = s.alloced ∧ s'.updated = s.updated + (if s.complete then 0 else 1))
      (fun s' _ => SessOk D E h0 o ob t g s' ∧ s'.alloced = s.alloced ∧ s'.updated = s.updated ∧ s.complete = false) := by
  have hnd := hE.nodup t
  unfold updateNext
  cases hc : s.complete with
  | true => exact ⟨hs, rfl, by simp⟩
  | false =>
    simp only [Bool.false_eq_true, if_false]
    have hF := hF hc
    have hG := hG hc
    have hlt : s.updated < (E.mixins t).length := by
      have h1 := hs.updated
      have h2 : ¬ (0 < s.updated ∧ s.updated = (E.mixins t).length) := fun h => by
        have := hs.complete.2 h; rw [hc] at this; simp at this
      have h3 : (E.mixins t).length ≠ 0 := by simpa using hne
      omega
    obtain ⟨m, hm⟩ := mixin_at hlt
    have hi : s.updated < s.alloced := by omega
    rw [hs.ty, hm]; simp only
    rw [hs.oldIndex]
    cases hix : mixinIndex E ob m with
    | some p =>
      obtain ⟨b, i⟩ := p
      simp only
      obtain ⟨sl, h1, h2, h3⟩ := common_slot hE hk ho (mem_of_at hm) hix
      have hb := data_lt hk ho h3
      rw [slot?_data hk ho h3 (hs.blkOld b hb), hs.slotOld b i hb, h2]; simp only
      obtain ⟨⟨w, hlive⟩, hlt'⟩ := common_live hE hk ho hs hm hix h2
      cases u with
      | noop =>
        refine ⟨advance_ok hs hi hm hix (fun src sl' h => ?_), rfl, rfl⟩
        rw [hG] at h; simp at h
      | custom k =>
        have ht := fun v tk ev e1 e2 => touch_ok hE hk ho hs (Nat.le_refl _) hm hix h2 v tk ev e1 e2 (hT (by simp))
        simp only [updateCommon, hlive, ne_eq, not_true_eq_false, if_false]
        split
        · exact ⟨ht (orc.val s.h.tick) (s.h.tick + 1) (.update m sl.loc k) rfl rfl, rfl, rfl, trivial⟩
        · refine ⟨advance_ok (ht (orc.val s.h.tick) (s.h.tick + 1) (.update m sl.loc k) rfl rfl) hi hm hix (fun src sl' h => ?_), rfl, rfl⟩
          rw [hG] at h; simp at h
      | assign src =>
        have ht := fun v tk ev e1 e2 => touch_ok hE hk ho hs (Nat.le_refl _) hm hix h2 v tk ev e1 e2 (hT (by simp))
        obtain ⟨u1, ⟨sb, u2, u3, u4⟩, u5⟩ := hu
        obtain ⟨x, v, s1, s2⟩ := source_ok hE hk ho hs u2 u3 u4 u1 hm
        have hca : (D.mix m).hasCopyAsgn = true := u5 m (mem_of_at hm) (by rw [hix]; simp)
        simp only [updateCommon, hlive, s1, ne_eq, not_true_eq_false, hca, Bool.not_true, Bool.false_eq_true, or_self, if_false]
        split
        · exact ⟨ht (orc.val s.h.tick) (s.h.tick + 1) (.copyAsgn m sl.loc x) rfl rfl, rfl, rfl, trivial⟩
        · refine ⟨advance_ok (ht v (s.h.tick + 1) (.copyAsgn m sl.loc x) rfl rfl) hi hm hix (fun src' sl' h hsl' => ?_), rfl, rfl⟩
          rw [h2] at hsl'; simp at hsl'; subst hsl'
          rw [hG] at h; simp at h; subst h
          exact ⟨x, v, s2, by simp [Heap.setLive]⟩
    | none =>
      simp only [hs.data]
      obtain ⟨sl, p1, p2, p3, p4, p5, p6⟩ := new_place hs hi hm hix
      have praw := new_place_raw hs hnd hi (Nat.le_refl _) hm hix p1
      rw [slot?_of hs.blkA, p1]; simp only
      have hco := fun v how h1 h2 => construct_ok hs hnd hi hm hix p1 v (s.h.tick + 1) how h1 h2
      cases f with
      | dflt =>
        simp only [constructNew]
        by_cases c1 : (!(D.mix m).hasInit) = true
        · rw [if_pos c1]; exact ⟨hs, rfl, rfl, trivial⟩
        · rw [if_neg c1]
          by_cases c2 : orc.fail s.h.tick = true
          · rw [if_pos c2]; exact ⟨tick_ok hs, rfl, rfl, trivial⟩
          · rw [if_neg c2, construct_heap p3 praw]
            refine ⟨hco _ _ (by rw [hF]; rfl) (fun src c h => ?_), rfl, rfl⟩
            rw [hF] at h; simp at h
      | custom k =>
        simp only [constructNew]
        by_cases c2 : orc.fail s.h.tick = true
        · rw [if_pos c2]; exact ⟨tick_ok hs, rfl, rfl, trivial⟩
        · rw [if_neg c2, construct_heap p3 praw]
          refine ⟨hco _ _ (by rw [hF]; rfl) (fun src c h => ?_), rfl, rfl⟩
          rw [hF] at h; simp at h
      | copy src c =>
        obtain ⟨u1, ⟨sb, u2, u3, u4⟩, u5⟩ := hf
        obtain ⟨x, v, s1, s2⟩ := source_ok hE hk ho hs u2 u3 u4 u1 hm
        simp only [constructNew, s1, ne_eq, not_true_eq_false, if_false]
        by_cases c1 : (!(D.mix m).hasCopyInit) = true
        · rw [if_pos c1]
          cases c with
          | true => exact ⟨hs, rfl, rfl, trivial⟩
          | false =>
            have := u5 rfl m (mem_of_at hm) hix
            rw [this] at c1; simp at c1
        · rw [if_neg c1]
          by_cases c2 : orc.fail s.h.tick = true
          · rw [if_pos c2]; exact ⟨tick_ok hs, rfl, rfl, trivial⟩
          · rw [if_neg c2, construct_heap p3 praw]
            refine ⟨hco _ _ (by rw [hF]; rfl) (fun src' c' h => ?_), rfl, rfl⟩
            rw [hF] at h; simp at h
            obtain ⟨rfl, rfl⟩ := h
            exact ⟨x, s2⟩

/-- Rounds of updates with the same functions. -/
theorem updateLoop_ok (hE : EnvOk D E) {h0 : Heap} (hk : HeapOk D E h0) {o : Nat} {ob : Obj} (ho : h0.obj? o = some ob) {t : TypeId} {g : Ghost}
    (hne : E.mixins t ≠ []) {f : NewFn} {u : UpdFn} (hf : NewFnOk D E h0 o ob t f) (hu : UpdFnOk D E h0 o ob t u) : ∀ (n : Nat) (s : Sess),
    SessOk D E h0 o ob t g s → s.alloced = (E.mixins t).length →
    (∀ i, s.updated ≤ i → i < s.updated + n → i < (E.mixins t).length → g.F i = f ∧ g.G i = u ∧ (u ≠ .noop → g.T i = true)) →
    (s.updated + n ≤ (E.mixins t).length) →
    StepOk (updateLoop D E orc f u n s)
      (fun s' => SessOk D E h0 o ob t g s' ∧ s'.alloced = s.alloced ∧ s'.updated = s.updated + n)
      (fun s' _ => SessOk D E h0 o ob t g s' ∧ s'.alloced = s.alloced ∧ s.updated ≤ s'.updated ∧ s'.updated < s.updated + n)
  | 0, s, hs, _, _, _ => ⟨hs, rfl, rfl⟩
  | n + 1, s, hs, hal, hg, hn => by
    have hc : s.complete = false := by
      cases hc : s.complete with
      | false => rfl
      | true => have := hs.complete.1 hc; omega
    obtain ⟨g1, g2, g3⟩ := hg s.updated (Nat.le_refl _) (by omega) (by omega)
    unfold updateLoop
    refine (updateNext_ok (orc := orc) hE hk ho hs hal hne (fun _ => g1) (fun _ => g2) g3 hf hu).bind ?_ ?_
    · rintro s' ⟨h1, h2, h3⟩
      rw [hc] at h3; simp at h3
      have := updateLoop_ok hE hk ho hne hf hu n s' h1 (by omega) (fun i a b => hg i (by omega) (by omega)) (by omega)
      revert this
      unfold StepOk
      split
      · rintro ⟨k1, k2, k3⟩; exact ⟨k1, by omega, by omega⟩
      · rintro ⟨k1, k2, k3, k4⟩; exact ⟨k1, by omega, by omega, by omega⟩
      · exact id
    · rintro s' e ⟨h1, h2, h3, -⟩
      exact ⟨h1, h2, by omega, by omega⟩

/-- `update_each_mixin` -/
theorem updateEach_ok (hE : EnvOk D E) {h0 : Heap} (hk : HeapOk D E h0) {o : Nat} {ob : Obj} (ho : h0.obj? o = some ob) {t : TypeId} {g : Ghost}
    (hne : E.mixins t ≠ []) {f : NewFn} {u : UpdFn} (hf : NewFnOk D E h0 o ob t f) (hu : UpdFnOk D E h0 o ob t u) (upto : Option Nat) (s : Sess)
    (hs : SessOk D E h0 o ob t g s) (hal : s.alloced = (E.mixins t).length)
    (hg : ∀ i, s.updated ≤ i → i < upto.getD (E.mixins t).length → i < (E.mixins t).length → g.F i = f ∧ g.G i = u ∧ (u ≠ .noop → g.T i = true)) :
    StepOk (updateEach D E orc f u upto s)
      (fun s' => SessOk D E h0 o ob t g s' ∧ s'.alloced = s.alloced ∧ s'.updated = max s.updated (min (upto.getD (E.mixins t).length) (E.mixins t).length))
      (fun s' _ => SessOk D E h0 o ob t g s' ∧ s'.alloced = s.alloced ∧ s.updated ≤ s'.updated ∧
        s'.updated < min (upto.getD (E.mixins t).length) (E.mixins t).length) := by
  unfold updateEach
  rw [hs.ty]
  have h1 := hs.updated
  have := updateLoop_ok (orc := orc) hE hk ho hne hf hu (min (upto.getD (E.mixins t).length) (E.mixins t).length - s.updated) s hs hal
    (fun i a b c => hg i a (by omega) c) (by omega)
  revert this
  unfold StepOk
  split
  · rintro ⟨k1, k2, k3⟩; exact ⟨k1, by omega, by omega⟩
  · rintro ⟨k1, k2, k3, k4⟩; exact ⟨k1, by omega, by omega, by omega⟩
  · exact id

end Dnmx
