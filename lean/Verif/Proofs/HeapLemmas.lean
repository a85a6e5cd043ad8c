import Verif.Spec.Heap

/-! # Lemmas about heaps and the loops of mutations -/

set_option linter.unusedSimpArgs false

namespace Dnmx
open Spec

variable {D : Decls} {E : TyEnv}

theorem nodup_index {α : Type} {l : List α} (hn : l.Nodup) {i j : Nat} {x : α} (hi : l[i]? = some x) (hj : l[j]? = some x) : i = j := by
  obtain ⟨hi', hie⟩ := List.getElem?_eq_some_iff.1 hi
  obtain ⟨hj', hje⟩ := List.getElem?_eq_some_iff.1 hj
  rcases Nat.lt_trichotomy i j with hlt | heq | hlt
  · have := List.pairwise_iff_getElem.1 hn i j hi' hj' hlt
    rw [hie, hje] at this; exact absurd rfl this
  · exact heq
  · have := List.pairwise_iff_getElem.1 hn j i hj' hi' hlt
    rw [hie, hje] at this; exact absurd rfl this

theorem provenance_inj {m m' : Mix} {al al' : Nat} (h : provenance D m al = provenance D m' al') : m = m' := by
  simp only [provenance, Blk.ext.injEq] at h; exact h.1

/-- position with mixin -/
theorem mixin_at {l : List Mix} {i : Nat} (h : i < l.length) : ∃ m, l[i]? = some m := ⟨l[i], List.getElem?_eq_getElem h⟩

theorem lt_of_at {l : List Mix} {i : Nat} {m : Mix} (h : l[i]? = some m) : i < l.length := (List.getElem?_eq_some_iff.1 h).1

/-! ## Objects in lists -/

theorem obj?_setObj_same {h : Heap} {o : Nat} {ob : Obj} (ho : h.obj? o = some ob) (x : Option Obj) : (h.setObj o x).obj? o = x := by
  unfold Heap.obj? at ho
  have : o < h.objs.length := by
    apply Classical.byContradiction; intro hlt
    rw [List.getElem?_eq_none (by omega)] at ho; simp at ho
  simp [Heap.obj?, Heap.setObj, List.getElem?_set_self this]

theorem obj?_setObj_ne {h : Heap} {o o' : Nat} (x : Option Obj) (hne : o' ≠ o) : (h.setObj o x).obj? o' = h.obj? o' := by
  simp [Heap.obj?, Heap.setObj, List.getElem?_set_ne (Ne.symm hne)]

theorem obj?_lt {h : Heap} {o : Nat} {ob : Obj} (ho : h.obj? o = some ob) : o < h.objs.length := by
  unfold Heap.obj? at ho
  apply Classical.byContradiction; intro hlt
  rw [List.getElem?_eq_none (by omega)] at ho; simp at ho

/-- Does the object count for type `t`? -/
def countsFor (t : TypeId) (x : Option Obj) : Bool :=
  match x with
  | some ob => ob.ty == some t && ob.data.isSome
  | none => false

theorem usersOf_def (h : Heap) (t : TypeId) : usersOf h t = h.objs.countP (countsFor t) := rfl

theorem countP_set {α : Type} (p : α → Bool) : ∀ (l : List α) (i : Nat) (x y : α), l[i]? = some x →
    ((l.set i y).countP p : Int) = l.countP p - (if p x then 1 else 0) + (if p y then 1 else 0)
  | [], i, x, y, h => by simp at h
  | z :: l, 0, x, y, h => by
    simp at h; subst h
    simp only [List.set_cons_zero, List.countP_cons]
    split <;> split <;> simp
  | z :: l, i + 1, x, y, h => by
    have := countP_set p l i x y (by simpa using h)
    simp only [List.set_cons_succ, List.countP_cons]
    rw [Int.natCast_add, Int.natCast_add, this]; omega

theorem usersOf_setObj {h : Heap} {o : Nat} {ob : Obj} (ho : h.obj? o = some ob) (x : Option Obj) (t : TypeId) :
    (usersOf (h.setObj o x) t : Int) = usersOf h t - (if countsFor t (some ob) then 1 else 0) + (if countsFor t x then 1 else 0) := by
  rw [usersOf_def, usersOf_def]
  have hlt := obj?_lt ho
  have : h.objs[o]? = some (some ob) := by
    unfold Heap.obj? at ho
    rw [List.getElem?_eq_getElem hlt] at ho ⊢
    simpa using ho
  exact countP_set (countsFor t) h.objs o (some ob) x this

/-! ## Consequences of health -/

theorem _root_.Spec.SlotOf.facts {h : Heap} (hk : HeapOk D E h) {o i : Nat} {m : Mix} {sl : Slot} (hs : SlotOf E h o i m sl) :
    ∃ ob t a v, h.obj? o = some ob ∧ ob.ty = some t ∧ ob.data = some a ∧ (E.mixins t)[i]? = some m ∧ h.slot a i = some sl ∧
      PlaceOk D E h.blk ob.alloc t a i m sl ∧ h.live sl.loc = some (m, v) ∧ h.owner sl.loc = some o ∧
      h.blk a = some (.unified t ob.alloc) := by
  obtain ⟨ob, t, a, h1, h2, h3, h4, h5⟩ := hs
  have hob := hk.objs o ob h1
  unfold ObjOk at hob
  rw [h3] at hob
  obtain ⟨t', h6, -, h7, h8⟩ := hob
  rw [h2] at h6; simp at h6; subst h6
  obtain ⟨sl', v, h9, h10, h11, h12⟩ := h8 i m h4
  rw [h5] at h9; simp at h9; subst h9
  exact ⟨ob, t, a, v, h1, h2, h3, h4, h5, h10, h11, h12, h7⟩

/-- different mixins have different places -/
theorem _root_.Spec.SlotOf.same (hE : EnvOk D E) {h : Heap} (hk : HeapOk D E h) {o o' i i' : Nat} {m m' : Mix} {sl sl' : Slot}
    (hs : SlotOf E h o i m sl) (hs' : SlotOf E h o' i' m' sl') (hl : sl.loc = sl'.loc) : o = o' ∧ i = i' ∧ m = m' := by
  obtain ⟨ob, t, a, v, h1, h2, h3, h4, h5, h6, h7, h8, h9⟩ := hs.facts hk
  obtain ⟨ob', t', a', v', k1, k2, k3, k4, k5, k6, k7, k8, k9⟩ := hs'.facts hk
  rw [hl] at h7 h8
  rw [k7] at h7; rw [k8] at h8
  simp only [Option.some.injEq, Prod.mk.injEq] at h7 h8
  obtain ⟨h7, -⟩ := h7
  subst h8; subst h7
  rw [h1] at k1; simp at k1; subst k1
  rw [h2] at k2; simp at k2; subst k2
  exact ⟨rfl, nodup_index (hE.nodup t) h4 k4, rfl⟩

theorem _root_.Spec.PlaceOk.buf_loc {blk : Nat → Option Blk} {al : Nat} {t : TypeId} {a i : Nat} {m : Mix} {sl : Slot}
    (hp : PlaceOk D E blk al t a i m sl) {e : Nat} (he : sl.buf = some e) :
    sl = ⟨some e, (e, 0)⟩ ∧ blk e = some (provenance D m al) ∧ E.internal t i = false := by
  unfold PlaceOk at hp
  split at hp
  · rw [hp] at he; simp at he
  · rename_i hint
    obtain ⟨e', h1, h2⟩ := hp
    rw [h1] at he; simp at he; subst he
    exact ⟨h1, h2, by simpa using hint⟩

theorem _root_.Spec.PlaceOk.nobuf_loc {blk : Nat → Option Blk} {al : Nat} {t : TypeId} {a i : Nat} {m : Mix} {sl : Slot}
    (hp : PlaceOk D E blk al t a i m sl) (he : sl.buf = none) : sl = ⟨none, (a, i)⟩ ∧ E.internal t i = true := by
  unfold PlaceOk at hp
  split at hp
  · rename_i hint; exact ⟨hp, hint⟩
  · obtain ⟨e', h1, h2⟩ := hp
    rw [h1] at he; simp at he

theorem _root_.Spec.PlaceOk.blk_loc {blk : Nat → Option Blk} {al : Nat} {t : TypeId} {a i : Nat} {m : Mix} {sl : Slot}
    (hp : PlaceOk D E blk al t a i m sl) : (E.internal t i = true ∧ sl.loc.1 = a ∧ sl.buf = none) ∨
      (E.internal t i = false ∧ sl.buf = some sl.loc.1 ∧ blk sl.loc.1 = some (provenance D m al)) := by
  unfold PlaceOk at hp
  split at hp
  · rename_i hint; left; rw [hp]; exact ⟨hint, rfl, rfl⟩
  · rename_i hint
    obtain ⟨e', h1, h2⟩ := hp
    right; rw [h1]; exact ⟨by simpa using hint, rfl, h2⟩

/-- places are in allocated blocks -/
theorem _root_.Spec.SlotOf.allocated {h : Heap} (hk : HeapOk D E h) {o i : Nat} {m : Mix} {sl : Slot} (hs : SlotOf E h o i m sl) :
    ∃ b, h.blk sl.loc.1 = some b := by
  obtain ⟨ob, t, a, v, h1, h2, h3, h4, h5, h6, h7, h8, h9⟩ := hs.facts hk
  rcases h6.blk_loc with ⟨-, k2, -⟩ | ⟨-, -, k3⟩
  · rw [k2]; exact ⟨_, h9⟩
  · exact ⟨_, k3⟩

theorem live_lt {h : Heap} (hk : HeapOk D E h) {l : Loc} {x : Mix × Nat} (hl : h.live l = some x) : l.1 < h.next := by
  obtain ⟨o, i, m, sl, hs, rfl⟩ := hk.lives l x hl
  obtain ⟨b, hb⟩ := hs.allocated hk
  exact hk.fresh _ b hb

/-- different objects have different buffers -/
theorem data_inj {h : Heap} (hk : HeapOk D E h) {o o' a : Nat} {ob ob' : Obj} (h1 : h.obj? o = some ob)
    (h2 : h.obj? o' = some ob') (h3 : ob.data = some a) (h4 : ob'.data = some a) : o = o' := by
  have k1 := hk.objs o ob h1
  have k2 := hk.objs o' ob' h2
  unfold ObjOk at k1 k2
  rw [h3] at k1; rw [h4] at k2
  obtain ⟨t, a1, a2, a3, a4⟩ := k1
  obtain ⟨t', b1, b2, b3, b4⟩ := k2
  rw [a3] at b3; simp at b3
  obtain ⟨rfl, -⟩ := b3
  obtain ⟨m, hm⟩ := mixin_at (l := E.mixins t) (i := 0) (by cases hx : E.mixins t with | nil => exact absurd hx a2 | cons _ _ => simp)
  obtain ⟨sl, v, c1, -, -, c4⟩ := a4 0 m hm
  obtain ⟨sl', v', d1, -, -, d4⟩ := b4 0 m hm
  rw [c1] at d1; simp at d1; subst d1
  rw [c4] at d4; simpa using d4

/-! ## Loops -/

theorem slot?_of {h : Heap} {a : Nat} {b : Blk} (hb : h.blk a = some b) (i : Nat) : h.slot? a i = h.slot a i := by
  unfold Heap.slot?; rw [hb]; rfl

theorem destroy_spec {h : Heap} {l : Loc} {m : Mix} {v : Nat} (hl : h.live l = some (m, v)) (hb : (h.blk l.1).isSome = true) :
    ∃ g, h.destroy D l m = some { h with live := (h.setLive l none).live, log := h.log ++ g } ∧
      g = if (D.mix m).hasDestroy then [.destroy m l] else [] := by
  unfold Heap.destroy
  rw [hl]
  simp only [hb, and_self, if_true]
  split
  · exact ⟨_, rfl, rfl⟩
  · exact ⟨[], by simp [Heap.setLive], rfl⟩

/-- The destructor calls of `destroyLoop`. -/
def loopDestroys (D : Decls) (E : TyEnv) (s : Sess) (slot : Nat → Option Slot) (i : Nat) : Option (Mix × Loc) :=
  ((E.mixins s.ty)[i]?).bind (fun m => if (s.oldIndex E m).isNone && (D.mix m).hasDestroy then (slot i).map (fun sl => (m, sl.loc)) else none)

theorem destroyLoop_spec (hE : EnvOk D E) (s : Sess) (a : Nat) (hd : s.data = some a) {bk : Blk} : ∀ (n : Nat) (h : Heap), n ≤ (E.mixins s.ty).length → h.blk a = some bk →
    (∀ (i : Nat) (m : Mix), i < n → (E.mixins s.ty)[i]? = some m → s.oldIndex E m = none →
      ∃ sl v, h.slot a i = some sl ∧ h.live sl.loc = some (m, v) ∧ (h.blk sl.loc.1).isSome = true) →
    ∃ L G, destroyLoop D E s n h = some { h with live := L, log := h.log ++ G } ∧
      (initsOf G = [] ∧ destroysOf G = ((List.range n).filterMap (loopDestroys D E s (h.slot a))).reverse) ∧
      (∀ (i : Nat) (m : Mix) (sl : Slot), i < n → (E.mixins s.ty)[i]? = some m → s.oldIndex E m = none → h.slot a i = some sl → L sl.loc = none) ∧
      (∀ l, (∀ (i : Nat) (m : Mix) (sl : Slot), i < n → (E.mixins s.ty)[i]? = some m → s.oldIndex E m = none → h.slot a i = some sl →
        sl.loc ≠ l) → L l = h.live l)
  | 0, h, _, _, _ => ⟨h.live, [], by simp [destroyLoop], ⟨rfl, rfl⟩, fun i m sl hi => by omega, fun _ _ => rfl⟩
  | n + 1, h, hn, hbk, hs => by
    obtain ⟨m, hm⟩ := mixin_at (l := E.mixins s.ty) (i := n) (by omega)
    unfold destroyLoop
    simp only [hd, hm]
    cases ho : s.oldIndex E m with
    | some x =>
      simp only
      obtain ⟨L, G, h1, hG, h2, h3⟩ := destroyLoop_spec hE s a hd n h (by omega) hbk (fun i m hi => hs i m (by omega))
      refine ⟨L, G, h1, ⟨hG.1, ?_⟩, ?_, ?_⟩
      · rw [List.range_succ, List.filterMap_append, hG.2]
        simp [loopDestroys, hm, ho]
      · intro i m' sl hi hm' ho' hsl
        by_cases hin : i = n
        · subst hin; rw [hm] at hm'; simp at hm'; subst hm'; rw [ho] at ho'; simp at ho'
        · exact h2 i m' sl (by omega) hm' ho' hsl
      · intro l hl
        exact h3 l (fun i m' sl hi => hl i m' sl (by omega))
    | none =>
      simp only
      obtain ⟨sl, v, hsl, hlv, hlb⟩ := hs n m (by omega) hm ho
      obtain ⟨g, hdes, hg⟩ := destroy_spec (D := D) hlv hlb
      rw [slot?_of hbk, hsl]; simp only
      rw [hdes]; simp only [Option.bind]
      obtain ⟨L, G, h1, hG, h2, h3⟩ := destroyLoop_spec hE s a hd n { h with live := (h.setLive sl.loc none).live, log := h.log ++ g } (by omega) hbk (by
        intro i m' hi hm' ho'
        obtain ⟨sl', v', hsl', hlv', hlb'⟩ := hs i m' (by omega) hm' ho'
        refine ⟨sl', v', hsl', ?_, hlb'⟩
        have : sl'.loc ≠ sl.loc := by
          intro heq
          rw [heq, hlv] at hlv'; simp at hlv'
          have := nodup_index (hE.nodup s.ty) hm' (hlv'.1 ▸ hm)
          omega
        simp [Heap.setLive, this, hlv'])
      refine ⟨L, g ++ G, by rw [h1]; simp [List.append_assoc], ?_, ?_, ?_⟩
      · constructor
        · rw [initsOf, List.filterMap_append, show G.filterMap initOf = [] from hG.1, hg]
          split <;> simp [initOf]
        · rw [destroysOf, List.filterMap_append, show G.filterMap destroyOf = _ from hG.2, hg, List.range_succ, List.filterMap_append]
          cases hd' : (D.mix m).hasDestroy <;> simp [loopDestroys, hm, ho, hd', hsl, destroyOf]
      · intro i m' sl' hi hm' ho' hsl'
        by_cases hin : i = n
        · subst hin
          rw [hsl] at hsl'; simp at hsl'; subst hsl'
          have : ∀ l, (∀ (i : Nat) (m : Mix) (sl : Slot), i < i → (E.mixins s.ty)[i]? = some m → s.oldIndex E m = none → h.slot a i = some sl → sl.loc ≠ l) → True := fun _ _ => trivial
          by_cases hex : ∃ (j : Nat) (m'' : Mix) (sl'' : Slot), j < i ∧ (E.mixins s.ty)[j]? = some m'' ∧ s.oldIndex E m'' = none ∧ h.slot a j = some sl'' ∧ sl''.loc = sl.loc
          · obtain ⟨j, m'', sl'', j1, j2, j3, j4, j5⟩ := hex
            rw [← j5]; exact h2 j m'' sl'' j1 j2 j3 j4
          · rw [h3 sl.loc (fun j m'' sl'' j1 j2 j3 j4 j5 => hex ⟨j, m'', sl'', j1, j2, j3, j4, j5⟩)]
            simp [Heap.setLive]
        · exact h2 i m' sl' (by omega) hm' ho' hsl'
      · intro l hl
        rw [h3 l (fun i m' sl' hi => hl i m' sl' (by omega))]
        have := hl n m sl (by omega) hm ho hsl
        simp [Heap.setLive, this.symm]

theorem deallocLoop_spec (hE : EnvOk D E) (s : Sess) (a : Nat) (hd : s.data = some a) {tb : TypeId} {alb : Nat} : ∀ (n : Nat) (h : Heap), n ≤ (E.mixins s.ty).length →
    h.blk a = some (.unified tb alb) →
    (∀ (i : Nat) (m : Mix), i < n → (E.mixins s.ty)[i]? = some m →
      ∃ sl, h.slot a i = some sl ∧ (s.oldIndex E m = none → ∀ e, sl.buf = some e → h.blk e = some (provenance D m s.al))) →
    ∃ B G, deallocLoop D E s n h = some { h with blk := B, log := h.log ++ G } ∧ (initsOf G = [] ∧ destroysOf G = []) ∧
      (∀ (i : Nat) (m : Mix) (sl : Slot) (e : Nat), i < n → (E.mixins s.ty)[i]? = some m → s.oldIndex E m = none → h.slot a i = some sl → sl.buf = some e → B e = none) ∧
      (∀ e, (∀ (i : Nat) (m : Mix) (sl : Slot), i < n → (E.mixins s.ty)[i]? = some m → s.oldIndex E m = none → h.slot a i = some sl →
        sl.buf ≠ some e) → B e = h.blk e)
  | 0, h, _, _, _ => ⟨h.blk, [], by simp [deallocLoop], ⟨rfl, rfl⟩, fun i m sl e hi => by omega, fun _ _ => rfl⟩
  | n + 1, h, hn, hbk, hs => by
    obtain ⟨m, hm⟩ := mixin_at (l := E.mixins s.ty) (i := n) (by omega)
    obtain ⟨sl, hsl, hblk⟩ := hs n m (by omega) hm
    have skip : (s.oldIndex E m ≠ none ∨ sl.buf = none) → 
        ∃ B G, deallocLoop D E s n h = some { h with blk := B, log := h.log ++ G } ∧ (initsOf G = [] ∧ destroysOf G = []) ∧
          (∀ (i : Nat) (m : Mix) (sl : Slot) (e : Nat), i < n + 1 → (E.mixins s.ty)[i]? = some m → s.oldIndex E m = none → h.slot a i = some sl → sl.buf = some e → B e = none) ∧
          (∀ e, (∀ (i : Nat) (m : Mix) (sl : Slot), i < n + 1 → (E.mixins s.ty)[i]? = some m → s.oldIndex E m = none → h.slot a i = some sl →
            sl.buf ≠ some e) → B e = h.blk e) := by
      intro hskip
      obtain ⟨B, G, h1, hG, h2, h3⟩ := deallocLoop_spec hE s a hd n h (by omega) hbk (fun i m hi => hs i m (by omega))
      refine ⟨B, G, h1, hG, ?_, ?_⟩
      · intro i m' sl' e hi hm' ho' hsl' hb'
        by_cases hin : i = n
        · subst hin
          rw [hm] at hm'; simp at hm'; subst hm'
          rw [hsl] at hsl'; simp at hsl'; subst hsl'
          rcases hskip with hsk | hsk
          · exact absurd ho' hsk
          · rw [hsk] at hb'; simp at hb'
        · exact h2 i m' sl' e (by omega) hm' ho' hsl' hb'
      · intro e he
        exact h3 e (fun i m' sl' hi => he i m' sl' (by omega))
    unfold deallocLoop
    simp only [hd, hm, slot?_of hbk, hsl]
    cases hb : sl.buf with
    | none => exact skip (.inr hb)
    | some e =>
      simp only
      cases ho : s.oldIndex E m with
      | some x => exact skip (.inl (by rw [ho]; simp))
      | none =>
        simp only
        have hbe := hblk ho e hb
        have hde : h.deallocate e (provenance D m s.al) = some { h with blk := fun x => if x = e then none else h.blk x, log := h.log ++ [.dealloc e] } := by
          simp [Heap.deallocate, hbe]
        rw [hde]; simp only [Option.bind]
        obtain ⟨B, G, h1, hG, h2, h3⟩ := deallocLoop_spec hE s a hd n { h with blk := fun x => if x = e then none else h.blk x, log := h.log ++ [.dealloc e] } (by omega) (by
          have : a ≠ e := by
            rintro rfl
            rw [hbk] at hbe; simp [provenance] at hbe
          show (if a = e then none else h.blk a) = some (.unified tb alb)
          rw [if_neg this]; exact hbk) (by
          intro i m' hi hm'
          obtain ⟨sl', hsl', hblk'⟩ := hs i m' (by omega) hm'
          refine ⟨sl', hsl', fun ho' e' he' => ?_⟩
          have hbe' := hblk' ho' e' he'
          have : e' ≠ e := by
            intro heq
            rw [heq, hbe] at hbe'
            simp only [Option.some.injEq] at hbe'
            have hmm := provenance_inj hbe'
            subst hmm
            have := nodup_index (hE.nodup s.ty) hm' hm
            omega
          simp [this, hbe'])
        refine ⟨B, .dealloc e :: G, by rw [h1]; simp [List.append_assoc], ⟨hG.1, hG.2⟩, ?_, ?_⟩
        · intro i m' sl' e' hi hm' ho' hsl' hb'
          by_cases hin : i = n
          · subst hin
            rw [hsl] at hsl'; simp at hsl'; subst hsl'
            rw [hb] at hb'; simp at hb'; subst hb'
            by_cases hex : ∃ (j : Nat) (m'' : Mix) (sl'' : Slot), j < i ∧ (E.mixins s.ty)[j]? = some m'' ∧ s.oldIndex E m'' = none ∧ h.slot a j = some sl'' ∧ sl''.buf = some e
            · obtain ⟨j, m'', sl'', j1, j2, j3, j4, j5⟩ := hex
              exact h2 j m'' sl'' e j1 j2 j3 j4 j5
            · rw [h3 e (fun j m'' sl'' j1 j2 j3 j4 j5 => hex ⟨j, m'', sl'', j1, j2, j3, j4, j5⟩)]
              simp
          · exact h2 i m' sl' e' (by omega) hm' ho' hsl' hb'
        · intro e' he'
          rw [h3 e' (fun i m' sl' hi => he' i m' sl' (by omega))]
          have : e' ≠ e := fun heq => he' n m sl (by omega) hm ho hsl (heq ▸ hb)
          simp [this]

end Dnmx
