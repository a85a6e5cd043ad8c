import Verif.Proofs.TypeApiLemmas
import Verif.Proofs.HistoryLemmas
import Verif.Proofs.ClassLemmas
import Verif.Proofs.RuleMapLemmas
import Verif.Proofs.QueryLemmas
import Verif.Spec.Answers

/-! # Lemmas on states in which the same things are registered -/

set_option linter.unusedSimpArgs false
set_option linter.unusedVariables false

namespace Dnmx
open Spec

/-- Members of sparse vectors. -/
def Has (l : List (Option Nat)) (x : Nat) : Prop := ∃ i : Nat, l[i]? = some (some x)

theorem Inserted.has {nameOf : Nat → List UInt8} {enforce : Bool} {info id : Nat} {old new : List (Option Nat)} (hi : Inserted nameOf enforce info old id new) (x : Nat) :
    Has new x ↔ x = info ∨ Has old x := by
  constructor
  · rintro ⟨i, h⟩
    by_cases hx : i = id
    · subst hx; rw [hi.slot] at h; simp at h; exact .inl h.symm
    · rw [hi.other i hx] at h; exact .inr ⟨i, h⟩
  · rintro (rfl | ⟨i, h⟩)
    · exact ⟨id, hi.slot⟩
    · by_cases hx : i = id
      · subst hx; exact absurd h (hi.wasFree x)
      · exact ⟨i, by rw [hi.other i hx]; exact h⟩

/-- The outcome of a registration depends only on whether the id is valid and on the members. -/
theorem basicRegister_alike {nameOf : Nat → List UInt8} {enforce : Bool} {oid oid' : Option Nat} {info : Nat} {old old' : List (Option Nat)}
    (hid : oid' = none ↔ oid = none) (hm : ∀ x, Has old' x ↔ Has old x) :
    (∃ e, basicRegister nameOf enforce oid info old = .error e ∧ basicRegister nameOf enforce oid' info old' = .error e) ∨
    ∃ id new id' new', basicRegister nameOf enforce oid info old = .ok (id, new) ∧ basicRegister nameOf enforce oid' info old' = .ok (id', new') := by
  cases h1 : basicRegister nameOf enforce oid info old with
  | error e =>
    cases h2 : basicRegister nameOf enforce oid' info old' with
    | error e' =>
      refine .inl ⟨e, rfl, ?_⟩
      rcases basicRegister_error _ _ _ _ _ _ h1 with ⟨rfl, a⟩ | ⟨rfl, a, b, c⟩ | ⟨rfl, a, b, j, r, c1, c2⟩ <;>
      rcases basicRegister_error _ _ _ _ _ _ h2 with ⟨rfl, a'⟩ | ⟨rfl, a', b', c'⟩ | ⟨rfl, a', b', j', r', c1', c2'⟩
      · rfl
      · exact absurd (hid.1 a') a
      · exact absurd (hid.1 a') a
      · exact absurd (hid.2 a) a'
      · rfl
      · exfalso
        unfold basicRegister at h2
        simp [a', b', c] at h2
      · exact absurd (hid.2 a) a'
      · exfalso
        unfold basicRegister at h1
        simp [a, b, c'] at h1
      · rfl
    | ok p =>
      exfalso
      obtain ⟨a', ins⟩ := basicRegister_ok _ _ _ _ _ p.1 p.2 h2
      rcases basicRegister_error _ _ _ _ _ _ h1 with ⟨rfl, a⟩ | ⟨rfl, a, b, c⟩ | ⟨rfl, a, b, j, r, c1, c2⟩
      · exact a (hid.1 a')
      · exact ins.nonempty b c
      · obtain ⟨k, hk⟩ := (hm r).2 ⟨j, c1⟩
        exact ins.unique b k r hk c2
  | ok p =>
    obtain ⟨a, ins⟩ := basicRegister_ok _ _ _ _ _ p.1 p.2 h1
    cases h2 : basicRegister nameOf enforce oid' info old' with
    | ok p' => exact .inr ⟨p.1, p.2, p'.1, p'.2, rfl, rfl⟩
    | error e' =>
      exfalso
      rcases basicRegister_error _ _ _ _ _ _ h2 with ⟨rfl, a'⟩ | ⟨rfl, a', b', c'⟩ | ⟨rfl, a', b', j', r', c1', c2'⟩
      · exact a' (hid.2 a)
      · exact ins.nonempty b' c'
      · obtain ⟨k, hk⟩ := (hm r').1 ⟨j', c1'⟩
        exact ins.unique b' k r' hk c2'

/-- Two worlds in which the same is registered. -/
structure Alike (W W' : World) : Prop where
  reg : RegInv W
  reg' : RegInv W'
  same : SameRegistered W W'

variable {D : Decls} {W W' : World}

theorem RegInv.featId_none (h : RegInv W) (f : Feat) : W.featId f = none ↔ ∀ d, f ∉ featuresOf W d := by
  constructor
  · intro hn d hd
    obtain ⟨i, hi⟩ := (mem_featuresOf W d f).1 hd
    rw [h.featSlot d i f hi] at hn; simp at hn
  · intro hn
    cases hf : W.featId f with
    | none => rfl
    | some i =>
      obtain ⟨d, hd⟩ := h.featReg f i hf
      exact absurd ((mem_featuresOf W d f).2 ⟨i, hd⟩) (hn d)

theorem RegInv.mixDom_some (h : RegInv W) (m : Mix) (d : DomId) : W.mixDom m = some d ↔ m ∈ mixinsOf W d := by
  rw [h.mem_mixinsOf_iff]
  refine ⟨fun hd => ⟨?_, hd⟩, fun x => x.2⟩
  cases hi : W.mixId m with
  | none => rw [h.mixFree m hi] at hd; simp at hd
  | some i => exact ⟨i, rfl⟩

theorem RegInv.mixId_none (h : RegInv W) (m : Mix) : W.mixId m = none ↔ W.mixDom m = none := by
  refine ⟨h.mixFree m, fun hd => ?_⟩
  cases hi : W.mixId m with
  | none => rfl
  | some i =>
    obtain ⟨d, h1, -⟩ := h.mixReg m i hi
    rw [hd] at h1; simp at h1

theorem Alike.featNone (h : Alike W W') (f : Feat) : W'.featId f = none ↔ W.featId f = none := by
  rw [h.reg.featId_none, h.reg'.featId_none]
  exact forall_congr' fun d => not_congr (h.same.feats d f)

theorem Alike.mixDom (h : Alike W W') (m : Mix) : W'.mixDom m = W.mixDom m := by
  cases hd : W.mixDom m with
  | some d => exact (h.reg'.mixDom_some m d).2 ((h.same.mixins d m).2 ((h.reg.mixDom_some m d).1 hd))
  | none =>
    cases hd' : W'.mixDom m with
    | none => rfl
    | some d =>
      have h1 := (h.reg.mixDom_some m d).2 ((h.same.mixins d m).1 ((h.reg'.mixDom_some m d).1 hd'))
      rw [hd] at h1; simp at h1

theorem Alike.mixNone (h : Alike W W') (m : Mix) : W'.mixId m = none ↔ W.mixId m = none := by
  rw [h.reg.mixId_none, h.reg'.mixId_none, h.mixDom]

theorem Alike.hasFeats (h : Alike W W') (d : DomId) (f : Feat) : Has (W'.doms d).feats f ↔ Has (W.doms d).feats f := by
  have := h.same.feats d f
  rw [mem_featuresOf, mem_featuresOf] at this
  exact this

theorem Alike.hasMixins (h : Alike W W') (d : DomId) (m : Mix) : Has (W'.doms d).mixins m ↔ Has (W.doms d).mixins m := by
  have := h.same.mixins d m
  rw [mem_mixinsOf, mem_mixinsOf] at this
  exact this

/-- Both outcomes are the same and leave the same registered. -/
def BothLike {α : Type} (r r' : Except Err α × World) : Prop := r'.1 = r.1 ∧ Alike r.2 r'.2

/-- Only one domain changed, in its features or mixins. -/
theorem _root_.Spec.SameRegistered.change {V V' : World} (h : SameRegistered W W') {d : DomId} (ho : ∀ d', d' ≠ d → V.doms d' = W.doms d') (ho' : ∀ d', d' ≠ d → V'.doms d' = W'.doms d')
    (hs : (V.doms d).settings = (W.doms d).settings) (hs' : (V'.doms d).settings = (W'.doms d).settings)
    (hc : (V.doms d).classes = (W.doms d).classes) (hc' : (V'.doms d).classes = (W'.doms d).classes)
    (hr : (V.doms d).rules = (W.doms d).rules) (hr' : (V'.doms d).rules = (W'.doms d).rules)
    (hf : ∀ f, Has (V'.doms d).feats f ↔ Has (V.doms d).feats f) (hm : ∀ m, Has (V'.doms d).mixins m ↔ Has (V.doms d).mixins m) : SameRegistered V V' := by
  refine ⟨fun x => ?_, fun x f => ?_, fun x m => ?_, fun x c => ?_, fun x => ?_, fun x => ?_⟩ <;> by_cases hx : x = d
  · subst hx; rw [hs, hs', h.settings]
  · rw [ho x hx, ho' x hx, h.settings]
  · subst hx; rw [mem_featuresOf, mem_featuresOf]; exact hf f
  · have := h.feats x f
    unfold featuresOf at this ⊢
    rw [ho x hx, ho' x hx]; exact this
  · subst hx; rw [mem_mixinsOf, mem_mixinsOf]; exact hm m
  · have := h.mixins x m
    unfold mixinsOf at this ⊢
    rw [ho x hx, ho' x hx]; exact this
  · subst hx
    have := h.classes x c
    unfold classesOf at this ⊢
    rw [hc, hc']; exact this
  · have := h.classes x c
    unfold classesOf at this ⊢
    rw [ho x hx, ho' x hx]; exact this
  · subst hx; rw [hc, hc']; exact h.gaps x
  · rw [ho x hx, ho' x hx]; exact h.gaps x
  · subst hx; rw [hr, hr']; exact h.rules x
  · rw [ho x hx, ho' x hx]; exact h.rules x

theorem registerFeature_alike (h : Alike W W') (d : DomId) (f : Feat) : BothLike (registerFeature D W d f) (registerFeature D W' d f) := by
  have hs : (W'.doms d).settings = (W.doms d).settings := h.same.settings d
  have key := basicRegister_alike (nameOf := D.featName) (enforce := !(W.doms d).settings.allowDupFeat) (info := f) (h.featNone f) (h.hasFeats d)
  have r1 := registerFeature_reg D W d f h.reg
  have r2 := registerFeature_reg D W' d f h.reg'
  rcases key with ⟨e, a, b⟩ | ⟨id, new, id', new', a, b⟩
  · have e1 : registerFeature D W d f = (.error e, W) := by simp [registerFeature, a]
    have e2 : registerFeature D W' d f = (.error e, W') := by simp [registerFeature, hs, b]
    rw [e1, e2]; exact ⟨rfl, h⟩
  · have e1 : (registerFeature D W d f).1 = .ok () := by simp [registerFeature, a]
    have e2 : (registerFeature D W' d f).1 = .ok () := by simp [registerFeature, hs, b]
    obtain ⟨i, k⟩ := registerFeature_ok D W d f e1
    obtain ⟨i', k'⟩ := registerFeature_ok D W' d f e2
    refine ⟨by rw [e1, e2], r1, r2, ?_⟩
    refine h.same.change (d := d) k.other k'.other ?_ ?_ ?_ ?_ ?_ ?_ ?_ ?_
    · rw [k.dom]
    · rw [k'.dom]
    · rw [k.dom]
    · rw [k'.dom]
    · rw [k.dom]
    · rw [k'.dom]
    · intro x; rw [k.ins.has, k'.ins.has, h.hasFeats]
    · intro x; rw [k.dom, k'.dom]; exact h.hasMixins d x

theorem registerFeatures_alike (d : DomId) : ∀ (fs : List Feat) {W W' : World}, Alike W W' → BothLike (registerFeatures D W d fs) (registerFeatures D W' d fs)
  | [], W, W', h => ⟨rfl, h⟩
  | f :: fs, W, W', h => by
    unfold registerFeatures
    by_cases hf : W.featId f = none
    · have hf' := (h.featNone f).2 hf
      rw [if_neg (by simp [hf]), if_neg (by simp [hf'])]
      have k := registerFeature_alike (D := D) h d f
      rcases h1 : registerFeature D W d f with ⟨r, V⟩
      rcases h2 : registerFeature D W' d f with ⟨r', V'⟩
      rw [h1, h2] at k
      obtain ⟨k1, k2⟩ := k
      simp only at k1; subst k1
      cases r' with
      | error e => exact ⟨rfl, k2⟩
      | ok u => exact registerFeatures_alike d fs k2
    · have hf' : W'.featId f ≠ none := fun x => hf ((h.featNone f).1 x)
      rw [if_pos hf, if_pos hf']
      exact registerFeatures_alike d fs h

theorem registerMixin_alike (h : Alike W W') (d : DomId) (m : Mix) : BothLike (registerMixin D W d m) (registerMixin D W' d m) := by
  have r1 := registerMixin_reg D W d m h.reg
  have r2 := registerMixin_reg D W' d m h.reg'
  unfold registerMixin at r1 r2 ⊢
  rw [h.mixDom m] at r2 ⊢
  by_cases hd : W.mixDom m ≠ none ∧ W.mixDom m ≠ some d
  · rw [if_pos hd, if_pos hd]; exact ⟨rfl, h⟩
  · rw [if_neg hd] at r1 r2
    rw [if_neg hd, if_neg hd]
    have k := registerFeatures_alike (D := D) d ((D.mix m).feats.map (·.feat)) h
    rcases h1 : registerFeatures D W d ((D.mix m).feats.map (·.feat)) with ⟨r, V⟩
    rcases h2 : registerFeatures D W' d ((D.mix m).feats.map (·.feat)) with ⟨r', V'⟩
    rw [h1] at r1; rw [h2] at r2
    rw [h1, h2] at k
    rw [h1, h2]
    obtain ⟨k1, k2⟩ := k
    simp only at k1; subst k1
    cases r' with
    | error e => exact ⟨rfl, k2⟩
    | ok u =>
      simp only at r1 r2 k2 ⊢
      rw [k2.same.settings d] at r2 ⊢
      rcases basicRegister_alike (nameOf := D.mixName) (enforce := !(V.doms d).settings.allowDupMix) (info := m) (k2.mixNone m) (k2.hasMixins d) with ⟨e, a, b⟩ | ⟨id, new, id', new', a, b⟩
      · rw [a, b]; exact ⟨rfl, k2⟩
      · rw [a] at r1; rw [b] at r2
        rw [a, b]
        obtain ⟨-, ins⟩ := basicRegister_ok _ _ _ _ _ _ _ a
        obtain ⟨-, ins'⟩ := basicRegister_ok _ _ _ _ _ _ _ b
        refine ⟨rfl, r1, r2, k2.same.change (d := d) (fun d' hd' => setDom_ne _ _ hd') (fun d' hd' => setDom_ne _ _ hd') ?_ ?_ ?_ ?_ ?_ ?_ ?_ ?_⟩
        all_goals simp only [World.setDom, upd, if_true]
        · exact (k2.same.settings d).symm
        · intro x; exact k2.hasFeats d x
        · intro x; rw [ins.has, ins'.has, k2.hasMixins]

theorem unregisterFeature_alike (h : Alike W W') (d : DomId) (f : Feat) : BothLike (unregisterFeature W d f) (unregisterFeature W' d f) := by
  have r1 := unregisterFeature_reg W d f h.reg
  have r2 := unregisterFeature_reg W' d f h.reg'
  have iff : ∀ {V : World}, RegInv V → (f ∈ featuresOf V d ↔ ownSlot (V.doms d).feats (V.featId f) f ≠ none) := by
    intro V hV
    rw [mem_featuresOf]
    constructor
    · rintro ⟨i, hi⟩ hn
      exact (ownSlot_none _ _ _).1 hn i (hV.featSlot d i f hi) hi
    · intro hn
      cases ho : ownSlot (V.doms d).feats (V.featId f) f with
      | none => exact absurd ho hn
      | some i => exact ⟨i, ((ownSlot_some _ _ _ _).1 ho).2⟩
  have hiff := h.same.feats d f
  rcases unregisterFeature_cases W d f with ⟨a, b⟩ | ⟨i, a1, a2, a3⟩
  · rcases unregisterFeature_cases W' d f with ⟨a', b'⟩ | ⟨i', a1', a2', a3'⟩
    · rw [a, a']; exact ⟨rfl, h⟩
    · exact absurd b ((iff h.reg).1 (hiff.1 ((mem_featuresOf W' d f).2 ⟨i', a2'⟩)))
  · rcases unregisterFeature_cases W' d f with ⟨a', b'⟩ | ⟨i', a1', a2', a3'⟩
    · exact absurd b' ((iff h.reg').1 (hiff.2 ((mem_featuresOf W d f).2 ⟨i, a2⟩)))
    · rw [a3] at r1; rw [a3'] at r2
      rw [a3, a3']
      have hgone : ∀ {V : World} {i : Nat}, RegInv V → V.featId f = some i → (V.doms d).feats[i]? = some (some f) → ∀ x, Has ((V.doms d).feats.set i none) x ↔ x ≠ f ∧ Has (V.doms d).feats x := by
        intro V i hV hi hs x
        constructor
        · rintro ⟨j, hj⟩
          rw [getElem?_set_none_some] at hj
          refine ⟨?_, j, hj.2⟩
          rintro rfl
          have := hV.featSlot d j x hj.2
          rw [hi] at this
          exact hj.1 (Option.some.inj this).symm
        · rintro ⟨hx, j, hj⟩
          refine ⟨j, (getElem?_set_none_some _ _ _ _).2 ⟨?_, hj⟩⟩
          rintro rfl
          rw [hs] at hj; simp at hj; exact hx hj.symm
      refine ⟨rfl, r1, r2, h.same.change (d := d) (fun d' hd' => setDom_ne _ _ hd') (fun d' hd' => setDom_ne _ _ hd') ?_ ?_ ?_ ?_ ?_ ?_ ?_ ?_⟩
      all_goals simp only [World.setDom, upd, if_true]
      · intro x; rw [hgone h.reg a1 a2, hgone h.reg' a1' a2', h.hasFeats]
      · intro x; exact h.hasMixins d x

theorem MixErased.has {m : Mix} {d : DomId} {id : Nat} (h : RegInv W) (e : MixErased W d m id W') (x : Mix) : Has (W'.doms d).mixins x ↔ x ≠ m ∧ Has (W.doms d).mixins x := by
  rw [e.mixins]
  constructor
  · rintro ⟨j, hj⟩
    rw [getElem?_set_none_some] at hj
    refine ⟨?_, j, hj.2⟩
    rintro rfl
    have := (h.mixSlot d j x hj.2).1
    rw [e.hadId] at this
    exact hj.1 (Option.some.inj this).symm
  · rintro ⟨hx, j, hj⟩
    refine ⟨j, (getElem?_set_none_some _ _ _ _).2 ⟨?_, hj⟩⟩
    rintro rfl
    rw [e.slot] at hj; simp at hj; exact hx hj.symm

theorem Alike.of_same {V V' : World} (h : Alike W W') (s : SameElems W V) (s' : SameElems W' V') (hc : ∀ d, (V.doms d).classes = (W.doms d).classes)
    (hc' : ∀ d, (V'.doms d).classes = (W'.doms d).classes) (hr : ∀ d, (V'.doms d).rules = (V.doms d).rules) : Alike V V' := by
  refine ⟨h.reg.congr s, h.reg'.congr s', fun d => ?_, fun d f => ?_, fun d m => ?_, fun d c => ?_, fun d => ?_, hr⟩
  · rw [s.settings, s'.settings]; exact h.same.settings d
  · have := h.same.feats d f
    unfold featuresOf at this ⊢
    rw [s.feats, s'.feats]; exact this
  · have := h.same.mixins d m
    unfold mixinsOf at this ⊢
    rw [s.mixins, s'.mixins]; exact this
  · have := h.same.classes d c
    unfold classesOf at this ⊢
    rw [hc, hc']; exact this
  · rw [hc, hc']; exact h.same.gaps d

theorem unregisterMixin_defined (hr : RegInv W) (d : DomId) (m : Mix) (ht : TypesInv D W d) :
    (unregisterMixin W d m).1 = .error .unregForeign ∧ m ∉ mixinsOf W d ∨ (unregisterMixin W d m).1 = .ok () ∧ m ∈ mixinsOf W d := by
  obtain ⟨qs, hq, -⟩ := purgeQueries_some (W.doms d) d (W.mixId m) m (W.doms d).queries ht.queries
  unfold unregisterMixin
  simp only [hq]
  cases ho : ownSlot (W.doms d).mixins (W.mixId m) m with
  | none =>
    refine .inl ⟨rfl, fun hm => ?_⟩
    obtain ⟨i, hi⟩ := (mem_mixinsOf W d m).1 hm
    exact (ownSlot_none _ _ _).1 ho i (hr.mixSlot d i m hi).1 hi
  | some i => exact .inr ⟨rfl, (mem_mixinsOf W d m).2 ⟨i, ((ownSlot_some _ _ _ _).1 ho).2⟩⟩

theorem unregisterMixin_alike (h : Alike W W') (d : DomId) (m : Mix) (ht : TypesInv D W d) (ht' : TypesInv D W' d) :
    BothLike (unregisterMixin W d m) (unregisterMixin W' d m) := by
  have r1 := unregisterMixin_reg W d m h.reg
  have r2 := unregisterMixin_reg W' d m h.reg'
  have hm := h.same.mixins d m
  have c1 := unregisterMixin_defined h.reg d m ht
  have c2 := unregisterMixin_defined h.reg' d m ht'
  rcases c1 with ⟨a, b⟩ | ⟨a, b⟩ <;> rcases c2 with ⟨a', b'⟩ | ⟨a', b'⟩
  · refine ⟨by rw [a, a'], h.of_same (unregisterMixin_error_same W d m _ a) (unregisterMixin_error_same W' d m _ a') ?_ ?_ ?_⟩
    · intro x; exact step_classes_same D W h.reg (.unregMixin d m) x (by simp) (by simp)
    · intro x; exact step_classes_same D W' h.reg' (.unregMixin d m) x (by simp) (by simp)
    · intro x
      have e1 := step_rules_same D W h.reg (.unregMixin d m) x (by simp) (by simp)
      have e2 := step_rules_same D W' h.reg' (.unregMixin d m) x (by simp) (by simp)
      simp only [step] at e1 e2
      rw [e1, e2]; exact h.same.rules x
  · exact absurd (hm.1 b') b
  · exact absurd (hm.2 b) b'
  · obtain ⟨i, e⟩ := unregisterMixin_ok W d m a
    obtain ⟨i', e'⟩ := unregisterMixin_ok W' d m a'
    refine ⟨by rw [a, a'], r1, r2, h.same.change (d := d) e.other e'.other e.settings e'.settings e.classes e'.classes e.rules e'.rules ?_ ?_⟩
    · intro x; rw [e.feats, e'.feats]; exact h.hasFeats d x
    · intro x; rw [e.has h.reg, e'.has h.reg', h.hasMixins]

/-- Only the type classes of one domain changed. -/
theorem Alike.classes {V V' : World} (h : Alike W W') (s : SameElems W V) (s' : SameElems W' V') {d : DomId} (ho : ∀ d', d' ≠ d → V.doms d' = W.doms d') (ho' : ∀ d', d' ≠ d → V'.doms d' = W'.doms d')
    (hr : (V.doms d).rules = (W.doms d).rules) (hr' : (V'.doms d).rules = (W'.doms d).rules)
    (hc : ∀ c, c ∈ classesOf V' d ↔ c ∈ classesOf V d) (hg : none ∈ (V'.doms d).classes ↔ none ∈ (V.doms d).classes) : Alike V V' := by
  refine ⟨h.reg.congr s, h.reg'.congr s', fun d => ?_, fun d f => ?_, fun d m => ?_, fun x c => ?_, fun x => ?_, fun x => ?_⟩
  · rw [s.settings, s'.settings]; exact h.same.settings d
  · have := h.same.feats d f
    unfold featuresOf at this ⊢
    rw [s.feats, s'.feats]; exact this
  · have := h.same.mixins d m
    unfold mixinsOf at this ⊢
    rw [s.mixins, s'.mixins]; exact this
  all_goals by_cases hx : x = d
  · subst hx; exact hc c
  · have := h.same.classes x c
    unfold classesOf at this ⊢
    rw [ho x hx, ho' x hx]; exact this
  · subst hx; exact hg
  · rw [ho x hx, ho' x hx]; exact h.same.gaps x
  · subst hx; rw [hr, hr']; exact h.same.rules x
  · rw [ho x hx, ho' x hx]; exact h.same.rules x

theorem registerTypeClass_alike (h : Alike W W') (d : DomId) (c : Cls) : BothLike (registerTypeClass D W d c) (registerTypeClass D W' d c) := by
  have hcl := h.same.classes d
  have hg := h.same.gaps d
  rcases registerTypeClass_cases D W d c with ⟨a, b⟩ | ⟨a, b⟩ | ⟨a, b1, b2, x, b3, b4⟩ | ⟨a, b1, b2, b3, b4⟩ | ⟨a, b1, b2, b3, b4⟩ <;>
  rcases registerTypeClass_cases D W' d c with ⟨a', b'⟩ | ⟨a', b'⟩ | ⟨a', b1', b2', x', b3', b4'⟩ | ⟨a', b1', b2', b3', b4'⟩ | ⟨a', b1', b2', b3', b4'⟩
  all_goals first
    | (rw [a, a']; exact ⟨rfl, h⟩)
    | (exfalso; simp_all; done)
    | (exfalso; exact b3' x ((hcl x).2 b3) b4)
    | (exfalso; exact b3 x' ((hcl x').1 b3') b4')
    | (exfalso; exact b4' (hg.2 b4))
    | (exfalso; exact b4 (hg.1 b4'))
    | skip
  rw [a, a']
  refine ⟨rfl, h.classes (d := d) (SameElems.setDom W d _ rfl rfl rfl) (SameElems.setDom W' d _ rfl rfl rfl) (fun d' hd' => setDom_ne _ _ hd') (fun d' hd' => setDom_ne _ _ hd') ?_ ?_ ?_ ?_⟩
  · simp
  · simp
  · intro x
    have := hcl x
    unfold classesOf at this ⊢
    simp only [setDom_same, List.filterMap_append, List.mem_append]
    rw [this]
  · simp only [setDom_same, List.mem_append]
    rw [hg]

theorem none_mem_clearFirst (c : Cls) : ∀ l : List (Option Cls), none ∈ clearFirst c l ↔ none ∈ l ∨ some c ∈ l
  | [] => by simp [clearFirst]
  | x :: xs => by
    unfold clearFirst
    by_cases hx : x = some c
    · simp [hx]
    · have hx' : ¬ (some c = x) := fun e => hx e.symm
      rw [if_neg hx, List.mem_cons, none_mem_clearFirst c xs, List.mem_cons, List.mem_cons]
      simp only [hx', false_or, or_assoc]

theorem unregisterTypeClass_alike (h : Alike W W') (d : DomId) (c : Cls) (hc : ClsInv D (W.doms d)) (hc' : ClsInv D (W'.doms d)) :
    BothLike (unregisterTypeClass W d c) (unregisterTypeClass W' d c) := by
  refine ⟨rfl, h.classes (d := d) (unregisterTypeClass_same W d c) (unregisterTypeClass_same W' d c) (fun d' hd' => setDom_ne _ _ hd') (fun d' hd' => setDom_ne _ _ hd') ?_ ?_ ?_ ?_⟩
  · simp [unregisterTypeClass]
  · simp [unregisterTypeClass]
  · intro x
    have e1 := step_classesOf D W h.reg (.unregClass d c) d x hc
    have e2 := step_classesOf D W' h.reg' (.unregClass d c) d x hc'
    simp only [step] at e1 e2
    have : decide (x ∈ classesOf W' d) = decide (x ∈ classesOf W d) := by simp [h.same.classes d x]
    rw [e1, e2, this]
    rfl
  · have := h.same.classes d c
    simp only [unregisterTypeClass, setDom_same, none_mem_clearFirst]
    rw [h.same.gaps d]
    have e : ∀ l : List (Option Cls), some c ∈ l ↔ c ∈ l.filterMap id := by intro l; simp
    rw [e, e]
    unfold classesOf at this
    rw [this]

theorem addRule_alike (h : Alike W W') (d : DomId) (r : Rule) : BothLike (addRule D W d r) (addRule D W' d r) := by
  have k : (addRule D W' d r).1 = (addRule D W d r).1 ∧ ((addRule D W' d r).2.doms d).rules = ((addRule D W d r).2.doms d).rules := by
    rcases addRule_rules D W d r with ⟨a, b⟩ | ⟨a, b, c⟩ <;> rcases addRule_rules D W' d r with ⟨a', b'⟩ | ⟨a', b', c'⟩
    · rw [b, b']; exact ⟨rfl, h.same.rules d⟩
    · rw [a] at a'; simp at a'
    · rw [a] at a'; simp at a'
    · rw [b, b', c, c', h.same.rules d]; simp
  refine ⟨k.1, h.of_same (addRule_same D W d r) (addRule_same D W' d r) ?_ ?_ ?_⟩
  · intro x; exact step_classes_same D W h.reg (.addRule d r) x (by simp) (by simp)
  · intro x; exact step_classes_same D W' h.reg' (.addRule d r) x (by simp) (by simp)
  · intro x
    by_cases hx : x = d
    · subst hx; exact k.2
    · have e1 := step_rules_same D W h.reg (.addRule d r) x (by simp; intro e; exact absurd e.symm hx) (by simp)
      have e2 := step_rules_same D W' h.reg' (.addRule d r) x (by simp; intro e; exact absurd e.symm hx) (by simp)
      simp only [step] at e1 e2
      rw [e1, e2]; exact h.same.rules x

theorem removeRule_rules (D : Decls) (W : World) (d : DomId) (r : Rule) : (removeRule D W d r).1 = .ok () ∧
    ((removeRule D W d r).2.doms d).rules = match ruleDecr D r (W.doms d).rules with | none => (W.doms d).rules | some p => p.1 := by
  unfold removeRule
  simp only
  cases ruleDecr D r (W.doms d).rules with
  | none => exact ⟨rfl, rfl⟩
  | some p =>
    simp only
    by_cases hc : p.2 > 0
    · rw [if_pos hc]; simp
    · rw [if_neg hc]; simp

theorem removeRule_alike (h : Alike W W') (d : DomId) (r : Rule) : BothLike (removeRule D W d r) (removeRule D W' d r) := by
  obtain ⟨a, b⟩ := removeRule_rules D W d r
  obtain ⟨a', b'⟩ := removeRule_rules D W' d r
  rw [h.same.rules d] at b'
  refine ⟨by rw [a, a'], h.of_same (removeRule_same D W d r) (removeRule_same D W' d r) ?_ ?_ ?_⟩
  · intro x; exact step_classes_same D W h.reg (.removeRule d r) x (by simp) (by simp)
  · intro x; exact step_classes_same D W' h.reg' (.removeRule d r) x (by simp) (by simp)
  · intro x
    by_cases hx : x = d
    · subst hx; rw [b, b']
    · have e1 := step_rules_same D W h.reg (.removeRule d r) x (by simp) (by simp; intro e; exact absurd e.symm hx)
      have e2 := step_rules_same D W' h.reg' (.removeRule d r) x (by simp) (by simp; intro e; exact absurd e.symm hx)
      simp only [step] at e1 e2
      rw [e1, e2]; exact h.same.rules x

theorem isQuery_same (hr : RegInv W) {op : Op} (hq : asksForTypes op = true) : SameElems W (step D W op).2 ∧
    (∀ d, ((step D W op).2.doms d).classes = (W.doms d).classes) ∧ ∀ d, ((step D W op).2.doms d).rules = (W.doms d).rules := by
  refine ⟨?_, fun d => ?_, fun d => ?_⟩
  · cases op <;> simp [asksForTypes] at hq
    · exact getTypeMut_same D W _ _ _
    · exact getType_same D W _ _
    · exact garbageCollect_same W _ _
  · exact step_classes_same D W hr op d (by rintro c rfl; simp [asksForTypes] at hq) (by rintro c rfl; simp [asksForTypes] at hq)
  · exact step_rules_same D W hr op d (by rintro c rfl; simp [asksForTypes] at hq) (by rintro c rfl; simp [asksForTypes] at hq)

/-- Every call leaves the same registered. -/
theorem step_alike (h : Alike W W') (ht : ∀ d, TypesInv D W d) (ht' : ∀ d, TypesInv D W' d) (hc : ∀ d, ClsInv D (W.doms d)) (hc' : ∀ d, ClsInv D (W'.doms d)) (op : Op) :
    Alike (step D W op).2 (step D W' op).2 ∧ (asksForTypes op = false → (step D W' op).1 = (step D W op).1) := by
  cases hq : asksForTypes op with
  | true =>
    obtain ⟨a, b, c⟩ := isQuery_same (D := D) h.reg hq
    obtain ⟨a', b', c'⟩ := isQuery_same (D := D) h.reg' hq
    exact ⟨h.of_same a a' b b' (fun d => by rw [c, c']; exact h.same.rules d), by simp⟩
  | false =>
    have : BothLike (step D W op) (step D W' op) := by
      cases op <;> simp [asksForTypes] at hq
      · exact registerFeature_alike h _ _
      · exact unregisterFeature_alike h _ _
      · exact registerMixin_alike h _ _
      · exact unregisterMixin_alike h _ _ (ht _) (ht' _)
      · exact registerTypeClass_alike h _ _
      · exact unregisterTypeClass_alike h _ _ (hc _) (hc' _)
      · exact addRule_alike h _ _
      · exact removeRule_alike h _ _
    exact ⟨this.2, fun _ => this.1⟩

/-- Calls on types leave registered what was. -/
theorem isQuery_alike (h : Alike W W') {op : Op} (hq : asksForTypes op = true) : Alike W (step D W' op).2 := by
  obtain ⟨a, b, c⟩ := isQuery_same (D := D) h.reg' hq
  exact h.of_same (SameElems.refl W) a (fun _ => rfl) b (fun d => by rw [c]; exact h.same.rules d)

theorem Alike.check (h : Alike W W') (d : DomId) : ∀ ms, checkMixins W'.mixId W'.mixDom d ms = checkMixins W.mixId W.mixDom d ms
  | [] => rfl
  | m :: ms => by
    unfold checkMixins
    rw [h.mixDom m, h.check d ms]
    by_cases hm : W.mixId m = none
    · rw [if_pos hm, if_pos ((h.mixNone m).2 hm)]
    · rw [if_neg hm, if_neg (fun e => hm ((h.mixNone m).1 e))]

theorem ruleIncr_mem (D : Decls) (r : Rule) : ∀ (l : List (Rule × Nat)) (x : Rule), x ∈ (ruleIncr D r l).1.map (·.1) → x = r ∨ x ∈ l.map (·.1)
  | [], x, h => by simp [ruleIncr] at h; exact .inl h
  | (y, n) :: l, x, h => by
    unfold ruleIncr at h
    by_cases h1 : ruleLt D y r = true
    · rw [if_pos h1] at h
      simp only [List.map_cons, List.mem_cons] at h ⊢
      rcases h with h | h
      · exact .inr (.inl h)
      · rcases ruleIncr_mem D r l x h with h | h
        · exact .inl h
        · exact .inr (.inr h)
    · rw [if_neg h1] at h
      by_cases h2 : ruleLt D r y = true
      · rw [if_pos h2] at h; simpa using h
      · rw [if_neg h2] at h
        simp only [List.map_cons, List.mem_cons] at h ⊢
        exact .inr h

theorem ruleDecr_mem (D : Decls) (r : Rule) : ∀ (l : List (Rule × Nat)) (p : List (Rule × Nat) × Nat) (x : Rule), ruleDecr D r l = some p → x ∈ p.1.map (·.1) → x ∈ l.map (·.1)
  | [], p, x, hp, h => by simp [ruleDecr] at hp
  | (y, n) :: l, p, x, hp, h => by
    unfold ruleDecr at hp
    by_cases h1 : ruleLt D y r = true
    · rw [if_pos h1] at hp
      cases hd : ruleDecr D r l with
      | none => rw [hd] at hp; simp at hp
      | some p' =>
        rw [hd] at hp
        simp only [Option.some.injEq] at hp
        subst hp
        simp only [List.map_cons, List.mem_cons] at h ⊢
        rcases h with h | h
        · exact .inl h
        · exact .inr (ruleDecr_mem D r l p' x hd h)
    · rw [if_neg h1] at hp
      by_cases h2 : ruleLt D r y = true
      · rw [if_pos h2] at hp; simp at hp
      · rw [if_neg h2] at hp
        by_cases h3 : n - 1 > 0
        · rw [if_pos h3] at hp
          simp only [Option.some.injEq] at hp
          subst hp; simpa using h
        · rw [if_neg h3] at hp
          simp only [Option.some.injEq] at hp
          subst hp
          simp only [List.map_cons, List.mem_cons]; exact .inr h

/-- A rule in force was in force before, or is the one that was added. -/
theorem step_ruleKeys (hr : RegInv W) (op : Op) (d : DomId) (x : Rule) (h : x ∈ ((step D W op).2.doms d).rules.map (·.1)) :
    op = .addRule d x ∨ x ∈ (W.doms d).rules.map (·.1) := by
  by_cases h1 : ∃ r, op = .addRule d r
  · obtain ⟨r, rfl⟩ := h1
    simp only [step] at h
    rcases addRule_rules D W d r with ⟨-, b⟩ | ⟨-, -, b⟩
    · rw [b] at h; exact .inr h
    · rw [b] at h
      rcases ruleIncr_mem D r _ x h with h | h
      · subst h; exact .inl rfl
      · exact .inr h
  · by_cases h2 : ∃ r, op = .removeRule d r
    · obtain ⟨r, rfl⟩ := h2
      simp only [step] at h
      rw [(removeRule_rules D W d r).2] at h
      cases hd : ruleDecr D r (W.doms d).rules with
      | none => rw [hd] at h; exact .inr h
      | some p => rw [hd] at h; exact .inr (ruleDecr_mem D r _ p x hd h)
    · rw [step_rules_same D W hr op d (fun r e => h1 ⟨r, e⟩) (fun r e => h2 ⟨r, e⟩)] at h
      exact .inr h

theorem run_ruleKeys (D : Decls) (d : DomId) (x : Rule) : ∀ (ops : List Op) (W : World), RegInv W → x ∈ ((run D W ops).doms d).rules.map (·.1) →
    .addRule d x ∈ ops ∨ x ∈ (W.doms d).rules.map (·.1)
  | [], W, hr, h => .inr h
  | op :: ops, W, hr, h => by
    rcases run_ruleKeys D d x ops _ (step_reg D W op hr) h with h | h
    · exact .inl (List.mem_cons_of_mem _ h)
    · rcases step_ruleKeys hr op d x h with h | h
      · subst h; exact .inl List.mem_cons_self
      · exact .inr h

/-- A call changes only its own domain. -/
theorem step_elsewhere (hr : RegInv W) (op : Op) (d : DomId) (h : domainOf op ≠ d) : (step D W op).2.doms d = W.doms d := by
  have h' : d ≠ domainOf op := fun e => h e.symm
  cases op with
  | regFeature d' f =>
    simp only [step, domainOf] at h' ⊢
    cases hres : (registerFeature D W d' f).1 with
    | error e => rw [registerFeature_error D W d' f e hres]
    | ok u => cases u; obtain ⟨i, k⟩ := registerFeature_ok D W d' f hres; exact k.other d h'
  | unregFeature d' f =>
    simp only [step, domainOf] at h' ⊢
    rcases unregisterFeature_cases W d' f with ⟨a, -⟩ | ⟨i, -, -, a⟩
    · rw [a]
    · rw [a]; exact setDom_ne _ _ h'
  | regMixin d' m =>
    simp only [step, domainOf] at h' ⊢
    cases hres : (registerMixin D W d' m).1 with
    | error e => exact (registerMixin_error D W d' m hr e hres).1.other d h'
    | ok u => cases u; obtain ⟨i, k⟩ := registerMixin_ok D W d' m hr hres; exact k.other d h'
  | unregMixin d' m =>
    simp only [step, domainOf] at h' ⊢
    unfold unregisterMixin
    simp only
    cases purgeQueries (W.doms d') d' (W.mixId m) m (W.doms d').queries with
    | none => rfl
    | some qs =>
      simp only
      cases ownSlot (W.doms d').mixins (W.mixId m) m with
      | none => exact setDom_ne _ _ h'
      | some i => exact setDom_ne _ _ h'
  | regClass d' c =>
    simp only [step, domainOf] at h' ⊢
    rcases registerTypeClass_cases D W d' c with h | h | h | h | h <;> rw [h.1]
    exact setDom_ne _ _ h'
  | unregClass d' c => exact setDom_ne _ _ h'
  | addRule d' r =>
    simp only [step, domainOf] at h' ⊢
    unfold addRule
    by_cases h1 : (ruleOf D r).apply.isNone = true
    · rw [if_pos h1]
    · rw [if_neg h1]
      simp only
      by_cases h2 : (ruleIncr D r (W.doms d').rules).2 ≠ 1
      · rw [if_pos h2]; exact setDom_ne _ _ h'
      · rw [if_neg h2]; exact setDom_ne _ _ h'
  | removeRule d' r =>
    simp only [step, domainOf] at h' ⊢
    unfold removeRule
    simp only
    cases ruleDecr D r (W.doms d').rules with
    | none => rfl
    | some p =>
      simp only
      by_cases h2 : p.2 > 0
      · rw [if_pos h2]; exact setDom_ne _ _ h'
      · rw [if_neg h2]; exact setDom_ne _ _ h'
  | getTypeMut d' md q =>
    simp only [step, domainOf, discard] at h' ⊢
    by_cases hm : md = d'
    · subst hm; exact (getCase_other (getTypeMut_cases D W md q) h').1
    · unfold getTypeMut; rw [if_pos hm]
  | getType d' q =>
    simp only [step, domainOf, discard] at h' ⊢
    exact (getCase_other (getType_cases D W d' q) h').1
  | gc d' num => exact setDom_ne _ _ h'

theorem run_elsewhere (D : Decls) (d : DomId) : ∀ (ops : List Op) (W : World), RegInv W → (∀ op ∈ ops, domainOf op ≠ d) → (run D W ops).doms d = W.doms d
  | [], _, _, _ => rfl
  | op :: ops, W, hr, h => by
    have := run_elsewhere D d ops _ (step_reg D W op hr) (fun o ho => h o (List.mem_cons_of_mem _ ho))
    rw [step_elsewhere hr op d (h op List.mem_cons_self)] at this
    exact this

end Dnmx
