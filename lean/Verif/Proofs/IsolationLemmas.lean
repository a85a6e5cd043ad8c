import Verif.Proofs.RegisteredLemmas
import Verif.Spec.Isolation

/-! # Lemmas on domains with their own elements -/

set_option linter.unusedSimpArgs false
set_option linter.unusedVariables false

namespace Dnmx
open Spec

/-- The same is registered in one domain. -/
structure SameAt (d : DomId) (W W' : World) : Prop where
  settings : (W'.doms d).settings = (W.doms d).settings
  feats : ∀ f, Has (W'.doms d).feats f ↔ Has (W.doms d).feats f
  mixins : ∀ m, Has (W'.doms d).mixins m ↔ Has (W.doms d).mixins m
  classes : ∀ c, c ∈ classesOf W' d ↔ c ∈ classesOf W d
  gaps : none ∈ (W'.doms d).classes ↔ none ∈ (W.doms d).classes
  rules : (W'.doms d).rules = (W.doms d).rules

/-- Elements are registered at home only. -/
structure HomeOk (homeM : Mix → DomId) (homeF : Feat → DomId) (W : World) : Prop where
  reg : RegInv W
  feats : ∀ d f, Has (W.doms d).feats f → homeF f = d
  mixins : ∀ d m, Has (W.doms d).mixins m → homeM m = d

variable {D : Decls} {W W' : World} {homeM : Mix → DomId} {homeF : Feat → DomId} {d : DomId}

theorem HomeOk.featNone (h : HomeOk homeM homeF W) {f : Feat} (hf : homeF f = d) : W.featId f = none ↔ ¬ Has (W.doms d).feats f := by
  rw [h.reg.featId_none]
  constructor
  · intro hn hx; exact hn d ((mem_featuresOf W d f).2 hx)
  · intro hn d' hd'
    have hx := (mem_featuresOf W d' f).1 hd'
    have := h.feats d' f hx
    rw [hf] at this; subst this; exact hn hx

theorem HomeOk.mixSome (h : HomeOk homeM homeF W) {m : Mix} (hm : homeM m = d) (d' : DomId) : W.mixDom m = some d' ↔ d' = d ∧ Has (W.doms d).mixins m := by
  rw [h.reg.mixDom_some, mem_mixinsOf]
  constructor
  · intro hx
    have := h.mixins d' m hx
    rw [hm] at this; subst this; exact ⟨rfl, hx⟩
  · rintro ⟨rfl, hx⟩; exact hx

/-- Features at home are registered in both or in none. -/
theorem SameAt.featNone (s : SameAt d W W') (h : HomeOk homeM homeF W) (h' : HomeOk homeM homeF W') {f : Feat} (hf : homeF f = d) : W'.featId f = none ↔ W.featId f = none := by
  rw [h.featNone hf, h'.featNone hf, s.feats]

theorem SameAt.mixDom (s : SameAt d W W') (h : HomeOk homeM homeF W) (h' : HomeOk homeM homeF W') {m : Mix} (hm : homeM m = d) : W'.mixDom m = W.mixDom m := by
  apply Option.ext
  intro x
  rw [h.mixSome hm, h'.mixSome hm, s.mixins]

theorem SameAt.mixNone (s : SameAt d W W') (h : HomeOk homeM homeF W) (h' : HomeOk homeM homeF W') {m : Mix} (hm : homeM m = d) : W'.mixId m = none ↔ W.mixId m = none := by
  rw [h.reg.mixId_none, h'.reg.mixId_none, s.mixDom h h' hm]

theorem SameElems.home {V : World} (s : SameElems W V) (h : HomeOk homeM homeF W) : HomeOk homeM homeF V :=
  ⟨h.reg.congr s, fun d f hf => h.feats d f (by rw [s.feats] at hf; exact hf), fun d m hm => h.mixins d m (by rw [s.mixins] at hm; exact hm)⟩

theorem FeatInserted.home {V : World} {f : Feat} {id : Nat} (k : FeatInserted D W d f id V) (hr : RegInv V) (h : HomeOk homeM homeF W) (hf : homeF f = d) : HomeOk homeM homeF V := by
  refine ⟨hr, fun d' g hg => ?_, fun d' m hm => ?_⟩ <;> by_cases hd : d' = d
  · subst hd
    rw [k.ins.has] at hg
    rcases hg with rfl | hg
    · exact hf
    · exact h.feats d' g hg
  · rw [k.other d' hd] at hg; exact h.feats d' g hg
  · subst hd; rw [k.dom] at hm; exact h.mixins d' m hm
  · rw [k.other d' hd] at hm; exact h.mixins d' m hm

theorem registerFeature_home (h : HomeOk homeM homeF W) (f : Feat) (hf : homeF f = d) : HomeOk homeM homeF (registerFeature D W d f).2 := by
  cases hres : (registerFeature D W d f).1 with
  | error e => rw [registerFeature_error D W d f e hres]; exact h
  | ok u =>
    cases u
    obtain ⟨i, k⟩ := registerFeature_ok D W d f hres
    exact k.home (registerFeature_reg D W d f h.reg) h hf

theorem registerFeature_at (s : SameAt d W W') (h : HomeOk homeM homeF W) (h' : HomeOk homeM homeF W') (f : Feat) (hf : homeF f = d) :
    (registerFeature D W' d f).1 = (registerFeature D W d f).1 ∧ SameAt d (registerFeature D W d f).2 (registerFeature D W' d f).2 := by
  have key := basicRegister_alike (nameOf := D.featName) (enforce := !(W.doms d).settings.allowDupFeat) (info := f) (s.featNone h h' hf) s.feats
  rcases key with ⟨e, a, b⟩ | ⟨id, new, id', new', a, b⟩
  · have e1 : registerFeature D W d f = (.error e, W) := by simp [registerFeature, a]
    have e2 : registerFeature D W' d f = (.error e, W') := by simp [registerFeature, s.settings, b]
    rw [e1, e2]; exact ⟨rfl, s⟩
  · have e1 : (registerFeature D W d f).1 = .ok () := by simp [registerFeature, a]
    have e2 : (registerFeature D W' d f).1 = .ok () := by simp [registerFeature, s.settings, b]
    obtain ⟨i, k⟩ := registerFeature_ok D W d f e1
    obtain ⟨i', k'⟩ := registerFeature_ok D W' d f e2
    refine ⟨by rw [e1, e2], ?_, ?_, ?_, ?_, ?_, ?_⟩
    · rw [k.dom, k'.dom]; exact s.settings
    · intro x; rw [k.ins.has, k'.ins.has, s.feats]
    · intro x; rw [k.dom, k'.dom]; exact s.mixins x
    · intro c
      have := s.classes c
      unfold classesOf at this ⊢
      rw [k.dom, k'.dom]; exact this
    · rw [k.dom, k'.dom]; exact s.gaps
    · rw [k.dom, k'.dom]; exact s.rules

theorem registerFeatures_home : ∀ (fs : List Feat) {W : World}, HomeOk homeM homeF W → (∀ f ∈ fs, homeF f = d) → HomeOk homeM homeF (registerFeatures D W d fs).2
  | [], W, h, _ => h
  | f :: fs, W, h, hf => by
    unfold registerFeatures
    have tl := fun g hg => hf g (List.mem_cons_of_mem _ hg)
    by_cases hx : W.featId f = none
    · rw [if_neg (by simp [hx])]
      have k := registerFeature_home (D := D) h f (hf f List.mem_cons_self)
      rcases h1 : registerFeature D W d f with ⟨r, V⟩
      rw [h1] at k
      cases r with
      | error e => exact k
      | ok u => exact registerFeatures_home fs k tl
    · rw [if_pos hx]; exact registerFeatures_home fs h tl

theorem registerFeatures_at : ∀ (fs : List Feat) {W W' : World}, SameAt d W W' → HomeOk homeM homeF W → HomeOk homeM homeF W' → (∀ f ∈ fs, homeF f = d) →
    (registerFeatures D W' d fs).1 = (registerFeatures D W d fs).1 ∧ SameAt d (registerFeatures D W d fs).2 (registerFeatures D W' d fs).2
  | [], W, W', s, h, h', _ => ⟨rfl, s⟩
  | f :: fs, W, W', s, h, h', hf => by
    unfold registerFeatures
    have hd := hf f List.mem_cons_self
    have tl := fun g hg => hf g (List.mem_cons_of_mem _ hg)
    by_cases hx : W.featId f = none
    · have hx' := (s.featNone h h' hd).2 hx
      rw [if_neg (fun x => x hx'), if_neg (fun x => x hx)]
      have k := registerFeature_at (D := D) s h h' f hd
      have o := registerFeature_home (D := D) h f hd
      have o' := registerFeature_home (D := D) h' f hd
      rcases h1 : registerFeature D W d f with ⟨r, V⟩
      rcases h2 : registerFeature D W' d f with ⟨r', V'⟩
      rw [h1, h2] at k
      rw [h1] at o; rw [h2] at o'
      obtain ⟨k1, k2⟩ := k
      simp only at k1; subst k1
      cases r' with
      | error e => exact ⟨rfl, k2⟩
      | ok u => exact registerFeatures_at fs k2 o o' tl
    · have hx' : W'.featId f ≠ none := fun x => hx ((s.featNone h h' hd).1 x)
      rw [if_pos hx, if_pos hx']
      exact registerFeatures_at fs s h h' tl

theorem registerMixin_home (h : HomeOk homeM homeF W) (m : Mix) (hm : homeM m = d) (hf : ∀ ff ∈ (D.mix m).feats, homeF ff.feat = d) : HomeOk homeM homeF (registerMixin D W d m).2 := by
  have r1 := registerMixin_reg D W d m h.reg
  unfold registerMixin at r1 ⊢
  by_cases hd : W.mixDom m ≠ none ∧ W.mixDom m ≠ some d
  · rw [if_pos hd]; exact h
  · rw [if_neg hd] at r1 ⊢
    have k := registerFeatures_home (D := D) ((D.mix m).feats.map (·.feat)) h (by intro f hx; obtain ⟨ff, h1, rfl⟩ := List.mem_map.1 hx; exact hf ff h1)
    rcases h1 : registerFeatures D W d ((D.mix m).feats.map (·.feat)) with ⟨r, V⟩
    rw [h1] at r1 k
    rw [h1]
    cases r with
    | error e => exact k
    | ok u =>
      simp only at r1 k ⊢
      cases a : basicRegister D.mixName (!(V.doms d).settings.allowDupMix) (V.mixId m) m (V.doms d).mixins with
      | error e => exact k
      | ok p =>
        obtain ⟨-, ins⟩ := basicRegister_ok _ _ _ _ _ p.1 p.2 a
        rw [a] at r1
        simp only [a]
        refine ⟨r1, fun d' f hx => ?_, fun d' x hx => ?_⟩ <;> by_cases hd' : d' = d
        · subst hd'
          simp only [World.setDom, upd, if_true] at hx
          exact k.feats d' f hx
        · simp only [World.setDom, upd, hd', if_false] at hx
          exact k.feats d' f hx
        · subst hd'
          simp only [World.setDom, upd, if_true] at hx
          rw [ins.has] at hx
          rcases hx with rfl | hx
          · exact hm
          · exact k.mixins d' x hx
        · simp only [World.setDom, upd, hd', if_false] at hx
          exact k.mixins d' x hx

theorem registerMixin_at (s : SameAt d W W') (h : HomeOk homeM homeF W) (h' : HomeOk homeM homeF W') (m : Mix) (hm : homeM m = d) (hf : ∀ ff ∈ (D.mix m).feats, homeF ff.feat = d) :
    (registerMixin D W' d m).1 = (registerMixin D W d m).1 ∧ SameAt d (registerMixin D W d m).2 (registerMixin D W' d m).2 := by
  unfold registerMixin
  rw [s.mixDom h h' hm]
  by_cases hd : W.mixDom m ≠ none ∧ W.mixDom m ≠ some d
  · rw [if_pos hd, if_pos hd]; exact ⟨rfl, s⟩
  · rw [if_neg hd, if_neg hd]
    have hfs : ∀ f ∈ (D.mix m).feats.map (·.feat), homeF f = d := by
      intro f hx; obtain ⟨ff, h1, rfl⟩ := List.mem_map.1 hx; exact hf ff h1
    have k := registerFeatures_at (D := D) ((D.mix m).feats.map (·.feat)) s h h' hfs
    have o := registerFeatures_home (D := D) _ h hfs
    have o' := registerFeatures_home (D := D) _ h' hfs
    rcases h1 : registerFeatures D W d ((D.mix m).feats.map (·.feat)) with ⟨r, V⟩
    rcases h2 : registerFeatures D W' d ((D.mix m).feats.map (·.feat)) with ⟨r', V'⟩
    rw [h1, h2] at k
    rw [h1] at o; rw [h2] at o'
    rw [h1, h2]
    obtain ⟨k1, k2⟩ := k
    simp only at k1; subst k1
    cases r' with
    | error e => exact ⟨rfl, k2⟩
    | ok u =>
      simp only at o o' k2 ⊢
      rw [k2.settings]
      rcases basicRegister_alike (nameOf := D.mixName) (enforce := !(V.doms d).settings.allowDupMix) (info := m) (k2.mixNone o o' hm) k2.mixins with ⟨e, a, b⟩ | ⟨id, new, id', new', a, b⟩
      · rw [a, b]; exact ⟨rfl, k2⟩
      · rw [a, b]
        obtain ⟨-, ins⟩ := basicRegister_ok _ _ _ _ _ _ _ a
        obtain ⟨-, ins'⟩ := basicRegister_ok _ _ _ _ _ _ _ b
        refine ⟨rfl, ?_, ?_, ?_, ?_, ?_, ?_⟩
        all_goals simp only [World.setDom, upd, if_true, classesOf]
        · exact k2.feats
        · intro x; rw [ins.has, ins'.has, k2.mixins]
        · exact k2.classes
        · exact k2.gaps
        · exact k2.rules

theorem unregisterFeature_iff (hr : RegInv W) (f : Feat) : (ownSlot (W.doms d).feats (W.featId f) f = none) ↔ ¬ Has (W.doms d).feats f := by
  constructor
  · rintro hn ⟨i, hi⟩
    exact (ownSlot_none _ _ _).1 hn i (hr.featSlot d i f hi) hi
  · intro hn
    cases ho : ownSlot (W.doms d).feats (W.featId f) f with
    | none => rfl
    | some i => exact absurd ⟨i, ((ownSlot_some _ _ _ _).1 ho).2⟩ hn

theorem has_set_none {l : List (Option Nat)} {i y : Nat} (hs : l[i]? = some (some y)) (hu : ∀ j : Nat, l[j]? = some (some y) → j = i) (x : Nat) :
    Has (l.set i none) x ↔ x ≠ y ∧ Has l x := by
  constructor
  · rintro ⟨j, hj⟩
    rw [getElem?_set_none_some] at hj
    refine ⟨?_, j, hj.2⟩
    rintro rfl
    exact hj.1 (hu j hj.2)
  · rintro ⟨hx, j, hj⟩
    refine ⟨j, (getElem?_set_none_some _ _ _ _).2 ⟨?_, hj⟩⟩
    rintro rfl
    rw [hs] at hj; simp at hj; exact hx hj.symm

theorem unregisterFeature_at (s : SameAt d W W') (hr : RegInv W) (hr' : RegInv W') (f : Feat) :
    (unregisterFeature W' d f).1 = (unregisterFeature W d f).1 ∧ SameAt d (unregisterFeature W d f).2 (unregisterFeature W' d f).2 := by
  have i1 := unregisterFeature_iff (d := d) hr f
  have i2 := unregisterFeature_iff (d := d) hr' f
  rcases unregisterFeature_cases W d f with ⟨a, b⟩ | ⟨i, a1, a2, a3⟩ <;> rcases unregisterFeature_cases W' d f with ⟨a', b'⟩ | ⟨i', a1', a2', a3'⟩
  · rw [a, a']; exact ⟨rfl, s⟩
  · exact absurd ((s.feats f).1 ⟨i', a2'⟩) (i1.1 b)
  · exact absurd ((s.feats f).2 ⟨i, a2⟩) (i2.1 b')
  · rw [a3, a3']
    refine ⟨rfl, ?_, ?_, ?_, ?_, ?_, ?_⟩
    all_goals simp only [World.setDom, upd, if_true, classesOf]
    · exact s.settings
    · intro x
      rw [has_set_none a2 (fun j hj => by have := hr.featSlot d j f hj; rw [a1] at this; exact (Option.some.inj this).symm),
        has_set_none a2' (fun j hj => by have := hr'.featSlot d j f hj; rw [a1'] at this; exact (Option.some.inj this).symm), s.feats]
    · exact s.mixins
    · exact s.classes
    · exact s.gaps
    · exact s.rules

theorem SameAt.of_doms {V V' : World} (s : SameAt d W W') (h : V.doms d = W.doms d) (h' : V'.doms d = W'.doms d) : SameAt d V V' := by
  refine ⟨?_, ?_, ?_, ?_, ?_, ?_⟩
  all_goals (try unfold classesOf); rw [h, h']
  · exact s.settings
  · exact s.feats
  · exact s.mixins
  · exact s.classes
  · exact s.gaps
  · exact s.rules

theorem SameAt.of_same {V V' : World} (s : SameAt d W W') (e : SameElems W V) (e' : SameElems W' V') (hc : (V.doms d).classes = (W.doms d).classes)
    (hc' : (V'.doms d).classes = (W'.doms d).classes) (hr : (V'.doms d).rules = (V.doms d).rules) : SameAt d V V' := by
  refine ⟨?_, fun f => ?_, fun m => ?_, fun c => ?_, ?_, hr⟩
  · rw [e.settings, e'.settings]; exact s.settings
  · rw [e.feats, e'.feats]; exact s.feats f
  · rw [e.mixins, e'.mixins]; exact s.mixins m
  · have := s.classes c
    unfold classesOf at this ⊢
    rw [hc, hc']; exact this
  · rw [hc, hc']; exact s.gaps

theorem unregisterMixin_at (s : SameAt d W W') (hr : RegInv W) (hr' : RegInv W') (m : Mix) (ht : TypesInv D W d) (ht' : TypesInv D W' d) :
    (unregisterMixin W' d m).1 = (unregisterMixin W d m).1 ∧ SameAt d (unregisterMixin W d m).2 (unregisterMixin W' d m).2 := by
  have hm : m ∈ mixinsOf W' d ↔ m ∈ mixinsOf W d := by rw [mem_mixinsOf, mem_mixinsOf]; exact s.mixins m
  rcases unregisterMixin_defined hr d m ht with ⟨a, b⟩ | ⟨a, b⟩ <;> rcases unregisterMixin_defined hr' d m ht' with ⟨a', b'⟩ | ⟨a', b'⟩
  · refine ⟨by rw [a, a'], s.of_same (unregisterMixin_error_same W d m _ a) (unregisterMixin_error_same W' d m _ a') ?_ ?_ ?_⟩
    · exact step_classes_same D W hr (.unregMixin d m) d (by simp) (by simp)
    · exact step_classes_same D W' hr' (.unregMixin d m) d (by simp) (by simp)
    · have e1 := step_rules_same D W hr (.unregMixin d m) d (by simp) (by simp)
      have e2 := step_rules_same D W' hr' (.unregMixin d m) d (by simp) (by simp)
      simp only [step] at e1 e2
      rw [e1, e2]; exact s.rules
  · exact absurd (hm.1 b') b
  · exact absurd (hm.2 b) b'
  · obtain ⟨i, e⟩ := unregisterMixin_ok W d m a
    obtain ⟨i', e'⟩ := unregisterMixin_ok W' d m a'
    refine ⟨by rw [a, a'], ?_, fun x => ?_, fun x => ?_, fun c => ?_, ?_, ?_⟩
    · rw [e.settings, e'.settings]; exact s.settings
    · rw [e.feats, e'.feats]; exact s.feats x
    · rw [e.has hr, e'.has hr', s.mixins]
    · have := s.classes c
      unfold classesOf at this ⊢
      rw [e.classes, e'.classes]; exact this
    · rw [e.classes, e'.classes]; exact s.gaps
    · rw [e.rules, e'.rules]; exact s.rules

theorem registerTypeClass_at (s : SameAt d W W') (c : Cls) :
    (registerTypeClass D W' d c).1 = (registerTypeClass D W d c).1 ∧ SameAt d (registerTypeClass D W d c).2 (registerTypeClass D W' d c).2 := by
  have hcl := s.classes
  have hg := s.gaps
  rcases registerTypeClass_cases D W d c with ⟨a, b⟩ | ⟨a, b⟩ | ⟨a, b1, b2, x, b3, b4⟩ | ⟨a, b1, b2, b3, b4⟩ | ⟨a, b1, b2, b3, b4⟩ <;>
  rcases registerTypeClass_cases D W' d c with ⟨a', b'⟩ | ⟨a', b'⟩ | ⟨a', b1', b2', x', b3', b4'⟩ | ⟨a', b1', b2', b3', b4'⟩ | ⟨a', b1', b2', b3', b4'⟩
  all_goals first
    | (rw [a, a']; exact ⟨rfl, s⟩)
    | (exfalso; simp_all; done)
    | (exfalso; exact b3' x ((hcl x).2 b3) b4)
    | (exfalso; exact b3 x' ((hcl x').1 b3') b4')
    | (exfalso; exact b4' (hg.2 b4))
    | (exfalso; exact b4 (hg.1 b4'))
    | skip
  rw [a, a']
  refine ⟨rfl, ?_, ?_, ?_, fun x => ?_, ?_, ?_⟩
  · simp only [setDom_same]; exact s.settings
  · simp only [setDom_same]; exact s.feats
  · simp only [setDom_same]; exact s.mixins
  · have := hcl x
    unfold classesOf at this ⊢
    simp only [setDom_same, List.filterMap_append, List.mem_append]
    rw [this]
  · simp only [setDom_same, List.mem_append]
    rw [hg]
  · simp only [setDom_same]; exact s.rules

theorem unregisterTypeClass_at (s : SameAt d W W') (hr : RegInv W) (hr' : RegInv W') (c : Cls) (hc : ClsInv D (W.doms d)) (hc' : ClsInv D (W'.doms d)) :
    (unregisterTypeClass W' d c).1 = (unregisterTypeClass W d c).1 ∧ SameAt d (unregisterTypeClass W d c).2 (unregisterTypeClass W' d c).2 := by
  refine ⟨rfl, ?_, ?_, ?_, fun x => ?_, ?_, ?_⟩
  · simp only [unregisterTypeClass, setDom_same]; exact s.settings
  · simp only [unregisterTypeClass, setDom_same]; exact s.feats
  · simp only [unregisterTypeClass, setDom_same]; exact s.mixins
  · have e1 := step_classesOf D W hr (.unregClass d c) d x hc
    have e2 := step_classesOf D W' hr' (.unregClass d c) d x hc'
    simp only [step] at e1 e2
    have : decide (x ∈ classesOf W' d) = decide (x ∈ classesOf W d) := by simp [s.classes x]
    rw [e1, e2, this]
    rfl
  · have := s.classes c
    simp only [unregisterTypeClass, setDom_same, none_mem_clearFirst]
    rw [s.gaps]
    have e : ∀ l : List (Option Cls), some c ∈ l ↔ c ∈ l.filterMap id := by intro l; simp
    rw [e, e]
    unfold classesOf at this
    rw [this]
  · simp only [unregisterTypeClass, setDom_same]; exact s.rules

theorem addRule_at (s : SameAt d W W') (hr : RegInv W) (hr' : RegInv W') (r : Rule) :
    (addRule D W' d r).1 = (addRule D W d r).1 ∧ SameAt d (addRule D W d r).2 (addRule D W' d r).2 := by
  have k : (addRule D W' d r).1 = (addRule D W d r).1 ∧ ((addRule D W' d r).2.doms d).rules = ((addRule D W d r).2.doms d).rules := by
    rcases addRule_rules D W d r with ⟨a, b⟩ | ⟨a, b, c⟩ <;> rcases addRule_rules D W' d r with ⟨a', b'⟩ | ⟨a', b', c'⟩
    · rw [b, b']; exact ⟨rfl, s.rules⟩
    · rw [a] at a'; simp at a'
    · rw [a] at a'; simp at a'
    · rw [b, b', c, c', s.rules]; simp
  exact ⟨k.1, s.of_same (addRule_same D W d r) (addRule_same D W' d r) (step_classes_same D W hr (.addRule d r) d (by simp) (by simp))
    (step_classes_same D W' hr' (.addRule d r) d (by simp) (by simp)) k.2⟩

theorem removeRule_at (s : SameAt d W W') (hr : RegInv W) (hr' : RegInv W') (r : Rule) :
    (removeRule D W' d r).1 = (removeRule D W d r).1 ∧ SameAt d (removeRule D W d r).2 (removeRule D W' d r).2 := by
  obtain ⟨a, b⟩ := removeRule_rules D W d r
  obtain ⟨a', b'⟩ := removeRule_rules D W' d r
  rw [s.rules] at b'
  exact ⟨by rw [a, a'], s.of_same (removeRule_same D W d r) (removeRule_same D W' d r) (step_classes_same D W hr (.removeRule d r) d (by simp) (by simp))
    (step_classes_same D W' hr' (.removeRule d r) d (by simp) (by simp)) (by rw [b, b'])⟩

/-- A call on the domain leaves the same registered there, with the same result. -/
theorem step_at (s : SameAt d W W') (h : HomeOk homeM homeF W) (h' : HomeOk homeM homeF W') (ht : TypesInv D W d) (ht' : TypesInv D W' d)
    (hc : ClsInv D (W.doms d)) (hc' : ClsInv D (W'.doms d)) (op : Op) (hop : domainOf op = d) (hh : AtHome D homeM homeF op) :
    SameAt d (step D W op).2 (step D W' op).2 ∧ (asksForTypes op = false → (step D W' op).1 = (step D W op).1) := by
  cases hq : asksForTypes op with
  | true =>
    obtain ⟨a, b, c⟩ := isQuery_same (D := D) h.reg hq
    obtain ⟨a', b', c'⟩ := isQuery_same (D := D) h'.reg hq
    exact ⟨s.of_same a a' (b d) (b' d) (by rw [c, c']; exact s.rules), by simp⟩
  | false =>
    have : (step D W' op).1 = (step D W op).1 ∧ SameAt d (step D W op).2 (step D W' op).2 := by
      cases op <;> simp [asksForTypes] at hq <;> simp only [domainOf] at hop <;> subst hop
      · exact registerFeature_at s h h' _ hh
      · exact unregisterFeature_at s h.reg h'.reg _
      · exact registerMixin_at s h h' _ hh.1 hh.2
      · exact unregisterMixin_at s h.reg h'.reg _ ht ht'
      · exact registerTypeClass_at s _
      · exact unregisterTypeClass_at s h.reg h'.reg _ hc hc'
      · exact addRule_at s h.reg h'.reg _
      · exact removeRule_at s h.reg h'.reg _
    exact ⟨this.2, fun _ => this.1⟩

theorem step_homeOk (h : HomeOk homeM homeF W) (op : Op) (hh : AtHome D homeM homeF op) : HomeOk homeM homeF (step D W op).2 := by
  have hr := step_reg D W op h.reg
  cases op with
  | regFeature d f => exact registerFeature_home h f hh
  | unregFeature d f =>
    simp only [step] at hr ⊢
    rcases unregisterFeature_cases W d f with ⟨a, b⟩ | ⟨i, a1, a2, a3⟩
    · rw [a]; exact h
    · rw [a3] at hr ⊢
      refine ⟨hr, fun d' g hg => ?_, fun d' m hm => ?_⟩ <;> by_cases hd : d' = d
      · subst hd
        simp only [World.setDom, upd, if_true] at hg
        obtain ⟨j, hj⟩ := hg
        exact h.feats d' g ⟨j, ((getElem?_set_none_some _ _ _ _).1 hj).2⟩
      · simp only [World.setDom, upd, hd, if_false] at hg; exact h.feats d' g hg
      · subst hd
        simp only [World.setDom, upd, if_true] at hm; exact h.mixins d' m hm
      · simp only [World.setDom, upd, hd, if_false] at hm; exact h.mixins d' m hm
  | regMixin d m => exact registerMixin_home h m hh.1 hh.2
  | unregMixin d m =>
    simp only [step] at hr ⊢
    cases hres : (unregisterMixin W d m).1 with
    | error e => exact (unregisterMixin_error_same W d m e hres).home h
    | ok u =>
      cases u
      obtain ⟨i, e⟩ := unregisterMixin_ok W d m hres
      refine ⟨hr, fun d' g hg => ?_, fun d' x hx => ?_⟩ <;> by_cases hd : d' = d
      · subst hd; rw [e.feats] at hg; exact h.feats d' g hg
      · rw [e.other d' hd] at hg; exact h.feats d' g hg
      · subst hd; exact h.mixins d' x ((e.has h.reg x).1 hx).2
      · rw [e.other d' hd] at hx; exact h.mixins d' x hx
  | regClass d c => exact (registerTypeClass_same D W d c).home h
  | unregClass d c => exact (unregisterTypeClass_same W d c).home h
  | addRule d r => exact (addRule_same D W d r).home h
  | removeRule d r => exact (removeRule_same D W d r).home h
  | getTypeMut d md q => exact (getTypeMut_same D W d md q).home h
  | getType d q => exact (getType_same D W d q).home h
  | gc d num => exact (garbageCollect_same W d num).home h

theorem initWorld_home_ok (s : DomId → Settings) : HomeOk homeM homeF (initWorld s) :=
  ⟨initWorld_reg s, by rintro d f ⟨i, hi⟩; simp [initWorld, newDom] at hi, by rintro d f ⟨i, hi⟩; simp [initWorld, newDom] at hi⟩

theorem reachable_homeOk (s : DomId → Settings) (ops : List Op) (hh : ∀ op ∈ ops, AtHome D homeM homeF op) : HomeOk homeM homeF (run D (initWorld s) ops) := by
  have : ∀ (ops : List Op) (W : World), HomeOk homeM homeF W → (∀ op ∈ ops, AtHome D homeM homeF op) → HomeOk homeM homeF (run D W ops) := by
    intro ops
    induction ops with
    | nil => intro W h _; exact h
    | cons op ops ih => intro W h hh; exact ih _ (step_homeOk h op (hh op List.mem_cons_self)) (fun o ho => hh o (List.mem_cons_of_mem _ ho))
  exact this ops _ (initWorld_home_ok s) hh

/-- A call on another domain changes nothing here. -/
theorem SameAt.elsewhere (s : SameAt d W W') (hr : RegInv W) (op : Op) (h : domainOf op ≠ d) : SameAt d (step D W op).2 W' :=
  s.of_doms (step_elsewhere hr op d h) rfl

theorem checkMixins_at (s : SameAt d W W') (h : HomeOk homeM homeF W) (h' : HomeOk homeM homeF W') : ∀ ms,
    match checkMixins W.mixId W.mixDom d ms, checkMixins W'.mixId W'.mixDom d ms with
    | .ok (), .ok () => True
    | .error e, .error e' => blur (.fails e') = blur (.fails e)
    | _, _ => False
  | [] => trivial
  | m :: ms => by
    have ih := checkMixins_at s h h' ms
    unfold checkMixins
    by_cases hd : homeM m = d
    · rw [s.mixDom h h' hd]
      by_cases hn : W.mixId m = none
      · rw [if_pos hn, if_pos ((s.mixNone h h' hd).2 hn)]
      · rw [if_neg hn, if_neg (fun x => hn ((s.mixNone h h' hd).1 x))]
        by_cases h1 : W.mixDom m ≠ some d
        · rw [if_pos h1, if_pos h1]
        · rw [if_neg h1, if_neg h1]
          by_cases h2 : ms.contains m = true
          · rw [if_pos h2, if_pos h2]
          · rw [if_neg h2, if_neg h2]; exact ih
    · have foreign : ∀ {V : World}, HomeOk homeM homeF V → V.mixDom m ≠ some d := by
        intro V hV hx
        rw [hV.reg.mixDom_some, mem_mixinsOf] at hx
        exact hd (hV.mixins d m hx)
      have f1 := foreign h
      have f2 := foreign h'
      by_cases hn : W.mixId m = none <;> by_cases hn' : W'.mixId m = none <;> simp [hn, hn', f1, f2, blur]

end Dnmx
