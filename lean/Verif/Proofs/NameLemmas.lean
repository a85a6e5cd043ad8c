import Verif.Proofs.HistoryLemmas

namespace Dnmx
open Spec

theorem step_settings (D : Decls) (W : World) (h : RegInv W) (op : Op) (d : DomId) :
    ((step D W op).2.doms d).settings = (W.doms d).settings := by
  have grown : ∀ fs d' W', FeatsGrown D W d' fs W' → (W'.doms d).settings = (W.doms d).settings := by
    intro fs d' W' g
    by_cases hd : d = d'
    · subst hd; rw [g.dom]
    · rw [g.other d hd]
  cases op with
  | regFeature d' g =>
    show ((registerFeature D W d' g).2.doms d).settings = _
    cases hr : (registerFeature D W d' g).1 with
    | error e => rw [registerFeature_error D W d' g e hr]
    | ok u =>
      cases u
      obtain ⟨id, hi⟩ := registerFeature_ok D W d' g hr
      exact grown [g] d' _ ((FeatsGrown.refl D _ d' []).step hi)
  | unregFeature d' g =>
    show ((unregisterFeature W d' g).2.doms d).settings = _
    rcases unregisterFeature_cases W d' g with ⟨h1, -⟩ | ⟨j, h1, h2, h3⟩
    · rw [h1]
    · rw [h3]
      simp only [setDom_doms]
      split
      · rename_i hd; subst hd; rfl
      · rfl
  | regMixin d' m' =>
    show ((registerMixin D W d' m').2.doms d).settings = _
    cases hr : (registerMixin D W d' m').1 with
    | error e => exact grown _ d' _ (registerMixin_error D W d' m' h e hr).1
    | ok u =>
      cases u
      obtain ⟨id, hi⟩ := registerMixin_ok D W d' m' h hr
      by_cases hd : d = d'
      · subst hd; rw [hi.dom]
      · rw [hi.other d hd]
  | unregMixin d' m' =>
    show ((unregisterMixin W d' m').2.doms d).settings = _
    cases hr : (unregisterMixin W d' m').1 with
    | error e => exact (unregisterMixin_error_same W d' m' e hr).settings d
    | ok u =>
      cases u
      obtain ⟨id, he⟩ := unregisterMixin_ok W d' m' hr
      by_cases hd : d = d'
      · subst hd; exact he.settings
      · rw [he.other d hd]
  | regClass d' c => exact (registerTypeClass_same D W d' c).settings d
  | unregClass d' c => exact (unregisterTypeClass_same W d' c).settings d
  | addRule d' r => exact (addRule_same D W d' r).settings d
  | removeRule d' r => exact (removeRule_same D W d' r).settings d
  | getTypeMut d' md q => exact (getTypeMut_same D W d' md q).settings d
  | getType d' q => exact (getType_same D W d' q).settings d
  | gc d' num => exact (garbageCollect_same W d' num).settings d

theorem run_settings (D : Decls) (d : DomId) (ops : List Op) : ∀ W, RegInv W →
    ((run D W ops).doms d).settings = (W.doms d).settings := by
  induction ops with
  | nil => intro W _; rfl
  | cons op ops ih => intro W h; rw [run, ih _ (step_reg D W op h), step_settings D W h op d]

/-- a newly registered mixin was registered by this very call -/
theorem step_mixin_new (D : Decls) (W : World) (h : RegInv W) (op : Op) (d : DomId) (m : Mix)
    (h1 : m ∈ mixinsOf (step D W op).2 d) (h2 : m ∉ mixinsOf W d) : op = .regMixin d m ∧ (registerMixin D W d m).1 = .ok () := by
  have := (step_mixinsOf D W h op d m).1 h1
  simp only [h2, decide_false] at this
  unfold mixinRegStep at this
  split at this
  · rename_i d' m' u heq
    split at this
    · rename_i hh
      obtain ⟨rfl, rfl⟩ := hh
      simp only [Prod.mk.injEq] at heq
      obtain ⟨rfl, h3⟩ := heq
      exact ⟨rfl, h3⟩
    · simp at this
  · split at this <;> simp at this
  · simp at this

/-- names of mixins -/
def MixNames (D : Decls) (W : World) (d : DomId) : Prop :=
  (W.doms d).settings.allowDupMix = false →
    (∀ m m', m ∈ mixinsOf W d → m' ∈ mixinsOf W d → D.mixName m = D.mixName m' → m = m') ∧
    (∀ m, m ∈ mixinsOf W d → D.mixName m ≠ [])

theorem step_mixNames (D : Decls) (W : World) (h : RegInv W) (op : Op) (d : DomId) (hn : MixNames D W d) :
    MixNames D (step D W op).2 d := by
  intro hs
  rw [step_settings D W h op d] at hs
  obtain ⟨h1, h2⟩ := hn hs
  have new : ∀ m, m ∈ mixinsOf (step D W op).2 d → m ∉ mixinsOf W d →
      D.mixName m ≠ [] ∧ ∀ m', m' ∈ mixinsOf W d → D.mixName m' ≠ D.mixName m := by
    intro m hm hm'
    obtain ⟨rfl, hok⟩ := step_mixin_new D W h op d m hm hm'
    obtain ⟨id, hi⟩ := registerMixin_ok D W d m h hok
    refine ⟨hi.ins.nonempty (by simp [hs]), fun m' hm' => ?_⟩
    obtain ⟨i, hii⟩ := (mem_mixinsOf W d m').1 hm'
    exact hi.ins.unique (by simp [hs]) i m' hii
  have only : ∀ m m', m ∈ mixinsOf (step D W op).2 d → m ∉ mixinsOf W d → m' ∈ mixinsOf (step D W op).2 d →
      m' ∉ mixinsOf W d → m = m' := by
    intro m m' a b a' b'
    have e1 := (step_mixin_new D W h op d m a b).1
    have e2 := (step_mixin_new D W h op d m' a' b').1
    rw [e1] at e2; simpa using e2
  refine ⟨?_, ?_⟩
  · intro m m' hm hm' hname
    by_cases a : m ∈ mixinsOf W d <;> by_cases b : m' ∈ mixinsOf W d
    · exact h1 m m' a b hname
    · exact absurd hname ((new m' hm' b).2 m a)
    · exact absurd hname.symm ((new m hm a).2 m' b)
    · exact only m m' hm a hm' b
  · intro m hm
    by_cases a : m ∈ mixinsOf W d
    · exact h2 m a
    · exact (new m hm a).1

theorem run_mixNames (D : Decls) (d : DomId) (ops : List Op) : ∀ W, RegInv W → MixNames D W d → MixNames D (run D W ops) d := by
  induction ops with
  | nil => intro W _ h; exact h
  | cons op ops ih => intro W h hn; exact ih _ (step_reg D W op h) (step_mixNames D W h op d hn)

/-- names of features -/
def FeatNames (D : Decls) (W : World) (d : DomId) : Prop :=
  (W.doms d).settings.allowDupFeat = false →
    (∀ m m', m ∈ featuresOf W d → m' ∈ featuresOf W d → D.featName m = D.featName m' → m = m') ∧
    (∀ m, m ∈ featuresOf W d → D.featName m ≠ [])

theorem FeatNames.of_subset {D : Decls} {W W' : World} {d : DomId} (h : FeatNames D W d)
    (hs : (W'.doms d).settings = (W.doms d).settings) (hsub : ∀ f, f ∈ featuresOf W' d → f ∈ featuresOf W d) :
    FeatNames D W' d := by
  intro ha
  rw [hs] at ha
  obtain ⟨h1, h2⟩ := h ha
  exact ⟨fun m m' a b => h1 m m' (hsub m a) (hsub m' b), fun m a => h2 m (hsub m a)⟩

theorem FeatInserted.names {D : Decls} {W W' : World} {d d' : DomId} {f : Feat} {id : Nat} (hi : FeatInserted D W d f id W')
    (h : FeatNames D W d') : FeatNames D W' d' := by
  by_cases hd : d' = d
  · subst hd
    intro hs
    have hset : (W'.doms d').settings = (W.doms d').settings := by rw [hi.dom]
    rw [hset] at hs
    obtain ⟨h1, h2⟩ := h hs
    have mem : ∀ g, g ∈ featuresOf W' d' → g = f ∨ g ∈ featuresOf W d' := by
      intro g hg
      obtain ⟨i, hii⟩ := (mem_featuresOf W' d' g).1 hg
      by_cases hid : i = id
      · subst hid; rw [hi.ins.slot] at hii; simp at hii; exact .inl hii.symm
      · rw [hi.ins.other i hid] at hii; exact .inr ((mem_featuresOf W d' g).2 ⟨i, hii⟩)
    have uniq : ∀ g, g ∈ featuresOf W d' → D.featName g ≠ D.featName f := by
      intro g hg
      obtain ⟨i, hii⟩ := (mem_featuresOf W d' g).1 hg
      exact hi.ins.unique (by simp [hs]) i g hii
    refine ⟨?_, ?_⟩
    · intro g g' hg hg' hname
      rcases mem g hg with a | a <;> rcases mem g' hg' with b | b
      · rw [a, b]
      · subst a; exact absurd hname.symm (uniq g' b)
      · subst b; exact absurd hname (uniq g a)
      · exact h1 g g' a b hname
    · intro g hg
      rcases mem g hg with a | a
      · subst a; exact hi.ins.nonempty (by simp [hs])
      · exact h2 g a
  · apply h.of_subset
    · rw [hi.other d' hd]
    · intro g; simp [featuresOf, hi.other d' hd]

theorem registerFeature_names (D : Decls) (W : World) (d d' : DomId) (f : Feat) (h : FeatNames D W d') :
    FeatNames D (registerFeature D W d f).2 d' := by
  cases hr : (registerFeature D W d f).1 with
  | error e => rw [registerFeature_error D W d f e hr]; exact h
  | ok u => cases u; obtain ⟨id, hi⟩ := registerFeature_ok D W d f hr; exact hi.names h

theorem registerFeatures_names (D : Decls) (d d' : DomId) (fs : List Feat) : ∀ (W : World), FeatNames D W d' →
    FeatNames D (registerFeatures D W d fs).2 d' := by
  induction fs with
  | nil => intro W h; exact h
  | cons f fs ih =>
    intro W h
    unfold registerFeatures
    split
    · exact ih W h
    · have := registerFeature_names D W d d' f h
      split
      · rename_i heq; rw [heq] at this; exact this
      · rename_i heq; rw [heq] at this; exact ih _ this

theorem step_featNames (D : Decls) (W : World) (h : RegInv W) (op : Op) (d : DomId) (hn : FeatNames D W d) :
    FeatNames D (step D W op).2 d := by
  have same : ∀ W', SameElems W W' → FeatNames D W' d := by
    intro W' s
    exact hn.of_subset (s.settings d) (by intro f; simp [featuresOf, s.feats])
  cases op with
  | regFeature d' f => exact registerFeature_names D W d' d f hn
  | unregFeature d' g =>
    refine hn.of_subset (step_settings D W h (.unregFeature d' g) d) ?_
    show ∀ f, f ∈ featuresOf (unregisterFeature W d' g).2 d → _
    intro f hf
    rcases unregisterFeature_cases W d' g with ⟨h1, -⟩ | ⟨j, h1, h2, h3⟩
    · rw [h1] at hf; exact hf
    · rw [h3] at hf
      rw [mem_featuresOf] at hf ⊢
      obtain ⟨i, hi⟩ := hf
      simp only [setDom_doms] at hi
      split at hi
      · rename_i hd; subst hd
        rw [getElem?_set_none_some] at hi
        exact ⟨i, hi.2⟩
      · exact ⟨i, hi⟩
  | regMixin d' m' =>
    show FeatNames D (registerMixin D W d' m').2 d
    have hfs := registerFeatures_names D d' d ((D.mix m').feats.map (·.feat)) W hn
    unfold registerMixin
    split
    · exact hn
    · split
      · rename_i heq; rw [heq] at hfs; exact hfs
      · rename_i W1 heq
        rw [heq] at hfs
        split
        · exact hfs
        · apply hfs.of_subset
          · simp only [setDom_doms]; split
            · rename_i hd; subst hd; rfl
            · rfl
          · intro f hf
            simp only [featuresOf, setDom_doms] at hf ⊢
            split at hf
            · rename_i hd; subst hd; exact hf
            · exact hf
  | unregMixin d' m' =>
    show FeatNames D (unregisterMixin W d' m').2 d
    cases hr : (unregisterMixin W d' m').1 with
    | error e => exact same _ (unregisterMixin_error_same W d' m' e hr)
    | ok u =>
      cases u
      obtain ⟨id, he⟩ := unregisterMixin_ok W d' m' hr
      by_cases hd : d = d'
      · subst hd; exact hn.of_subset he.settings (by intro f; simp [featuresOf, he.feats])
      · exact hn.of_subset (by rw [he.other d hd]) (by intro f; simp [featuresOf, he.other d hd])
  | regClass d' c => exact same _ (registerTypeClass_same D W d' c)
  | unregClass d' c => exact same _ (unregisterTypeClass_same W d' c)
  | addRule d' r => exact same _ (addRule_same D W d' r)
  | removeRule d' r => exact same _ (removeRule_same D W d' r)
  | getTypeMut d' md q => exact same _ (getTypeMut_same D W d' md q)
  | getType d' q => exact same _ (getType_same D W d' q)
  | gc d' num => exact same _ (garbageCollect_same W d' num)

theorem run_featNames (D : Decls) (d : DomId) (ops : List Op) : ∀ W, RegInv W → FeatNames D W d → FeatNames D (run D W ops) d := by
  induction ops with
  | nil => intro W _ h; exact h
  | cons op ops ih => intro W h hn; exact ih _ (step_reg D W op h) (step_featNames D W h op d hn)

/-! ## table sizes -/

theorem step_mixins_length (D : Decls) (W : World) (h : RegInv W) (op : Op) (d : DomId) :
    ((step D W op).2.doms d).mixins.length ≤ max (W.doms d).mixins.length (mixinsOf (step D W op).2 d).length := by
  have same : ∀ W', SameElems W W' → (W'.doms d).mixins.length ≤ max (W.doms d).mixins.length (mixinsOf W' d).length := by
    intro W' s; rw [s.mixins]; omega
  have grown : ∀ fs d' W', FeatsGrown D W d' fs W' → (W'.doms d).mixins.length ≤ max (W.doms d).mixins.length (mixinsOf W' d).length := by
    intro fs d' W' g
    have : (W'.doms d).mixins = (W.doms d).mixins := by
      by_cases hd : d = d'
      · subst hd; rw [g.dom]
      · rw [g.other d hd]
    rw [this]; omega
  cases op with
  | regFeature d' g =>
    show ((registerFeature D W d' g).2.doms d).mixins.length ≤ max _ (mixinsOf (registerFeature D W d' g).2 d).length
    cases hr : (registerFeature D W d' g).1 with
    | error e => rw [registerFeature_error D W d' g e hr]; omega
    | ok u =>
      cases u
      obtain ⟨id, hi⟩ := registerFeature_ok D W d' g hr
      exact grown [g] d' _ ((FeatsGrown.refl D _ d' []).step hi)
  | unregFeature d' g =>
    show ((unregisterFeature W d' g).2.doms d).mixins.length ≤ _
    rcases unregisterFeature_cases W d' g with ⟨h1, -⟩ | ⟨j, h1, h2, h3⟩
    · rw [h1]; simp only; omega
    · rw [h3]
      simp only [setDom_doms]
      split
      · rename_i hd; subst hd; simp only; omega
      · omega
  | regMixin d' m' =>
    show ((registerMixin D W d' m').2.doms d).mixins.length ≤ max _ (mixinsOf (registerMixin D W d' m').2 d).length
    cases hr : (registerMixin D W d' m').1 with
    | error e => exact grown _ d' _ (registerMixin_error D W d' m' h e hr).1
    | ok u =>
      cases u
      obtain ⟨id, hi⟩ := registerMixin_ok D W d' m' h hr
      by_cases hd : d = d'
      · subst hd; exact hi.ins.length_le
      · rw [hi.other d hd]; omega
  | unregMixin d' m' =>
    show ((unregisterMixin W d' m').2.doms d).mixins.length ≤ max _ (mixinsOf (unregisterMixin W d' m').2 d).length
    cases hr : (unregisterMixin W d' m').1 with
    | error e => exact same _ (unregisterMixin_error_same W d' m' e hr)
    | ok u =>
      cases u
      obtain ⟨id, he⟩ := unregisterMixin_ok W d' m' hr
      by_cases hd : d = d'
      · subst hd; rw [he.mixins]; simp; omega
      · rw [he.other d hd]; omega
  | regClass d' c => exact same _ (registerTypeClass_same D W d' c)
  | unregClass d' c => exact same _ (unregisterTypeClass_same W d' c)
  | addRule d' r => exact same _ (addRule_same D W d' r)
  | removeRule d' r => exact same _ (removeRule_same D W d' r)
  | getTypeMut d' md q => exact same _ (getTypeMut_same D W d' md q)
  | getType d' q => exact same _ (getType_same D W d' q)
  | gc d' num => exact same _ (garbageCollect_same W d' num)

theorem peakMixins_ge (D : Decls) (d : DomId) (ops : List Op) (W : World) : (mixinsOf W d).length ≤ peakMixins D d W ops := by
  cases ops <;> simp only [peakMixins] <;> omega

theorem run_mixins_length (D : Decls) (d : DomId) (ops : List Op) : ∀ W, RegInv W →
    ((run D W ops).doms d).mixins.length ≤ max (W.doms d).mixins.length (peakMixins D d W ops) := by
  induction ops with
  | nil => intro W _; simp only [run]; omega
  | cons op ops ih =>
    intro W h
    have h1 := ih _ (step_reg D W op h)
    have h2 := step_mixins_length D W h op d
    have h3 := peakMixins_ge D d ops (step D W op).2
    simp only [run, peakMixins]
    omega

theorem step_feats_length (D : Decls) (W : World) (h : RegInv W) (op : Op) (d : DomId) :
    ((step D W op).2.doms d).feats.length ≤ max (W.doms d).feats.length (featuresOf (step D W op).2 d).length := by
  have same : ∀ W', SameElems W W' → (W'.doms d).feats.length ≤ max (W.doms d).feats.length (featuresOf W' d).length := by
    intro W' s; rw [s.feats]; omega
  have grown : ∀ fs d' W', FeatsGrown D W d' fs W' → (W'.doms d).feats.length ≤ max (W.doms d).feats.length (featuresOf W' d).length := by
    intro fs d' W' g
    by_cases hd : d = d'
    · subst hd; exact g.length
    · rw [g.other d hd]; omega
  cases op with
  | regFeature d' g =>
    show ((registerFeature D W d' g).2.doms d).feats.length ≤ max _ (featuresOf (registerFeature D W d' g).2 d).length
    cases hr : (registerFeature D W d' g).1 with
    | error e => rw [registerFeature_error D W d' g e hr]; omega
    | ok u =>
      cases u
      obtain ⟨id, hi⟩ := registerFeature_ok D W d' g hr
      exact grown [g] d' _ ((FeatsGrown.refl D _ d' []).step hi)
  | unregFeature d' g =>
    show ((unregisterFeature W d' g).2.doms d).feats.length ≤ _
    rcases unregisterFeature_cases W d' g with ⟨h1, -⟩ | ⟨j, h1, h2, h3⟩
    · rw [h1]; simp only; omega
    · rw [h3]
      simp only [setDom_doms]
      split
      · rename_i hd; subst hd; simp only [List.length_set]; omega
      · omega
  | regMixin d' m' =>
    show ((registerMixin D W d' m').2.doms d).feats.length ≤ max _ (featuresOf (registerMixin D W d' m').2 d).length
    cases hr : (registerMixin D W d' m').1 with
    | error e => exact grown _ d' _ (registerMixin_error D W d' m' h e hr).1
    | ok u =>
      cases u
      obtain ⟨id, hi⟩ := registerMixin_ok D W d' m' h hr
      obtain ⟨W1, hg, -, hf, -⟩ := hi.feats
      by_cases hd : d = d'
      · subst hd
        have := grown _ d _ hg
        simp only [featuresOf] at this ⊢
        rw [hf]; exact this
      · rw [hi.other d hd]; omega
  | unregMixin d' m' =>
    show ((unregisterMixin W d' m').2.doms d).feats.length ≤ max _ (featuresOf (unregisterMixin W d' m').2 d).length
    cases hr : (unregisterMixin W d' m').1 with
    | error e => exact same _ (unregisterMixin_error_same W d' m' e hr)
    | ok u =>
      cases u
      obtain ⟨id, he⟩ := unregisterMixin_ok W d' m' hr
      by_cases hd : d = d'
      · subst hd; rw [he.feats]; omega
      · rw [he.other d hd]; omega
  | regClass d' c => exact same _ (registerTypeClass_same D W d' c)
  | unregClass d' c => exact same _ (unregisterTypeClass_same W d' c)
  | addRule d' r => exact same _ (addRule_same D W d' r)
  | removeRule d' r => exact same _ (removeRule_same D W d' r)
  | getTypeMut d' md q => exact same _ (getTypeMut_same D W d' md q)
  | getType d' q => exact same _ (getType_same D W d' q)
  | gc d' num => exact same _ (garbageCollect_same W d' num)

theorem peakFeatures_ge (D : Decls) (d : DomId) (ops : List Op) (W : World) : (featuresOf W d).length ≤ peakFeatures D d W ops := by
  cases ops <;> simp only [peakFeatures] <;> omega

theorem run_feats_length (D : Decls) (d : DomId) (ops : List Op) : ∀ W, RegInv W →
    ((run D W ops).doms d).feats.length ≤ max (W.doms d).feats.length (peakFeatures D d W ops) := by
  induction ops with
  | nil => intro W _; simp only [run]; omega
  | cons op ops ih =>
    intro W h
    have h1 := ih _ (step_reg D W op h)
    have h2 := step_feats_length D W h op d
    have h3 := peakFeatures_ge D d ops (step D W op).2
    simp only [run, peakFeatures]
    omega

end Dnmx
