import Verif.Proofs.ClassLemmas

/-!
# C01 to C07: the element registry

All statements are about the world after an arbitrary history `ops` of calls on any domains, started with newly
constructed domains with arbitrary settings `s`; calls in the history may fail.
-/

namespace Dnmx.Props
open Spec

/-! ## Examples -/

/-- Infos for examples: the name of info `k` is the one character `k + 1`; mixin 1 has features 1 and 2, mixin 5 has
the same name as mixin 1, mixin 6 has no name, mixin 7 has feature 3 and feature 0 (which has no name). -/
def regDecls : Decls where
  mem := fun a => UInt8.ofNat (a + 1)
  mix := fun m =>
    if m = 1 then { name := ⟨1, 2⟩, feats := [⟨1, 10, 0, 0⟩, ⟨2, 20, 0, 0⟩] }
    else if m = 5 then { name := ⟨1, 2⟩ }
    else if m = 6 then { name := ⟨0, 0⟩ }
    else if m = 7 then { name := ⟨7, 8⟩, feats := [⟨3, 30, 0, 0⟩, ⟨0, 0, 0, 0⟩] }
    else { name := ⟨m, m + 1⟩ }
  feat := fun f => if f = 0 then { name := ⟨0, 0⟩ } else { name := ⟨f, f + 1⟩ }
  userRule := fun _ => { name := ⟨0, 0⟩, apply := none }
  cls := fun c => { name := ⟨c, c + 1⟩, matchesT := fun _ => true }

/-- A history with a failing call (mixin 5 has the name of mixin 1), an unregistration and the reuse of an id. -/
def regOps : List Op :=
  [.regMixin 0 1, .regMixin 0 2, .regMixin 0 5, .unregMixin 0 1, .regMixin 0 3, .regMixin 0 4, .regMixin 1 1]

/-- World after the example history. -/
def regWorld : World := run regDecls (initWorld fun _ => {}) regOps

/-! ## C01 -/

/-- C01: `get_mixin_info(id)` gives `m` exactly if `m` is registered in the domain and `id` is its id. -/
theorem C01_mixin_by_id (D : Decls) (s : DomId → Settings) (ops : List Op) (d : DomId) (id : Option Nat) (m : Mix) :
    getMixinById (run D (initWorld s) ops) d id = some m ↔
    mixinRegistered d m (trace D (initWorld s) ops) = true ∧ id = (run D (initWorld s) ops).mixId m := by
  have h := reachable_reg D s ops
  rw [mixinRegistered_iff, getMixinById, getById_eq, mem_mixinsOf]
  constructor
  · rintro ⟨i, h1, h2⟩; exact ⟨⟨i, h2⟩, by rw [h1, (h.mixSlot d i m h2).1]⟩
  · rintro ⟨⟨i, h1⟩, h2⟩; exact ⟨i, by rw [h2, (h.mixSlot d i m h1).1], h1⟩

/-- C01: a registered mixin has a valid id (and the info knows the domain), and is registered in no other domain; other
mixins have an invalid id. -/
theorem C01_mixin_id_valid (D : Decls) (s : DomId → Settings) (ops : List Op) (m : Mix) :
    (∀ d, mixinRegistered d m (trace D (initWorld s) ops) = true →
      (∃ i, (run D (initWorld s) ops).mixId m = some i) ∧ (run D (initWorld s) ops).mixDom m = some d) ∧
    ((∀ d, mixinRegistered d m (trace D (initWorld s) ops) = false) → (run D (initWorld s) ops).mixId m = none) := by
  have h := reachable_reg D s ops
  refine ⟨?_, ?_⟩
  · intro d hd
    rw [mixinRegistered_iff, mem_mixinsOf] at hd
    obtain ⟨i, hi⟩ := hd
    exact ⟨⟨i, (h.mixSlot d i m hi).1⟩, (h.mixSlot d i m hi).2⟩
  · intro hd
    cases hm : (run D (initWorld s) ops).mixId m with
    | none => rfl
    | some i =>
      obtain ⟨d, -, h2⟩ := h.mixReg m i hm
      have := (mixinRegistered_iff D s ops d m).2 ((mem_mixinsOf _ d m).2 ⟨i, h2⟩)
      rw [hd d] at this; simp at this

/-- C01: two different mixins of a domain have different ids. -/
theorem C01_mixin_ids_distinct (D : Decls) (s : DomId → Settings) (ops : List Op) (d : DomId) (m m' : Mix)
    (h1 : mixinRegistered d m (trace D (initWorld s) ops) = true) (h2 : mixinRegistered d m' (trace D (initWorld s) ops) = true)
    (hne : m ≠ m') : (run D (initWorld s) ops).mixId m ≠ (run D (initWorld s) ops).mixId m' := by
  intro he
  have a := (C01_mixin_by_id D s ops d _ m).2 ⟨h1, rfl⟩
  have b := (C01_mixin_by_id D s ops d _ m').2 ⟨h2, he⟩
  rw [a] at b; exact hne (by simpa using b)

/-- C01: `get_feature_info(id)` gives `f` exactly if `f` is one of the features that the domain lists and `id` is its
id. -/
theorem C01_feature_by_id (D : Decls) (s : DomId → Settings) (ops : List Op) (d : DomId) (id : Option Nat) (f : Feat) :
    getFeatureById (run D (initWorld s) ops) d id = some f ↔
    f ∈ featuresOf (run D (initWorld s) ops) d ∧ id = (run D (initWorld s) ops).featId f := by
  have h := reachable_reg D s ops
  rw [getFeatureById, getById_eq, mem_featuresOf]
  constructor
  · rintro ⟨i, h1, h2⟩; exact ⟨⟨i, h2⟩, by rw [h1, h.featSlot d i f h2]⟩
  · rintro ⟨⟨i, h1⟩, h2⟩; exact ⟨i, by rw [h2, h.featSlot d i f h1], h1⟩

/-- C01: a feature has a valid id exactly if some domain lists it; this is the only domain, and it lists it once. -/
theorem C01_feature_id_valid (D : Decls) (s : DomId → Settings) (ops : List Op) (f : Feat) :
    ((run D (initWorld s) ops).featId f ≠ none ↔ ∃ d, f ∈ featuresOf (run D (initWorld s) ops) d) ∧
    (∀ d d', f ∈ featuresOf (run D (initWorld s) ops) d → f ∈ featuresOf (run D (initWorld s) ops) d' → d = d') ∧
    (∀ d, (featuresOf (run D (initWorld s) ops) d).count f ≤ 1) := by
  have h := reachable_reg D s ops
  refine ⟨⟨?_, ?_⟩, ?_, ?_⟩
  · intro hn
    cases hm : (run D (initWorld s) ops).featId f with
    | none => exact absurd hm hn
    | some i =>
      obtain ⟨d, hd⟩ := h.featReg f i hm
      exact ⟨d, (mem_featuresOf _ _ _).2 ⟨i, hd⟩⟩
  · rintro ⟨d, hd⟩
    obtain ⟨i, hi⟩ := (mem_featuresOf _ _ _).1 hd
    rw [h.featSlot d i f hi]; simp
  · intro d d' hd hd'
    obtain ⟨i, hi⟩ := (mem_featuresOf _ _ _).1 hd
    obtain ⟨j, hj⟩ := (mem_featuresOf _ _ _).1 hd'
    exact h.featOne d d' i j f hi hj
  · intro d
    refine count_filterMap_le_one _ f fun i j hi hj => ?_
    have a := h.featSlot d i f hi
    have b := h.featSlot d j f hj
    rw [a] at b; simpa using b

/-- C01: two different features of a domain have different ids. -/
theorem C01_feature_ids_distinct (D : Decls) (s : DomId → Settings) (ops : List Op) (d : DomId) (f f' : Feat)
    (h1 : f ∈ featuresOf (run D (initWorld s) ops) d) (h2 : f' ∈ featuresOf (run D (initWorld s) ops) d) (hne : f ≠ f') :
    (run D (initWorld s) ops).featId f ≠ (run D (initWorld s) ops).featId f' := by
  intro he
  have a := (C01_feature_by_id D s ops d _ f).2 ⟨h1, rfl⟩
  have b := (C01_feature_by_id D s ops d _ f').2 ⟨h2, he⟩
  rw [a] at b; exact hne (by simpa using b)

/-- C01: a feature is in the list of a domain after its successful registration, and after the successful registration
of a mixin that has it all of the mixin's features have a valid id. -/
theorem C01_feature_registered (D : Decls) (s : DomId → Settings) (ops : List Op) (d : DomId) :
    (∀ f, (step D (run D (initWorld s) ops) (.regFeature d f)).1 = .ok () →
      f ∈ featuresOf (step D (run D (initWorld s) ops) (.regFeature d f)).2 d) ∧
    (∀ m, (step D (run D (initWorld s) ops) (.regMixin d m)).1 = .ok () →
      ∀ ff ∈ (D.mix m).feats, (step D (run D (initWorld s) ops) (.regMixin d m)).2.featId ff.feat ≠ none) := by
  have h := reachable_reg D s ops
  refine ⟨?_, ?_⟩
  · intro f hf
    obtain ⟨id, hi⟩ := registerFeature_ok D _ d f hf
    exact (mem_featuresOf _ _ _).2 ⟨id, hi.ins.slot⟩
  · intro m hm ff hff
    obtain ⟨id, hi⟩ := registerMixin_ok D _ d m h hm
    obtain ⟨W1, -, -, -, h4, h5⟩ := hi.feats
    show (registerMixin D _ d m).2.featId ff.feat ≠ none
    rw [h4]; exact h5 ff hff

-- mixin 3 is registered in domain 0 with the id that mixin 1 had before, mixin 1 is now in domain 1
example : mixinRegistered 0 3 (trace regDecls (initWorld fun _ => {}) regOps) = true ∧ regWorld.mixId 3 = some 0 ∧
    getMixinById regWorld 0 (some 0) = some 3 ∧ mixinRegistered 0 1 (trace regDecls (initWorld fun _ => {}) regOps) = false ∧
    mixinRegistered 1 1 (trace regDecls (initWorld fun _ => {}) regOps) = true ∧ getMixinById regWorld 0 (some 7) = none ∧
    mixinsOf regWorld 0 = [3, 2, 4] ∧ featuresOf regWorld 0 = [1, 2] ∧ getFeatureById regWorld 0 (some 1) = some 2 := by
  decide +kernel

/-! ## C02 -/

/-- C02: while no call unregisters it, a registered mixin keeps its id, and the id leads to it. -/
theorem C02_mixin_id_stable (D : Decls) (s : DomId → Settings) (ops more : List Op) (d : DomId) (m : Mix)
    (h : mixinRegistered d m (trace D (initWorld s) ops) = true) (hn : Op.unregMixin d m ∉ more) :
    (run D (run D (initWorld s) ops) more).mixId m = (run D (initWorld s) ops).mixId m ∧
    (run D (run D (initWorld s) ops) more).mixDom m = some d ∧
    getMixinById (run D (run D (initWorld s) ops) more) d ((run D (initWorld s) ops).mixId m) = some m := by
  rw [mixinRegistered_iff, mem_mixinsOf] at h
  obtain ⟨i, hi⟩ := h
  have hr := reachable_reg D s ops
  have hid := (hr.mixSlot d i m hi).1
  have key : ∀ (W : World), RegInv W → (W.doms d).mixins[i]? = some (some m) →
      ((run D W more).doms d).mixins[i]? = some (some m) ∧ RegInv (run D W more) := by
    clear hid hr hi
    induction more with
    | nil => intro W h h'; exact ⟨h', h⟩
    | cons op more ih =>
      intro W h h'
      refine ih (fun hh => hn (List.mem_cons_of_mem _ hh)) _ (step_reg D W op h) ?_
      exact step_keeps_mixin D W h op d m i (fun e => hn (by rw [e]; exact List.mem_cons_self)) h'
  obtain ⟨h1, h2⟩ := key _ hr hi
  refine ⟨by rw [hid, (h2.mixSlot d i m h1).1], (h2.mixSlot d i m h1).2, ?_⟩
  rw [hid, getMixinById, getById_eq]; exact ⟨i, rfl, h1⟩

/-- C02: while no call unregisters it, a registered feature keeps its id, and the id leads to it. -/
theorem C02_feature_id_stable (D : Decls) (s : DomId → Settings) (ops more : List Op) (d : DomId) (f : Feat)
    (h : f ∈ featuresOf (run D (initWorld s) ops) d) (hn : Op.unregFeature d f ∉ more) :
    (run D (run D (initWorld s) ops) more).featId f = (run D (initWorld s) ops).featId f ∧
    getFeatureById (run D (run D (initWorld s) ops) more) d ((run D (initWorld s) ops).featId f) = some f := by
  rw [mem_featuresOf] at h
  obtain ⟨i, hi⟩ := h
  have hr := reachable_reg D s ops
  have hid := hr.featSlot d i f hi
  have key : ∀ (W : World), RegInv W → (W.doms d).feats[i]? = some (some f) →
      ((run D W more).doms d).feats[i]? = some (some f) ∧ RegInv (run D W more) := by
    clear hid hr hi
    induction more with
    | nil => intro W h h'; exact ⟨h', h⟩
    | cons op more ih =>
      intro W h h'
      refine ih (fun hh => hn (List.mem_cons_of_mem _ hh)) _ (step_reg D W op h) ?_
      exact step_keeps_feature D W h op d f i (fun e => hn (by rw [e]; exact List.mem_cons_self)) h'
  obtain ⟨h1, h2⟩ := key _ hr hi
  refine ⟨by rw [hid, h2.featSlot d i f h1], ?_⟩
  rw [hid, getFeatureById, getById_eq]; exact ⟨i, rfl, h1⟩

-- mixin 2 stays registered during the rest of the history, which unregisters mixin 1
example : mixinRegistered 0 2 (trace regDecls (initWorld fun _ => {}) (regOps.take 2)) = true ∧
    (run regDecls (initWorld fun _ => {}) (regOps.take 2)).mixId 2 = some 1 ∧
    getMixinById (run regDecls (run regDecls (initWorld fun _ => {}) (regOps.take 2)) (regOps.drop 2)) 0 (some 1) = some 2 := by
  decide +kernel

/-! ## C03 -/

/-- C03: a successful registration of a mixin gives it the least id that leads to no mixin; there are at least that many
mixins registered. -/
theorem C03_mixin_least_id (D : Decls) (s : DomId → Settings) (ops : List Op) (d : DomId) (m : Mix)
    (h : (step D (run D (initWorld s) ops) (.regMixin d m)).1 = .ok ()) :
    ∃ i, (step D (run D (initWorld s) ops) (.regMixin d m)).2.mixId m = some i ∧
      getMixinById (run D (initWorld s) ops) d (some i) = none ∧
      (∀ j, j < i → getMixinById (run D (initWorld s) ops) d (some j) ≠ none) ∧
      i ≤ (mixinsOf (run D (initWorld s) ops) d).length := by
  obtain ⟨i, hi⟩ := registerMixin_ok D _ d m (reachable_reg D s ops) h
  refine ⟨i, ?_, ?_, ?_, ?_⟩
  · show (registerMixin D _ d m).2.mixId m = some i
    rw [hi.mixId]; simp [upd]
  · rw [Option.eq_none_iff_forall_ne_some]
    intro x hx
    rw [getMixinById, getById_eq] at hx
    obtain ⟨k, h1, h2⟩ := hx
    simp at h1; subst h1
    exact hi.ins.wasFree x h2
  · intro j hj he
    obtain ⟨r, hr⟩ := hi.ins.least j hj
    have : getMixinById (run D (initWorld s) ops) d (some j) = some r := by
      rw [getMixinById, getById_eq]; exact ⟨j, rfl, hr⟩
    rw [this] at he; simp at he
  · exact least_le_count _ i hi.ins.least

/-- C03: likewise for features. -/
theorem C03_feature_least_id (D : Decls) (s : DomId → Settings) (ops : List Op) (d : DomId) (f : Feat)
    (h : (step D (run D (initWorld s) ops) (.regFeature d f)).1 = .ok ()) :
    ∃ i, (step D (run D (initWorld s) ops) (.regFeature d f)).2.featId f = some i ∧
      getFeatureById (run D (initWorld s) ops) d (some i) = none ∧
      (∀ j, j < i → getFeatureById (run D (initWorld s) ops) d (some j) ≠ none) ∧
      i ≤ (featuresOf (run D (initWorld s) ops) d).length := by
  obtain ⟨i, hi⟩ := registerFeature_ok D _ d f h
  refine ⟨i, ?_, ?_, ?_, ?_⟩
  · show (registerFeature D _ d f).2.featId f = some i
    rw [hi.featId]; simp [upd]
  · rw [Option.eq_none_iff_forall_ne_some]
    intro x hx
    rw [getFeatureById, getById_eq] at hx
    obtain ⟨k, h1, h2⟩ := hx
    simp at h1; subst h1
    exact hi.ins.wasFree x h2
  · intro j hj he
    obtain ⟨r, hr⟩ := hi.ins.least j hj
    have : getFeatureById (run D (initWorld s) ops) d (some j) = some r := by
      rw [getFeatureById, getById_eq]; exact ⟨j, rfl, hr⟩
    rw [this] at he; simp at he
  · exact least_le_count _ i hi.ins.least

/-- C03: every id of a mixin is below the greatest number of mixins that were registered simultaneously, and the id
table is not longer than that; likewise for features. -/
theorem C03_ids_dense (D : Decls) (s : DomId → Settings) (ops : List Op) (d : DomId) :
    (∀ i m, getMixinById (run D (initWorld s) ops) d (some i) = some m → i < peakMixins D d (initWorld s) ops) ∧
    (∀ i f, getFeatureById (run D (initWorld s) ops) d (some i) = some f → i < peakFeatures D d (initWorld s) ops) ∧
    ((run D (initWorld s) ops).doms d).mixins.length ≤ peakMixins D d (initWorld s) ops ∧
    ((run D (initWorld s) ops).doms d).feats.length ≤ peakFeatures D d (initWorld s) ops := by
  have h1 := run_mixins_length D d ops _ (initWorld_reg s)
  have h2 := run_feats_length D d ops _ (initWorld_reg s)
  have e1 : ((initWorld s).doms d).mixins.length = 0 := rfl
  have e2 : ((initWorld s).doms d).feats.length = 0 := rfl
  rw [e1] at h1
  rw [e2] at h2
  refine ⟨?_, ?_, by omega, by omega⟩
  · intro i m h
    rw [getMixinById, getById_eq] at h
    obtain ⟨k, h3, h4⟩ := h
    simp at h3; subst h3
    have := (List.getElem?_eq_some_iff.1 h4).1
    omega
  · intro i m h
    rw [getFeatureById, getById_eq] at h
    obtain ⟨k, h3, h4⟩ := h
    simp at h3; subst h3
    have := (List.getElem?_eq_some_iff.1 h4).1
    omega

-- four different mixins were registered in domain 0, but never more than three at the same time
example : peakMixins regDecls 0 (initWorld fun _ => {}) regOps = 3 ∧ (regWorld.doms 0).mixins.length = 3 := by
  decide +kernel
example : (step regDecls (run regDecls (initWorld fun _ => {}) (regOps.take 4)) (.regMixin 0 3)).1 = .ok () := by
  decide +kernel

/-! ## C04 -/

/-- C04: in a domain that does not allow duplicate mixin names no two mixins have equal names, and none has an empty
name. -/
theorem C04_mixin_names_unique (D : Decls) (s : DomId → Settings) (ops : List Op) (d : DomId) (hs : (s d).allowDupMix = false)
    (m m' : Mix) (h1 : mixinRegistered d m (trace D (initWorld s) ops) = true)
    (h2 : mixinRegistered d m' (trace D (initWorld s) ops) = true) :
    (D.mixName m = D.mixName m' → m = m') ∧ D.mixName m ≠ [] := by
  have hn : MixNames D (run D (initWorld s) ops) d :=
    run_mixNames D d ops _ (initWorld_reg s) (by intro _; constructor <;> intros <;> simp_all [mixinsOf, initWorld, newDom])
  have := hn (by rw [run_settings D d ops _ (initWorld_reg s)]; exact hs)
  rw [mixinRegistered_iff] at h1 h2
  exact ⟨this.1 m m' h1 h2, this.2 m h1⟩

/-- C04: likewise for features. -/
theorem C04_feature_names_unique (D : Decls) (s : DomId → Settings) (ops : List Op) (d : DomId) (hs : (s d).allowDupFeat = false)
    (f f' : Feat) (h1 : f ∈ featuresOf (run D (initWorld s) ops) d) (h2 : f' ∈ featuresOf (run D (initWorld s) ops) d) :
    (D.featName f = D.featName f' → f = f') ∧ D.featName f ≠ [] := by
  have hn : FeatNames D (run D (initWorld s) ops) d :=
    run_featNames D d ops _ (initWorld_reg s) (by intro _; constructor <;> intros <;> simp_all [featuresOf, initWorld, newDom])
  have := hn (by rw [run_settings D d ops _ (initWorld_reg s)]; exact hs)
  exact ⟨this.1 f f' h1 h2, this.2 f h1⟩

/-- C04: lookup by name gives a mixin registered under this name, and nothing exactly if there is none. -/
theorem C04_mixin_by_name (D : Decls) (s : DomId → Settings) (ops : List Op) (d : DomId) (name : List UInt8) :
    (∀ m, getMixinByName D (run D (initWorld s) ops) d name = some m →
      mixinRegistered d m (trace D (initWorld s) ops) = true ∧ D.mixName m = name) ∧
    (getMixinByName D (run D (initWorld s) ops) d name = none ↔
      ∀ m, mixinRegistered d m (trace D (initWorld s) ops) = true → D.mixName m ≠ name) := by
  refine ⟨?_, ?_⟩
  · intro m h
    obtain ⟨h1, h2⟩ := getByName_some _ _ _ _ h
    exact ⟨(mixinRegistered_iff D s ops d m).2 ((mem_mixinsOf _ _ _).2 h2), h1⟩
  · rw [getMixinByName, getByName_none]
    constructor
    · intro h m hm
      rw [mixinRegistered_iff, mem_mixinsOf] at hm
      obtain ⟨i, hi⟩ := hm
      exact h i m hi
    · intro h i m hi
      exact h m ((mixinRegistered_iff D s ops d m).2 ((mem_mixinsOf _ _ _).2 ⟨i, hi⟩))

/-- C04: with unique names, lookup by name gives exactly the mixin with this name. -/
theorem C04_mixin_by_name_exact (D : Decls) (s : DomId → Settings) (ops : List Op) (d : DomId) (hs : (s d).allowDupMix = false)
    (name : List UInt8) (m : Mix) :
    getMixinByName D (run D (initWorld s) ops) d name = some m ↔
      mixinRegistered d m (trace D (initWorld s) ops) = true ∧ D.mixName m = name := by
  refine ⟨(C04_mixin_by_name D s ops d name).1 m, ?_⟩
  rintro ⟨h1, h2⟩
  cases h : getMixinByName D (run D (initWorld s) ops) d name with
  | none => exact absurd h2 ((C04_mixin_by_name D s ops d name).2.1 h m h1)
  | some m' =>
    obtain ⟨h3, h4⟩ := (C04_mixin_by_name D s ops d name).1 m' h
    rw [(C04_mixin_names_unique D s ops d hs m' m h3 h1).1 (by rw [h4, h2])]

/-- C04: lookup of a feature by name, in general and with unique names. -/
theorem C04_feature_by_name (D : Decls) (s : DomId → Settings) (ops : List Op) (d : DomId) (name : List UInt8) :
    (∀ f, getFeatureByName D (run D (initWorld s) ops) d name = some f →
      f ∈ featuresOf (run D (initWorld s) ops) d ∧ D.featName f = name) ∧
    (getFeatureByName D (run D (initWorld s) ops) d name = none ↔
      ∀ f, f ∈ featuresOf (run D (initWorld s) ops) d → D.featName f ≠ name) ∧
    ((s d).allowDupFeat = false → ∀ f, getFeatureByName D (run D (initWorld s) ops) d name = some f ↔
      f ∈ featuresOf (run D (initWorld s) ops) d ∧ D.featName f = name) := by
  have p1 : ∀ f, getFeatureByName D (run D (initWorld s) ops) d name = some f →
      f ∈ featuresOf (run D (initWorld s) ops) d ∧ D.featName f = name := by
    intro f h
    obtain ⟨h1, h2⟩ := getByName_some _ _ _ _ h
    exact ⟨(mem_featuresOf _ _ _).2 h2, h1⟩
  have p2 : getFeatureByName D (run D (initWorld s) ops) d name = none ↔
      ∀ f, f ∈ featuresOf (run D (initWorld s) ops) d → D.featName f ≠ name := by
    rw [getFeatureByName, getByName_none]
    constructor
    · intro h f hf
      obtain ⟨i, hi⟩ := (mem_featuresOf _ _ _).1 hf
      exact h i f hi
    · intro h i f hi
      exact h f ((mem_featuresOf _ _ _).2 ⟨i, hi⟩)
  refine ⟨p1, p2, fun hs f => ⟨p1 f, ?_⟩⟩
  rintro ⟨h1, h2⟩
  cases h : getFeatureByName D (run D (initWorld s) ops) d name with
  | none => exact absurd h2 (p2.1 h f h1)
  | some f' =>
    obtain ⟨h3, h4⟩ := p1 f' h
    rw [(C04_feature_names_unique D s ops d hs f' f h3 h1).1 (by rw [h4, h2])]

/-- C04: registering a feature succeeds exactly if it is not registered anywhere and, where names must be unique, its
name is not empty and not taken. -/
theorem C04_register_feature_iff (D : Decls) (s : DomId → Settings) (ops : List Op) (d : DomId) (f : Feat) :
    (step D (run D (initWorld s) ops) (.regFeature d f)).1 = .ok () ↔
      (∀ d', f ∉ featuresOf (run D (initWorld s) ops) d') ∧
      ((s d).allowDupFeat = false → D.featName f ≠ [] ∧
        ∀ f', f' ∈ featuresOf (run D (initWorld s) ops) d → D.featName f' ≠ D.featName f) := by
  have hr := reachable_reg D s ops
  have hset := run_settings D d ops _ (initWorld_reg s)
  have hset' : ((initWorld s).doms d).settings = s d := rfl
  rw [hset'] at hset
  have hfree : (∀ d', f ∉ featuresOf (run D (initWorld s) ops) d') ↔ (run D (initWorld s) ops).featId f = none := by
    constructor
    · intro h
      cases hm : (run D (initWorld s) ops).featId f with
      | none => rfl
      | some i =>
        obtain ⟨d', hd⟩ := hr.featReg f i hm
        exact absurd ((mem_featuresOf _ _ _).2 ⟨i, hd⟩) (h d')
    · intro h d' hd
      obtain ⟨i, hi⟩ := (mem_featuresOf _ _ _).1 hd
      rw [hr.featSlot d' i f hi] at h; simp at h
  show (registerFeature D (run D (initWorld s) ops) d f).1 = .ok () ↔ _
  rw [hfree]
  constructor
  · intro h
    obtain ⟨id, hi⟩ := registerFeature_ok D _ d f h
    refine ⟨hi.wasInvalid, fun ha => ⟨hi.ins.nonempty (by simp [hset, ha]), fun f' hf' => ?_⟩⟩
    obtain ⟨i, hii⟩ := (mem_featuresOf _ _ _).1 hf'
    exact hi.ins.unique (by simp [hset, ha]) i f' hii
  · rintro ⟨h1, h2⟩
    cases h : (registerFeature D (run D (initWorld s) ops) d f).1 with
    | ok u => rfl
    | error e =>
      exfalso
      unfold registerFeature at h
      cases hb : basicRegister D.featName (!((run D (initWorld s) ops).doms d).settings.allowDupFeat)
          ((run D (initWorld s) ops).featId f) f ((run D (initWorld s) ops).doms d).feats with
      | ok v => simp [hb] at h
      | error e' =>
        rcases basicRegister_error _ _ _ _ _ _ hb with ⟨-, h3⟩ | ⟨-, -, h3, h4⟩ | ⟨-, -, h3, j, r, h4, h5⟩
        · exact h3 h1
        · rw [hset] at h3; exact (h2 (by simpa using h3)).1 h4
        · rw [hset] at h3; exact (h2 (by simpa using h3)).2 r ((mem_featuresOf _ _ _).2 ⟨j, h4⟩) h5

/-- C04: registering a mixin (whose features are registered) succeeds exactly if it is not registered anywhere and,
where names must be unique, its name is not empty and not taken. -/
theorem C04_register_mixin_iff (D : Decls) (s : DomId → Settings) (ops : List Op) (d : DomId) (m : Mix)
    (hf : ∀ ff ∈ (D.mix m).feats, (run D (initWorld s) ops).featId ff.feat ≠ none) :
    (step D (run D (initWorld s) ops) (.regMixin d m)).1 = .ok () ↔
      (∀ d', mixinRegistered d' m (trace D (initWorld s) ops) = false) ∧
      ((s d).allowDupMix = false → D.mixName m ≠ [] ∧
        ∀ m', mixinRegistered d m' (trace D (initWorld s) ops) = true → D.mixName m' ≠ D.mixName m) := by
  have hr := reachable_reg D s ops
  have hset := run_settings D d ops _ (initWorld_reg s)
  have hset' : ((initWorld s).doms d).settings = s d := rfl
  rw [hset'] at hset
  have hfree : (∀ d', mixinRegistered d' m (trace D (initWorld s) ops) = false) ↔ (run D (initWorld s) ops).mixId m = none := by
    constructor
    · exact (C01_mixin_id_valid D s ops m).2
    · intro h d'
      cases hb : mixinRegistered d' m (trace D (initWorld s) ops) with
      | false => rfl
      | true =>
        obtain ⟨⟨i, hi⟩, -⟩ := (C01_mixin_id_valid D s ops m).1 d' hb
        rw [hi] at h; simp at h
  show (registerMixin D (run D (initWorld s) ops) d m).1 = .ok () ↔ _
  rw [hfree]
  constructor
  · intro h
    obtain ⟨id, hi⟩ := registerMixin_ok D _ d m hr h
    refine ⟨hi.wasInvalid, fun ha => ⟨hi.ins.nonempty (by simp [hset, ha]), fun m' hm' => ?_⟩⟩
    rw [mixinRegistered_iff, mem_mixinsOf] at hm'
    obtain ⟨i, hii⟩ := hm'
    exact hi.ins.unique (by simp [hset, ha]) i m' hii
  · rintro ⟨h1, h2⟩
    have hskip : ∀ fs : List Feat, (∀ f ∈ fs, (run D (initWorld s) ops).featId f ≠ none) →
        registerFeatures D (run D (initWorld s) ops) d fs = (.ok (), run D (initWorld s) ops) := by
      intro fs
      induction fs with
      | nil => intro _; rfl
      | cons f fs ih =>
        intro h
        unfold registerFeatures
        rw [if_pos (h f List.mem_cons_self), ih fun g hg => h g (List.mem_cons_of_mem _ hg)]
    unfold registerMixin
    rw [if_neg (by rw [hr.mixFree m h1]; simp)]
    rw [hskip _ (by intro f hf'; obtain ⟨ff, h3, rfl⟩ := List.mem_map.1 hf'; exact hf ff h3)]
    simp only
    cases hb : basicRegister D.mixName (!((run D (initWorld s) ops).doms d).settings.allowDupMix)
        ((run D (initWorld s) ops).mixId m) m ((run D (initWorld s) ops).doms d).mixins with
    | ok v => rfl
    | error e' =>
      exfalso
      rcases basicRegister_error _ _ _ _ _ _ hb with ⟨-, h3⟩ | ⟨-, -, h3, h4⟩ | ⟨-, -, h3, j, r, h4, h5⟩
      · exact h3 h1
      · rw [hset] at h3; exact (h2 (by simpa using h3)).1 h4
      · rw [hset] at h3
        exact (h2 (by simpa using h3)).2 r ((mixinRegistered_iff D s ops d r).2 ((mem_mixinsOf _ _ _).2 ⟨j, h4⟩)) h5

example : getMixinByName regDecls regWorld 0 [4] = some 3 ∧ regDecls.mixName 3 = [4] ∧
    getMixinByName regDecls regWorld 0 [2] = none ∧ getFeatureByName regDecls regWorld 0 [3] = some 2 ∧
    (step regDecls (run regDecls (initWorld fun _ => {}) (regOps.take 2)) (.regMixin 0 5)).1 = .error .duplicateName := by
  decide +kernel
-- the hypothesis of `C04_register_mixin_iff` with a mixin that has features
example : (∀ ff ∈ (regDecls.mix 1).feats, regWorld.featId ff.feat ≠ none) ∧ (regDecls.mix 1).feats ≠ [] := by decide +kernel

/-! ## C05 -/

/-- C05: if registering a feature throws, nothing has changed. -/
theorem C05_failed_feature (D : Decls) (s : DomId → Settings) (ops : List Op) (d : DomId) (f : Feat) (e : Err)
    (h : (step D (run D (initWorld s) ops) (.regFeature d f)).1 = .error e) :
    (step D (run D (initWorld s) ops) (.regFeature d f)).2 = run D (initWorld s) ops :=
  registerFeature_error D _ d f e h

/-- C05: if registering a mixin throws, the only possible change is that features of this mixin, which were not
registered before, are now registered in the domain: other domains, all ids and domains of mixins, and the domain's
mixins, type classes, rules, types and stored queries are unchanged, and all features that were registered still have
their id. -/
theorem C05_failed_mixin (D : Decls) (s : DomId → Settings) (ops : List Op) (d : DomId) (m : Mix) (e : Err)
    (h : (step D (run D (initWorld s) ops) (.regMixin d m)).1 = .error e) :
    (∀ d', d' ≠ d → (step D (run D (initWorld s) ops) (.regMixin d m)).2.doms d' = (run D (initWorld s) ops).doms d') ∧
    (step D (run D (initWorld s) ops) (.regMixin d m)).2.mixId = (run D (initWorld s) ops).mixId ∧
    (step D (run D (initWorld s) ops) (.regMixin d m)).2.mixDom = (run D (initWorld s) ops).mixDom ∧
    ((step D (run D (initWorld s) ops) (.regMixin d m)).2.doms d).mixins = ((run D (initWorld s) ops).doms d).mixins ∧
    ((step D (run D (initWorld s) ops) (.regMixin d m)).2.doms d).classes = ((run D (initWorld s) ops).doms d).classes ∧
    ((step D (run D (initWorld s) ops) (.regMixin d m)).2.doms d).rules = ((run D (initWorld s) ops).doms d).rules ∧
    ((step D (run D (initWorld s) ops) (.regMixin d m)).2.doms d).types = ((run D (initWorld s) ops).doms d).types ∧
    ((step D (run D (initWorld s) ops) (.regMixin d m)).2.doms d).queries = ((run D (initWorld s) ops).doms d).queries ∧
    (∀ f, (run D (initWorld s) ops).featId f ≠ none →
      (step D (run D (initWorld s) ops) (.regMixin d m)).2.featId f = (run D (initWorld s) ops).featId f) ∧
    (∀ f, f ∈ featuresOf (step D (run D (initWorld s) ops) (.regMixin d m)).2 d ↔
      f ∈ featuresOf (run D (initWorld s) ops) d ∨
      (f ∈ featuresOf (step D (run D (initWorld s) ops) (.regMixin d m)).2 d ∧ (∃ ff ∈ (D.mix m).feats, ff.feat = f) ∧
        ∀ d', f ∉ featuresOf (run D (initWorld s) ops) d')) := by
  obtain ⟨hg, hr'⟩ := registerMixin_error D _ d m (reachable_reg D s ops) e h
  have hr := reachable_reg D s ops
  generalize hW : run D (initWorld s) ops = W at *
  have hstep : (step D W (.regMixin d m)).2 = (registerMixin D W d m).2 := rfl
  rw [hstep]
  refine ⟨hg.other, hg.mixId, hg.mixDom, ?_, ?_, ?_, ?_, ?_, ?_, ?_⟩
  · rw [hg.dom]
  · rw [hg.dom]
  · rw [hg.dom]
  · rw [hg.dom]
  · rw [hg.dom]
  · intro f hf
    rcases hg.ids f with h1 | ⟨-, h1, -⟩
    · exact h1
    · exact absurd h1 hf
  · intro f
    constructor
    · intro hf
      obtain ⟨i, hi⟩ := (mem_featuresOf _ _ _).1 hf
      rcases hg.newSlot i f hi with h1 | ⟨h1, h2, -⟩
      · exact .inl ((mem_featuresOf _ _ _).2 ⟨i, h1⟩)
      · refine .inr ⟨hf, by simpa using h1, fun d' hd' => ?_⟩
        obtain ⟨j, hj⟩ := (mem_featuresOf _ _ _).1 hd'
        rw [hr.featSlot d' j f hj] at h2; simp at h2
    · rintro (hf | hf)
      · obtain ⟨i, hi⟩ := (mem_featuresOf _ _ _).1 hf
        exact (mem_featuresOf _ _ _).2 ⟨i, hg.keepSlot i f hi⟩
      · exact hf.1

-- registering mixin 7 fails because its second feature has no name; its first feature is registered then
example : (step regDecls regWorld (.regMixin 0 7)).1 = .error .emptyName ∧
    featuresOf regWorld 0 = [1, 2] ∧ featuresOf (step regDecls regWorld (.regMixin 0 7)).2 0 = [1, 2, 3] := by
  decide +kernel

/-! ## C06 -/

/-- C06: unregistering a feature that the domain does not list throws and changes nothing. -/
theorem C06_unregister_foreign_feature (D : Decls) (s : DomId → Settings) (ops : List Op) (d : DomId) (f : Feat)
    (h : f ∉ featuresOf (run D (initWorld s) ops) d) :
    step D (run D (initWorld s) ops) (.unregFeature d f) = (.error .unregForeign, run D (initWorld s) ops) := by
  show unregisterFeature _ d f = _
  rcases unregisterFeature_cases (run D (initWorld s) ops) d f with ⟨h1, -⟩ | ⟨i, -, h2, -⟩
  · exact h1
  · exact absurd ((mem_featuresOf _ _ _).2 ⟨i, h2⟩) h

/-- C06 for mixins is false: a history after which domain 0 has a type with mixin 2, and `unregister_mixin` of mixin 1,
which belongs to domain 1, throws but removes this type from domain 0. (Full statement: as
`C06_unregister_foreign_feature`.) -/
theorem C06_unregister_foreign_mixin_refuted :
    ∃ (ops : List Op), mixinRegistered 0 1 (trace regDecls (initWorld fun _ => {}) ops) = false ∧
      (step regDecls (run regDecls (initWorld fun _ => {}) ops) (.unregMixin 0 1)).1 = .error .unregForeign ∧
      ((run regDecls (initWorld fun _ => {}) ops).doms 0).types.map (·.mixins) = [[2]] ∧
      ((step regDecls (run regDecls (initWorld fun _ => {}) ops) (.unregMixin 0 1)).2.doms 0).types = [] := by
  refine ⟨[.regMixin 0 2, .regMixin 1 1, .getType 0 [2]], ?_⟩
  decide +kernel

/-- C06 for mixins, what holds: the call throws, all registries of elements and ids, and all other domains are
unchanged; the types are unchanged if none has a mixin with the same id number, in particular if the mixin is registered
nowhere. Missing: the types that have such a mixin are removed (`C06_unregister_foreign_mixin_refuted`). -/
theorem C06_unregister_foreign_mixin_partial (D : Decls) (s : DomId → Settings) (ops : List Op) (d : DomId) (m : Mix)
    (h : mixinRegistered d m (trace D (initWorld s) ops) = false) :
    (step D (run D (initWorld s) ops) (.unregMixin d m)).1 ≠ .ok () ∧
    (step D (run D (initWorld s) ops) (.unregMixin d m)).2.featId = (run D (initWorld s) ops).featId ∧
    (step D (run D (initWorld s) ops) (.unregMixin d m)).2.mixId = (run D (initWorld s) ops).mixId ∧
    (step D (run D (initWorld s) ops) (.unregMixin d m)).2.mixDom = (run D (initWorld s) ops).mixDom ∧
    (∀ d', d' ≠ d → (step D (run D (initWorld s) ops) (.unregMixin d m)).2.doms d' = (run D (initWorld s) ops).doms d') ∧
    ((step D (run D (initWorld s) ops) (.unregMixin d m)).2.doms d).feats = ((run D (initWorld s) ops).doms d).feats ∧
    ((step D (run D (initWorld s) ops) (.unregMixin d m)).2.doms d).mixins = ((run D (initWorld s) ops).doms d).mixins ∧
    ((step D (run D (initWorld s) ops) (.unregMixin d m)).2.doms d).classes = ((run D (initWorld s) ops).doms d).classes ∧
    ((step D (run D (initWorld s) ops) (.unregMixin d m)).2.doms d).rules = ((run D (initWorld s) ops).doms d).rules ∧
    (((run D (initWorld s) ops).mixId m = none ∨
        ∀ t ∈ ((run D (initWorld s) ops).doms d).types, t.hasId ((run D (initWorld s) ops).mixId m) = false) →
      ((step D (run D (initWorld s) ops) (.unregMixin d m)).2.doms d).types = ((run D (initWorld s) ops).doms d).types) := by
  have hno : m ∉ mixinsOf (run D (initWorld s) ops) d := by
    intro hm; rw [← mixinRegistered_iff D s ops d m] at hm; rw [h] at hm; simp at hm
  generalize run D (initWorld s) ops = W at *
  show (unregisterMixin W d m).1 ≠ .ok () ∧ (unregisterMixin W d m).2.featId = _ ∧ (unregisterMixin W d m).2.mixId = _ ∧
    (unregisterMixin W d m).2.mixDom = _ ∧ (∀ d', d' ≠ d → (unregisterMixin W d m).2.doms d' = _) ∧
    ((unregisterMixin W d m).2.doms d).feats = _ ∧ ((unregisterMixin W d m).2.doms d).mixins = _ ∧
    ((unregisterMixin W d m).2.doms d).classes = _ ∧ ((unregisterMixin W d m).2.doms d).rules = _ ∧
    (_ → ((unregisterMixin W d m).2.doms d).types = _)
  have hown : ownSlot (W.doms d).mixins (W.mixId m) m = none := by
    rw [ownSlot_none]
    intro i _ hi
    exact hno ((mem_mixinsOf _ _ _).2 ⟨i, hi⟩)
  unfold unregisterMixin
  simp only [hown]
  split
  · simp
  · refine ⟨by simp, rfl, rfl, rfl, fun d' hd' => setDom_ne _ _ hd', ?_, ?_, ?_, ?_, ?_⟩
    · simp
    · simp
    · simp
    · simp
    · intro ht
      simp only [setDom_same, List.filter_eq_self, Bool.not_eq_eq_eq_not, Bool.not_true]
      rcases ht with ht | ht
      · intro t _; rw [ht]; rfl
      · exact ht

example : mixinRegistered 0 1 (trace regDecls (initWorld fun _ => {}) regOps) = false ∧ regWorld.mixId 1 = some 0 ∧
    (step regDecls regWorld (.unregMixin 0 1)).1 = .error .unregForeign := by
  decide +kernel

/-! ## C07 -/

/-- C07: `get_type_class(name)` gives `c` exactly if `c` was registered (by a call that returned), was not unregistered
since and has this name. -/
theorem C07_class_by_name (D : Decls) (s : DomId → Settings) (ops : List Op) (d : DomId) (name : List UInt8) (c : Cls) :
    getTypeClass D (run D (initWorld s) ops) d name = some c ↔
      classRegistered d c (trace D (initWorld s) ops) = true ∧ D.clsName c = name := by
  have hc := reachable_cls D s ops d
  rw [classRegistered_iff]
  constructor
  · intro h
    obtain ⟨h1, h2⟩ := getByName_some _ _ _ _ h
    exact ⟨(mem_classesOf _ _ _).2 h2, h1⟩
  · rintro ⟨h1, h2⟩
    obtain ⟨i, hi⟩ := (mem_classesOf _ _ _).1 h1
    cases h : getTypeClass D (run D (initWorld s) ops) d name with
    | none => exact absurd h2 ((getByName_none _ _ _).1 h i c hi)
    | some c' =>
      obtain ⟨h3, j, h4⟩ := getByName_some _ _ _ _ h
      have := hc.uniq i j c c' hi h4 (by rw [h2, h3])
      subst this
      rw [hi] at h4; simp at h4; rw [h4]

/-- C07, the registration itself, is false: registering a class after another one was unregistered is undefined
behaviour although its name is not empty, it has a function and no class is registered. -/
theorem C07_register_class_refuted :
    ∃ (ops : List Op) (c : Cls), regDecls.clsName c ≠ [] ∧ (regDecls.cls c).isNull = false ∧
      (∀ c', classRegistered 0 c' (trace regDecls (initWorld fun _ => {}) ops) = false) ∧
      (step regDecls (run regDecls (initWorld fun _ => {}) ops) (.regClass 0 c)).1 = .error .ub ∧
      getTypeClass regDecls (step regDecls (run regDecls (initWorld fun _ => {}) ops) (.regClass 0 c)).2 0
        (regDecls.clsName c) = none := by
  refine ⟨[.regClass 0 1, .unregClass 0 1], 2, by decide +kernel, by decide +kernel, ?_, by decide +kernel, by decide +kernel⟩
  intro c'
  by_cases h : c' = 1
  · subst h; decide +kernel
  · have e : trace regDecls (initWorld fun _ => {}) [.regClass 0 1, .unregClass 0 1] =
        [(.regClass 0 1, .ok ()), (.unregClass 0 1, .ok ())] := by
      simp only [trace]
      rw [show (step regDecls (initWorld fun _ => {}) (.regClass 0 1)).1 = .ok () by decide +kernel]
      rfl
    have h' : ¬ (1 = c') := fun e => h e.symm
    rw [e]; simp [classRegistered, classRegStep, h']

/-- C07, the registration, what holds: as long as no class was unregistered from the domain, registering a class
succeeds exactly if it has a non-empty name that is not taken and a function, and otherwise throws and changes nothing.
Missing: domains from which a class was unregistered (`C07_register_class_refuted`). -/
theorem C07_register_class_partial (D : Decls) (s : DomId → Settings) (ops : List Op) (d : DomId) (c : Cls)
    (hno : ∀ c', Op.unregClass d c' ∉ ops) :
    ((step D (run D (initWorld s) ops) (.regClass d c)).1 = .ok () ↔
      D.clsName c ≠ [] ∧ (D.cls c).isNull = false ∧
      ∀ c', classRegistered d c' (trace D (initWorld s) ops) = true → D.clsName c' ≠ D.clsName c) ∧
    ((step D (run D (initWorld s) ops) (.regClass d c)).1 ≠ .ok () →
      (step D (run D (initWorld s) ops) (.regClass d c)).1 ≠ .error .ub ∧
      (step D (run D (initWorld s) ops) (.regClass d c)).2 = run D (initWorld s) ops) := by
  have hf := run_noFree D d ops _ (initWorld_reg s) hno (by simp [initWorld, newDom])
  have hcr : ∀ c', classRegistered d c' (trace D (initWorld s) ops) = true ↔ c' ∈ classesOf (run D (initWorld s) ops) d :=
    classRegistered_iff D s ops d
  show ((registerTypeClass D _ d c).1 = .ok () ↔ _) ∧ ((registerTypeClass D _ d c).1 ≠ .ok () →
    (registerTypeClass D _ d c).1 ≠ .error .ub ∧ (registerTypeClass D _ d c).2 = _)
  rcases registerTypeClass_cases D (run D (initWorld s) ops) d c with
    ⟨h, h1⟩ | ⟨h, h1, h2⟩ | ⟨h, h1, h2, c', h3, h4⟩ | ⟨h, -, -, -, h5⟩ | ⟨h, h1, h2, h3, -⟩
  · rw [h]; simp [h1]
  · rw [h]; simp [h2]
  · rw [h]
    refine ⟨⟨by simp, fun hh => absurd h4 (hh.2.2 c' ((hcr c').2 h3))⟩, by simp⟩
  · exact absurd h5 hf
  · rw [h]
    refine ⟨⟨fun _ => ⟨h1, h2, fun c' hc' => h3 c' ((hcr c').1 hc')⟩, fun _ => rfl⟩, by simp⟩

/-- C07: registering a class under a name that is taken throws and changes nothing. -/
theorem C07_duplicate_class (D : Decls) (s : DomId → Settings) (ops : List Op) (d : DomId) (c c' : Cls)
    (h : classRegistered d c' (trace D (initWorld s) ops) = true) (hname : D.clsName c' = D.clsName c)
    (hf : (D.cls c).isNull = false) :
    step D (run D (initWorld s) ops) (.regClass d c) = (.error .duplicateName, run D (initWorld s) ops) := by
  rw [classRegistered_iff] at h
  obtain ⟨i, hi⟩ := (mem_classesOf _ _ _).1 h
  have hne := (reachable_cls D s ops d).nonempty i c' hi
  rw [hname] at hne
  show registerTypeClass D _ d c = _
  rcases registerTypeClass_cases D (run D (initWorld s) ops) d c with
    ⟨-, h1⟩ | ⟨-, -, h2⟩ | ⟨h1, -⟩ | ⟨-, -, -, h4, -⟩ | ⟨-, -, -, h4, -⟩
  · exact absurd h1 hne
  · rw [hf] at h2; simp at h2
  · exact h1
  · exact absurd hname (h4 c' h)
  · exact absurd hname (h4 c' h)

example : getTypeClass regDecls (run regDecls (initWorld fun _ => {}) [.regClass 0 1, .regClass 0 2, .unregClass 0 1]) 0 [3] = some 2 ∧
    classRegistered 0 2 (trace regDecls (initWorld fun _ => {}) [.regClass 0 1, .regClass 0 2, .unregClass 0 1]) = true ∧
    (step regDecls (run regDecls (initWorld fun _ => {}) [.regClass 0 1, .regClass 0 2]) (.regClass 0 3)).1 = .ok () := by
  decide +kernel

/-! ## C51 -/

/-- C51: `type.is_of(name)` gives what the class registered under this name says of the type, and throws exactly if there
is none. -/
theorem C51_is_of (D : Decls) (s : DomId → Settings) (ops : List Op) (t : TypeRec) (name : List UInt8) :
    (∀ b, typeIsOf D (run D (initWorld s) ops) t name = .ok b ↔
      ∃ c, classRegistered t.dom c (trace D (initWorld s) ops) = true ∧ D.clsName c = name ∧ b = (D.cls c).matchesT t.mixins) ∧
    (typeIsOf D (run D (initWorld s) ops) t name = .error .unknownTypeClass ↔
      ∀ c, classRegistered t.dom c (trace D (initWorld s) ops) = true → D.clsName c ≠ name) := by
  have key := C07_class_by_name D s ops t.dom name
  unfold typeIsOf
  cases h : getTypeClass D (run D (initWorld s) ops) t.dom name with
  | none =>
    have hn : ∀ c, classRegistered t.dom c (trace D (initWorld s) ops) = true → D.clsName c ≠ name := by
      intro c h1 h2
      have := (key c).2 ⟨h1, h2⟩
      rw [h] at this; simp at this
    refine ⟨fun b => ⟨by simp, ?_⟩, ⟨fun _ => hn, fun _ => rfl⟩⟩
    rintro ⟨c, h1, h2, -⟩; exact absurd h2 (hn c h1)
  | some c =>
    obtain ⟨h1, h2⟩ := (key c).1 h
    refine ⟨fun b => ⟨?_, ?_⟩, ⟨by simp, fun hn => absurd h2 (hn c h1)⟩⟩
    · intro hb; simp at hb; exact ⟨c, h1, h2, hb.symm⟩
    · rintro ⟨c', h3, h4, h5⟩
      have := (key c').2 ⟨h3, h4⟩
      rw [h] at this; simp at this; subst this; rw [h5]

-- a type of domain 0 asked for a registered and for an unknown class
example : typeIsOf regDecls (run regDecls (initWorld fun _ => {}) [.regClass 0 1, .regClass 0 2]) (emptyType 0) [3] = .ok true ∧
    typeIsOf regDecls (run regDecls (initWorld fun _ => {}) [.regClass 0 1, .regClass 1 2]) (emptyType 0) [3] =
      .error .unknownTypeClass := by
  decide +kernel

end Dnmx.Props
