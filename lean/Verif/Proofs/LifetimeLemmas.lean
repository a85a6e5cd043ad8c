import Verif.Spec.Lifetime
import Verif.Proofs.TypeLemmas

/-! # Lemmas about the destruction of domains -/

set_option linter.unusedSimpArgs false
set_option linter.unusedVariables false

namespace Dnmx
open Spec

/-- Every type knows its domain. -/
def Home (W : World) : Prop := ∀ d, ∀ t ∈ (W.doms d).types, t.dom = d

/-- Two results that are the same up to addresses; domains of the second world that have no counterpart are as in `V`. -/
structure SimRes {α : Type} (ρ : DomId → DomId) (V : World) (a b : Except Err α × World) : Prop where
  out : b.1 = a.1
  moved : SameUpTo ρ a.2 b.2
  home : Home a.2
  frame : ∀ k, (∀ d, ρ d ≠ k) → b.2.doms k = V.doms k

/-- Injective addresses. -/
def InjAddr (ρ : DomId → DomId) : Prop := ∀ a b, ρ a = ρ b → a = b

theorem SimRes.same {α : Type} {ρ : DomId → DomId} {W V : World} (h : SameUpTo ρ W V) (hh : Home W) (e : Except Err α) :
    SimRes ρ V (e, W) (e, V) := ⟨rfl, h, hh, fun _ _ => rfl⟩

theorem moved_setDom {ρ : DomId → DomId} (hi : InjAddr ρ) {W V : World} (h : SameUpTo ρ W V) (d : DomId) (x y : Dom)
    (hy : y = domAtAddr ρ x) : SameUpTo ρ (W.setDom d x) (V.setDom (ρ d) y) := by
  refine ⟨?_, h.featId, h.mixId, h.mixDom, h.nextType⟩
  intro d'
  by_cases e : d' = d
  · subst e; simp [World.setDom, upd, hy]
  · have : ρ d' ≠ ρ d := fun hh => e (hi _ _ hh)
    simp [World.setDom, upd, e, this, h.doms d']

theorem frame_setDom {ρ : DomId → DomId} (V : World) (d : DomId) (y : Dom) (k : DomId) (hk : ∀ d, ρ d ≠ k) :
    (V.setDom (ρ d) y).doms k = V.doms k := by
  have : k ≠ ρ d := fun h => hk d h.symm
  simp [World.setDom, upd, this]

theorem home_setDom {W : World} (h : Home W) (d : DomId) (x : Dom) (hx : ∀ t ∈ x.types, t.dom = d) :
    Home (W.setDom d x) := by
  intro d' t ht
  by_cases e : d' = d
  · subst e; simp [World.setDom, upd] at ht; exact hx t ht
  · simp [World.setDom, upd, e] at ht; exact h d' t ht

/-- Changing one domain, the same way on both sides. -/
theorem SimRes.set {α : Type} {ρ : DomId → DomId} (hi : InjAddr ρ) {W V : World} (h : SameUpTo ρ W V) (hh : Home W)
    (e : Except Err α) (d : DomId) (x y : Dom) (hx : ∀ t ∈ x.types, t.dom = d) (hy : y = domAtAddr ρ x) :
    SimRes ρ V (e, W.setDom d x) (e, V.setDom (ρ d) y) :=
  ⟨rfl, moved_setDom hi h d x y hy, home_setDom hh d x hx, fun k hk => frame_setDom V d y k hk⟩

theorem moved_feats {ρ : DomId → DomId} {W V : World} (h : SameUpTo ρ W V) (d : DomId) :
    (V.doms (ρ d)).feats = (W.doms d).feats := by rw [h.doms]; rfl
theorem moved_mixins {ρ : DomId → DomId} {W V : World} (h : SameUpTo ρ W V) (d : DomId) :
    (V.doms (ρ d)).mixins = (W.doms d).mixins := by rw [h.doms]; rfl
theorem moved_classes {ρ : DomId → DomId} {W V : World} (h : SameUpTo ρ W V) (d : DomId) :
    (V.doms (ρ d)).classes = (W.doms d).classes := by rw [h.doms]; rfl
theorem moved_rules {ρ : DomId → DomId} {W V : World} (h : SameUpTo ρ W V) (d : DomId) :
    (V.doms (ρ d)).rules = (W.doms d).rules := by rw [h.doms]; rfl
theorem moved_queries {ρ : DomId → DomId} {W V : World} (h : SameUpTo ρ W V) (d : DomId) :
    (V.doms (ρ d)).queries = (W.doms d).queries := by rw [h.doms]; rfl
theorem moved_settings {ρ : DomId → DomId} {W V : World} (h : SameUpTo ρ W V) (d : DomId) :
    (V.doms (ρ d)).settings = (W.doms d).settings := by rw [h.doms]; rfl

theorem registerFeature_moved {ρ : DomId → DomId} (hi : InjAddr ρ) (D : Decls) {W V : World} (h : SameUpTo ρ W V)
    (hh : Home W) (d : DomId) (f : Feat) : SimRes ρ V (registerFeature D W d f) (registerFeature D V (ρ d) f) := by
  unfold registerFeature
  rw [moved_settings h, moved_feats h, h.featId]
  cases hb : basicRegister D.featName (!(W.doms d).settings.allowDupFeat) (W.featId f) f (W.doms d).feats with
  | error e => exact SimRes.same h hh _
  | ok p =>
    obtain ⟨id, sparse⟩ := p
    have hs := SimRes.set (α := Unit) hi h hh (.ok ()) d { W.doms d with feats := sparse }
      { V.doms (ρ d) with feats := sparse } (hh d) (by rw [h.doms]; rfl)
    exact ⟨rfl, ⟨hs.moved.doms, rfl, hs.moved.mixId, hs.moved.mixDom, hs.moved.nextType⟩, hs.home, hs.frame⟩

theorem unregisterFeature_moved {ρ : DomId → DomId} (hi : InjAddr ρ) {W V : World} (h : SameUpTo ρ W V)
    (hh : Home W) (d : DomId) (f : Feat) : SimRes ρ V (unregisterFeature W d f) (unregisterFeature V (ρ d) f) := by
  unfold unregisterFeature
  rw [moved_feats h, h.featId]
  cases hb : ownSlot (W.doms d).feats (W.featId f) f with
  | none => exact SimRes.same h hh _
  | some i =>
    have hs := SimRes.set (α := Unit) hi h hh (.ok ()) d { W.doms d with feats := (W.doms d).feats.set i none }
      { V.doms (ρ d) with feats := (W.doms d).feats.set i none } (hh d) (by rw [h.doms]; rfl)
    exact ⟨rfl, ⟨hs.moved.doms, rfl, hs.moved.mixId, hs.moved.mixDom, hs.moved.nextType⟩, hs.home, hs.frame⟩

theorem registerFeatures_moved {ρ : DomId → DomId} (hi : InjAddr ρ) (D : Decls) (d : DomId) : ∀ (fs : List Feat)
    {W V : World}, SameUpTo ρ W V → Home W → SimRes ρ V (registerFeatures D W d fs) (registerFeatures D V (ρ d) fs)
  | [], W, V, h, hh => SimRes.same h hh _
  | f :: fs, W, V, h, hh => by
    unfold registerFeatures
    rw [h.featId]
    by_cases hf : W.featId f ≠ none
    · rw [if_pos hf, if_pos hf]; exact registerFeatures_moved hi D d fs h hh
    · rw [if_neg hf, if_neg hf]
      have hs := registerFeature_moved hi D h hh d f
      rcases hr : registerFeature D W d f with ⟨e1, W1⟩
      rcases hr2 : registerFeature D V (ρ d) f with ⟨e2, V1⟩
      rw [hr, hr2] at hs
      have he : e2 = e1 := hs.out
      subst he
      cases e2 with
      | error e => exact hs
      | ok u =>
        have hrec := registerFeatures_moved hi D d fs hs.moved hs.home
        exact ⟨hrec.out, hrec.moved, hrec.home, fun k hk => (hrec.frame k hk).trans (hs.frame k hk)⟩

theorem option_map_ne {ρ : DomId → DomId} (hi : InjAddr ρ) (o : Option Nat) (d : DomId) :
    (o.map ρ = some (ρ d) ↔ o = some d) := by
  cases o with
  | none => simp
  | some a =>
    simp only [Option.map_some, Option.some.injEq]
    exact ⟨hi a d, fun h => by rw [h]⟩

theorem registerMixin_moved {ρ : DomId → DomId} (hi : InjAddr ρ) (D : Decls) {W V : World} (h : SameUpTo ρ W V)
    (hh : Home W) (d : DomId) (m : Mix) : SimRes ρ V (registerMixin D W d m) (registerMixin D V (ρ d) m) := by
  unfold registerMixin
  have hc : (V.mixDom m ≠ none ∧ V.mixDom m ≠ some (ρ d)) ↔ (W.mixDom m ≠ none ∧ W.mixDom m ≠ some d) := by
    rw [h.mixDom, Ne, Ne, Ne, Ne, option_map_ne hi]
    simp
  by_cases hf : W.mixDom m ≠ none ∧ W.mixDom m ≠ some d
  · rw [if_pos hf, if_pos (hc.2 hf)]; exact SimRes.same h hh _
  · rw [if_neg hf, if_neg (fun x => hf (hc.1 x))]
    have hs := registerFeatures_moved hi D d ((D.mix m).feats.map (·.feat)) h hh
    rcases hr : registerFeatures D W d ((D.mix m).feats.map (·.feat)) with ⟨e1, W1⟩
    rcases hr2 : registerFeatures D V (ρ d) ((D.mix m).feats.map (·.feat)) with ⟨e2, V1⟩
    rw [hr, hr2] at hs
    simp only [hr, hr2]
    have he : e2 = e1 := hs.out
    subst he
    cases e2 with
    | error e => exact ⟨rfl, hs.moved, hs.home, hs.frame⟩
    | ok u =>
      have hm : SameUpTo ρ W1 V1 := hs.moved
      have hh1 : Home W1 := hs.home
      simp only
      rw [moved_settings hm, moved_mixins hm, hm.mixId]
      cases hb : basicRegister D.mixName (!(W1.doms d).settings.allowDupMix) (W1.mixId m) m (W1.doms d).mixins with
      | error e => exact ⟨rfl, hm, hh1, hs.frame⟩
      | ok p =>
        obtain ⟨id, sparse⟩ := p
        have hs2 := SimRes.set (α := Unit) hi hm hh1 (.ok ()) d { W1.doms d with mixins := sparse }
          { V1.doms (ρ d) with settings := (W1.doms d).settings, mixins := sparse } (hh1 d) (by rw [hm.doms]; rfl)
        refine ⟨rfl, ⟨hs2.moved.doms, hs2.moved.featId, rfl, ?_, hs2.moved.nextType⟩, hs2.home,
          fun k hk => (hs2.frame k hk).trans (hs.frame k hk)⟩
        intro m'
        by_cases e : m' = m
        · subst e; simp [upd]
        · simp [upd, e, World.setDom, hm.mixDom]

theorem hasId_atAddr (ρ : DomId → DomId) (t : TypeRec) (id : Option Nat) : (typeAtAddr ρ t).hasId id = t.hasId id := rfl

theorem find_map_atAddr (ρ : DomId → DomId) (p : TypeRec → Bool) (hp : ∀ t, p (typeAtAddr ρ t) = p t) :
    ∀ l : List TypeRec, (l.map (typeAtAddr ρ)).find? p = (l.find? p).map (typeAtAddr ρ)
  | [] => rfl
  | t :: ts => by
    have ih := find_map_atAddr ρ p hp ts
    simp only [List.map_cons, List.find?_cons, hp]
    cases p t <;> simp [ih]

theorem queryHas_moved (ρ : DomId → DomId) (x : Dom) (d : DomId) (id : Option Nat) (q : List Mix × TypeId) :
    queryHas (domAtAddr ρ x) (ρ d) id q = queryHas x d id q := by
  unfold queryHas Dom.typeAt
  by_cases e : q.2 = emptyTid
  · rw [if_pos e, if_pos e]; rfl
  · rw [if_neg e, if_neg e]
    have := find_map_atAddr ρ (fun r => r.tid == q.2) (fun _ => rfl) x.types
    show (List.find? _ (x.types.map (typeAtAddr ρ))).map _ = _
    rw [this, Option.map_map]
    rfl

theorem purgeQueries_moved (ρ : DomId → DomId) (x : Dom) (d : DomId) (id : Option Nat) (m : Mix) :
    ∀ l, purgeQueries (domAtAddr ρ x) (ρ d) id m l = purgeQueries x d id m l
  | [] => rfl
  | q :: qs => by
    unfold purgeQueries
    rw [queryHas_moved, purgeQueries_moved ρ x d id m qs]

theorem filter_map_atAddr (ρ : DomId → DomId) (p : TypeRec → Bool) (hp : ∀ t, p (typeAtAddr ρ t) = p t) :
    ∀ l : List TypeRec, (l.map (typeAtAddr ρ)).filter p = (l.filter p).map (typeAtAddr ρ)
  | [] => rfl
  | t :: ts => by
    have ih := filter_map_atAddr ρ p hp ts
    simp only [List.map_cons, List.filter_cons, hp]
    cases p t <;> simp [ih]

theorem unregisterMixin_moved {ρ : DomId → DomId} (hi : InjAddr ρ) {W V : World} (h : SameUpTo ρ W V)
    (hh : Home W) (d : DomId) (m : Mix) : SimRes ρ V (unregisterMixin W d m) (unregisterMixin V (ρ d) m) := by
  unfold unregisterMixin
  simp only
  rw [moved_mixins h, moved_queries h, h.mixId, h.doms d, purgeQueries_moved]
  have ht : (domAtAddr ρ (W.doms d)).types.filter (fun t => !t.hasId (W.mixId m)) =
      ((W.doms d).types.filter (fun t => !t.hasId (W.mixId m))).map (typeAtAddr ρ) :=
    filter_map_atAddr ρ _ (fun _ => rfl) _
  have hm : ∀ t ∈ (W.doms d).types.filter (fun t => !t.hasId (W.mixId m)), t.dom = d :=
    fun t htm => hh d t (List.mem_filter.1 htm).1
  rw [ht]
  cases purgeQueries (W.doms d) d (W.mixId m) m (W.doms d).queries with
  | none => exact SimRes.same h hh _
  | some qs =>
    simp only
    cases ownSlot (W.doms d).mixins (W.mixId m) m with
    | none => exact SimRes.set hi h hh _ d _ _ hm rfl
    | some i =>
      have hs2 := SimRes.set (α := Unit) hi h hh (.ok ()) d
        { W.doms d with queries := qs, types := (W.doms d).types.filter (fun t => !t.hasId (W.mixId m)),
                        mixins := (W.doms d).mixins.set i none } _ hm rfl
      refine ⟨rfl, ⟨hs2.moved.doms, hs2.moved.featId, rfl, ?_, hs2.moved.nextType⟩, hs2.home, hs2.frame⟩
      intro m'
      by_cases e : m' = m
      · subst e; simp [upd]
      · simp [upd, e, World.setDom, h.mixDom]

theorem registerTypeClass_moved {ρ : DomId → DomId} (hi : InjAddr ρ) (D : Decls) {W V : World} (h : SameUpTo ρ W V)
    (hh : Home W) (d : DomId) (c : Cls) : SimRes ρ V (registerTypeClass D W d c) (registerTypeClass D V (ρ d) c) := by
  unfold registerTypeClass
  simp only
  rw [moved_classes h]
  by_cases h1 : (D.clsName c).isEmpty
  · rw [if_pos h1, if_pos h1]; exact SimRes.same h hh _
  rw [if_neg h1, if_neg h1]
  by_cases h2 : (D.cls c).isNull
  · rw [if_pos h2, if_pos h2]; exact SimRes.same h hh _
  rw [if_neg h2, if_neg h2]
  by_cases h3 : classNameTaken D (D.clsName c) (W.doms d).classes
  · rw [if_pos h3, if_pos h3]; exact SimRes.same h hh _
  rw [if_neg h3, if_neg h3]
  by_cases h4 : none ∈ (W.doms d).classes
  · rw [if_pos h4, if_pos h4]; exact SimRes.same h hh _
  rw [if_neg h4, if_neg h4]
  exact SimRes.set hi h hh _ d _ _ (hh d) (by rw [h.doms]; rfl)

theorem unregisterTypeClass_moved {ρ : DomId → DomId} (hi : InjAddr ρ) {W V : World} (h : SameUpTo ρ W V)
    (hh : Home W) (d : DomId) (c : Cls) : SimRes ρ V (unregisterTypeClass W d c) (unregisterTypeClass V (ρ d) c) := by
  unfold unregisterTypeClass
  exact SimRes.set hi h hh _ d _ _ (hh d) (by rw [h.doms]; rfl)

theorem addRule_moved {ρ : DomId → DomId} (hi : InjAddr ρ) (D : Decls) {W V : World} (h : SameUpTo ρ W V)
    (hh : Home W) (d : DomId) (r : Rule) : SimRes ρ V (addRule D W d r) (addRule D V (ρ d) r) := by
  unfold addRule
  by_cases h1 : (ruleOf D r).apply.isNone
  · rw [if_pos h1, if_pos h1]; exact SimRes.same h hh _
  rw [if_neg h1, if_neg h1]
  simp only
  rw [moved_rules h]
  rcases hr : ruleIncr D r (W.doms d).rules with ⟨rules, rc⟩
  simp only
  by_cases h2 : rc ≠ 1
  · rw [if_pos h2, if_pos h2]; exact SimRes.set hi h hh _ d _ _ (hh d) (by rw [h.doms]; rfl)
  · rw [if_neg h2, if_neg h2]; exact SimRes.set hi h hh _ d _ _ (hh d) (by rw [h.doms]; rfl)

theorem removeRule_moved {ρ : DomId → DomId} (hi : InjAddr ρ) (D : Decls) {W V : World} (h : SameUpTo ρ W V)
    (hh : Home W) (d : DomId) (r : Rule) : SimRes ρ V (removeRule D W d r) (removeRule D V (ρ d) r) := by
  unfold removeRule
  simp only
  rw [moved_rules h]
  cases hr : ruleDecr D r (W.doms d).rules with
  | none => exact SimRes.same h hh _
  | some p =>
    obtain ⟨rules, rc⟩ := p
    simp only
    by_cases h2 : rc > 0
    · rw [if_pos h2, if_pos h2]; exact SimRes.set hi h hh _ d _ _ (hh d) (by rw [h.doms]; rfl)
    · rw [if_neg h2, if_neg h2]; exact SimRes.set hi h hh _ d _ _ (hh d) (by rw [h.doms]; rfl)

theorem view_moved {ρ : DomId → DomId} (D : Decls) {W V : World} (h : SameUpTo ρ W V) (d : DomId) :
    V.view D (ρ d) = W.view D d := by
  unfold World.view
  have : getMixinByName D V (ρ d) = getMixinByName D W d := by
    funext n; unfold getMixinByName; rw [moved_mixins h]
  rw [this, h.mixId]

theorem findType_moved (ρ : DomId → DomId) (ms : List Mix) (l : List TypeRec) :
    findType ms (l.map (typeAtAddr ρ)) = (findType ms l).map (typeAtAddr ρ) :=
  find_map_atAddr ρ _ (fun _ => rfl) l

theorem lookupSection_moved (ρ : DomId → DomId) (D : Decls) (v : ElemView) (x : Dom) (q : List Mix) :
    lookupSection D v (domAtAddr ρ x) q = lookupSection D v x q := by
  unfold lookupSection
  show (match findQuery q x.queries with | some t => _ | none => _) = _
  cases findQuery q x.queries with
  | some t => rfl
  | none =>
    simp only
    have hr : rulesOf D v (domAtAddr ρ x) = rulesOf D v x := rfl
    rw [hr]
    cases (applyMutationRules D (rulesOf D v x) q).result with
    | error e => rfl
    | ok p =>
      obtain ⟨key, ms⟩ := p
      simp only
      have : findType ms (domAtAddr ρ x).types = (findType ms x.types).map (typeAtAddr ρ) := findType_moved ρ ms _
      rw [this, Option.map_map]
      rfl

theorem checkMixins_moved {ρ : DomId → DomId} (hi : InjAddr ρ) {W V : World} (h : SameUpTo ρ W V) (d : DomId) :
    ∀ ms, checkMixins V.mixId V.mixDom (ρ d) ms = checkMixins W.mixId W.mixDom d ms
  | [] => rfl
  | m :: ms => by
    unfold checkMixins
    have ih := checkMixins_moved hi h d ms
    rw [h.mixId] at ih ⊢
    rw [ih]
    have : (V.mixDom m ≠ some (ρ d)) ↔ (W.mixDom m ≠ some d) := by
      rw [h.mixDom, Ne, Ne, option_map_ne hi]
    by_cases e : W.mixDom m ≠ some d
    · simp only [if_pos e, if_pos (this.2 e)]
    · simp only [if_neg e, if_neg (fun x => e (this.1 x))]

theorem buildType_moved {ρ : DomId → DomId} (hi : InjAddr ρ) (D : Decls) {W V : World} (h : SameUpTo ρ W V) (d : DomId)
    (tid : TypeId) (ms : List Mix) :
    buildType D V (ρ d) tid ms = (buildType D W d tid ms).map (typeAtAddr ρ) := by
  unfold buildType
  rw [checkMixins_moved hi h d ms, h.featId, h.mixId]
  cases checkMixins W.mixId W.mixDom d ms with
  | error e => rfl
  | ok u =>
    simp only
    cases buildFtable D W.featId ms with
    | error e => rfl
    | ok ft => rfl

theorem buildType_dom (D : Decls) (W : World) (d : DomId) (tid : TypeId) (ms : List Mix) (t : TypeRec)
    (h : buildType D W d tid ms = .ok t) : t.dom = d := by
  unfold buildType at h
  cases h1 : checkMixins W.mixId W.mixDom d ms with
  | error e => rw [h1] at h; simp at h
  | ok u =>
    rw [h1] at h; simp only at h
    cases h2 : buildFtable D W.featId ms with
    | error e => rw [h2] at h; simp at h
    | ok ft => rw [h2] at h; simp only [Except.ok.injEq] at h; rw [← h]

theorem emplaceSection_moved (ρ : DomId → DomId) (x : Dom) (key : List Mix) (t : TypeRec) :
    emplaceSection (domAtAddr ρ x) key (typeAtAddr ρ t) =
      ((emplaceSection x key t).1, domAtAddr ρ (emplaceSection x key t).2) := by
  unfold emplaceSection
  have : findType (typeAtAddr ρ t).mixins (domAtAddr ρ x).types = (findType t.mixins x.types).map (typeAtAddr ρ) :=
    findType_moved ρ t.mixins _
  rw [this]
  cases findType t.mixins x.types with
  | some old => rfl
  | none => simp [domAtAddr, typeAtAddr]

theorem emplaceSection_home (x : Dom) (key : List Mix) (t : TypeRec) (d : DomId) (hx : ∀ t ∈ x.types, t.dom = d)
    (ht : t.dom = d) : ∀ t' ∈ (emplaceSection x key t).2.types, t'.dom = d := by
  unfold emplaceSection
  cases findType t.mixins x.types with
  | some old => exact hx
  | none =>
    intro t' h
    rcases List.mem_append.1 h with h | h
    · exact hx t' h
    · rw [List.mem_singleton.1 h]; exact ht

theorem getTypeMut_moved {ρ : DomId → DomId} (hi : InjAddr ρ) (D : Decls) {W V : World} (h : SameUpTo ρ W V)
    (hh : Home W) (d md : DomId) (q : List Mix) :
    SimRes ρ V (getTypeMut D W d md q) (getTypeMut D V (ρ d) (ρ md) q) := by
  unfold getTypeMut
  by_cases h1 : md ≠ d
  · rw [if_pos h1, if_pos (fun e => h1 (hi _ _ e))]; exact SimRes.same h hh _
  have h1' : md = d := Classical.not_not.1 h1
  subst h1'
  rw [if_neg h1, if_neg (fun e => e rfl)]
  simp only
  rw [view_moved D h, h.doms md, lookupSection_moved, h.nextType]
  cases lookupSection D (W.view D md) (W.doms md) q with
  | hit t => exact SimRes.same h hh _
  | failed e => exact SimRes.same h hh _
  | resolved key ms found =>
    cases found with
    | some t => exact SimRes.set hi h hh _ md _ _ (hh md) rfl
    | none =>
      simp only
      rw [buildType_moved hi D h]
      cases hb : buildType D W md W.nextType ms with
      | error e => exact SimRes.same h hh _
      | ok t =>
        simp only [Except.map]
        rw [emplaceSection_moved]
        have hs := SimRes.set (α := TypeId) hi h hh (.ok (emplaceSection (W.doms md) key t).1) md
          (emplaceSection (W.doms md) key t).2 _ (emplaceSection_home _ key t md (hh md) (buildType_dom D W md _ ms t hb)) rfl
        exact ⟨rfl, ⟨hs.moved.doms, hs.moved.featId, hs.moved.mixId, hs.moved.mixDom, rfl⟩, hs.home, hs.frame⟩

theorem getType_moved {ρ : DomId → DomId} (hi : InjAddr ρ) (D : Decls) {W V : World} (h : SameUpTo ρ W V)
    (hh : Home W) (d : DomId) (q : List Mix) : SimRes ρ V (getType D W d q) (getType D V (ρ d) q) := by
  unfold getType
  rw [moved_queries h]
  cases findQuery q (W.doms d).queries with
  | some t => exact SimRes.same h hh _
  | none => exact getTypeMut_moved hi D h hh d d q

theorem collectTypes_moved (ρ : DomId → DomId) (num : TypeId → Nat) : ∀ (l : List TypeRec) (qs : List (List Mix × TypeId)),
    collectTypes num (l.map (typeAtAddr ρ)) qs =
      ((collectTypes num l qs).1.map (typeAtAddr ρ), (collectTypes num l qs).2)
  | [], qs => rfl
  | t :: ts, qs => by
    simp only [List.map_cons, collectTypes]
    have ht : (typeAtAddr ρ t).tid = t.tid := rfl
    rw [ht]
    by_cases h : num t.tid > 0
    · rw [if_pos h, if_pos h, collectTypes_moved ρ num ts qs]; rfl
    · rw [if_neg h, if_neg h, collectTypes_moved ρ num ts _]

theorem collectTypes_home (num : TypeId → Nat) (d : DomId) : ∀ (l : List TypeRec) (qs : List (List Mix × TypeId)),
    (∀ t ∈ l, t.dom = d) → ∀ t ∈ (collectTypes num l qs).1, t.dom = d
  | [], qs, h => by intro t ht; exact absurd ht (by simp [collectTypes])
  | a :: ts, qs, h => by
    intro t ht
    simp only [collectTypes] at ht
    by_cases hn : num a.tid > 0
    · rw [if_pos hn] at ht
      rcases List.mem_cons.1 ht with e | ht
      · rw [e]; exact h a (List.mem_cons_self ..)
      · exact collectTypes_home num d ts qs (fun t h' => h t (List.mem_cons_of_mem _ h')) t ht
    · rw [if_neg hn] at ht
      exact collectTypes_home num d ts _ (fun t h' => h t (List.mem_cons_of_mem _ h')) t ht

theorem garbageCollect_moved {ρ : DomId → DomId} (hi : InjAddr ρ) {W V : World} (h : SameUpTo ρ W V)
    (hh : Home W) (d : DomId) (num : TypeId → Nat) :
    SimRes ρ V (garbageCollect W d num) (garbageCollect V (ρ d) num) := by
  unfold garbageCollect
  simp only
  have e : collectTypes num (V.doms (ρ d)).types (V.doms (ρ d)).queries =
      ((collectTypes num (W.doms d).types (W.doms d).queries).1.map (typeAtAddr ρ),
        (collectTypes num (W.doms d).types (W.doms d).queries).2) := by
    rw [h.doms d]; exact collectTypes_moved ρ num _ _
  rw [e]
  exact SimRes.set hi h hh _ d _ _ (collectTypes_home num d _ _ (hh d)) (by rw [h.doms]; rfl)

theorem discard_moved {α : Type} {ρ : DomId → DomId} {V : World} {a b : Except Err α × World} (h : SimRes ρ V a b) :
    SimRes ρ V (discard a) (discard b) := by
  refine ⟨?_, h.moved, h.home, h.frame⟩
  unfold discard
  rw [h.out]

/-- Calls do the same with the domains at other addresses. -/
theorem step_moved {ρ : DomId → DomId} (hi : InjAddr ρ) (D : Decls) {W V : World} (h : SameUpTo ρ W V) (hh : Home W)
    (o : Op) : SimRes ρ V (step D W o) (step D V (opAt ρ o)) := by
  cases o with
  | regFeature d f => exact registerFeature_moved hi D h hh d f
  | unregFeature d f => exact unregisterFeature_moved hi h hh d f
  | regMixin d m => exact registerMixin_moved hi D h hh d m
  | unregMixin d m => exact unregisterMixin_moved hi h hh d m
  | regClass d c => exact registerTypeClass_moved hi D h hh d c
  | unregClass d c => exact unregisterTypeClass_moved hi h hh d c
  | addRule d r => exact addRule_moved hi D h hh d r
  | removeRule d r => exact removeRule_moved hi D h hh d r
  | getTypeMut d md q => exact discard_moved (getTypeMut_moved hi D h hh d md q)
  | getType d q => exact discard_moved (getType_moved hi D h hh d q)
  | gc d num => exact garbageCollect_moved hi h hh d num

theorem newDom_atAddr (ρ : DomId → DomId) (s : Settings) : domAtAddr ρ (newDom s) = newDom s := rfl

/-- A new domain may be placed at an address never used before instead, if no mixin is registered in the old one. -/
theorem renew_moved {ρ : DomId → DomId} {W V : World} (h : SameUpTo ρ W V) (hh : Home W) (d k : DomId) (s : Settings)
    (hm : ∀ m, W.mixDom m ≠ some d) (hk : V.doms k = newDom s) :
    SameUpTo (upd ρ d k) (renew W d s) V ∧ Home (renew W d s) := by
  refine ⟨⟨?_, h.featId, h.mixId, ?_, h.nextType⟩, home_setDom hh d _ (by intro t ht; simp [newDom] at ht)⟩
  · intro d'
    by_cases e : d' = d
    · subst e; simp [renew, World.setDom, upd, hk, newDom_atAddr]
    · simp only [renew, World.setDom, upd, if_neg e, h.doms d', domAtAddr]
      congr 1
      refine List.map_congr_left ?_
      intro t ht
      have htd : t.dom ≠ d := by rw [hh d' t ht]; exact e
      simp [typeAtAddr, upd, htd]
  · intro m
    rw [h.mixDom]
    show _ = (W.mixDom m).map _
    cases hd : W.mixDom m with
    | none => rfl
    | some a =>
      have : a ≠ d := fun e => hm m (by rw [hd, e])
      simp [upd, this]

theorem upd_inj {ρ : DomId → DomId} (hi : InjAddr ρ) (d k : DomId) (hk : ∀ d, ρ d ≠ k) : InjAddr (upd ρ d k) := by
  intro a b h
  unfold upd at h
  by_cases ha : a = d <;> by_cases hb : b = d
  · rw [ha, hb]
  · rw [if_pos ha, if_neg hb] at h; exact absurd h.symm (hk b)
  · rw [if_neg ha, if_pos hb] at h; exact absurd h (hk a)
  · rw [if_neg ha, if_neg hb] at h; exact hi a b h

/-- No info refers to a domain in which no mixin is registered. -/
theorem mixDom_of_empty {W : World} (hr : RegInv W) (d : DomId) (h : mixinsOf W d = []) (m : Mix) : W.mixDom m ≠ some d := by
  intro hm
  cases hi : W.mixId m with
  | none => rw [hr.mixFree m hi] at hm; simp at hm
  | some i =>
    obtain ⟨d', h1, h2⟩ := hr.mixReg m i hi
    rw [hm] at h1
    have : d = d' := by simpa using h1
    subst this
    have : m ∈ mixinsOf W d := by
      unfold mixinsOf; rw [List.mem_filterMap]; exact ⟨some m, List.mem_of_getElem? h2, rfl⟩
    rw [h] at this
    simp at this

/-- The whole program. The domains still to be constructed are at `2k+1`, `2k+3`, ... -/
theorem apart_run (D : Decls) : ∀ (ops : List LifeOp) (ρ : DomId → DomId) (k : Nat) (W V : World),
    InjAddr ρ → SameUpTo ρ W V → Home W → RegInv V → (∀ (j : Nat), k ≤ j → ∀ d, ρ d ≠ 2 * j + 1) →
    (∀ (j : Nat) (s : Settings), (settingsOf ops)[j]? = some s → V.doms (2 * (k + j) + 1) = newDom s) →
    UnregistersMixins D W ops →
    InjAddr (addresses ρ k ops) ∧ lifeOutcomes D W ops = (trace D V (apart ρ k ops)).map (·.2) ∧
    SameUpTo (addresses ρ k ops) (runLife D W ops) (run D V (apart ρ k ops))
  | [], ρ, k, W, V, hi, h, hh, hv, hf, hs, hu => ⟨hi, rfl, h⟩
  | .call o :: ops, ρ, k, W, V, hi, h, hh, hv, hf, hs, hu => by
    have hst := step_moved hi D h hh o
    have hrec := apart_run D ops ρ k (step D W o).2 (step D V (opAt ρ o)).2 hi hst.moved hst.home
      (step_reg D V _ hv) hf
      (fun j s hj => (hst.frame _ (hf (k + j) (Nat.le_add_right ..))).trans (hs j s hj)) hu
    refine ⟨hrec.1, ?_, hrec.2.2⟩
    simp only [lifeOutcomes, apart, trace, List.map_cons]
    rw [hrec.2.1, hst.out]
  | .renew d s :: ops, ρ, k, W, V, hi, h, hh, hv, hf, hs, hu => by
    have hk : V.doms (2 * k + 1) = newDom s := hs 0 s rfl
    obtain ⟨hm, hh'⟩ := renew_moved h hh d (2 * k + 1) s (by
      intro m hm
      have he : mixinsOf V (ρ d) = [] := by unfold mixinsOf; rw [moved_mixins h]; exact hu.1
      exact mixDom_of_empty hv (ρ d) he m (by rw [h.mixDom, hm]; rfl)) hk
    exact apart_run D ops (upd ρ d (2 * k + 1)) (k + 1) (renew W d s) V
      (upd_inj hi d _ (hf k (Nat.le_refl k))) hm hh' hv
      (by
        intro j hj d'
        unfold upd
        by_cases e : d' = d
        · rw [if_pos e]; omega
        · rw [if_neg e]; exact hf j (by omega) d')
      (by
        intro j s' hj
        have := hs (j + 1) s' hj
        rw [show k + 1 + j = k + (j + 1) by omega]
        exact this)
      hu.2

/-! ## infos left registered -/

theorem SameElems.orphanFeature {W W' : World} (s : SameElems W W') {f : Feat} (h : OrphanFeature W f) :
    OrphanFeature W' f := by
  refine ⟨by rw [s.featId]; exact h.1, fun d => ?_⟩
  unfold featuresOf; rw [s.feats]; exact h.2 d

theorem SameElems.orphanMixin {W W' : World} (s : SameElems W W') {d : DomId} {m : Mix} (h : OrphanMixin W d m) :
    OrphanMixin W' d m := by
  refine ⟨by rw [s.mixId]; exact h.1, by rw [s.mixDom]; exact h.2.1, fun d' => ?_⟩
  unfold mixinsOf; rw [s.mixins]; exact h.2.2 d'

theorem mem_slots (l : List (Option Nat)) (x : Nat) : x ∈ l.filterMap id ↔ some x ∈ l := by
  simp [List.mem_filterMap]

theorem basicRegister_hasId (nameOf : Nat → List UInt8) (enforce : Bool) (id : Option Nat) (info : Nat)
    (l : List (Option Nat)) (h : id ≠ none) : basicRegister nameOf enforce id info l = .error .idRegistered := by
  unfold basicRegister; rw [if_pos h]

theorem basicRegister_mem (nameOf : Nat → List UInt8) (enforce : Bool) (id : Option Nat) (info k : Nat)
    (l l' : List (Option Nat)) (h : basicRegister nameOf enforce id info l = .ok (k, l')) (x : Nat)
    (hx : some x ∈ l') : some x ∈ l ∨ x = info := by
  unfold basicRegister at h
  by_cases h1 : id ≠ none
  · rw [if_pos h1] at h; simp at h
  rw [if_neg h1] at h
  by_cases h2 : (enforce && (nameOf info).isEmpty) = true
  · rw [if_pos h2] at h; simp at h
  rw [if_neg h2] at h
  cases hr : (if enforce then scanRev nameOf (nameOf info) 0 l else .ok (scanFwd 0 l)) with
  | error e => rw [hr] at h; simp at h
  | ok o =>
    rw [hr] at h
    cases o with
    | none =>
      simp only [Except.ok.injEq, Prod.mk.injEq] at h
      rw [← h.2] at hx
      rcases List.mem_append.1 hx with hx | hx
      · exact .inl hx
      · exact .inr (by simpa using hx)
    | some i =>
      simp only [Except.ok.injEq, Prod.mk.injEq] at h
      rw [← h.2] at hx
      rcases List.mem_or_eq_of_mem_set hx with hx | hx
      · exact .inl hx
      · exact .inr (by simpa using hx)

theorem registerFeature_orphan (D : Decls) (W : World) (d : DomId) (f' : Feat) :
    (∀ f, OrphanFeature W f → OrphanFeature (registerFeature D W d f').2 f) ∧
    (∀ d' m, OrphanMixin W d' m → OrphanMixin (registerFeature D W d f').2 d' m) := by
  unfold registerFeature
  cases hb : basicRegister D.featName (!(W.doms d).settings.allowDupFeat) (W.featId f') f' (W.doms d).feats with
  | error e => exact ⟨fun _ h => h, fun _ _ h => h⟩
  | ok p =>
    obtain ⟨id, sparse⟩ := p
    refine ⟨?_, ?_⟩
    · intro f h
      have hne : f ≠ f' := by
        intro e; subst e
        rw [basicRegister_hasId _ _ _ _ _ h.1] at hb; simp at hb
      refine ⟨by simp [upd, hne]; exact h.1, fun d' => ?_⟩
      unfold featuresOf
      rw [mem_slots]
      by_cases e : d' = d
      · subst e
        simp only [World.setDom, upd, if_pos]
        intro hx
        rcases basicRegister_mem _ _ _ _ _ _ _ hb f hx with hx | hx
        · exact h.2 d' ((mem_slots _ _).2 hx)
        · exact hne hx
      · simp only [World.setDom, upd, if_neg e]
        intro hx; exact h.2 d' ((mem_slots _ _).2 hx)
    · intro d' m h
      refine ⟨h.1, h.2.1, fun d'' => ?_⟩
      have := h.2.2 d''
      unfold mixinsOf at this ⊢
      by_cases e : d'' = d
      · subst e; simpa [World.setDom, upd] using this
      · simpa [World.setDom, upd, e] using this

theorem registerFeatures_orphan (D : Decls) (d : DomId) : ∀ (fs : List Feat) (W : World),
    (∀ f, OrphanFeature W f → OrphanFeature (registerFeatures D W d fs).2 f) ∧
    (∀ d' m, OrphanMixin W d' m → OrphanMixin (registerFeatures D W d fs).2 d' m)
  | [], W => ⟨fun _ h => h, fun _ _ h => h⟩
  | f :: fs, W => by
    unfold registerFeatures
    by_cases hf : W.featId f ≠ none
    · rw [if_pos hf]; exact registerFeatures_orphan D d fs W
    · rw [if_neg hf]
      have h1 := registerFeature_orphan D W d f
      rcases hr : registerFeature D W d f with ⟨e, W'⟩
      rw [hr] at h1
      cases e with
      | error e => exact h1
      | ok u =>
        have h2 := registerFeatures_orphan D d fs W'
        exact ⟨fun f h => h2.1 f (h1.1 f h), fun d' m h => h2.2 d' m (h1.2 d' m h)⟩

theorem registerMixin_orphan (D : Decls) (W : World) (d : DomId) (m' : Mix) :
    (∀ f, OrphanFeature W f → OrphanFeature (registerMixin D W d m').2 f) ∧
    (∀ d' m, OrphanMixin W d' m → OrphanMixin (registerMixin D W d m').2 d' m) := by
  unfold registerMixin
  by_cases hf : W.mixDom m' ≠ none ∧ W.mixDom m' ≠ some d
  · rw [if_pos hf]; exact ⟨fun _ h => h, fun _ _ h => h⟩
  rw [if_neg hf]
  have h1 := registerFeatures_orphan D d ((D.mix m').feats.map (·.feat)) W
  rcases hr : registerFeatures D W d ((D.mix m').feats.map (·.feat)) with ⟨e, W1⟩
  rw [hr] at h1
  simp only [hr]
  cases e with
  | error e => exact h1
  | ok u =>
    simp only
    cases hb : basicRegister D.mixName (!(W1.doms d).settings.allowDupMix) (W1.mixId m') m' (W1.doms d).mixins with
    | error e => exact h1
    | ok p =>
      obtain ⟨id, sparse⟩ := p
      refine ⟨?_, ?_⟩
      · intro f h
        have h2 := h1.1 f h
        refine ⟨h2.1, fun d' => ?_⟩
        have := h2.2 d'
        unfold featuresOf at this ⊢
        by_cases e : d' = d
        · subst e; simpa [World.setDom, upd] using this
        · simpa [World.setDom, upd, e] using this
      · intro d' m h
        have h2 := h1.2 d' m h
        have hne : m ≠ m' := by
          intro e; subst e
          rw [basicRegister_hasId _ _ _ _ _ h2.1] at hb; simp at hb
        refine ⟨by simp [upd, hne]; exact h2.1, by simp [upd, hne]; exact h2.2.1, fun d'' => ?_⟩
        unfold mixinsOf
        rw [mem_slots]
        by_cases e : d'' = d
        · subst e
          simp only [World.setDom, upd, if_pos]
          intro hx
          rcases basicRegister_mem _ _ _ _ _ _ _ hb m hx with hx | hx
          · exact h2.2.2 d'' ((mem_slots _ _).2 hx)
          · exact hne hx
        · simp only [World.setDom, upd, if_neg e]
          intro hx; exact h2.2.2 d'' ((mem_slots _ _).2 hx)

theorem ownSlot_not_mem (l : List (Option Nat)) (id : Option Nat) (x : Nat) (h : some x ∉ l) : ownSlot l id x = none := by
  cases ho : ownSlot l id x with
  | none => rfl
  | some i =>
    unfold ownSlot at ho
    cases id with
    | none => simp at ho
    | some j =>
      simp only at ho
      by_cases hc : l[j]? = some (some x)
      · exact absurd (List.mem_of_getElem? hc) h
      · rw [if_neg hc] at ho; simp at ho

theorem some_mem_set_none (l : List (Option Nat)) (i x : Nat) (h : some x ∈ l.set i none) : some x ∈ l := by
  rcases List.mem_or_eq_of_mem_set h with h | h
  · exact h
  · simp at h

theorem unregisterFeature_orphan (W : World) (d : DomId) (f' : Feat) :
    (∀ f, OrphanFeature W f → OrphanFeature (unregisterFeature W d f').2 f) ∧
    (∀ d' m, OrphanMixin W d' m → OrphanMixin (unregisterFeature W d f').2 d' m) := by
  unfold unregisterFeature
  cases hb : ownSlot (W.doms d).feats (W.featId f') f' with
  | none => exact ⟨fun _ h => h, fun _ _ h => h⟩
  | some i =>
    refine ⟨?_, ?_⟩
    · intro f h
      have hne : f ≠ f' := by
        intro e; subst e
        rw [ownSlot_not_mem _ _ _ (fun hx => h.2 d ((mem_slots _ _).2 hx))] at hb; simp at hb
      refine ⟨by simp [upd, hne]; exact h.1, fun d' => ?_⟩
      unfold featuresOf
      rw [mem_slots]
      by_cases e : d' = d
      · subst e
        simp only [World.setDom, upd, if_pos]
        intro hx
        exact h.2 d' ((mem_slots _ _).2 (some_mem_set_none _ _ _ hx))
      · simp only [World.setDom, upd, if_neg e]
        intro hx; exact h.2 d' ((mem_slots _ _).2 hx)
    · intro d' m h
      refine ⟨h.1, h.2.1, fun d'' => ?_⟩
      have := h.2.2 d''
      unfold mixinsOf at this ⊢
      by_cases e : d'' = d
      · subst e; simpa [World.setDom, upd] using this
      · simpa [World.setDom, upd, e] using this

theorem unregisterMixin_orphan (W : World) (d : DomId) (m' : Mix) :
    (∀ f, OrphanFeature W f → OrphanFeature (unregisterMixin W d m').2 f) ∧
    (∀ d' m, OrphanMixin W d' m → OrphanMixin (unregisterMixin W d m').2 d' m) := by
  cases hr : (unregisterMixin W d m').1 with
  | error e =>
    have := unregisterMixin_error_same W d m' e hr
    exact ⟨fun f h => this.orphanFeature h, fun d' m h => this.orphanMixin h⟩
  | ok u =>
    unfold unregisterMixin at hr ⊢
    simp only at hr ⊢
    cases hp : purgeQueries (W.doms d) d (W.mixId m') m' (W.doms d).queries with
    | none => rw [hp] at hr; simp at hr
    | some qs =>
      rw [hp] at hr
      simp only at hr ⊢
      cases hb : ownSlot (W.doms d).mixins (W.mixId m') m' with
      | none => rw [hb] at hr; simp at hr
      | some i =>
        refine ⟨?_, ?_⟩
        · intro f h
          refine ⟨h.1, fun d' => ?_⟩
          have := h.2 d'
          unfold featuresOf at this ⊢
          by_cases e : d' = d
          · subst e; simpa [World.setDom, upd] using this
          · simpa [World.setDom, upd, e] using this
        · intro d' m h
          have hne : m ≠ m' := by
            intro e; subst e
            rw [ownSlot_not_mem _ _ _ (fun hx => h.2.2 d ((mem_slots _ _).2 hx))] at hb; simp at hb
          refine ⟨by simp [upd, hne]; exact h.1, by simp [upd, hne]; exact h.2.1, fun d'' => ?_⟩
          unfold mixinsOf
          rw [mem_slots]
          by_cases e : d'' = d
          · subst e
            simp only [World.setDom, upd, if_pos]
            intro hx
            exact h.2.2 d'' ((mem_slots _ _).2 (some_mem_set_none _ _ _ hx))
          · simp only [World.setDom, upd, if_neg e]
            intro hx; exact h.2.2 d'' ((mem_slots _ _).2 hx)

theorem same_orphan {W W' : World} (s : SameElems W W') :
    (∀ f, OrphanFeature W f → OrphanFeature W' f) ∧ (∀ d' m, OrphanMixin W d' m → OrphanMixin W' d' m) :=
  ⟨fun _ h => s.orphanFeature h, fun _ _ h => s.orphanMixin h⟩

theorem step_orphan (D : Decls) (W : World) (o : Op) :
    (∀ f, OrphanFeature W f → OrphanFeature (step D W o).2 f) ∧
    (∀ d' m, OrphanMixin W d' m → OrphanMixin (step D W o).2 d' m) := by
  cases o with
  | regFeature d f => exact registerFeature_orphan D W d f
  | unregFeature d f => exact unregisterFeature_orphan W d f
  | regMixin d m => exact registerMixin_orphan D W d m
  | unregMixin d m => exact unregisterMixin_orphan W d m
  | regClass d c => exact same_orphan (registerTypeClass_same D W d c)
  | unregClass d c => exact same_orphan (unregisterTypeClass_same W d c)
  | addRule d r => exact same_orphan (addRule_same D W d r)
  | removeRule d r => exact same_orphan (removeRule_same D W d r)
  | getTypeMut d md q => exact same_orphan (getTypeMut_same D W d md q)
  | getType d q => exact same_orphan (getType_same D W d q)
  | gc d num => exact same_orphan (garbageCollect_same W d num)

theorem renew_orphan (W : World) (d : DomId) (s : Settings) :
    (∀ f, OrphanFeature W f → OrphanFeature (renew W d s) f) ∧
    (∀ d' m, OrphanMixin W d' m → OrphanMixin (renew W d s) d' m) := by
  refine ⟨fun f h => ⟨h.1, fun d' => ?_⟩, fun d' m h => ⟨h.1, h.2.1, fun d'' => ?_⟩⟩
  · unfold featuresOf renew
    by_cases e : d' = d
    · subst e; simp [World.setDom, upd, newDom]
    · have := h.2 d'; unfold featuresOf at this; simpa [World.setDom, upd, e] using this
  · unfold mixinsOf renew
    by_cases e : d'' = d
    · subst e; simp [World.setDom, upd, newDom]
    · have := h.2.2 d''; unfold mixinsOf at this; simpa [World.setDom, upd, e] using this

theorem runLife_orphan (D : Decls) : ∀ (ops : List LifeOp) (W : World),
    (∀ f, OrphanFeature W f → OrphanFeature (runLife D W ops) f) ∧
    (∀ d' m, OrphanMixin W d' m → OrphanMixin (runLife D W ops) d' m)
  | [], W => ⟨fun _ h => h, fun _ _ h => h⟩
  | .call o :: ops, W => by
    have h1 := step_orphan D W o
    have h2 := runLife_orphan D ops (step D W o).2
    exact ⟨fun f h => h2.1 f (h1.1 f h), fun d m h => h2.2 d m (h1.2 d m h)⟩
  | .renew d s :: ops, W => by
    have h1 := renew_orphan W d s
    have h2 := runLife_orphan D ops (renew W d s)
    exact ⟨fun f h => h2.1 f (h1.1 f h), fun d m h => h2.2 d m (h1.2 d m h)⟩

theorem renew_leaves {W : World} (hr : RegInv W) (d : DomId) (s : Settings) :
    (∀ f ∈ featuresOf W d, OrphanFeature (renew W d s) f) ∧ (∀ m ∈ mixinsOf W d, OrphanMixin (renew W d s) d m) := by
  refine ⟨fun f hf => ?_, fun m hm => ?_⟩
  · unfold featuresOf at hf
    rw [mem_slots] at hf
    obtain ⟨i, hi⟩ := List.mem_iff_getElem?.1 hf
    refine ⟨?_, fun d' hd' => ?_⟩
    · show W.featId f ≠ none
      rw [hr.featSlot d i f hi]; simp
    · unfold featuresOf renew at hd'
      rw [mem_slots] at hd'
      by_cases e : d' = d
      · subst e; simp [World.setDom, upd, newDom] at hd'
      · simp only [World.setDom, upd, if_neg e] at hd'
        obtain ⟨j, hj⟩ := List.mem_iff_getElem?.1 hd'
        exact e (hr.featOne d' d j i f hj hi)
  · unfold mixinsOf at hm
    rw [mem_slots] at hm
    obtain ⟨i, hi⟩ := List.mem_iff_getElem?.1 hm
    have hs := hr.mixSlot d i m hi
    refine ⟨?_, hs.2, fun d' hd' => ?_⟩
    · show W.mixId m ≠ none
      rw [hs.1]; simp
    · unfold mixinsOf renew at hd'
      rw [mem_slots] at hd'
      by_cases e : d' = d
      · subst e; simp [World.setDom, upd, newDom] at hd'
      · simp only [World.setDom, upd, if_neg e] at hd'
        obtain ⟨j, hj⟩ := List.mem_iff_getElem?.1 hd'
        have := (hr.mixSlot d' j m hj).2
        rw [hs.2] at this
        exact e (by simpa using this.symm)

end Dnmx
