import Verif.Props.Types
import Verif.Props.Features

/-!
# C27, C28, C56: feature tables of the types of a domain

The general theorems about feature tables (`Verif.Props.Features`) assume that the features of a type's mixins have ids,
and different ones. Here this is derived for all histories that use each feature in one domain only and do not unregister
a feature that a mixin uses; without these conditions it is false. The documentation of `register_mixin` (code/dynamix/domain.hpp)
does not state them.
-/

namespace Dnmx.Props
open Spec

/-- A history in which every feature is used in one domain only and no feature of a mixin is ever unregistered. -/
def FeatureDiscipline (D : Decls) (ops : List Op) : Prop :=
  ∃ (home : Feat → DomId) (used : Feat → Prop), ∀ op ∈ ops, op.disciplined D home used

/-- C56 (partial: with `FeatureDiscipline`): the features of a registered mixin are registered in the mixin's domain.
Missing: other histories, for which it is false (`C56_foreign_feature_refuted`, `C56_unregistered_feature_refuted`). -/
theorem C56_features_of_mixins_partial (D : Decls) (s : DomId → Settings) (ops : List Op) (hd : FeatureDiscipline D ops) (d : DomId)
    (m : Mix) (hm : mixinRegistered d m (trace D (initWorld s) ops) = true) (ff : FeatFor) (hf : ff ∈ (D.mix m).feats) :
    ff.feat ∈ featuresOf (run D (initWorld s) ops) d ∧
    ∃ i, (run D (initWorld s) ops).featId ff.feat = some i ∧ getFeatureById (run D (initWorld s) ops) d (some i) = some ff.feat := by
  obtain ⟨home, used, hops⟩ := hd
  obtain ⟨hh, -⟩ := reachable_home D home used s ops hops
  rw [mixinRegistered_iff, mem_mixinsOf] at hm
  obtain ⟨i, hi⟩ := hm
  obtain ⟨-, j, hj⟩ := hh.mixins d i m hi ff hf
  have h1 := (reachable_reg D s ops).featSlot d j _ hj
  refine ⟨(mem_featuresOf _ _ _).2 ⟨j, hj⟩, j, h1, ?_⟩
  rw [getFeatureById, getById_eq]; exact ⟨j, rfl, hj⟩

/-- C27 (partial: with `FeatureDiscipline`): in every type of a domain, at any time, the table has for each feature of the
domain exactly the implementations that the type's mixins provide, best first, and no entry if there are none.
Missing: other histories (`C27_foreign_feature_refuted`). -/
theorem C27_ftable_in_domain_partial (D : Decls) (s : DomId → Settings) (ops : List Op) (hd : FeatureDiscipline D ops) (d : DomId)
    (t : TypeId) (r : TypeRec) (ht : ((run D (initWorld s) ops).doms d).typeAt d t = some r) (f : Feat)
    (hf : f ∈ featuresOf (run D (initWorld s) ops) d) :
    match r.ftableAt ((run D (initWorld s) ops).featId f) with
    | none => allImpls D r.mixins f = []
    | some e => e.pls ≠ [] ∧ RanksImpls D r.mixins f (e.pls.map (fun p => (p.mixinIndex, p.data))) := by
  obtain ⟨home, used, hops⟩ := hd
  obtain ⟨hh, htab⟩ := reachable_home D home used s ops hops
  have hr := reachable_reg D s ops
  have hi := reachable_types D s ops d
  have htab := htab d
  generalize run D (initWorld s) ops = W at hh htab hr hi ht hf ⊢
  obtain ⟨-, -, -, hreg⟩ := hi.typeAt_ok ht
  obtain ⟨hok, hsame⟩ := fidIn_ok hr hh r.mixins (fun m hm => (hr.mem_mixinsOf_iff d m).2 (hreg m hm))
  rcases typeAt_some ht with ⟨a, b⟩ | ⟨a, b, c⟩
  · subst b
    cases W.featId f <;> simp [TypeRec.ftableAt, emptyType, allImpls]
  · have hb := htab r b
    rw [buildFtable_congr D W.featId (fidIn W d) r.mixins hsame] at hb
    have hfid : fidIn W d f = W.featId f := by simp [fidIn, hf]
    rw [← hfid]
    refine C27_ftable_contents D (fidIn W d) r.mixins hok r hb f ?_
    obtain ⟨j, hj⟩ := (mem_featuresOf _ _ _).1 hf
    rw [hfid, hr.featSlot d j f hj]; rfl

/-- C28 (partial: with `FeatureDiscipline`): creating a type from different mixins of the domain fails exactly if some
feature which does not allow clashes has two implementations with equal bid and priority; otherwise it succeeds.
Missing: other histories (`C28_unregistered_feature_refuted`). -/
theorem C28_clash_in_domain_partial (D : Decls) (s : DomId → Settings) (ops : List Op) (hd : FeatureDiscipline D ops) (d : DomId)
    (tid : TypeId) (ms : List Mix) (hn : ms.Nodup) (hm : ∀ m ∈ ms, mixinRegistered d m (trace D (initWorld s) ops) = true) :
    (buildType D (run D (initWorld s) ops) d tid ms = .error .featureClash ↔
      ∃ f, (D.feat f).allowClashes = false ∧ ClashesOn D ms f) ∧
    (buildType D (run D (initWorld s) ops) d tid ms = .error .featureClash ∨
      ∃ r, buildType D (run D (initWorld s) ops) d tid ms = .ok r) := by
  obtain ⟨home, used, hops⟩ := hd
  obtain ⟨hh, -⟩ := reachable_home D home used s ops hops
  have hr := reachable_reg D s ops
  have hm' : ∀ m ∈ ms, m ∈ mixinsOf (run D (initWorld s) ops) d := fun m h => (mixinRegistered_iff D s ops d m).1 (hm m h)
  generalize run D (initWorld s) ops = W at hh hr hm' ⊢
  obtain ⟨hok, hsame⟩ := fidIn_ok hr hh ms hm'
  have hc : checkMixins W.mixId W.mixDom d ms = .ok () :=
    (checkMixins_ok _ _ _ _).2 ⟨hn, fun m h => (hr.mem_mixinsOf_iff d m).1 (hm' m h)⟩
  obtain ⟨h1, h2⟩ := C28_clash_iff D (fidIn W d) ms hok
  unfold buildType
  rw [hc, buildFtable_congr D W.featId (fidIn W d) ms hsame]
  simp only
  rcases h2 with h2 | ⟨ft, h2⟩
  · rw [h2]; simp; exact h1.1 h2
  · rw [h2]
    simp only [reduceCtorEq, false_iff, false_or]
    refine ⟨fun h => ?_, ⟨_, rfl⟩⟩
    rw [h1.2 h] at h2; simp at h2

/-- C28 (partial, as above): with the discipline, `get_type` never does anything undefined if the rules do not. -/
theorem C28_get_type_defined_partial (D : Decls) (s : DomId → Settings) (ops : List Op) (hd : FeatureDiscipline D ops) (d : DomId)
    (q : List Mix) (hrules : resolve D (rulesOf D ((run D (initWorld s) ops).view D d) ((run D (initWorld s) ops).doms d)) q ≠ .error .ub) :
    (getType D (run D (initWorld s) ops) d q).1 ≠ .error .ub := by
  intro h
  rcases C16_errors D s ops d q .ub h with h1 | ⟨ms, -, h1⟩
  · exact hrules h1
  · by_cases hc : ms.Nodup ∧ ∀ m ∈ ms, mixinRegistered d m (trace D (initWorld s) ops) = true
    · rcases (C28_clash_in_domain_partial D s ops hd d _ ms hc.1 hc.2).2 with h2 | ⟨r, h2⟩ <;> rw [h1] at h2 <;> simp at h2
    · obtain ⟨e, h2, h3⟩ := (C17_composition_errors D s ops d (run D (initWorld s) ops).nextType ms).2 hc
      rw [h1] at h2; simp at h2; subst h2; simp at h3

/-- C56 is false in general: feature 1 is registered in domain 0, mixin 1 (which has it) in domain 1. This succeeds. -/
theorem C56_foreign_feature_refuted :
    ∃ ops, mixinRegistered 1 1 (trace regDecls (initWorld fun _ => {}) ops) = true ∧
      ⟨1, 10, 0, 0⟩ ∈ (regDecls.mix 1).feats ∧ 1 ∉ featuresOf (run regDecls (initWorld fun _ => {}) ops) 1 := by
  refine ⟨[.regFeature 0 1, .regMixin 1 1], ?_⟩
  decide +kernel

/-- C56 is false in general: a feature can be unregistered while a mixin has it. -/
theorem C56_unregistered_feature_refuted :
    ∃ ops, mixinRegistered 0 1 (trace regDecls (initWorld fun _ => {}) ops) = true ∧
      ⟨1, 10, 0, 0⟩ ∈ (regDecls.mix 1).feats ∧ (run regDecls (initWorld fun _ => {}) ops).featId 1 = none := by
  refine ⟨[.regMixin 0 1, .unregFeature 0 1], ?_⟩
  decide +kernel

/-- C27 is false in general: features 1 (of domain 0) and 4 (of domain 1) have the same id; in domain 1 the type of mixin
1, which does not implement feature 4, has an entry for it, with the implementation of feature 1. -/
theorem C27_foreign_feature_refuted :
    ∃ ops, 4 ∈ featuresOf (run regDecls (initWorld fun _ => {}) ops) 1 ∧ allImpls regDecls [1] 4 = [] ∧
      (((run regDecls (initWorld fun _ => {}) ops).doms 1).typeAt 1 1).map (fun r =>
        (r.mixins, (r.ftableAt ((run regDecls (initWorld fun _ => {}) ops).featId 4)).map (·.pls))) =
      some ([1], some [⟨0, ⟨1, 10, 0, 0⟩⟩]) := by
  refine ⟨[.regFeature 0 1, .regFeature 1 4, .regMixin 1 1, .getType 1 [1]], ?_⟩
  decide +kernel

/-- C28 is false in general: after feature 1 was unregistered, creating a type with mixin 1 accesses memory out of
bounds. (The id of the feature is invalid; `id + 1` overflows, and the tables are too small.) -/
theorem C28_unregistered_feature_refuted :
    ∃ ops, mixinRegistered 0 1 (trace regDecls (initWorld fun _ => {}) ops) = true ∧
      (getType regDecls (run regDecls (initWorld fun _ => {}) ops) 0 [1]).1 = .error .ub := by
  refine ⟨[.regMixin 0 1, .unregFeature 0 1], ?_⟩
  decide +kernel

-- a disciplined history with two domains, an unregistered unused feature and a mixin with two features
example : FeatureDiscipline regDecls [.regMixin 0 1, .regFeature 1 5, .regFeature 0 4, .unregFeature 0 4, .getType 0 [1]] := by
  refine ⟨fun f => if f = 5 then 1 else 0, fun f => f = 1 ∨ f = 2, ?_⟩
  intro op hop
  simp only [List.mem_cons, List.not_mem_nil, or_false] at hop
  rcases hop with rfl | rfl | rfl | rfl | rfl
  · intro ff hff
    have : ff.feat = 1 ∨ ff.feat = 2 := by
      have hff : ff ∈ [⟨1, 10, 0, 0⟩, (⟨2, 20, 0, 0⟩ : FeatFor)] := hff
      simp at hff; rcases hff with rfl | rfl <;> simp
    rcases this with h | h <;> simp [h]
  · rfl
  · rfl
  · show ¬ (4 = 1 ∨ 4 = 2); decide
  · trivial

end Dnmx.Props
