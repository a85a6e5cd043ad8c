import Verif.Props.Dispatch
import Verif.Model.TypeMutation

/-!
# C62: what `implements` says

`BuiltFor D t f fid` holds for the types of a domain and the features of the domain in disciplined histories
(`C29_types_of_domain_partial`).
-/

namespace Dnmx.Props
open Spec

set_option linter.unusedVariables false

variable {σ R : Type}

/-- A mixin of the composition provides the feature. -/
def Provides (D : Decls) (ms : List Mix) (f : Feat) : Prop := ∃ m ∈ ms, ∃ ff ∈ (D.mix m).feats, ff.feat = f

theorem allImpls_empty_iff (D : Decls) (ms : List Mix) (f : Feat) : allImpls D ms f = [] ↔ ¬ Provides D ms f := by
  unfold allImpls Provides
  rw [List.flatMap_eq_nil_iff]
  constructor
  · rintro h ⟨m, hm, ff, hff, hf⟩
    obtain ⟨i, hi⟩ := List.mem_iff_getElem?.1 hm
    have := h (m, i) (by rw [List.mem_iff_getElem?]; exact ⟨i, by simp [hi]⟩)
    simp at this
    exact this ff hff hf
  · rintro h ⟨m, i⟩ hmi
    simp only [List.map_eq_nil_iff, List.filter_eq_nil_iff, decide_eq_true_eq]
    intro ff hff hf
    exact h ⟨m, (List.mem_zipIdx' hmi).2 ▸ List.getElem_mem _, ff, hff, hf⟩

/-- C62: `implements_strong(info)` of a type tells whether a mixin of the type provides the feature. -/
theorem C62_implements_strong (D : Decls) (t : TypeRec) (f : Feat) (fid : Option Nat) (hb : BuiltFor D t f fid) :
    t.implementsStrong fid = true ↔ Provides D t.mixins f := by
  unfold TypeRec.implementsStrong
  cases he : t.ftableAt fid with
  | none =>
    have := hb.facts
    rw [he] at this
    simpa using (allImpls_empty_iff D t.mixins f).1 this
  | some e =>
    obtain ⟨p, ps, -, -, hw, -⟩ := hb.split he
    have hne : allImpls D t.mixins f ≠ [] := by intro h; rw [Winner, h] at hw; simp at hw
    rw [ne_eq, allImpls_empty_iff] at hne
    replace hne := Classical.not_not.1 hne
    simpa using hne

/-- C62: `implements(info)` of a type tells whether a mixin of the type provides the feature or the feature has a default. -/
theorem C62_implements (D : Decls) (t : TypeRec) (f : Feat) (fid : Option Nat) (hb : BuiltFor D t f fid) :
    t.implements D f fid = true ↔ (D.feat f).defaultPayload ≠ none ∨ Provides D t.mixins f := by
  unfold TypeRec.implements
  rw [Bool.or_eq_true, C62_implements_strong D t f fid hb, Option.isSome_iff_ne_none]

/-- C62: the functions of `type_mutation` tell the same about the mixins of the mutation, in any domain and history. -/
theorem C62_mutation (D : Decls) (ms : List Mix) (f : Feat) :
    (tmImplementsStrong D ms f = true ↔ Provides D ms f) ∧
    (tmImplements D ms f = true ↔ (D.feat f).defaultPayload ≠ none ∨ Provides D ms f) := by
  have h1 : tmImplementsStrong D ms f = true ↔ Provides D ms f := by simp [tmImplementsStrong, Provides]
  refine ⟨h1, ?_⟩
  unfold tmImplements
  rw [Bool.or_eq_true, h1, Option.isSome_iff_ne_none]

/-- C62: the name variant gives the first provided feature with the name, and null if there is none. -/
theorem C62_mutation_name (D : Decls) (name : List UInt8) (ms : List Mix) :
    (tmImplementsStrongName D name ms = none ↔ ∀ f, Provides D ms f → D.featName f ≠ name) ∧
    (∀ f, tmImplementsStrongName D name ms = some f → Provides D ms f ∧ D.featName f = name) := by
  induction ms with
  | nil => simp [tmImplementsStrongName, Provides]
  | cons m ms ih =>
    cases hm : (D.mix m).feats.find? (fun x => D.featName x.feat = name) with
    | some x =>
      have h1 := List.find?_some hm
      have h2 := List.mem_of_find?_eq_some hm
      simp at h1
      rw [show tmImplementsStrongName D name (m :: ms) = some x.feat by simp [tmImplementsStrongName, hm]]
      refine ⟨⟨by simp, fun h => absurd h1 (h x.feat ⟨m, by simp, x, h2, rfl⟩)⟩, ?_⟩
      intro f hf
      simp at hf; subst hf
      exact ⟨⟨m, by simp, x, h2, rfl⟩, h1⟩
    | none =>
      rw [List.find?_eq_none] at hm
      rw [show tmImplementsStrongName D name (m :: ms) = tmImplementsStrongName D name ms by
        simp only [tmImplementsStrongName]
        rw [List.find?_eq_none.2 hm]]
      constructor
      · rw [ih.1]
        constructor
        · rintro h f ⟨m', h1, ff, h2, h3⟩
          rcases List.mem_cons.1 h1 with h1 | h1
          · subst h1; subst h3; simpa using hm ff h2
          · exact h f ⟨m', h1, ff, h2, h3⟩
        · rintro h f ⟨m', h1, ff, h2, h3⟩
          exact h f ⟨m', by simp [h1], ff, h2, h3⟩
      · intro f hf
        obtain ⟨⟨m', h1, ff, h2, h3⟩, h4⟩ := ih.2 f hf
        exact ⟨⟨m', by simp [h1], ff, h2, h3⟩, h4⟩

/-- C62: a message of a feature that the type does not implement throws and does nothing else. -/
theorem C62_not_implemented (D : Decls) (I : Impls σ R) (t : TypeRec) (f : Feat) (fid : Option Nat) (h : t.implements D f fid = false)
    (s : σ) : callUnicast D I t f fid s = (.error .notImplemented, s) ∧ callMulticast D I t f fid s = (.error .notImplemented, s) := by
  simp only [TypeRec.implements, TypeRec.implementsStrong, Bool.or_eq_false_iff, Option.isSome_eq_false_iff, Option.isNone_iff_eq_none] at h
  simp [callUnicast, callMulticast, tryDefault, h.1, h.2]

/-- C62: a message of a feature that the type implements does what functions of the program do: if no implementation of the
program throws "not implemented" itself, the call does not. -/
theorem C62_implemented (D : Decls) (I : Impls σ R) (t : TypeRec) (f : Feat) (fid : Option Nat) (hb : BuiltFor D t f fid)
    (hfn : ∀ p x s, (I.fn p x s).1 ≠ .error .notImplemented) (hdf : ∀ p s, (I.dflt p s).1 ≠ .error .notImplemented)
    (h : t.implements D f fid = true) (s : σ) :
    (callUnicast D I t f fid s).1 ≠ .error .notImplemented ∧ (callMulticast D I t f fid s).1 ≠ .error .notImplemented := by
  have hd : (D.feat f).defaultPayload ≠ none → (tryDefault D I f s).1 ≠ .error .notImplemented := by
    intro h1
    cases hp : (D.feat f).defaultPayload with
    | none => exact absurd hp h1
    | some p => simp only [tryDefault, hp]; exact hdf p s
  cases he : t.ftableAt fid with
  | none =>
    have h1 : (D.feat f).defaultPayload ≠ none := by
      intro h1; simp [TypeRec.implements, TypeRec.implementsStrong, he, h1] at h
    simp only [callUnicast, callMulticast, he]
    exact ⟨hd h1, hd h1⟩
  | some e =>
    obtain ⟨p, ps, hp, -, -, -⟩ := hb.split he
    simp only [callUnicast, callMulticast, he, hp]
    have hl : ∀ (l : List Payload) (s : σ), (multicastLoop I l s).1 ≠ .error .notImplemented := by
      intro l
      induction l with
      | nil => intro s; simp [multicastLoop]
      | cons p l ih =>
        intro s
        have h1 := hfn p.data.payload (I.dataAt s p.mixinIndex) s
        simp only [multicastLoop]
        cases hc : callPayload I p s with
        | mk r s' =>
          cases r with
          | error x => unfold callPayload at hc; rw [hc] at h1; simpa using h1
          | ok x => exact ih s'
    refine ⟨hfn _ _ _, ?_⟩
    have h2 := hl (ps.take e.topBack).reverse s
    cases hc : multicastLoop I (ps.take e.topBack).reverse s with
    | mk r s' =>
      rw [hc] at h2
      cases r with
      | error x => simpa using h2
      | ok x => exact hfn _ _ _

theorem builtFor_name {D : Decls} {fid : Feat → Option Nat} {t : TypeRec} (hf : FeatIdsOk D fid t.mixins)
    (hb : buildFtable D fid t.mixins = .ok t.ftable) (name : List UInt8) :
    t.implementsStrongName D name = true ↔ ∃ f, Provides D t.mixins f ∧ D.featName f = name := by
  have hreg : ∀ p ∈ featStream D 0 t.mixins, ∃ i, fid p.data.feat = some i := by
    intro p hp
    obtain ⟨m, h1, h2⟩ := featStream_mem D t.mixins 0 p hp
    exact hf.registered m h1 _ h2
  unfold TypeRec.implementsStrongName
  rw [List.any_eq_true]
  constructor
  · rintro ⟨x, hx, hx'⟩
    cases x with
    | none => simp at hx'
    | some e =>
      obtain ⟨pls, tb⟩ := e
      cases pls with
      | nil => simp at hx'
      | cons p ps =>
        simp at hx'
        obtain ⟨i, hi⟩ := List.mem_iff_getElem?.1 hx
        rcases buildFtable_spec D fid t.mixins hreg with ⟨j, -, h2⟩ | ⟨t', h1, h2⟩
        · rw [hb] at h2; simp at h2
        · rw [hb] at h1; simp at h1; subst h1
          obtain ⟨r, h3, h4⟩ := h2 i
          rw [hi] at h4
          simp at h4
          subst h4
          have hmem : p ∈ featStream D 0 t.mixins := by
            unfold finishEntry at h3
            have hperm := sortBy_perm payloadLt (implsOf fid i (featStream D 0 t.mixins))
            cases hs : sortPayloads (implsOf fid i (featStream D 0 t.mixins)) with
            | nil => rw [hs] at h3; simp at h3
            | cons q qs =>
              rw [hs] at h3
              simp only at h3
              split at h3
              · simp at h3
              · simp at h3
                have : p ∈ implsOf fid i (featStream D 0 t.mixins) := by
                  refine hperm.mem_iff.1 ?_
                  rw [show sortBy payloadLt (implsOf fid i (featStream D 0 t.mixins)) = q :: qs from hs, h3.1.1]; simp
                unfold implsOf at this
                exact (List.mem_filter.1 this).1
          obtain ⟨m, h5, h6⟩ := featStream_mem D t.mixins 0 p hmem
          exact ⟨p.data.feat, ⟨m, h5, p.data, h6, rfl⟩, hx'⟩
  · rintro ⟨f, hp, hn⟩
    obtain ⟨m, h1, ff, h2, h3⟩ := hp
    obtain ⟨i, hi⟩ := hf.registered m h1 ff h2
    rw [h3] at hi
    have he := buildFtable_entry D fid t.mixins hf t.ftable hb f i hi
    cases hc : (t.ftable[i]?).getD none with
    | none =>
      rw [hc] at he
      exact absurd ⟨m, h1, ff, h2, h3⟩ ((allImpls_empty_iff D t.mixins f).1 he)
    | some e =>
      rw [hc] at he
      obtain ⟨hr, -, p, ps, hp, -⟩ := he
      have hmem : some e ∈ t.ftable := by
        cases hx : t.ftable[i]? with
        | none => rw [hx] at hc; simp at hc
        | some y => rw [hx] at hc; simp at hc; subst hc; exact List.mem_of_getElem? hx
      refine ⟨some e, hmem, ?_⟩
      obtain ⟨pls, tb⟩ := e
      simp only at hp; subst hp
      have : p.pair ∈ allImpls D t.mixins f := hr.complete.mem_iff.1 (by simp)
      have hpf : p.data.feat = f := by
        unfold allImpls at this
        simp [Payload.pair] at this
        grind
      simp [hpf, hn]

/-- C62 (partial: with `FeatureDiscipline`): for the types and the features of a domain, the functions of `type` and those of a
mutation that starts from the type agree, and tell whether a mixin of the type provides the feature.
Missing: other histories (`C62_foreign_feature_refuted`). -/
theorem C62_types_of_domain_partial (D : Decls) (s : DomId → Settings) (ops : List Op) (hd : FeatureDiscipline D ops) (d : DomId)
    (t : TypeId) (r : TypeRec) (ht : ((run D (initWorld s) ops).doms d).typeAt d t = some r) :
    (∀ f ∈ featuresOf (run D (initWorld s) ops) d,
      (r.implementsStrong ((run D (initWorld s) ops).featId f) = true ↔ Provides D r.mixins f) ∧
      r.implementsStrong ((run D (initWorld s) ops).featId f) = tmImplementsStrong D r.mixins f ∧
      r.implements D f ((run D (initWorld s) ops).featId f) = tmImplements D r.mixins f) ∧
    (∀ name, (r.implementsStrongName D name = true ↔ ∃ f, Provides D r.mixins f ∧ D.featName f = name) ∧
      r.implementsStrongName D name = (tmImplementsStrongName D name r.mixins).isSome) := by
  constructor
  · intro f hf
    have hb := C29_types_of_domain_partial D s ops hd d t r ht f hf
    have h1 := C62_implements_strong D r f _ hb
    have h2 := C62_implements D r f _ hb
    have h3 := C62_mutation D r.mixins f
    exact ⟨h1, by rw [Bool.eq_iff_iff, h1, h3.1], by rw [Bool.eq_iff_iff, h2, h3.2]⟩
  · intro name
    have hn : r.implementsStrongName D name = true ↔ ∃ f, Provides D r.mixins f ∧ D.featName f = name := by
      obtain ⟨home, used, hops⟩ := hd
      obtain ⟨hh, htab⟩ := reachable_home D home used s ops hops
      have hr := reachable_reg D s ops
      have hi := reachable_types D s ops d
      have htab := htab d
      generalize run D (initWorld s) ops = W at hh htab hr hi ht
      obtain ⟨-, -, -, hreg⟩ := hi.typeAt_ok ht
      obtain ⟨hok, hsame⟩ := fidIn_ok hr hh r.mixins (fun m hm => (hr.mem_mixinsOf_iff d m).2 (hreg m hm))
      refine builtFor_name hok ?_ name
      rcases typeAt_some ht with ⟨a, b⟩ | ⟨a, b, c⟩
      · subst b; rfl
      · rw [← buildFtable_congr D W.featId (fidIn W d) r.mixins hsame]; exact htab r b
    refine ⟨hn, ?_⟩
    rw [Bool.eq_iff_iff, hn, Option.isSome_iff_ne_none, ne_eq, (C62_mutation_name D name r.mixins).1]
    constructor
    · rintro ⟨f, h1, h2⟩ h; exact h f h1 h2
    · intro h
      by_cases hx : ∃ f, Provides D r.mixins f ∧ D.featName f = name
      · exact hx
      · exact absurd (fun f h1 h2 => hx ⟨f, h1, h2⟩) h

/-- C62 is false in general: in domain 1 the type of mixin 1 does not provide feature 4, which has the id that feature 1 has in
domain 0; `implements_strong` of the type says it does, of a mutation from it that it does not. -/
theorem C62_foreign_feature_refuted :
    ∃ ops, 4 ∈ featuresOf (run regDecls (initWorld fun _ => {}) ops) 1 ∧
      (((run regDecls (initWorld fun _ => {}) ops).doms 1).typeAt 1 1).map (fun r =>
        (r.mixins, r.implementsStrong ((run regDecls (initWorld fun _ => {}) ops).featId 4), tmImplementsStrong regDecls r.mixins 4)) =
      some ([1], true, false) := by
  refine ⟨[.regFeature 0 1, .regFeature 1 4, .regMixin 1 1, .getType 1 [1]], ?_⟩
  decide +kernel

/-- Features of the type of mixin 1: it provides features 1 and 2, not 4. -/
example : (((run regDecls (initWorld fun _ => {}) [.regMixin 0 1, .regFeature 0 4, .getType 0 [1]]).doms 0).typeAt 0 1).map (fun r =>
      ([1, 2, 4].map (fun f => r.implementsStrong ((run regDecls (initWorld fun _ => {}) [.regMixin 0 1, .regFeature 0 4, .getType 0 [1]]).featId f)),
       [1, 2, 4].map (fun f => r.implementsStrongName regDecls (regDecls.featName f)),
       [1, 2, 4].map (fun f => tmImplementsStrongName regDecls (regDecls.featName f) r.mixins))) =
    some ([true, true, false], [true, true, false], [some 1, some 2, none]) := by decide +kernel

end Dnmx.Props
