import Verif.Props.FeaturesExact
import Verif.Props.Dispatch
import Verif.Props.Implements
import Verif.Props.Dump
import Verif.Props.Standard

/-! C29 - C32, C62, C85, C93 for all histories in which no call makes features and mixins part (`NeverParts`), instead of those that keep to `FeatureDiscipline`
(all of which are such histories: `discipline_neverParts`; not conversely, see the example in `Verif.Props.FeaturesExact`). -/

namespace Dnmx.Props
open Spec

variable {σ R : Type}

/-- features where they are -/
theorem here_home {D : Decls} {W : World} (hr : RegInv W) (h : FeatsHere D W) : ∃ home used, HomeInv D home used W := by
  classical
  refine ⟨fun f => if hx : ∃ d, f ∈ featuresOf W d then Classical.choose hx else 0, fun _ => True, ?_, ?_⟩
  · intro d i f hf
    have hx : f ∈ featuresOf W d := (mem_featuresOf _ _ _).2 ⟨i, hf⟩
    have he : ∃ d, f ∈ featuresOf W d := ⟨d, hx⟩
    simp only [dif_pos he]
    exact featHome hr (Classical.choose_spec he) hx
  · intro d i m hm ff hff
    exact ⟨trivial, (mem_featuresOf _ _ _).1 (h d m ((mem_mixinsOf _ _ _).2 ⟨i, hm⟩) ff hff)⟩

theorem unparted_home (D : Decls) (s : DomId → Settings) (ops : List Op) (h : NeverParts D s ops) :
    ∃ home used, HomeInv D home used (run D (initWorld s) ops) ∧ ∀ d, TablesOk D (run D (initWorld s) ops) d := by
  obtain ⟨home, used, hh⟩ := here_home (reachable_reg D s ops) ((C56_exactly D s ops).2 h ops (List.prefix_refl _))
  exact ⟨home, used, hh, tables_here D s ops h⟩

/-- C29, for all histories in which no call makes features and mixins part: the types of a domain have tables fit for all theorems about calls. -/
theorem C29_types_of_domain_unparted (D : Decls) (s : DomId → Settings) (ops : List Op) (hd : NeverParts D s ops) (d : DomId)
    (t : TypeId) (r : TypeRec) (ht : ((run D (initWorld s) ops).doms d).typeAt d t = some r) (f : Feat)
    (hf : f ∈ featuresOf (run D (initWorld s) ops) d) : BuiltFor D r f ((run D (initWorld s) ops).featId f) := by
  obtain ⟨home, used, hh, htab⟩ := unparted_home D s ops hd
  have hr := reachable_reg D s ops
  have hi := reachable_types D s ops d
  have htab := htab d
  generalize run D (initWorld s) ops = W at hh htab hr hi ht hf ⊢
  obtain ⟨-, -, -, hreg⟩ := hi.typeAt_ok ht
  obtain ⟨hok, hsame⟩ := fidIn_ok hr hh r.mixins (fun m hm => (hr.mem_mixinsOf_iff d m).2 (hreg m hm))
  have hfid : fidIn W d f = W.featId f := by simp [fidIn, hf]
  refine ⟨fidIn W d, hok, ?_, hfid, ?_⟩
  · rcases typeAt_some ht with ⟨a, b⟩ | ⟨a, b, c⟩
    · subst b; rfl
    · rw [← buildFtable_congr D W.featId (fidIn W d) r.mixins hsame]; exact htab r b
  · obtain ⟨j, hj⟩ := (mem_featuresOf _ _ _).1 hf
    rw [hr.featSlot d j f hj]; rfl

/-- C30, for the same histories. -/
theorem C30_in_domain_unparted (D : Decls) (s : DomId → Settings) (ops : List Op) (hd : NeverParts D s ops) (d : DomId)
    (t : TypeId) (r : TypeRec) (ht : ((run D (initWorld s) ops).doms d).typeAt d t = some r) (f : Feat)
    (hf : f ∈ featuresOf (run D (initWorld s) ops) d) (I : Impls σ R) (hne : allImpls D r.mixins f ≠ []) :
    ∃ xs w, (xs ++ [w]).Perm (topImpls D r.mixins f) ∧ (xs ++ [w]).Pairwise CalledBefore ∧ Winner D r.mixins f w ∧
      (∀ σ₀, callMulticast D I r f ((run D (initWorld s) ops).featId f) σ₀ = callInOrder I w xs σ₀) ∧
      (∀ σ₀, callUnicast D I r f ((run D (initWorld s) ops).featId f) σ₀ = callImpl I w σ₀) :=
  C30_multicast_calls D I r f _ (C29_types_of_domain_unparted D s ops hd d t r ht f hf) hne

/-- C31, for the same histories (no mixin lists the feature twice). -/
theorem C31_in_domain_unparted (D : Decls) (s : DomId → Settings) (ops : List Op) (hd : NeverParts D s ops) (d : DomId)
    (t : TypeId) (r : TypeRec) (ht : ((run D (initWorld s) ops).doms d).typeAt d t = some r) (f : Feat)
    (hf : f ∈ featuresOf (run D (initWorld s) ops) d) (hone : ListsOnce D r.mixins f) (w : Nat × FeatFor) (hw : Winner D r.mixins f w)
    (n : Nat) (hn : (allImpls D r.mixins f).length ≤ n) :
    RanksImpls D r.mixins f
      (walk (nextOf r ((run D (initWorld s) ops).featId f) (run D (initWorld s) ops).mixId) n (some w)) :=
  C31_walk D r f _ (C29_types_of_domain_unparted D s ops hd d t r ht f hf) _ (C31_types_of_domain D s ops d t r ht) hone w hw n hn

/-- C32, for the same histories. -/
theorem C32_in_domain_unparted (D : Decls) (s : DomId → Settings) (ops : List Op) (hd : NeverParts D s ops) (d : DomId)
    (t : TypeId) (r : TypeRec) (ht : ((run D (initWorld s) ops).doms d).typeAt d t = some r) (f : Feat)
    (hf : f ∈ featuresOf (run D (initWorld s) ops) d) (I : Impls σ Int) (hne : allImpls D r.mixins f ≠ []) :
    ∃ L, L.Perm (topImpls D r.mixins f) ∧ L.Pairwise CalledBefore ∧
      ∀ σ₀, Yields (callCombined D I meanC r f ((run D (initWorld s) ops).featId f) (0, 0) σ₀) meanResult
        (match callSum I L σ₀ with
          | (.error e, s') => (.error e, s')
          | (.ok v, s') => (.ok (v.tdiv (topImpls D r.mixins f).length), s')) :=
  C32_mean D I r f _ (C29_types_of_domain_unparted D s ops hd d t r ht f hf) hne

/-- C62, for the same histories. -/
theorem C62_types_of_domain_unparted (D : Decls) (s : DomId → Settings) (ops : List Op) (hd : NeverParts D s ops) (d : DomId)
    (t : TypeId) (r : TypeRec) (ht : ((run D (initWorld s) ops).doms d).typeAt d t = some r) :
    (∀ f ∈ featuresOf (run D (initWorld s) ops) d,
      (r.implementsStrong ((run D (initWorld s) ops).featId f) = true ↔ Provides D r.mixins f) ∧
      r.implementsStrong ((run D (initWorld s) ops).featId f) = tmImplementsStrong D r.mixins f ∧
      r.implements D f ((run D (initWorld s) ops).featId f) = tmImplements D r.mixins f) ∧
    (∀ name, (r.implementsStrongName D name = true ↔ ∃ f, Provides D r.mixins f ∧ D.featName f = name) ∧
      r.implementsStrongName D name = (tmImplementsStrongName D name r.mixins).isSome) := by
  constructor
  · intro f hf
    have hb := C29_types_of_domain_unparted D s ops hd d t r ht f hf
    have h1 := C62_implements_strong D r f _ hb
    have h2 := C62_implements D r f _ hb
    have h3 := C62_mutation D r.mixins f
    exact ⟨h1, by rw [Bool.eq_iff_iff, h1, h3.1], by rw [Bool.eq_iff_iff, h2, h3.2]⟩
  · intro name
    have hn : r.implementsStrongName D name = true ↔ ∃ f, Provides D r.mixins f ∧ D.featName f = name := by
      obtain ⟨home, used, hh, htab⟩ := unparted_home D s ops hd
      have hr := reachable_reg D s ops
      have hi := reachable_types D s ops d
      have htab := htab d
      generalize run D (initWorld s) ops = W at hh htab hr hi ht
      obtain ⟨-, -, -, hreg⟩ := hi.typeAt_ok ht
      obtain ⟨hok, hsame⟩ := fidIn_ok hr hh r.mixins (fun m hm => (hr.mem_mixinsOf_iff d m).2 (hreg m hm))
      refine builtFor_name hok ?_ name
      rcases typeAt_some ht with ⟨a, b⟩ | ⟨a, b, c⟩
      · subst b; rfl
      · rw [← buildFtable_congr D W.featId (fidIn W d) r.mixins hsame]; exact htab r b
    refine ⟨hn, ?_⟩
    rw [Bool.eq_iff_iff, hn, Option.isSome_iff_ne_none, ne_eq, (C62_mutation_name D name r.mixins).1]
    constructor
    · rintro ⟨f, h1, h2⟩ h; exact h f h1 h2
    · intro h
      by_cases hx : ∃ f, Provides D r.mixins f ∧ D.featName f = name
      · exact hx
      · exact absurd (fun f h1 h2 => hx ⟨f, h1, h2⟩) h

/-- C85, for the same histories: the features in the text about a type. -/
theorem C85_ftable_in_domain_unparted (D : Decls) (N : DomId → Option (List UInt8)) (num : TypeId → Nat) (s : DomId → Settings) (ops : List Op) (hd : NeverParts D s ops) (fl : DmpFlags) (d : DomId) (t : TypeRec) (ht : t ∈ typesOf (run D (initWorld s) ops) d) (hfl : fl.ftable = true)
    (b : List Line) (h : dmpType D N num fl (run D (initWorld s) ops) t (some d) = some b) :
    ∃ fs : List Feat, (∀ f, f ∈ fs ↔ allImpls D t.mixins f ≠ []) ∧
      readCount " features:" b = some (fs.length : Int) ∧ (readImpls b).length = fs.length ∧
      ∀ (k : Nat) (f : Feat) x, fs[k]? = some f → (readImpls b)[k]? = some x → FeatureTold D t.mixins fl.fullFtable f x := by
  obtain ⟨home, used, hh, htab⟩ := unparted_home D s ops hd
  have hr := reachable_reg D s ops
  have hi := (reachable_types D s ops d).ok t ht
  have hb := htab d t ht
  obtain ⟨hok, hsame⟩ := fidIn_ok hr hh t.mixins (fun m hm => (hr.mem_mixinsOf_iff d m).2 (hi.reg m hm))
  rw [buildFtable_congr D _ _ t.mixins hsame] at hb
  obtain ⟨fs, h1, -, h2⟩ := C85_ftable D N num fl _ d t _ hok hb b hfl h
  exact ⟨fs, h1, h2⟩

/-- C85, for the same histories: the text about a domain is always defined. -/
theorem C85_defined_unparted (D : Decls) (N : DomId → Option (List UInt8)) (num : TypeId → Nat) (s : DomId → Settings) (ops : List Op) (hd : NeverParts D s ops) (fl : DmpFlags) (d : DomId) (hN : (N d).isSome) : (dmpDomain D N num fl (run D (initWorld s) ops) d).isSome := by
  obtain ⟨home, used, hh, htab⟩ := unparted_home D s ops hd
  have hr := reachable_reg D s ops
  have hi := reachable_types D s ops d
  have htab := htab d
  have hc := reachable_cls D s ops d
  generalize run D (initWorld s) ops = W at hh htab hr hi hc ⊢
  obtain ⟨dn, hdn⟩ := Option.isSome_iff_exists.1 hN
  have hmix : ∀ (ms : List Mix) (next : Nat), (∀ m ∈ ms, W.mixDom m = some d) → ∃ ls, dmpMixinList D N fl W next ms = some ls := by
    intro ms
    induction ms with
    | nil => intro next _; exact ⟨_, rfl⟩
    | cons m ms ih =>
      intro next hm
      obtain ⟨ls, hls⟩ := ih (iidOf (W.mixId m) + 1) (fun x hx => hm x (List.mem_cons_of_mem _ hx))
      have hreg : ∃ r, dmpMixinReg N W m = some r := by
        unfold dmpMixinReg
        cases W.mixId m with
        | none => exact ⟨_, rfl⟩
        | some i => simp [hm m List.mem_cons_self, hdn]
      obtain ⟨r, hreg⟩ := hreg
      simp [dmpMixinList, dmpMixin, hreg, hls]
  have hpay : ∀ (t : TypeRec) (ps : List Payload), (∀ p ∈ ps, ∃ m, t.mixins[p.mixinIndex]? = some m) → ∃ ls, ps.mapM (dmpPayload D t) = some ls := by
    intro t ps
    induction ps with
    | nil => intro _; exact ⟨_, rfl⟩
    | cons p ps ih =>
      intro hp
      obtain ⟨ls, hls⟩ := ih (fun x hx => hp x (List.mem_cons_of_mem _ hx))
      obtain ⟨m, hm⟩ := hp p List.mem_cons_self
      rw [List.mapM_cons, hls]
      simp [dmpPayload, hm]
  have hents : ∀ (t : TypeRec) (es : List (Option FEntry)), (∀ e, some e ∈ es → e.pls ≠ [] ∧ ∀ p ∈ e.pls, ∃ m, t.mixins[p.mixinIndex]? = some m) →
      ∃ ls, dmpEntries D fl t es = some ls := by
    intro t es
    induction es with
    | nil => intro _; exact ⟨_, rfl⟩
    | cons o es ih =>
      intro he
      obtain ⟨ls, hls⟩ := ih (fun e h => he e (List.mem_cons_of_mem _ h))
      cases o with
      | none => exact ⟨ls, hls⟩
      | some e =>
        obtain ⟨h1, h2⟩ := he e List.mem_cons_self
        obtain ⟨p, ps, hp⟩ := List.exists_cons_of_ne_nil h1
        rw [hp] at h2
        obtain ⟨xs, hxs⟩ := hpay t _ h2
        have hfull : ∃ r, dmpFull D fl t (p :: ps) = some r := by
          unfold dmpFull
          split
          · exact ⟨_, hxs⟩
          · exact ⟨_, rfl⟩
        obtain ⟨r, hfull⟩ := hfull
        simp [dmpEntries, dmpEntry, hp, hfull, hls]
  have hcls : ∀ (t : TypeRec) (cs : List Cls), (∀ c ∈ cs, (D.cls c).isNull = false) → ∃ ls, dmpClassNames D t cs = some ls := by
    intro t cs
    induction cs with
    | nil => intro _; exact ⟨_, rfl⟩
    | cons c cs ih =>
      intro h
      obtain ⟨ls, hls⟩ := ih (fun x hx => h x (List.mem_cons_of_mem _ hx))
      simp [dmpClassNames, h c List.mem_cons_self, hls]
  have htypes : ∀ ts : List TypeRec, (∀ t ∈ ts, t ∈ (W.doms d).types) → ∃ ls, dmpTypes D N num fl W d ts = some ls := by
    intro ts
    induction ts with
    | nil => intro _; exact ⟨_, rfl⟩
    | cons t ts ih =>
      intro ht
      obtain ⟨ls, hls⟩ := ih (fun x hx => ht x (List.mem_cons_of_mem _ hx))
      have htm := ht t List.mem_cons_self
      have hok := hi.ok t htm
      have hb := htab t htm
      obtain ⟨hids, hsame⟩ := fidIn_ok hr hh t.mixins (fun m hm => (hr.mem_mixinsOf_iff d m).2 (hok.reg m hm))
      rw [buildFtable_congr D _ _ t.mixins hsame] at hb
      obtain ⟨es, hes⟩ := hents t t.ftable (fun e he => by
        obtain ⟨i, hi'⟩ := List.getElem?_of_mem he
        obtain ⟨p, ps, hp, hfid⟩ := featIdsOk_entry D hids hb hi'
        have := buildFtable_entry D _ t.mixins hids t.ftable hb _ i hfid
        rw [hi'] at this
        simp only [Option.getD_some] at this
        refine ⟨this.2.1, fun q hq => ?_⟩
        have hq' : q.pair ∈ allImpls D t.mixins p.data.feat := this.1.complete.mem_iff.1 (List.mem_map_of_mem hq)
        obtain ⟨m, hm, -, -⟩ := allImpls_idx_lt hq'
        exact ⟨m, hm⟩)
      obtain ⟨xs, hxs⟩ := hcls t (traverseClasses W d) (fun c hc' => by
        unfold traverseClasses at hc'
        rw [visitSparse_eq] at hc'
        simp only [List.mem_filterMap, id, exists_eq_right] at hc'
        obtain ⟨i, hi'⟩ := List.getElem?_of_mem hc'
        exact hc.nonnull i c hi')
      have hft : ∃ r, dmpFtable D fl t = some r := by
        unfold dmpFtable
        split
        · rw [hes]; exact ⟨_, rfl⟩
        · exact ⟨_, rfl⟩
      have htc : ∃ r, dmpTypeClasses D fl W t (some d) = some r := by
        unfold dmpTypeClasses
        simp only
        split
        · rw [hxs]; exact ⟨_, rfl⟩
        · exact ⟨_, rfl⟩
      obtain ⟨r1, hft⟩ := hft
      obtain ⟨r2, htc⟩ := htc
      simp [dmpTypes, dmpType, hok.dom, hdn, hft, htc, hls]
  have hqs : ∀ qs : List (List Mix × TypeId), (∀ q ∈ qs, q ∈ (W.doms d).queries) → ∃ ls, dmpQueries D W d qs = some ls := by
    intro qs
    induction qs with
    | nil => intro _; exact ⟨_, rfl⟩
    | cons q qs ih =>
      intro hq
      obtain ⟨ls, hls⟩ := ih (fun x hx => hq x (List.mem_cons_of_mem _ hx))
      obtain ⟨r, hr'⟩ := hi.queries q (hq q List.mem_cons_self)
      obtain ⟨q, t⟩ := q
      simp [dmpQueries, hr', hls]
  obtain ⟨l1, e1⟩ := hmix (traverseMixins W d) 0 (fun m hm => by
    unfold traverseMixins at hm
    rw [visitSparse_eq] at hm
    simp only [List.mem_filterMap, id, exists_eq_right] at hm
    obtain ⟨i, hi'⟩ := List.getElem?_of_mem hm
    exact (hr.mixSlot d i m hi').2)
  obtain ⟨l2, e2⟩ := htypes _ (fun t ht => ht)
  obtain ⟨l3, e3⟩ := hqs _ (fun q hq => hq)
  have s1 : ∃ x, dmpMixinsSection D N fl W d = some x := by
    unfold dmpMixinsSection
    split
    · rw [e1]; exact ⟨_, rfl⟩
    · exact ⟨_, rfl⟩
  have s2 : ∃ x, dmpTypesSection D N num fl W d = some x := by
    unfold dmpTypesSection
    split
    · rw [e2]; exact ⟨_, rfl⟩
    · exact ⟨_, rfl⟩
  have s3 : ∃ x, dmpClassesSection D N num fl W d = some x := by
    unfold dmpClassesSection
    split
    · rw [dmpClasses_eq]; exact ⟨_, rfl⟩
    · exact ⟨_, rfl⟩
  have s4 : ∃ x, dmpQueriesSection D fl W d = some x := by
    unfold dmpQueriesSection
    split
    · rw [traverseQueries, e3]; exact ⟨_, rfl⟩
    · exact ⟨_, rfl⟩
  obtain ⟨x1, s1⟩ := s1
  obtain ⟨x2, s2⟩ := s2
  obtain ⟨x3, s3⟩ := s3
  obtain ⟨x4, s4⟩ := s4
  simp [dmpDomain, hdn, s1, s2, s3, s4]

/-- C93, for the same histories. -/
theorem C93_types_unparted (S : StdSort) (D : Decls) (s : DomId → Settings) (ops : List Op) (hd : NeverParts D s ops) (d : DomId) (tid : TypeId) (ms : List Mix) :
    (∃ e, buildTypeS S D (run D (initWorld s) ops) d tid ms = .error e ∧ buildType D (run D (initWorld s) ops) d tid ms = .error e) ∨
    ∃ t t', buildTypeS S D (run D (initWorld s) ops) d tid ms = .ok t ∧ buildType D (run D (initWorld s) ops) d tid ms = .ok t' ∧
      SameTable t.ftable t'.ftable ∧ t = { t' with ftable := t.ftable } := by
  obtain ⟨home, used, hh, -⟩ := unparted_home D s ops hd
  have hr := reachable_reg D s ops
  generalize run D (initWorld s) ops = W at hh hr
  unfold buildTypeS buildType
  cases hc : checkMixins W.mixId W.mixDom d ms with
  | error e => exact .inl ⟨e, rfl, rfl⟩
  | ok u =>
    rcases buildFtableS_agree S D W.featId ms (idsApart_of hr hh hc) with ⟨e, h1, h2⟩ | ⟨a, b, h1, h2, h3⟩
    · simp only [h1, h2]; exact .inl ⟨e, rfl, rfl⟩
    · simp only [h1, h2]; exact .inr ⟨_, _, rfl, rfl, h3, rfl⟩

end Dnmx.Props
