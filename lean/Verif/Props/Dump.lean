import Verif.Proofs.DumpTypes
import Verif.Props.Traverse
import Verif.Props.DomainFeatures

/-!
# C85: debug output

The text that `dbg_dmp` writes, as it is read (`Verif.Spec.Dump`), agrees with what the functions of the library say about the domain.
-/

namespace Dnmx.Props
open Spec

set_option linter.unusedSimpArgs false
set_option linter.unusedVariables false
set_option linter.unusedSectionVars false

/-- Mixins 1, 2 and 3 implement feature 7, mixin 3 also feature 8; class 5 matches types that begin with mixin 1, class 6 those with two mixins. -/
def dmpDecls : Decls where
  mem := fun a => UInt8.ofNat a
  mix := fun m => { name := ⟨m, m + 1⟩, dependency := m = 4, feats := if m = 1 then [⟨7, 100, 0, 0⟩] else if m = 2 then [⟨7, 200, 5, 1⟩]
    else if m = 3 then [⟨8, 300, 0, 0⟩, ⟨7, 301, 5, 0⟩] else [] }
  feat := fun f => { name := ⟨f, f + 1⟩ }
  userRule := fun r => { name := ⟨r, r + 1⟩, apply := some (tyRule r) }
  cls := fun c => { name := ⟨c, c + 1⟩, matchesT := fun ms => if c = 5 then ms.head? = some 1 else ms.length = 2 }

/-- Slot 0 of mixins is empty at the end, slot 0 of features as well. -/
def dmpOps : List Op :=
  [.regFeature 0 9, .regMixin 0 4, .regMixin 0 1, .regMixin 0 2, .regMixin 0 3, .unregMixin 0 4, .unregFeature 0 9, .regClass 0 5, .regClass 0 6, .addRule 0 2,
   .getType 0 [1, 2, 3], .getType 0 [2, 1], .getType 0 [2]]

def dmpWorld : World := run dmpDecls (initWorld fun _ => {}) dmpOps

/-- The domain 0 has the name 100, domain 1 is destroyed. -/
def dmpNames : DomId → Option (List UInt8) := fun d => if d = 0 then some [100] else none

/-- The text with everything. -/
def dmpText : List Line := (dmpDomain dmpDecls dmpNames (fun t => t) {} dmpWorld 0).getD []

section
variable (D : Decls) (N : DomId → Option (List UInt8)) (num : TypeId → Nat) (s : DomId → Settings) (ops : List Op)

/-- C85: the section about features has in its title the number of features, and whoever counts the lines and the empty slots knows for every id the name of
the feature to which it leads. -/
theorem C85_features (fl : DmpFlags) (d : DomId) (doc : List Line) (hf : fl.features = true) (h : dmpDomain D N num fl (run D (initWorld s) ops) d = some doc) :
    ∃ n body, readSection " Features" doc = some (n, body) ∧
      (∀ i x, (i, x) ∈ readSlots "feature: '" 0 body ↔ ∃ f, getFeatureById (run D (initWorld s) ops) d (some i) = some f ∧ D.featName f = x) ∧
      (readSlots "feature: '" 0 body).Pairwise (fun a b => a.1 < b.1) ∧ n = (readSlots "feature: '" 0 body).length := by
  have hr := reachable_reg D s ops
  generalize run D (initWorld s) ops = W at h hr ⊢
  refine ⟨_, _, (dmpDomain_sections D N num h).1 hf, ?_⟩
  rw [traverseFeatures, readSlots_features D W _ 0 0 (Nat.le_refl _) (fun i x hx => by rw [hr.featSlot d i x hx, Nat.zero_add])]
  refine ⟨fun i x => ?_, slotsFrom_sorted _ _ _, by rw [slotsFrom_length]⟩
  rw [mem_slotsFrom]
  simp only [getFeatureById, getById_eq, Nat.zero_add]
  constructor
  · rintro ⟨j, f, rfl, h1, h2⟩; exact ⟨f, ⟨_, rfl, h1⟩, h2⟩
  · rintro ⟨f, ⟨j, h0, h1⟩, h2⟩; cases h0; exact ⟨_, f, rfl, h1, h2⟩

/-- C85: the same about mixins. -/
theorem C85_mixins (fl : DmpFlags) (d : DomId) (doc : List Line) (hf : fl.mixins = true) (h : dmpDomain D N num fl (run D (initWorld s) ops) d = some doc) :
    ∃ n body, readSection " Mixins" doc = some (n, body) ∧
      (∀ i x, (i, x) ∈ readSlots "mixin: '" 0 body ↔ ∃ m, getMixinById (run D (initWorld s) ops) d (some i) = some m ∧ D.mixName m = x) ∧
      (readSlots "mixin: '" 0 body).Pairwise (fun a b => a.1 < b.1) ∧ n = (readSlots "mixin: '" 0 body).length := by
  have hr := reachable_reg D s ops
  generalize run D (initWorld s) ops = W at h hr ⊢
  obtain ⟨ls, h1, h2⟩ := (dmpDomain_sections D N num h).2.1 hf
  refine ⟨_, _, h2, ?_⟩
  unfold traverseMixins at h1 ⊢
  rw [readSlots_mixins D N fl W _ 0 0 (Nat.le_refl _) (fun i x hx => by rw [(hr.mixSlot d i x hx).1, Nat.zero_add]) ls h1]
  refine ⟨fun i x => ?_, slotsFrom_sorted _ _ _, by rw [slotsFrom_length]⟩
  rw [mem_slotsFrom]
  simp only [getMixinById, getById_eq, Nat.zero_add]
  constructor
  · rintro ⟨j, f, rfl, h1, h2⟩; exact ⟨f, ⟨_, rfl, h1⟩, h2⟩
  · rintro ⟨f, ⟨j, h0, h1⟩, h2⟩; cases h0; exact ⟨_, f, rfl, h1, h2⟩

example : (readSection " Features" dmpText).map (fun x => (x.1, readSlots "feature: '" 0 x.2)) = some (2, [(1, [7]), (2, [8])]) ∧
    (readSection " Mixins" dmpText).map (fun x => (x.1, readSlots "mixin: '" 0 x.2)) = some (3, [(1, [1]), (2, [2]), (3, [3])]) := by
  decide +kernel

/-- C85: the section about types has their number in its title and one block for each type, in which its composition, its object buffer, its object count
and its traits are given. -/
theorem C85_types (fl : DmpFlags) (d : DomId) (doc : List Line) (hf : fl.types = true) (h : dmpDomain D N num fl (run D (initWorld s) ops) d = some doc) :
    ∃ n body, readSection " Types" doc = some (n, body) ∧ n = numTypes (run D (initWorld s) ops) d ∧
      (readBlocks body).length = (typesOf (run D (initWorld s) ops) d).length ∧
      ∀ (k : Nat) (t : TypeRec) (b : List Line), (typesOf (run D (initWorld s) ops) d)[k]? = some t → (readBlocks body)[k]? = some b →
        b.head?.bind typeComp = some (t.mixins.map D.mixName) ∧
        (fl.typeEx = true → readField "obj buf size: " b = some (.num t.layout.size) ∧ readField "obj buf align: " b = some (.num t.layout.align) ∧
          readField "num obj: " b = some (.num (num t.tid)) ∧ readField "default_constructible: " b = some (.flag (t.defaultConstructible D)) ∧
          readField "copy_constructible: " b = some (.flag (t.copyConstructible D)) ∧ readField "copy_assignable: " b = some (.flag (t.copyAssignable D)) ∧
          readField "equality_comparable: " b = some (.flag (t.equalityComparable D)) ∧ readField "comparable: " b = some (.flag (t.comparable D))) := by
  obtain ⟨ls, h1, h2⟩ := (dmpDomain_sections D N num h).2.2.2.1 hf
  obtain ⟨-, bs, h3, h4⟩ := dmpTypes_blocks D N num fl _ d _ _ h1
  refine ⟨_, _, h2, rfl, ?_, ?_⟩
  · rw [h4]
    exact mapM_some_length h3
  · intro k t b ht hb
    rw [h4] at hb
    have hd := mapM_some_get h3 k t b ht hb
    refine ⟨(dmpType_read D N num hd).1, fun hx => ?_⟩
    obtain ⟨dn, ft, cs, g1, g2, g3, rfl⟩ := dmpType_parts D N num hd
    simp [dmpTypeEx, hx, nind, readField]
where
  mapM_some_length {α β : Type} {g : α → Option β} : ∀ {l : List α} {r : List β}, l.mapM g = some r → r.length = l.length
    | [], r, h => by simp at h; subst h; rfl
    | a :: l, r, h => by
      rw [List.mapM_cons] at h
      simp only [Option.bind_eq_bind, Option.bind_eq_some_iff, Option.pure_def, Option.some.injEq] at h
      obtain ⟨x, -, y, hy, rfl⟩ := h
      simp [mapM_some_length hy]
  mapM_some_get {α β : Type} {g : α → Option β} : ∀ {l : List α} {r : List β}, l.mapM g = some r → ∀ (k : Nat) (x : α) (y : β), l[k]? = some x → r[k]? = some y → g x = some y
    | [], r, h, k, x, y, hx, hy => by simp at hx
    | a :: l, r, h, k, x, y, hx, hy => by
      rw [List.mapM_cons] at h
      simp only [Option.bind_eq_bind, Option.bind_eq_some_iff, Option.pure_def, Option.some.injEq] at h
      obtain ⟨x', h1, y', h2, rfl⟩ := h
      cases k with
      | zero => simp at hx hy; subst hx; subst hy; exact h1
      | succ k => exact mapM_some_get h2 k x y (by simpa using hx) (by simpa using hy)

/-- What the text says about a feature `f` of a composition: its name, how many implementations have the greatest bid, how many there are, and, if
requested, each of them, best first. -/
structure FeatureTold (D : Decls) (ms : List Mix) (full : Bool) (f : Feat) (x : (List UInt8 × Int × Int) × List (List UInt8 × Nat × Int × Int)) : Prop where
  name : x.1.1 = D.featName f
  top : x.1.2.1 = (topImpls D ms f).length
  all : x.1.2.2 = (allImpls D ms f).length
  each : full = true → ∃ l, RanksImpls D ms f l ∧ x.2.length = l.length ∧
    ∀ (k : Nat) y, l[k]? = some y → ∃ m, ms[y.1]? = some m ∧ x.2[k]? = some (D.mixName m, y.2.payload, y.2.bid, y.2.priority)
  none : full = false → x.2 = []

/-- C85: what the text about a type says about its features is exactly what its mixins implement: one entry for each implemented feature, in the order of
their ids. -/
theorem C85_ftable (fl : DmpFlags) (W : World) (d : DomId) (t : TypeRec) (fid : Feat → Option Nat) (hf : FeatIdsOk D fid t.mixins) (hb : buildFtable D fid t.mixins = .ok t.ftable)
    (b : List Line) (hfl : fl.ftable = true) (h : dmpType D N num fl W t (some d) = some b) :
    ∃ fs : List Feat, (∀ f, f ∈ fs ↔ allImpls D t.mixins f ≠ []) ∧ fs.Pairwise (fun f g => ∃ i j, fid f = some i ∧ fid g = some j ∧ i < j) ∧
      readCount " features:" b = some (fs.length : Int) ∧ (readImpls b).length = fs.length ∧
      ∀ (k : Nat) (f : Feat) x, fs[k]? = some f → (readImpls b)[k]? = some x → FeatureTold D t.mixins fl.fullFtable f x := by
  obtain ⟨h1, h2⟩ := (dmpType_read D N num h).2.1 hfl
  obtain ⟨fs, g1, g2, g3, g4⟩ := table_features hf.distinct t.ftable 0 (fun i e he => by
    obtain ⟨p, ps, a, c⟩ := featIdsOk_entry D hf hb he
    exact ⟨p, ps, a, by rw [c, Nat.zero_add]⟩)
  refine ⟨fs, fun f => ?_, g1, ?_, ?_, fun k f x hk hx => ?_⟩
  · rw [g2]
    constructor
    · rintro ⟨i, e, a, c⟩ hn
      rw [Nat.zero_add] at a
      have := buildFtable_entry D fid t.mixins hf t.ftable hb f i a
      rw [c] at this
      simp only [Option.getD_some] at this
      have hc := this.1.complete.length_eq
      rw [hn] at hc
      simp at hc
      exact this.2.1 hc
    · intro hne
      obtain ⟨y, ys, hy⟩ := List.exists_cons_of_ne_nil hne
      obtain ⟨m, q1, q2, q3⟩ := allImpls_idx_lt (D := D) (ms := t.mixins) (f := f) (x := y) (by rw [hy]; exact List.mem_cons_self)
      obtain ⟨i, hi⟩ := hf.registered m (List.mem_of_getElem? q1) y.2 q2
      rw [q3] at hi
      have := buildFtable_entry D fid t.mixins hf t.ftable hb f i hi
      cases ht : (t.ftable[i]?).getD none with
      | none => rw [ht] at this; exact absurd this hne
      | some e =>
        refine ⟨i, e, by rw [hi, Nat.zero_add], ?_⟩
        cases hti : t.ftable[i]? with
        | none => rw [hti] at ht; simp at ht
        | some o => rw [hti] at ht; simp at ht; rw [ht]
  · rw [h1, g3, dmpNumFeatures]
    congr 2
    induction t.ftable with
    | nil => rfl
    | cons o l ih => cases o <;> simpa using ih
  · rw [h2, List.length_map, g3]
  · rw [h2, List.getElem?_map, Option.map_eq_some_iff] at hx
    obtain ⟨e, he, rfl⟩ := hx
    obtain ⟨i, hi, hti⟩ := g4 k f e hk he
    rw [Nat.zero_add] at hi
    have hat : t.ftableAt (some i) = some e := by simp [TypeRec.ftableAt, hti]
    obtain ⟨p, ps, k1, k2, k3, k4, k5, -⟩ := BuiltFor.split (D := D) (t := t) (f := f) (fid := some i) ⟨fid, hf, hb, hi, rfl⟩ hat
    have hlen : (allImpls D t.mixins f).length = e.pls.length := by
      rw [← k2.complete.length_eq, k1]; simp
    refine ⟨?_, ?_, ?_, fun hfull => ?_, fun hfull => ?_⟩
    · simp only [entryTold, k1]
      have : p.pair ∈ allImpls D t.mixins f := k3.1
      obtain ⟨m, -, -, q⟩ := allImpls_idx_lt this
      rw [show p.data.feat = p.pair.2.feat from rfl, q]
    · simp only [entryTold]
      rw [← k5.length_eq]
      simp only [List.length_cons, List.length_map, List.length_take]
      omega
    · simp only [entryTold, hlen]
    · refine ⟨e.pls.map Payload.pair, by rw [k1]; exact k2, ?_, ?_⟩
      · simp [entryTold, hfull]
      · intro n y hy
        rw [List.getElem?_map, Option.map_eq_some_iff] at hy
        obtain ⟨q, hq, rfl⟩ := hy
        have : q.pair ∈ allImpls D t.mixins f := by
          rw [← k2.complete.mem_iff]
          have := List.mem_map_of_mem (f := Payload.pair) (List.mem_of_getElem? hq)
          rw [k1] at this
          exact this
        obtain ⟨m, hm, -, -⟩ := allImpls_idx_lt this
        refine ⟨m, hm, ?_⟩
        simp only [entryTold, hfull, ↓reduceIte, List.getElem?_map, hq, Option.map_some, payloadTold]
        rw [show q.mixinIndex = q.pair.1 from rfl, hm]
        rfl
    · simp [entryTold, hfull]

/-- C85 (partial: with `FeatureDiscipline`): this holds for every type in the text about a domain.
Missing: other histories, in which the table itself is wrong (`C27_foreign_feature_refuted`). -/
theorem C85_ftable_in_domain_partial (hd : FeatureDiscipline D ops) (fl : DmpFlags) (d : DomId) (t : TypeRec) (ht : t ∈ typesOf (run D (initWorld s) ops) d) (hfl : fl.ftable = true)
    (b : List Line) (h : dmpType D N num fl (run D (initWorld s) ops) t (some d) = some b) :
    ∃ fs : List Feat, (∀ f, f ∈ fs ↔ allImpls D t.mixins f ≠ []) ∧
      readCount " features:" b = some (fs.length : Int) ∧ (readImpls b).length = fs.length ∧
      ∀ (k : Nat) (f : Feat) x, fs[k]? = some f → (readImpls b)[k]? = some x → FeatureTold D t.mixins fl.fullFtable f x := by
  obtain ⟨home, used, hops⟩ := hd
  obtain ⟨hh, htab⟩ := reachable_home D home used s ops hops
  have hr := reachable_reg D s ops
  have hi := (reachable_types D s ops d).ok t ht
  have hb := htab d t ht
  obtain ⟨hok, hsame⟩ := fidIn_ok hr hh t.mixins (fun m hm => (hr.mem_mixinsOf_iff d m).2 (hi.reg m hm))
  rw [buildFtable_congr D _ _ t.mixins hsame] at hb
  obtain ⟨fs, h1, -, h2⟩ := C85_ftable D N num fl _ d t _ hok hb b hfl h
  exact ⟨fs, h1, h2⟩

set_option synthInstance.maxSize 4096 in
set_option synthInstance.maxHeartbeats 200000 in
/-- The blocks of the types of the example: compositions, number of features, implementations, queries and classes. -/
example : (readSection " Types" dmpText).map (fun x => (x.1, (readBlocks x.2).map (fun b => (b.head?.bind typeComp, readCount " features:" b, readField "num obj: " b)))) =
    some (3, [(some [[1], [2], [3]], some 2, some (.num 1)), (some [[2], [1]], some 1, some (.num 2)), (some [[2]], some 1, some (.num 3))]) ∧
    (readSection " Types" dmpText).map (fun x => (readBlocks x.2).map (fun b => (readImpls b).map (·.1))) = some [[([7], 2, 3), ([8], 1, 1)], [([7], 1, 2)], [([7], 1, 1)]] := by
  decide +kernel

set_option synthInstance.maxSize 4096 in
set_option synthInstance.maxHeartbeats 200000 in
example : (readSection " Types" dmpText).map (fun x => (readBlocks x.2).map readImpls) =
      some [[(([7], 2, 3), [([3], 301, 5, 0), ([2], 200, 5, 1), ([1], 100, 0, 0)]), (([8], 1, 1), [([3], 300, 0, 0)])],
        [(([7], 1, 2), [([2], 200, 5, 1), ([1], 100, 0, 0)])], [(([7], 1, 1), [([2], 200, 5, 1)])]] := by
  decide +kernel

/-- C85: the type classes which are given for a type are exactly those by whose name `is_of` says that the type is of the class, once each. -/
theorem C85_matching_classes (fl : DmpFlags) (d : DomId) (t : TypeRec) (ht : t.dom = d) (hfl : fl.matchingClasses = true)
    (b : List Line) (h : dmpType D N num fl (run D (initWorld s) ops) t (some d) = some b) :
    (∀ x, x ∈ b.filterMap classLine ↔ typeIsOf D (run D (initWorld s) ops) t x = .ok true) ∧ (b.filterMap classLine).Nodup := by
  rw [(dmpType_read D N num h).2.2.2 hfl]
  obtain ⟨h1, h2⟩ := C65_classes D s ops d
  refine ⟨fun x => ?_, ?_⟩
  · rw [(C51_is_of D s ops t x).1 true, List.mem_map, ht]
    constructor
    · rintro ⟨c, hc, rfl⟩
      rw [List.mem_filter] at hc
      exact ⟨c, (h1 c).1 hc.1, rfl, hc.2.symm⟩
    · rintro ⟨c, hc, rfl, hm⟩
      exact ⟨c, List.mem_filter.2 ⟨(h1 c).2 hc, hm.symm⟩, rfl⟩
  · exact (List.Sublist.map D.clsName List.filter_sublist).nodup h2

/-- C85: the queries which are given for a type are exactly the stored queries to which `get_type` answers with this type, once each, with their number. -/
theorem C85_matching_queries (fl : DmpFlags) (d : DomId) (t : TypeRec) (hfl : fl.matchingQueries = true)
    (b : List Line) (h : dmpType D N num fl (run D (initWorld s) ops) t (some d) = some b) :
    ∃ qs : List (List Mix), qs.Nodup ∧ (∀ q, q ∈ qs ↔ (q, t.tid) ∈ traverseQueries (run D (initWorld s) ops) d) ∧
      (∀ q ∈ qs, getType D (run D (initWorld s) ops) d q = (.ok t.tid, run D (initWorld s) ops)) ∧
      b.filterMap queryLine = qs.map (fun q => q.map D.mixName) ∧ readCount " matching queries:" b = some (qs.length : Int) := by
  obtain ⟨h1, h2⟩ := (dmpType_read D N num h).2.2.1 hfl
  obtain ⟨c1, c2, -, -⟩ := C65_queries D s ops d
  generalize run D (initWorld s) ops = W at h1 h2 c1 c2 h ⊢
  refine ⟨((traverseQueries W d).filter (fun q => q.2 == t.tid)).map (·.1), ?_, ?_, ?_, ?_, ?_⟩
  · exact (List.Sublist.map _ List.filter_sublist).nodup c1
  · intro q
    simp only [List.mem_map, List.mem_filter, beq_iff_eq]
    constructor
    · rintro ⟨⟨a, c⟩, ⟨h3, h4⟩, h5⟩
      simp only at h4 h5
      subst h5; subst h4; exact h3
    · intro hq; exact ⟨_, ⟨hq, rfl⟩, rfl⟩
  · intro q hq
    simp only [List.mem_map, List.mem_filter, beq_iff_eq] at hq
    obtain ⟨⟨a, c⟩, ⟨h3, h4⟩, h5⟩ := hq
    simp only at h4 h5
    subst h5; subst h4; exact c2 _ _ h3
  · rw [h2, List.map_map]; rfl
  · rw [h1, List.length_map, List.countP_eq_length_filter]

example : (readSection " Types" dmpText).map (fun x => (readBlocks x.2).map (fun b => (b.filterMap classLine, b.filterMap queryLine, readCount " matching queries:" b))) =
    some [([[5]], [[[1], [2], [3]]], some 1), ([[6]], [[[2], [1]]], some 1), ([], [[[2]]], some 1)] := by
  decide +kernel

/-- C85: the section about queries has the number of stored queries in its title and for each of them one line, with the composition of its type. -/
theorem C85_queries (fl : DmpFlags) (d : DomId) (doc : List Line) (hf : fl.queries = true) (h : dmpDomain D N num fl (run D (initWorld s) ops) d = some doc) :
    ∃ n body, readSection " Type Queries" doc = some (n, body) ∧ n = numTypeQueries (run D (initWorld s) ops) d ∧
      body.map storedQueryLine = (traverseQueries (run D (initWorld s) ops) d).map (fun q =>
        (compositionOf (run D (initWorld s) ops) d q.2).map (fun ms => (q.1.map D.mixName, ms.map D.mixName))) := by
  obtain ⟨ls, h1, h2⟩ := (dmpDomain_sections D N num h).2.2.2.2.2 hf
  refine ⟨_, _, h2, rfl, ?_⟩
  clear h2 h
  generalize run D (initWorld s) ops = W at h1 ⊢
  generalize traverseQueries W d = qs at h1 ⊢
  induction qs generalizing ls with
  | nil => simp [dmpQueries] at h1; subst h1; rfl
  | cons q qs ih =>
    obtain ⟨q, t⟩ := q
    simp only [dmpQueries, Option.bind_eq_bind, Option.bind_eq_some_iff, Option.some.injEq] at h1
    obtain ⟨r, hr, ls', h3, rfl⟩ := h1
    simp only [List.map_cons, ih ls' h3, compositionOf, hr]
    simp [storedQueryLine, dmpMixins]

/-- C85: the section about type classes has their number in its title and one line with the name of each. -/
theorem C85_classes (fl : DmpFlags) (d : DomId) (doc : List Line) (hf : fl.classes = true) (h : dmpDomain D N num fl (run D (initWorld s) ops) d = some doc) :
    ∃ n body, readSection " Type Classes" doc = some (n, body) ∧ n = body.length ∧ (body.filterMap (itemName "type class: '")).Nodup ∧
      (body.filterMap (itemName "type class: '")).length = body.length ∧
      ∀ x, x ∈ body.filterMap (itemName "type class: '") ↔ ∃ c, classRegistered d c (trace D (initWorld s) ops) = true ∧ D.clsName c = x := by
  obtain ⟨h1, h2⟩ := C65_classes D s ops d
  refine ⟨_, _, (dmpDomain_sections D N num h).2.2.2.2.1 hf, by simp, ?_⟩
  have : ((traverseClasses (run D (initWorld s) ops) d).map (fun c => [Tok.lit "type class: '", .name (D.clsName c), .lit ", match: ", .fn (!(D.cls c).isNull)])).filterMap
      (itemName "type class: '") = (traverseClasses (run D (initWorld s) ops) d).map D.clsName := by
    rw [List.filterMap_map]
    simp only [Function.comp_def, itemName, ↓reduceIte]
    rw [List.filterMap_eq_map']
  rw [this]
  refine ⟨h2, by simp, fun x => ?_⟩
  rw [List.mem_map]
  constructor
  · rintro ⟨c, hc, rfl⟩; exact ⟨c, (h1 c).1 hc, rfl⟩
  · rintro ⟨c, hc, rfl⟩; exact ⟨c, (h1 c).2 hc, rfl⟩

/-- C85 (partial: rules whose names are as the order of rules needs them): the section about rules lists exactly the rules in force, in the order in which they are
applied, with the number of additions less that of removals.
Missing: rules with equal or prefixed names (see C14). -/
theorem C85_rules_partial (S : Rule → Prop) (hS : RuleNamesOk D S) (hops : ∀ op ∈ ops, op.rulesIn S) (d : DomId) (h0 : (s d).canonicalize = true → S 0)
    (fl : DmpFlags) (doc : List Line) (hf : fl.rules = true) (h : dmpDomain D N num fl (run D (initWorld s) ops) d = some doc) :
    ∃ n body, readSection " Mutation Rules" doc = some (n, body) ∧ n = body.length ∧
      ∃ L : List (Rule × Nat), (∀ r k, (r, k) ∈ L ↔ k = ruleCount d r (initialCount (s d) r) (trace D (initWorld s) ops) ∧ 0 < k) ∧ (L.map (·.1)).Pairwise (RuleBefore D) ∧
        body.map ruleLine = L.map (fun x => some ((ruleOf D x.1).name.chars D.mem, (x.2 : Int))) := by
  obtain ⟨h1, h2, -, -⟩ := C65_rules D S hS s ops hops d h0
  refine ⟨_, _, (dmpDomain_sections D N num h).2.2.1 hf, by simp [numMutationRules, traverseRules], traverseRules (run D (initWorld s) ops) d, h1, h2, ?_⟩
  rw [List.map_map]
  apply List.map_congr_left
  intro x hx
  simp [dmpRule, ruleLine]

set_option synthInstance.maxSize 4096 in
set_option synthInstance.maxHeartbeats 200000 in
example : (readSection " Type Queries" dmpText).map (fun x => (x.1, x.2.map storedQueryLine)) =
      some (3, [some ([[1], [2], [3]], [[1], [2], [3]]), some ([[2], [1]], [[2], [1]]), some ([[2]], [[2]])]) := by
  decide +kernel

example : (readSection " Type Classes" dmpText).map (fun x => (x.1, x.2.filterMap (itemName "type class: '"))) = some (2, [[5], [6]]) ∧
    (readSection " Mutation Rules" dmpText).map (fun x => (x.1, x.2.map ruleLine)) = some (1, [some ([2], 1)]) := by
  decide +kernel

/-- C85 (partial: with `FeatureDiscipline`): the text about a domain that has not been destroyed is always defined, with any flags.
Missing: other histories. -/
theorem C85_defined_partial (hd : FeatureDiscipline D ops) (fl : DmpFlags) (d : DomId) (hN : (N d).isSome) : (dmpDomain D N num fl (run D (initWorld s) ops) d).isSome := by
  obtain ⟨home, used, hops⟩ := hd
  obtain ⟨hh, htab⟩ := reachable_home D home used s ops hops
  have hr := reachable_reg D s ops
  have hi := reachable_types D s ops d
  have htab := htab d
  have hc := reachable_cls D s ops d
  generalize run D (initWorld s) ops = W at hh htab hr hi hc ⊢
  obtain ⟨dn, hdn⟩ := Option.isSome_iff_exists.1 hN
  have hmix : ∀ (ms : List Mix) (next : Nat), (∀ m ∈ ms, W.mixDom m = some d) → ∃ ls, dmpMixinList D N fl W next ms = some ls := by
    intro ms
    induction ms with
    | nil => intro next _; exact ⟨_, rfl⟩
    | cons m ms ih =>
      intro next hm
      obtain ⟨ls, hls⟩ := ih (iidOf (W.mixId m) + 1) (fun x hx => hm x (List.mem_cons_of_mem _ hx))
      have hreg : ∃ r, dmpMixinReg N W m = some r := by
        unfold dmpMixinReg
        cases W.mixId m with
        | none => exact ⟨_, rfl⟩
        | some i => simp [hm m List.mem_cons_self, hdn]
      obtain ⟨r, hreg⟩ := hreg
      simp [dmpMixinList, dmpMixin, hreg, hls]
  have hpay : ∀ (t : TypeRec) (ps : List Payload), (∀ p ∈ ps, ∃ m, t.mixins[p.mixinIndex]? = some m) → ∃ ls, ps.mapM (dmpPayload D t) = some ls := by
    intro t ps
    induction ps with
    | nil => intro _; exact ⟨_, rfl⟩
    | cons p ps ih =>
      intro hp
      obtain ⟨ls, hls⟩ := ih (fun x hx => hp x (List.mem_cons_of_mem _ hx))
      obtain ⟨m, hm⟩ := hp p List.mem_cons_self
      rw [List.mapM_cons, hls]
      simp [dmpPayload, hm]
  have hents : ∀ (t : TypeRec) (es : List (Option FEntry)), (∀ e, some e ∈ es → e.pls ≠ [] ∧ ∀ p ∈ e.pls, ∃ m, t.mixins[p.mixinIndex]? = some m) →
      ∃ ls, dmpEntries D fl t es = some ls := by
    intro t es
    induction es with
    | nil => intro _; exact ⟨_, rfl⟩
    | cons o es ih =>
      intro he
      obtain ⟨ls, hls⟩ := ih (fun e h => he e (List.mem_cons_of_mem _ h))
      cases o with
      | none => exact ⟨ls, hls⟩
      | some e =>
        obtain ⟨h1, h2⟩ := he e List.mem_cons_self
        obtain ⟨p, ps, hp⟩ := List.exists_cons_of_ne_nil h1
        rw [hp] at h2
        obtain ⟨xs, hxs⟩ := hpay t _ h2
        have hfull : ∃ r, dmpFull D fl t (p :: ps) = some r := by
          unfold dmpFull
          split
          · exact ⟨_, hxs⟩
          · exact ⟨_, rfl⟩
        obtain ⟨r, hfull⟩ := hfull
        simp [dmpEntries, dmpEntry, hp, hfull, hls]
  have hcls : ∀ (t : TypeRec) (cs : List Cls), (∀ c ∈ cs, (D.cls c).isNull = false) → ∃ ls, dmpClassNames D t cs = some ls := by
    intro t cs
    induction cs with
    | nil => intro _; exact ⟨_, rfl⟩
    | cons c cs ih =>
      intro h
      obtain ⟨ls, hls⟩ := ih (fun x hx => h x (List.mem_cons_of_mem _ hx))
      simp [dmpClassNames, h c List.mem_cons_self, hls]
  have htypes : ∀ ts : List TypeRec, (∀ t ∈ ts, t ∈ (W.doms d).types) → ∃ ls, dmpTypes D N num fl W d ts = some ls := by
    intro ts
    induction ts with
    | nil => intro _; exact ⟨_, rfl⟩
    | cons t ts ih =>
      intro ht
      obtain ⟨ls, hls⟩ := ih (fun x hx => ht x (List.mem_cons_of_mem _ hx))
      have htm := ht t List.mem_cons_self
      have hok := hi.ok t htm
      have hb := htab t htm
      obtain ⟨hids, hsame⟩ := fidIn_ok hr hh t.mixins (fun m hm => (hr.mem_mixinsOf_iff d m).2 (hok.reg m hm))
      rw [buildFtable_congr D _ _ t.mixins hsame] at hb
      obtain ⟨es, hes⟩ := hents t t.ftable (fun e he => by
        obtain ⟨i, hi'⟩ := List.getElem?_of_mem he
        obtain ⟨p, ps, hp, hfid⟩ := featIdsOk_entry D hids hb hi'
        have := buildFtable_entry D _ t.mixins hids t.ftable hb _ i hfid
        rw [hi'] at this
        simp only [Option.getD_some] at this
        refine ⟨this.2.1, fun q hq => ?_⟩
        have hq' : q.pair ∈ allImpls D t.mixins p.data.feat := this.1.complete.mem_iff.1 (List.mem_map_of_mem hq)
        obtain ⟨m, hm, -, -⟩ := allImpls_idx_lt hq'
        exact ⟨m, hm⟩)
      obtain ⟨xs, hxs⟩ := hcls t (traverseClasses W d) (fun c hc' => by
        unfold traverseClasses at hc'
        rw [visitSparse_eq] at hc'
        simp only [List.mem_filterMap, id, exists_eq_right] at hc'
        obtain ⟨i, hi'⟩ := List.getElem?_of_mem hc'
        exact hc.nonnull i c hi')
      have hft : ∃ r, dmpFtable D fl t = some r := by
        unfold dmpFtable
        split
        · rw [hes]; exact ⟨_, rfl⟩
        · exact ⟨_, rfl⟩
      have htc : ∃ r, dmpTypeClasses D fl W t (some d) = some r := by
        unfold dmpTypeClasses
        simp only
        split
        · rw [hxs]; exact ⟨_, rfl⟩
        · exact ⟨_, rfl⟩
      obtain ⟨r1, hft⟩ := hft
      obtain ⟨r2, htc⟩ := htc
      simp [dmpTypes, dmpType, hok.dom, hdn, hft, htc, hls]
  have hqs : ∀ qs : List (List Mix × TypeId), (∀ q ∈ qs, q ∈ (W.doms d).queries) → ∃ ls, dmpQueries D W d qs = some ls := by
    intro qs
    induction qs with
    | nil => intro _; exact ⟨_, rfl⟩
    | cons q qs ih =>
      intro hq
      obtain ⟨ls, hls⟩ := ih (fun x hx => hq x (List.mem_cons_of_mem _ hx))
      obtain ⟨r, hr'⟩ := hi.queries q (hq q List.mem_cons_self)
      obtain ⟨q, t⟩ := q
      simp [dmpQueries, hr', hls]
  obtain ⟨l1, e1⟩ := hmix (traverseMixins W d) 0 (fun m hm => by
    unfold traverseMixins at hm
    rw [visitSparse_eq] at hm
    simp only [List.mem_filterMap, id, exists_eq_right] at hm
    obtain ⟨i, hi'⟩ := List.getElem?_of_mem hm
    exact (hr.mixSlot d i m hi').2)
  obtain ⟨l2, e2⟩ := htypes _ (fun t ht => ht)
  obtain ⟨l3, e3⟩ := hqs _ (fun q hq => hq)
  have s1 : ∃ x, dmpMixinsSection D N fl W d = some x := by
    unfold dmpMixinsSection
    split
    · rw [e1]; exact ⟨_, rfl⟩
    · exact ⟨_, rfl⟩
  have s2 : ∃ x, dmpTypesSection D N num fl W d = some x := by
    unfold dmpTypesSection
    split
    · rw [e2]; exact ⟨_, rfl⟩
    · exact ⟨_, rfl⟩
  have s3 : ∃ x, dmpClassesSection D N num fl W d = some x := by
    unfold dmpClassesSection
    split
    · rw [dmpClasses_eq]; exact ⟨_, rfl⟩
    · exact ⟨_, rfl⟩
  have s4 : ∃ x, dmpQueriesSection D fl W d = some x := by
    unfold dmpQueriesSection
    split
    · rw [traverseQueries, e3]; exact ⟨_, rfl⟩
    · exact ⟨_, rfl⟩
  obtain ⟨x1, s1⟩ := s1
  obtain ⟨x2, s2⟩ := s2
  obtain ⟨x3, s3⟩ := s3
  obtain ⟨x4, s4⟩ := s4
  simp [dmpDomain, hdn, s1, s2, s3, s4]

example : FeatureDiscipline dmpDecls dmpOps := by
  refine ⟨fun _ => 0, fun f => f ≠ 9, ?_⟩
  intro op hop
  simp only [dmpOps, List.mem_cons, List.not_mem_nil, or_false] at hop
  rcases hop with rfl | rfl | rfl | rfl | rfl | rfl | rfl | rfl | rfl | rfl | rfl | rfl | rfl <;> simp [Op.disciplined, dmpDecls]

/-- C85 (refuted): with the flag `dnmx_tc_dmp_matching_types` the text about a domain does not tell which types a class matches: the flag has no effect. -/
theorem C85_matching_types_refuted :
    (∀ (fl : DmpFlags) (W : World) (d : DomId) (x : Bool), dmpClassesSection D N num { fl with matchingTypes := x } W d = dmpClassesSection D N num fl W d) ∧
    (∀ (fl : DmpFlags) (W : World) (c : Cls) (x : Bool), dmpClass D N num { fl with matchingTypes := x } W c = dmpClass D N num fl W c) ∧
    ((dmpDecls.cls 5).matchesT [1, 2, 3] = true ∧ (typesOf dmpWorld 0).map (·.mixins) = [[1, 2, 3], [2, 1], [2]] ∧
      (readSection " Type Classes" dmpText).map (fun x => x.2.map (fun l => decide (Tok.lit "match " ∈ l))) = some [false, false]) := by
  refine ⟨fun fl W d x => ?_, fun fl W c x => ?_, ?_⟩
  · simp only [dmpClassesSection, dmpClasses_eq]
  · rw [dmpClass_eq, dmpClass_eq]
  · decide +kernel

/-- C85: a registered mixin is described without its domain having to be given; if that domain has been destroyed, the text is undefined, and only then. -/
theorem C85_mixin_alone (fl : DmpFlags) (m : Mix) : dmpMixin D N fl (run D (initWorld s) ops) m = none ↔
    ∃ d, (run D (initWorld s) ops).mixDom m = some d ∧ N d = none := by
  have hr := reachable_reg D s ops
  generalize run D (initWorld s) ops = W at hr ⊢
  have h : dmpMixin D N fl W m = none ↔ dmpMixinReg N W m = none := by
    unfold dmpMixin
    cases dmpMixinReg N W m <;> simp
  rw [h]
  unfold dmpMixinReg
  cases hi : W.mixId m with
  | none => simp [hr.mixFree m hi]
  | some i =>
    obtain ⟨d, hd, -⟩ := hr.mixReg m i hi
    simp only [hd, Option.bind_some, Option.map_eq_none_iff, Option.some.injEq]
    constructor
    · intro h; exact ⟨d, rfl, h⟩
    · rintro ⟨d', rfl, h⟩; exact h

example : dmpMixin dmpDecls (fun _ => none) {} dmpWorld 1 = none ∧ (dmpMixin dmpDecls (fun _ => none) {} dmpWorld 4).map List.length = some 20 := by decide +kernel

/-- C85: a section is in the text exactly if its flag is given. -/
theorem C85_sections (fl : DmpFlags) (W : World) (d : DomId) (doc : List Line) (h : dmpDomain D N num fl W d = some doc) :
    (readSection " Features" doc).isSome = fl.features ∧ (readSection " Mixins" doc).isSome = fl.mixins ∧ (readSection " Mutation Rules" doc).isSome = fl.rules ∧
    (readSection " Types" doc).isSome = fl.types ∧ (readSection " Type Classes" doc).isSome = fl.classes ∧ (readSection " Type Queries" doc).isSome = fl.queries := by
  obtain ⟨a1, a2, a3, a4, a5, a6⟩ := dmpDomain_sections D N num h
  obtain ⟨b1, b2, b3, b4, b5, b6⟩ := dmpDomain_absent D N num h
  have key : ∀ (x : Bool) (o : Option (Int × List Line)), (x = true → o.isSome = true) → (x = false → o = none) → o.isSome = x := by
    intro x o h1 h2
    cases x with
    | true => exact h1 rfl
    | false => rw [h2 rfl]; rfl
  refine ⟨key _ _ (fun h => by rw [a1 h]; rfl) b1, key _ _ (fun h => ?_) b2, key _ _ (fun h => by rw [a3 h]; rfl) b3, key _ _ (fun h => ?_) b4,
    key _ _ (fun h => by rw [a5 h]; rfl) b5, key _ _ (fun h => ?_) b6⟩
  · obtain ⟨ls, -, h2⟩ := a2 h; rw [h2]; rfl
  · obtain ⟨ls, -, h2⟩ := a4 h; rw [h2]; rfl
  · obtain ⟨ls, -, h2⟩ := a6 h; rw [h2]; rfl

/-- Flags given as bits: the groups do not overlap, `dnmx_dmp_all` is everything. -/
example : DmpFlags.ofBits 0xFFFFFFFF = {} ∧ (DmpFlags.ofBits 0xFF).typeEx = false ∧ (DmpFlags.ofBits 0xF00).mixins = false ∧ (DmpFlags.ofBits 0xFF000).types = false ∧
    (dmpDomain dmpDecls dmpNames (fun t => t) (.ofBits 0x12) dmpWorld 0).map (fun doc => ((readSection " Types" doc).isSome, (readSection " Features" doc).isSome, doc.length)) =
      some (true, false, 10) := by
  decide +kernel

end

end Dnmx.Props
