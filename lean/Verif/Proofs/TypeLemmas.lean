import Verif.Proofs.RuleMapLemmas
import Verif.Proofs.FtableLemmas
import Verif.Proofs.RulesLemmas

namespace Dnmx
open Spec

/-- a type with a correct index table and layout, made of mixins of domain `d` -/
structure TypeOk (D : Decls) (mixId : Mix → Option Nat) (mixDom : Mix → Option DomId) (d : DomId) (t : TypeRec) : Prop where
  dom : t.dom = d
  nonempty : t.mixins ≠ []
  nodup : t.mixins.Nodup
  reg : ∀ m ∈ t.mixins, (∃ i, mixId m = some i) ∧ mixDom m = some d
  sparse : t.sparse = sparseTable (t.mixins.filterMap mixId)
  layout : t.layout = layout (t.mixins.map D.mix)

/-- Invariant of the type registry of a domain -/
structure TypesInv (D : Decls) (W : World) (d : DomId) : Prop where
  ok : ∀ t ∈ (W.doms d).types, TypeOk D W.mixId W.mixDom d t
  tidPos : ∀ t ∈ (W.doms d).types, 0 < t.tid ∧ t.tid < W.nextType
  tids : (W.doms d).types.Pairwise (fun a b => a.tid ≠ b.tid)
  comps : (W.doms d).types.Pairwise (fun a b => a.mixins ≠ b.mixins)
  queries : ∀ e ∈ (W.doms d).queries, ∃ r, (W.doms d).typeAt d e.2 = some r
  keys : (W.doms d).queries.Pairwise (fun a b => a.1 ≠ b.1)
  nextPos : 0 < W.nextType

/-! ## lookups -/

theorem typeAt_empty (x : Dom) (d : DomId) : x.typeAt d emptyTid = some (emptyType d) := by simp [Dom.typeAt]

theorem find?_tid {types : List TypeRec} (h : types.Pairwise (fun a b => a.tid ≠ b.tid)) (t : TypeRec) (ht : t ∈ types) :
    types.find? (fun r => r.tid == t.tid) = some t := by
  induction types with
  | nil => simp at ht
  | cons y ys ih =>
    rw [List.pairwise_cons] at h
    rcases List.mem_cons.1 ht with rfl | ht
    · simp
    · have : ¬ (y.tid = t.tid) := h.1 t ht
      simp [this]
      exact ih h.2 ht

theorem TypesInv.typeAt_mem {D : Decls} {W : World} {d : DomId} (h : TypesInv D W d) (t : TypeRec) (ht : t ∈ (W.doms d).types) :
    (W.doms d).typeAt d t.tid = some t := by
  have := (h.tidPos t ht).1
  unfold Dom.typeAt
  rw [if_neg (by unfold emptyTid; omega)]
  exact find?_tid h.tids t ht

theorem typeAt_some {x : Dom} {d : DomId} {tid : TypeId} {r : TypeRec} (h : x.typeAt d tid = some r) :
    (tid = emptyTid ∧ r = emptyType d) ∨ (tid ≠ emptyTid ∧ r ∈ x.types ∧ r.tid = tid) := by
  unfold Dom.typeAt at h
  split at h
  · rename_i he; simp at h; exact .inl ⟨he, h.symm⟩
  · rename_i he
    have h1 := List.find?_some h
    simp at h1
    exact .inr ⟨he, List.mem_of_find?_eq_some h, h1⟩

theorem typeAt_tid {x : Dom} {d : DomId} {tid : TypeId} {r : TypeRec} (h : x.typeAt d tid = some r) : r.tid = tid := by
  rcases typeAt_some h with ⟨h1, h2⟩ | ⟨-, -, h3⟩
  · rw [h1, h2]; rfl
  · exact h3

theorem findType_some {ms : List Mix} {types : List TypeRec} {t : TypeRec} (h : findType ms types = some t) :
    t ∈ types ∧ t.mixins = ms := by
  unfold findType at h
  have h1 := List.find?_some h
  simp at h1
  exact ⟨List.mem_of_find?_eq_some h, h1⟩

theorem findType_none {ms : List Mix} {types : List TypeRec} : findType ms types = none ↔ ∀ t ∈ types, t.mixins ≠ ms := by
  unfold findType
  rw [List.find?_eq_none]
  simp

theorem findType_mem {types : List TypeRec} (h : types.Pairwise (fun a b => a.mixins ≠ b.mixins)) (t : TypeRec) (ht : t ∈ types) :
    findType t.mixins types = some t := by
  unfold findType
  induction types with
  | nil => simp at ht
  | cons y ys ih =>
    rw [List.pairwise_cons] at h
    rcases List.mem_cons.1 ht with rfl | ht
    · simp
    · have : ¬ (y.mixins = t.mixins) := h.1 t ht
      simp [this]
      exact ih h.2 ht

theorem findQuery_some {q : List Mix} {queries : List (List Mix × TypeId)} {t : TypeId} (h : findQuery q queries = some t) :
    (q, t) ∈ queries := by
  unfold findQuery at h
  rw [Option.map_eq_some_iff] at h
  obtain ⟨e, h1, h2⟩ := h
  have h3 := List.find?_some h1
  simp at h3
  have h4 := List.mem_of_find?_eq_some h1
  obtain ⟨a, b⟩ := e
  simp at h2 h3
  subst h2; subst h3; exact h4

/-! ## index tables of types -/

theorem filterMap_ids (mid : Mix → Option Nat) (ms : List Mix) (h : ∀ m ∈ ms, ∃ i, mid m = some i) :
    ms.map mid = (ms.filterMap mid).map some := by
  induction ms with
  | nil => rfl
  | cons m ms ih =>
    obtain ⟨i, hi⟩ := h m List.mem_cons_self
    rw [List.map_cons, List.filterMap_cons, hi]
    simp only [List.map_cons]
    rw [ih fun x hx => h x (List.mem_cons_of_mem _ hx)]

theorem nodup_ids {W : World} (hr : RegInv W) (d : DomId) (ms : List Mix) (hn : ms.Nodup)
    (h : ∀ m ∈ ms, (∃ i, W.mixId m = some i) ∧ W.mixDom m = some d) : (ms.filterMap W.mixId).Nodup := by
  induction ms with
  | nil => simp
  | cons m ms ih =>
    obtain ⟨⟨i, hi⟩, hd⟩ := h m List.mem_cons_self
    rw [List.nodup_cons] at hn
    rw [List.filterMap_cons, hi]
    simp only [List.nodup_cons]
    refine ⟨?_, ih hn.2 fun x hx => h x (List.mem_cons_of_mem _ hx)⟩
    intro hmem
    rw [List.mem_filterMap] at hmem
    obtain ⟨m', h1, h2⟩ := hmem
    obtain ⟨d1, h3, h4⟩ := hr.mixReg m i hi
    obtain ⟨d2, h5, h6⟩ := hr.mixReg m' i h2
    have h7 := (h m' (List.mem_cons_of_mem _ h1)).2
    rw [hd] at h3; rw [h7] at h5
    simp at h3 h5
    subst h3; subst h5
    rw [h4] at h6
    simp at h6
    subst h6
    exact hn.1 h1

theorem TypeOk.indexOf {D : Decls} {W : World} (hr : RegInv W) {d : DomId} {t : TypeRec} (h : TypeOk D W.mixId W.mixDom d t)
    (id : Option Nat) (i : Nat) : t.indexOf id = some i ↔ ∃ x m, id = some x ∧ t.mixins[i]? = some m ∧ W.mixId m = some x := by
  have hids := filterMap_ids W.mixId t.mixins fun m hm => (h.reg m hm).1
  have hn := nodup_ids hr d t.mixins h.nodup h.reg
  have key : ∀ x : Nat, (t.mixins.filterMap W.mixId)[i]? = some x ↔ ∃ m, t.mixins[i]? = some m ∧ W.mixId m = some x := by
    intro x
    have h := congrArg (fun l => l[i]?) hids
    simp only [List.getElem?_map] at h
    cases hm : t.mixins[i]? with
    | none =>
      rw [hm] at h
      cases hx : (t.mixins.filterMap W.mixId)[i]? with
      | none => simp
      | some y => rw [hx] at h; simp at h
    | some m =>
      rw [hm] at h
      cases hx : (t.mixins.filterMap W.mixId)[i]? with
      | none => rw [hx] at h; simp at h
      | some y => rw [hx] at h; simp at h; simp [h]
  unfold TypeRec.indexOf
  cases id with
  | none => simp
  | some x =>
    simp only [h.sparse]
    have h1 := sparseTable_spec _ hn x i
    constructor
    · intro h
      have : (sparseTable (t.mixins.filterMap W.mixId))[x]? = some (some i) := by
        cases hs : (sparseTable (t.mixins.filterMap W.mixId))[x]? with
        | none => rw [hs] at h; simp at h
        | some r => rw [hs] at h; simp at h; rw [h]
      obtain ⟨m, h2, h3⟩ := (key x).1 (h1.1 this)
      exact ⟨x, m, rfl, h2, h3⟩
    · rintro ⟨y, m, h2, h3, h4⟩
      simp at h2; subst h2
      rw [h1.2 ((key x).2 ⟨m, h3, h4⟩)]

theorem TypeOk.hasId {D : Decls} {W : World} (hr : RegInv W) {d : DomId} {t : TypeRec} (h : TypeOk D W.mixId W.mixDom d t)
    (id : Option Nat) : t.hasId id = true ↔ ∃ x m, id = some x ∧ m ∈ t.mixins ∧ W.mixId m = some x := by
  unfold TypeRec.hasId
  rw [Option.isSome_iff_exists]
  constructor
  · rintro ⟨i, hi⟩
    obtain ⟨x, m, h1, h2, h3⟩ := (h.indexOf hr id i).1 hi
    exact ⟨x, m, h1, List.mem_of_getElem? h2, h3⟩
  · rintro ⟨x, m, h1, h2, h3⟩
    obtain ⟨i, hi, he⟩ := List.getElem_of_mem h2
    exact ⟨i, (h.indexOf hr id i).2 ⟨x, m, h1, by rw [List.getElem?_eq_getElem hi, he], h3⟩⟩

/-- for a mixin of the same domain, `has(id)` is membership -/
theorem TypeOk.hasId_own {D : Decls} {W : World} (hr : RegInv W) {d : DomId} {t : TypeRec} (h : TypeOk D W.mixId W.mixDom d t)
    (m : Mix) (i : Nat) (hs : (W.doms d).mixins[i]? = some (some m)) : t.hasId (W.mixId m) = true ↔ m ∈ t.mixins := by
  rw [h.hasId hr]
  have hi := (hr.mixSlot d i m hs).1
  constructor
  · rintro ⟨x, m', h1, h2, h3⟩
    obtain ⟨d', h4, h5⟩ := hr.mixReg m' x h3
    rw [(h.reg m' h2).2] at h4
    simp at h4; subst h4
    rw [hi] at h1; simp at h1; subst h1
    rw [hs] at h5; simp at h5; subst h5; exact h2
  · intro hm; exact ⟨i, m, hi, hm, hi⟩

theorem filterMap_congr' {f g : Mix → Option Nat} (l : List Mix) (h : ∀ m ∈ l, f m = g m) : l.filterMap f = l.filterMap g := by
  induction l with
  | nil => rfl
  | cons a l ih =>
    rw [List.filterMap_cons, List.filterMap_cons, h a List.mem_cons_self, ih fun m hm => h m (List.mem_cons_of_mem _ hm)]

/-- the type is still fine if the ids and domains of its mixins do not change -/
theorem TypeOk.congr {D : Decls} {mid mid' : Mix → Option Nat} {md md' : Mix → Option DomId} {d : DomId} {t : TypeRec}
    (h : TypeOk D mid md d t) (h1 : ∀ m ∈ t.mixins, mid' m = mid m) (h2 : ∀ m ∈ t.mixins, md' m = md m) : TypeOk D mid' md' d t := by
  refine ⟨h.dom, h.nonempty, h.nodup, fun m hm => by rw [h1 m hm, h2 m hm]; exact h.reg m hm, ?_, h.layout⟩
  rw [h.sparse]
  congr 1
  exact filterMap_congr' _ fun m hm => (h1 m hm).symm

/-! ## purging queries and types -/

theorem purgeQueries_some (x : Dom) (d : DomId) (id : Option Nat) (m : Mix) (qs : List (List Mix × TypeId))
    (h : ∀ e ∈ qs, ∃ r, x.typeAt d e.2 = some r) :
    ∃ qs', purgeQueries x d id m qs = some qs' ∧
      qs' = qs.filter (fun e => !((match x.typeAt d e.2 with | some r => r.hasId id | none => true) || e.1.contains m)) := by
  induction qs with
  | nil => exact ⟨[], rfl, rfl⟩
  | cons e es ih =>
    obtain ⟨qs', h1, h2⟩ := ih fun e he => h e (List.mem_cons_of_mem _ he)
    obtain ⟨r, hr⟩ := h e List.mem_cons_self
    unfold purgeQueries
    simp only [queryHas, hr, h1, Option.map_some]
    refine ⟨_, rfl, ?_⟩
    rw [List.filter_cons]
    simp only [hr]
    rw [← h2]
    cases (r.hasId id || e.1.contains m) <;> simp

theorem collectTypes_eq (num : TypeId → Nat) (types : List TypeRec) : ∀ queries,
    collectTypes num types queries = (types.filter (fun t => decide (num t.tid > 0)),
      queries.filter (fun e => types.all (fun t => decide (num t.tid > 0) || e.2 != t.tid))) := by
  induction types with
  | nil => intro queries; simp [collectTypes]; exact (List.filter_eq_self.2 (by simp)).symm
  | cons t ts ih =>
    intro queries
    unfold collectTypes
    by_cases h : num t.tid > 0
    · rw [if_pos h]
      simp only [ih]
      simp [h]
    · rw [if_neg h, ih]
      simp only [List.filter_filter]
      simp [h, Bool.and_comm]

/-! ## building types -/

theorem checkMixins_ok (mixId : Mix → Option Nat) (mixDom : Mix → Option DomId) (d : DomId) (ms : List Mix) :
    checkMixins mixId mixDom d ms = .ok () ↔ ms.Nodup ∧ ∀ m ∈ ms, (∃ i, mixId m = some i) ∧ mixDom m = some d := by
  induction ms with
  | nil => simp [checkMixins]
  | cons m ms ih =>
    unfold checkMixins
    by_cases h1 : mixId m = none
    · rw [if_pos h1]; simp [h1]
    · rw [if_neg h1]
      have h1' : ∃ i, mixId m = some i := Option.ne_none_iff_exists'.1 h1
      by_cases h2 : mixDom m ≠ some d
      · rw [if_pos h2]; simp [h2]
      · rw [if_neg h2]
        have h2' : mixDom m = some d := by simpa using h2
        by_cases h3 : ms.contains m = true
        · rw [if_pos h3]
          have : m ∈ ms := by simpa using h3
          simp [this]
        · rw [if_neg h3, ih]
          have : m ∉ ms := by simpa using h3
          simp [this, h1', h2']

theorem buildType_ok (D : Decls) (W : World) (d : DomId) (tid : TypeId) (ms : List Mix) (t : TypeRec) (hne : ms ≠ [])
    (h : buildType D W d tid ms = .ok t) :
    TypeOk D W.mixId W.mixDom d t ∧ t.mixins = ms ∧ t.tid = tid ∧ buildFtable D W.featId ms = .ok t.ftable := by
  unfold buildType at h
  cases hc : checkMixins W.mixId W.mixDom d ms with
  | error e => simp [hc] at h
  | ok u =>
    cases u
    rw [hc] at h
    simp only at h
    obtain ⟨h1, h2⟩ := (checkMixins_ok _ _ _ _).1 hc
    cases hf : buildFtable D W.featId ms with
    | error e => simp [hf] at h
    | ok ft =>
      simp [hf] at h
      subst h
      exact ⟨⟨rfl, hne, h1, h2, rfl, rfl⟩, rfl, rfl, rfl⟩

theorem storeQuery_mem (key : List Mix) (t : TypeId) (qs : List (List Mix × TypeId)) (e : List Mix × TypeId)
    (h : e ∈ storeQuery key t qs) : e = (key, t) ∨ (e ∈ qs ∧ (qs.Pairwise (fun a b => a.1 ≠ b.1) → e.1 ≠ key)) := by
  induction qs with
  | nil => simp [storeQuery] at h; exact .inl h
  | cons x xs ih =>
    unfold storeQuery at h
    split at h
    · rename_i hx
      have hx' : x.1 = key := by simpa using hx
      rcases List.mem_cons.1 h with h | h
      · exact .inl h
      · refine .inr ⟨List.mem_cons_of_mem _ h, fun hp => ?_⟩
        rw [List.pairwise_cons] at hp
        have := hp.1 e h
        rw [hx'] at this; exact fun he => this he.symm
    · rename_i hx
      rcases List.mem_cons.1 h with h | h
      · subst h
        exact .inr ⟨List.mem_cons_self, fun _ => by simpa using hx⟩
      · rcases ih h with h1 | ⟨h1, h2⟩
        · exact .inl h1
        · exact .inr ⟨List.mem_cons_of_mem _ h1, fun hp => h2 (List.pairwise_cons.1 hp).2⟩

theorem storeQuery_self (key : List Mix) (t : TypeId) (qs : List (List Mix × TypeId)) : (key, t) ∈ storeQuery key t qs := by
  induction qs with
  | nil => simp [storeQuery]
  | cons x xs ih =>
    unfold storeQuery
    split
    · simp
    · exact List.mem_cons_of_mem _ ih

theorem storeQuery_keep (key : List Mix) (t : TypeId) (qs : List (List Mix × TypeId)) (e : List Mix × TypeId)
    (h : e ∈ qs) (hne : e.1 ≠ key) : e ∈ storeQuery key t qs := by
  induction qs with
  | nil => simp at h
  | cons x xs ih =>
    unfold storeQuery
    split
    · rename_i hx
      rcases List.mem_cons.1 h with h | h
      · subst h; exact absurd (by simpa using hx) hne
      · exact List.mem_cons_of_mem _ h
    · rcases List.mem_cons.1 h with h | h
      · subst h; exact List.mem_cons_self
      · exact List.mem_cons_of_mem _ (ih h)

theorem storeQuery_keys (key : List Mix) (t : TypeId) (qs : List (List Mix × TypeId))
    (h : qs.Pairwise (fun a b => a.1 ≠ b.1)) : (storeQuery key t qs).Pairwise (fun a b => a.1 ≠ b.1) := by
  induction qs with
  | nil => simp [storeQuery]
  | cons x xs ih =>
    have h' := List.pairwise_cons.1 h
    unfold storeQuery
    split
    · rename_i hx
      have hx' : x.1 = key := by simpa using hx
      rw [List.pairwise_cons]
      refine ⟨fun e he => ?_, h'.2⟩
      simp only; rw [← hx']; exact h'.1 e he
    · rename_i hx
      have hx' : x.1 ≠ key := by simpa using hx
      rw [List.pairwise_cons]
      refine ⟨fun e he => ?_, ih h'.2⟩
      rcases storeQuery_mem key t xs e he with h1 | h1
      · subst h1; exact hx'
      · exact h'.1 e h1.1

/-- all outcomes of get_type -/
inductive GetCase (D : Decls) (W : World) (d : DomId) (q : List Mix) : Except Err TypeId × World → Prop
  | hit (t : TypeId) (h : (q, t) ∈ (W.doms d).queries) : GetCase D W d q (.ok t, W)
  | ruleError (e : Err) (h : (applyMutationRules D (rulesOf D (W.view D d) (W.doms d)) q).result = .error e) :
      GetCase D W d q (.error e, W)
  | empty (h : (applyMutationRules D (rulesOf D (W.view D d) (W.doms d)) q).result = .ok (q, [])) :
      GetCase D W d q (.ok emptyTid, W.setDom d { W.doms d with queries := storeQuery q emptyTid (W.doms d).queries })
  | found (r : TypeRec) (hne : r.mixins ≠ []) (h : (applyMutationRules D (rulesOf D (W.view D d) (W.doms d)) q).result = .ok (q, r.mixins))
      (hr : r ∈ (W.doms d).types) (hf : findType r.mixins (W.doms d).types = some r) :
      GetCase D W d q (.ok r.tid, W.setDom d { W.doms d with queries := storeQuery q r.tid (W.doms d).queries })
  | buildError (ms : List Mix) (e : Err) (hne : ms ≠ [])
      (h : (applyMutationRules D (rulesOf D (W.view D d) (W.doms d)) q).result = .ok (q, ms))
      (hn : ∀ t ∈ (W.doms d).types, t.mixins ≠ ms) (hb : buildType D W d W.nextType ms = .error e) : GetCase D W d q (.error e, W)
  | built (r : TypeRec) (hne : r.mixins ≠ [])
      (h : (applyMutationRules D (rulesOf D (W.view D d) (W.doms d)) q).result = .ok (q, r.mixins))
      (hn : ∀ t ∈ (W.doms d).types, t.mixins ≠ r.mixins) (hb : buildType D W d W.nextType r.mixins = .ok r) (ht : r.tid = W.nextType) :
      GetCase D W d q (.ok r.tid, { W.setDom d { W.doms d with types := (W.doms d).types ++ [r], queries := storeQuery q r.tid (W.doms d).queries }
        with nextType := W.nextType + 1 })

theorem getTypeMut_cases (D : Decls) (W : World) (d : DomId) (q : List Mix) : GetCase D W d q (getTypeMut D W d d q) := by
  unfold getTypeMut
  rw [if_neg (by simp)]
  simp only
  unfold lookupSection
  cases hq : findQuery q (W.doms d).queries with
  | some t => exact .hit t (findQuery_some hq)
  | none =>
    simp only
    cases hr : (applyMutationRules D (rulesOf D (W.view D d) (W.doms d)) q).result with
    | error e => exact .ruleError e hr
    | ok p =>
      obtain ⟨key, ms⟩ := p
      have hk := applyMutationRules_key D _ q key ms hr
      subst hk
      simp only
      by_cases he : ms = []
      · subst he
        simp only [List.isEmpty_nil, if_true]
        exact .empty hr
      · have he' : ms.isEmpty = false := by simpa using he
        simp only [he', Bool.false_eq_true, if_false]
        cases hf : findType ms (W.doms d).types with
        | some r =>
          obtain ⟨h1, h2⟩ := findType_some hf
          subst h2
          simp only [Option.map_some]
          exact .found r he hr h1 hf
        | none =>
          simp only [Option.map_none]
          cases hb : buildType D W d W.nextType ms with
          | error e => exact .buildError ms e he hr (findType_none.1 hf) hb
          | ok r =>
            obtain ⟨-, h2, h3, -⟩ := buildType_ok D W d W.nextType ms r he hb
            subst h2
            simp only [emplaceSection, hf]
            exact .built r he hr (findType_none.1 hf) hb h3

theorem getType_cases (D : Decls) (W : World) (d : DomId) (q : List Mix) : GetCase D W d q (getType D W d q) := by
  unfold getType
  cases hq : findQuery q (W.doms d).queries with
  | some t => exact .hit t (findQuery_some hq)
  | none => exact getTypeMut_cases D W d q

/-! ## preservation -/

/-- steps that leave types and queries of a domain alone, and the ids of mixins that have one -/
theorem TypesInv.same {D : Decls} {W W' : World} {d : DomId} (h : TypesInv D W d) (h1 : (W'.doms d).types = (W.doms d).types)
    (h2 : (W'.doms d).queries = (W.doms d).queries ∨ (W'.doms d).queries = []) (h3 : ∀ m, W.mixId m ≠ none → W.mixDom m = some d → W'.mixId m = W.mixId m ∧ W'.mixDom m = W.mixDom m)
    (h4 : W.nextType ≤ W'.nextType) : TypesInv D W' d := by
  have hat : ∀ t, (W'.doms d).typeAt d t = (W.doms d).typeAt d t := by intro t; simp [Dom.typeAt, h1]
  have hids : ∀ t ∈ (W.doms d).types, ∀ m ∈ t.mixins, W'.mixId m = W.mixId m ∧ W'.mixDom m = W.mixDom m := by
    intro t ht m hm
    obtain ⟨⟨i, hi⟩, hd⟩ := (h.ok t ht).reg m hm
    exact h3 m (by rw [hi]; simp) hd
  refine ⟨?_, ?_, by rw [h1]; exact h.tids, by rw [h1]; exact h.comps, ?_, ?_, by have := h.nextPos; omega⟩
  · intro t ht
    rw [h1] at ht
    exact (h.ok t ht).congr (fun m hm => (hids t ht m hm).1) (fun m hm => (hids t ht m hm).2)
  · intro t ht; rw [h1] at ht; have := h.tidPos t ht; omega
  · intro e he
    rw [hat]
    rcases h2 with h2 | h2
    · rw [h2] at he; exact h.queries e he
    · rw [h2] at he; simp at he
  · rcases h2 with h2 | h2
    · rw [h2]; exact h.keys
    · rw [h2]; simp

theorem TypesInv.filter {D : Decls} {W W' : World} {d : DomId} (h : TypesInv D W d) (p : TypeRec → Bool) (pq : List Mix × TypeId → Bool)
    (h1 : (W'.doms d).types = (W.doms d).types.filter p) (h2 : (W'.doms d).queries = (W.doms d).queries.filter pq)
    (hkeep : ∀ e ∈ (W.doms d).queries, pq e = true → ∀ t ∈ (W.doms d).types, t.tid = e.2 → p t = true)
    (h3 : ∀ t ∈ (W.doms d).types, p t = true → ∀ m ∈ t.mixins, W'.mixId m = W.mixId m ∧ W'.mixDom m = W.mixDom m)
    (h4 : W.nextType ≤ W'.nextType) : TypesInv D W' d := by
  refine ⟨?_, ?_, by rw [h1]; exact h.tids.filter p, by rw [h1]; exact h.comps.filter p, ?_, by rw [h2]; exact h.keys.filter pq,
    by have := h.nextPos; omega⟩
  · intro t ht
    rw [h1, List.mem_filter] at ht
    exact (h.ok t ht.1).congr (fun m hm => (h3 t ht.1 ht.2 m hm).1) (fun m hm => (h3 t ht.1 ht.2 m hm).2)
  · intro t ht; rw [h1, List.mem_filter] at ht; have := h.tidPos t ht.1; omega
  · intro e he
    rw [h2, List.mem_filter] at he
    obtain ⟨r, hr⟩ := h.queries e he.1
    rcases typeAt_some hr with ⟨a, b⟩ | ⟨a, b, c⟩
    · exact ⟨emptyType d, by rw [a]; exact typeAt_empty _ _⟩
    · have hp := hkeep e he.1 he.2 r b c
      refine ⟨r, ?_⟩
      unfold Dom.typeAt
      rw [if_neg a, h1]
      have : r ∈ (W.doms d).types.filter p := List.mem_filter.2 ⟨b, hp⟩
      rw [← c]
      exact find?_tid (h.tids.filter p) r this

/-- adding a stored query that leads to an existing type -/
theorem TypesInv.store {D : Decls} {W : World} {d : DomId} (h : TypesInv D W d) (key : List Mix) (t : TypeId)
    (ht : ∃ r, (W.doms d).typeAt d t = some r) :
    TypesInv D (W.setDom d { W.doms d with queries := storeQuery key t (W.doms d).queries }) d := by
  refine ⟨?_, ?_, ?_, ?_, ?_, ?_, h.nextPos⟩
  · simpa using h.ok
  · simpa using h.tidPos
  · simpa using h.tids
  · simpa using h.comps
  · intro e he
    simp only [setDom_same] at he ⊢
    have hat : ∀ t, Dom.typeAt { W.doms d with queries := storeQuery key t (W.doms d).queries } d t = (W.doms d).typeAt d t :=
      fun t => rfl
    rcases storeQuery_mem key t _ e he with h1 | h1
    · subst h1; exact ht
    · exact h.queries e h1.1
  · simpa using storeQuery_keys key t _ h.keys

theorem find?_append_fresh (types : List TypeRec) (t : TypeRec) (k : TypeId) (r : TypeRec)
    (h : types.find? (fun x => x.tid == k) = some r) : (types ++ [t]).find? (fun x => x.tid == k) = some r := by
  rw [List.find?_append, h]; rfl

theorem TypesInv.emplace {D : Decls} {W : World} {d : DomId} (h : TypesInv D W d) (key : List Mix) (r : TypeRec)
    (hok : TypeOk D W.mixId W.mixDom d r) (ht : r.tid = W.nextType) (hn : ∀ t ∈ (W.doms d).types, t.mixins ≠ r.mixins) :
    TypesInv D { W.setDom d { W.doms d with types := (W.doms d).types ++ [r], queries := storeQuery key r.tid (W.doms d).queries }
      with nextType := W.nextType + 1 } d := by
  have hpos := h.nextPos
  have key1 : ∀ k s, (W.doms d).typeAt d k = some s →
      Dom.typeAt { W.doms d with types := (W.doms d).types ++ [r], queries := storeQuery key r.tid (W.doms d).queries } d k = some s := by
    intro k s hs
    unfold Dom.typeAt at hs ⊢
    split
    · rename_i he; rw [if_pos he] at hs; exact hs
    · rename_i he; rw [if_neg he] at hs; exact find?_append_fresh _ _ _ _ hs
  refine ⟨?_, ?_, ?_, ?_, ?_, ?_, by simp⟩
  · simp only [setDom_same, setDom_mixId, setDom_mixDom]
    intro t htm
    rcases List.mem_append.1 htm with h1 | h1
    · exact h.ok t h1
    · simp at h1; subst h1; exact hok
  · simp only [setDom_same]
    intro t htm
    rcases List.mem_append.1 htm with h1 | h1
    · have := h.tidPos t h1; omega
    · simp at h1; subst h1; omega
  · simp only [setDom_same]
    rw [List.pairwise_append]
    refine ⟨h.tids, by simp, ?_⟩
    intro a ha b hb
    simp at hb; subst hb
    have := h.tidPos a ha; omega
  · simp only [setDom_same]
    rw [List.pairwise_append]
    refine ⟨h.comps, by simp, ?_⟩
    intro a ha b hb
    simp at hb; subst hb
    exact hn a ha
  · simp only [setDom_same]
    intro e he
    rcases storeQuery_mem key r.tid _ e he with h1 | h1
    · subst h1
      refine ⟨r, ?_⟩
      unfold Dom.typeAt
      rw [if_neg (by unfold emptyTid; omega)]
      simp only
      rw [List.find?_append]
      have : (W.doms d).types.find? (fun x => x.tid == r.tid) = none := by
        rw [List.find?_eq_none]
        intro x hx
        have := h.tidPos x hx
        simp; omega
      rw [this]; simp
    · obtain ⟨s, hs⟩ := h.queries e h1.1
      exact ⟨s, key1 _ _ hs⟩
  · simpa using storeQuery_keys key r.tid _ h.keys

theorem getCase_types {D : Decls} {W : World} {d : DomId} {q : List Mix} {res : Except Err TypeId × World}
    (hc : GetCase D W d q res) (h : TypesInv D W d) :
    TypesInv D res.2 d ∧ ∀ t, res.1 = .ok t → ∃ r, (res.2.doms d).typeAt d t = some r := by
  cases hc with
  | hit t ht => exact ⟨h, fun t' he => by simp at he; subst he; exact h.queries _ ht⟩
  | ruleError e _ => exact ⟨h, by simp⟩
  | empty _ =>
    refine ⟨h.store q emptyTid ⟨_, typeAt_empty _ _⟩, fun t he => ?_⟩
    simp at he; subst he; exact ⟨_, typeAt_empty _ _⟩
  | found r hne _ hr _ =>
    refine ⟨h.store q r.tid ⟨r, h.typeAt_mem r hr⟩, fun t he => ?_⟩
    simp at he; subst he
    simp only [setDom_same]
    exact ⟨r, h.typeAt_mem r hr⟩
  | buildError ms e _ _ _ _ => exact ⟨h, by simp⟩
  | built r hne _ hn hb ht =>
    obtain ⟨hok, -, -, -⟩ := buildType_ok D W d W.nextType r.mixins r hne hb
    have hi := h.emplace q r hok ht hn
    refine ⟨hi, fun t he => ?_⟩
    simp at he; subst he
    exact ⟨r, hi.typeAt_mem r (by simp)⟩

theorem TypesInv.frame {D : Decls} {W W' : World} {d : DomId} (h : TypesInv D W d) (h1 : W'.doms d = W.doms d)
    (h3 : W'.mixId = W.mixId) (h3' : W'.mixDom = W.mixDom) (h4 : W.nextType ≤ W'.nextType) : TypesInv D W' d :=
  h.same (by rw [h1]) (.inl (by rw [h1])) (fun m _ _ => by simp [h3, h3']) h4

/-- get_type in another domain -/
theorem getCase_other {D : Decls} {W : World} {d d' : DomId} {q : List Mix} {res : Except Err TypeId × World}
    (hc : GetCase D W d q res) (hd : d' ≠ d) : res.2.doms d' = W.doms d' ∧ W.nextType ≤ res.2.nextType := by
  cases hc with
  | hit => exact ⟨rfl, Nat.le_refl _⟩
  | ruleError => exact ⟨rfl, Nat.le_refl _⟩
  | empty => exact ⟨setDom_ne _ _ hd, Nat.le_refl _⟩
  | found => exact ⟨setDom_ne _ _ hd, Nat.le_refl _⟩
  | buildError => exact ⟨rfl, Nat.le_refl _⟩
  | built => exact ⟨setDom_ne _ _ hd, by simp⟩

theorem getCase_elems {D : Decls} {W : World} {d : DomId} {q : List Mix} {res : Except Err TypeId × World}
    (hc : GetCase D W d q res) : res.2.mixId = W.mixId ∧ res.2.mixDom = W.mixDom ∧ res.2.featId = W.featId := by
  cases hc <;> exact ⟨rfl, rfl, rfl⟩

theorem getCase_step {D : Decls} {W : World} {d : DomId} (d' : DomId) {q : List Mix} {res : Except Err TypeId × World}
    (hc : GetCase D W d' q res) (h : TypesInv D W d) : TypesInv D res.2 d := by
  by_cases hd : d = d'
  · subst hd; exact (getCase_types hc h).1
  · obtain ⟨h1, h2⟩ := getCase_other hc hd
    obtain ⟨h3, h4, -⟩ := getCase_elems hc
    exact h.frame h1 h3 h4 h2

/-- effect of unregister_mixin on types and queries, whatever the outcome; it never accesses a dead type -/
theorem unregisterMixin_effect {D : Decls} {W : World} {d : DomId} (h : TypesInv D W d) (m : Mix) :
    ((unregisterMixin W d m).2.doms d).types = (W.doms d).types.filter (fun t => !t.hasId (W.mixId m)) ∧
    ((unregisterMixin W d m).2.doms d).queries = (W.doms d).queries.filter (fun e =>
      !((match (W.doms d).typeAt d e.2 with | some r => r.hasId (W.mixId m) | none => true) || e.1.contains m)) ∧
    (unregisterMixin W d m).2.nextType = W.nextType ∧ (unregisterMixin W d m).1 ≠ .error .ub ∧
    (∀ m', m' ≠ m → (unregisterMixin W d m).2.mixId m' = W.mixId m' ∧ (unregisterMixin W d m).2.mixDom m' = W.mixDom m') ∧
    (∀ d', d' ≠ d → (unregisterMixin W d m).2.doms d' = W.doms d') := by
  obtain ⟨qs, h1, h2⟩ := purgeQueries_some (W.doms d) d (W.mixId m) m (W.doms d).queries h.queries
  unfold unregisterMixin
  simp only [h1]
  split
  · refine ⟨by simp, by simp [h2], rfl, by simp, by simp, fun d' hd' => setDom_ne _ _ hd'⟩
  · refine ⟨by simp, by simp [h2], rfl, by simp, fun m' hm' => ?_, fun d' hd' => setDom_ne _ _ hd'⟩
    simp [upd_ne _ _ hm']

theorem unregisterMixin_types {D : Decls} {W : World} (hr : RegInv W) {d : DomId} (h : TypesInv D W d) (m : Mix) :
    TypesInv D (unregisterMixin W d m).2 d := by
  obtain ⟨e1, e2, e3, -, e5, -⟩ := unregisterMixin_effect h m
  refine h.filter _ _ e1 e2 ?_ ?_ (by omega)
  · intro e he hp t ht hte
    have hat := h.typeAt_mem t ht
    rw [hte] at hat
    simp only [hat] at hp
    simp at hp ⊢; exact hp.1
  · intro t ht hp m' hm'
    by_cases hmm : m' = m
    · subst hmm
      -- the mixin has an id and is in the type, so the type was purged
      exfalso
      obtain ⟨⟨i, hi⟩, -⟩ := (h.ok t ht).reg m' hm'
      have := ((h.ok t ht).hasId hr (W.mixId m')).2 ⟨i, m', hi, hm', hi⟩
      rw [this] at hp; simp at hp
    · exact e5 m' hmm

/-- what a call can do to the types and queries of a domain -/
inductive TypeStep (D : Decls) (W : World) (d : DomId) (W' : World) : Prop
  | keep (types : (W'.doms d).types = (W.doms d).types) (queries : (W'.doms d).queries = (W.doms d).queries)
      (rules : (W'.doms d).rules.map (·.1) = (W.doms d).rules.map (·.1))
      (ids : ∀ m, W.mixId m ≠ none → W.mixDom m = some d → W'.mixId m = W.mixId m ∧ W'.mixDom m = W.mixDom m)
      (next : W.nextType ≤ W'.nextType)
  | clear (types : (W'.doms d).types = (W.doms d).types) (queries : (W'.doms d).queries = [])
      (ids : W'.mixId = W.mixId ∧ W'.mixDom = W.mixDom) (next : W.nextType ≤ W'.nextType)
  | filter (p : TypeRec → Bool) (pq : List Mix × TypeId → Bool)
      (types : (W'.doms d).types = (W.doms d).types.filter p) (queries : (W'.doms d).queries = (W.doms d).queries.filter pq)
      (hkeep : ∀ e ∈ (W.doms d).queries, pq e = true → ∀ t ∈ (W.doms d).types, t.tid = e.2 → p t = true)
      (rules : (W'.doms d).rules.map (·.1) = (W.doms d).rules.map (·.1))
      (ids : ∀ t ∈ (W.doms d).types, p t = true → ∀ m ∈ t.mixins, W'.mixId m = W.mixId m ∧ W'.mixDom m = W.mixDom m)
      (next : W.nextType ≤ W'.nextType)
  | get (q : List Mix) (r : Except Err TypeId) (hc : GetCase D W d q (r, W'))

theorem TypeStep.frame {D : Decls} {W W' : World} {d : DomId} (h1 : W'.doms d = W.doms d)
    (h3 : W'.mixId = W.mixId) (h3' : W'.mixDom = W.mixDom) (h4 : W.nextType ≤ W'.nextType) : TypeStep D W d W' :=
  .keep (by rw [h1]) (by rw [h1]) (by rw [h1]) (fun m _ _ => by simp [h3, h3']) h4

theorem TypeStep.types {D : Decls} {W W' : World} {d : DomId} (hs : TypeStep D W d W') (h : TypesInv D W d) : TypesInv D W' d := by
  cases hs with
  | keep h1 h2 _ h3 h4 => exact h.same h1 (.inl h2) h3 h4
  | clear h1 h2 h3 h4 => exact h.same h1 (.inr h2) (fun m _ _ => by simp [h3]) h4
  | filter p pq h1 h2 h3 _ h4 h5 => exact h.filter p pq h1 h2 h3 h4 h5
  | get q r hc => exact (getCase_types hc h).1

theorem ruleIncr_keys (D : Decls) (r : Rule) (l : List (Rule × Nat)) (h : (ruleIncr D r l).2 ≠ 1) :
    (ruleIncr D r l).1.map (·.1) = l.map (·.1) := by
  induction l with
  | nil => simp [ruleIncr] at h
  | cons e l ih =>
    obtain ⟨x, n⟩ := e
    unfold ruleIncr at h ⊢
    split
    · rename_i h1
      rw [if_pos h1] at h
      simp only at h ⊢
      simp [ih h]
    · rename_i h1
      rw [if_neg h1] at h
      split
      · rename_i h2; rw [if_pos h2] at h; simp at h
      · rfl

theorem ruleDecr_keys (D : Decls) (r : Rule) (l l' : List (Rule × Nat)) (c : Nat) (h : ruleDecr D r l = some (l', c)) (hc : c > 0) :
    l'.map (·.1) = l.map (·.1) := by
  induction l generalizing l' c with
  | nil => simp [ruleDecr] at h
  | cons e l ih =>
    obtain ⟨x, n⟩ := e
    unfold ruleDecr at h
    split at h
    · split at h
      · simp at h
      · rename_i l1 c1 h2
        simp at h
        obtain ⟨rfl, rfl⟩ := h
        simp [ih l1 _ h2 hc]
    · split at h
      · simp at h
      · split at h
        · simp at h
          obtain ⟨rfl, rfl⟩ := h; rfl
        · simp at h; omega

theorem getCase_typeStep {D : Decls} {W : World} {d : DomId} (d' : DomId) {q : List Mix} {res : Except Err TypeId × World}
    (hc : GetCase D W d' q res) : TypeStep D W d res.2 := by
  by_cases hd : d = d'
  · subst hd; exact .get q res.1 hc
  · obtain ⟨h1, h2⟩ := getCase_other hc hd
    obtain ⟨h3, h4, -⟩ := getCase_elems hc
    exact .frame h1 h3 h4 h2

theorem step_typeStep (D : Decls) (W : World) (hr : RegInv W) (op : Op) (d : DomId) (h : TypesInv D W d) :
    TypeStep D W d (step D W op).2 := by
  have grown : ∀ fs d' W', FeatsGrown D W d' fs W' → TypeStep D W d W' := by
    intro fs d' W' g
    have hd : (W'.doms d).types = (W.doms d).types ∧ (W'.doms d).queries = (W.doms d).queries ∧ (W'.doms d).rules = (W.doms d).rules := by
      by_cases hd : d = d'
      · subst hd; rw [g.dom]; simp
      · rw [g.other d hd]; simp
    exact .keep hd.1 hd.2.1 (by rw [hd.2.2]) (fun m _ _ => by rw [g.mixId, g.mixDom]; simp) (by rw [g.next]; exact Nat.le_refl _)
  cases op with
  | regFeature d' g =>
    show TypeStep D W d (registerFeature D W d' g).2
    cases hres : (registerFeature D W d' g).1 with
    | error e => rw [registerFeature_error D W d' g e hres]; exact .frame rfl rfl rfl (Nat.le_refl _)
    | ok u =>
      cases u
      obtain ⟨id, hi⟩ := registerFeature_ok D W d' g hres
      exact grown [g] d' _ ((FeatsGrown.refl D _ d' []).step hi)
  | unregFeature d' g =>
    show TypeStep D W d (unregisterFeature W d' g).2
    rcases unregisterFeature_cases W d' g with ⟨h1, -⟩ | ⟨j, h1, h2, h3⟩
    · rw [h1]; exact .frame rfl rfl rfl (Nat.le_refl _)
    · rw [h3]
      by_cases hd : d = d'
      · subst hd
        exact .keep (by simp) (by simp) (by simp) (fun m _ _ => ⟨rfl, rfl⟩) (Nat.le_refl _)
      · exact .frame (setDom_ne _ _ hd) rfl rfl (Nat.le_refl _)
  | regMixin d' m' =>
    show TypeStep D W d (registerMixin D W d' m').2
    cases hres : (registerMixin D W d' m').1 with
    | error e => exact grown _ d' _ (registerMixin_error D W d' m' hr e hres).1
    | ok u =>
      cases u
      obtain ⟨id, hi⟩ := registerMixin_ok D W d' m' hr hres
      have hd : ((registerMixin D W d' m').2.doms d).types = (W.doms d).types ∧
          ((registerMixin D W d' m').2.doms d).queries = (W.doms d).queries ∧
          ((registerMixin D W d' m').2.doms d).rules = (W.doms d).rules := by
        by_cases hd : d = d'
        · subst hd; rw [hi.dom]; simp
        · rw [hi.other d hd]; simp
      refine .keep hd.1 hd.2.1 (by rw [hd.2.2]) ?_ (by rw [hi.next]; exact Nat.le_refl _)
      intro m hm _
      have : m ≠ m' := fun e => hm (by rw [e]; exact hi.wasInvalid)
      rw [hi.mixId, hi.mixDom, upd_ne _ _ this, upd_ne _ _ this]; simp
  | unregMixin d' m' =>
    show TypeStep D W d (unregisterMixin W d' m').2
    by_cases hd : d = d'
    · subst hd
      obtain ⟨e1, e2, e3, -, e5, -⟩ := unregisterMixin_effect h m'
      refine .filter _ _ e1 e2 ?_ (by rw [unreg_rules]) ?_ (by omega)
      · intro e he hp t ht hte
        have hat := h.typeAt_mem t ht
        rw [hte] at hat
        simp only [hat] at hp
        simp at hp ⊢; exact hp.1
      · intro t ht hp m hm
        by_cases hmm : m = m'
        · subst hmm
          exfalso
          obtain ⟨⟨i, hi⟩, -⟩ := (h.ok t ht).reg m hm
          have := ((h.ok t ht).hasId hr (W.mixId m)).2 ⟨i, m, hi, hm, hi⟩
          rw [this] at hp; simp at hp
        · exact e5 m hmm
    · have hdd : (unregisterMixin W d' m').2.doms d = W.doms d := unreg_other W d' m' d hd
      have hnt : (unregisterMixin W d' m').2.nextType = W.nextType := unreg_next W d' m'
      cases hres : (unregisterMixin W d' m').1 with
      | error e =>
        have hs := unregisterMixin_error_same W d' m' e hres
        exact .frame hdd hs.mixId hs.mixDom (by omega)
      | ok u =>
        cases u
        obtain ⟨i, he⟩ := unregisterMixin_ok W d' m' hres
        have hmd := (hr.mixSlot d' _ m' he.slot).2
        refine .keep (by rw [hdd]) (by rw [hdd]) (by rw [hdd]) ?_ (by omega)
        intro m _ hm
        have hne : m ≠ m' := by
          intro e; subst e
          rw [hmd] at hm; simp at hm; exact hd hm.symm
        rw [he.mixId, he.mixDom, upd_ne _ _ hne, upd_ne _ _ hne]; simp
  | regClass d' c =>
    show TypeStep D W d (registerTypeClass D W d' c).2
    rcases registerTypeClass_cases D W d' c with h1 | h1 | h1 | h1 | ⟨h1, -⟩
    · rw [h1.1]; exact .frame rfl rfl rfl (Nat.le_refl _)
    · rw [h1.1]; exact .frame rfl rfl rfl (Nat.le_refl _)
    · rw [h1.1]; exact .frame rfl rfl rfl (Nat.le_refl _)
    · rw [h1.1]; exact .frame rfl rfl rfl (Nat.le_refl _)
    · rw [h1]
      by_cases hd : d = d'
      · subst hd
        exact .keep (by simp) (by simp) (by simp) (fun m _ _ => ⟨rfl, rfl⟩) (Nat.le_refl _)
      · exact .frame (setDom_ne _ _ hd) rfl rfl (Nat.le_refl _)
  | unregClass d' c =>
    show TypeStep D W d (unregisterTypeClass W d' c).2
    unfold unregisterTypeClass
    by_cases hd : d = d'
    · subst hd
      exact .keep (by simp) (by simp) (by simp) (fun m _ _ => ⟨rfl, rfl⟩) (Nat.le_refl _)
    · exact .frame (setDom_ne _ _ hd) rfl rfl (Nat.le_refl _)
  | addRule d' r =>
    show TypeStep D W d (addRule D W d' r).2
    unfold addRule
    split
    · exact .frame rfl rfl rfl (Nat.le_refl _)
    · simp only
      by_cases hd : d = d'
      · subst hd
        split
        · rename_i hrc
          exact .keep (by simp) (by simp) (by simpa using ruleIncr_keys D r _ hrc) (fun m _ _ => ⟨rfl, rfl⟩) (Nat.le_refl _)
        · exact .clear (by simp) (by simp) ⟨rfl, rfl⟩ (Nat.le_refl _)
      · split <;> exact .frame (setDom_ne _ _ hd) rfl rfl (Nat.le_refl _)
  | removeRule d' r =>
    show TypeStep D W d (removeRule D W d' r).2
    unfold removeRule
    simp only
    split
    · exact .frame rfl rfl rfl (Nat.le_refl _)
    · rename_i l c hl
      by_cases hd : d = d'
      · subst hd
        split
        · rename_i hrc
          exact .keep (by simp) (by simp) (by simpa using ruleDecr_keys D r _ l c hl hrc) (fun m _ _ => ⟨rfl, rfl⟩) (Nat.le_refl _)
        · exact .clear (by simp) (by simp) ⟨rfl, rfl⟩ (Nat.le_refl _)
      · split <;> exact .frame (setDom_ne _ _ hd) rfl rfl (Nat.le_refl _)
  | getTypeMut d' md q =>
    show TypeStep D W d (getTypeMut D W d' md q).2
    by_cases hmd : md = d'
    · subst hmd; exact getCase_typeStep md (getTypeMut_cases D W md q)
    · unfold getTypeMut; rw [if_pos hmd]; exact .frame rfl rfl rfl (Nat.le_refl _)
  | getType d' q =>
    show TypeStep D W d (getType D W d' q).2
    exact getCase_typeStep d' (getType_cases D W d' q)
  | gc d' num =>
    show TypeStep D W d (garbageCollect W d' num).2
    unfold garbageCollect
    simp only [collectTypes_eq]
    by_cases hd : d = d'
    · subst hd
      refine .filter _ _ (by simp; rfl) (by simp; rfl) ?_ (by simp) (fun t _ _ m _ => ⟨rfl, rfl⟩) (Nat.le_refl _)
      intro e _ hp t ht hte
      rw [List.all_eq_true] at hp
      have := hp t ht
      rw [hte] at this ⊢
      simpa using this
    · exact .frame (setDom_ne _ _ hd) rfl rfl (Nat.le_refl _)
where
  unreg_next (W : World) (d' : DomId) (m' : Mix) : (unregisterMixin W d' m').2.nextType = W.nextType := by
    unfold unregisterMixin
    simp only
    split
    · rfl
    · split <;> rfl
  unreg_rules (W : World) (d : DomId) (m' : Mix) : ((unregisterMixin W d m').2.doms d).rules = (W.doms d).rules := by
    unfold unregisterMixin
    simp only
    split
    · rfl
    · split <;> simp
  unreg_other (W : World) (d' : DomId) (m' : Mix) (d : DomId) (hd : d ≠ d') : (unregisterMixin W d' m').2.doms d = W.doms d := by
    unfold unregisterMixin
    simp only
    split
    · rfl
    · split <;> exact setDom_ne _ _ hd

theorem step_types (D : Decls) (W : World) (hr : RegInv W) (op : Op) (d : DomId) (h : TypesInv D W d) :
    TypesInv D (step D W op).2 d := (step_typeStep D W hr op d h).types h

theorem run_types (D : Decls) (d : DomId) (ops : List Op) : ∀ W, RegInv W → TypesInv D W d → TypesInv D (run D W ops) d := by
  induction ops with
  | nil => intro W _ h; exact h
  | cons op ops ih => intro W hr h; exact ih _ (step_reg D W op hr) (step_types D W hr op d h)

theorem initWorld_types (D : Decls) (s : DomId → Settings) (d : DomId) : TypesInv D (initWorld s) d := by
  refine ⟨?_, ?_, ?_, ?_, ?_, ?_, by simp [initWorld]⟩ <;> simp [initWorld, newDom]

theorem reachable_types (D : Decls) (s : DomId → Settings) (ops : List Op) (d : DomId) : TypesInv D (run D (initWorld s) ops) d :=
  run_types D d ops _ (initWorld_reg s) (initWorld_types D s d)

/-- an invariant of (world, domain) that every `TypeStep` keeps holds always -/
theorem run_typeStep_induction (D : Decls) (d : DomId) (P : World → Prop)
    (hstep : ∀ W W', RegInv W → TypesInv D W d → TypeStep D W d W' → P W → P W') (ops : List Op) :
    ∀ W, RegInv W → TypesInv D W d → P W → P (run D W ops) := by
  induction ops with
  | nil => intro W _ _ h; exact h
  | cons op ops ih =>
    intro W hr ht h
    exact ih _ (step_reg D W op hr) (step_types D W hr op d ht) (hstep W _ hr ht (step_typeStep D W hr op d ht) h)

end Dnmx
