import Verif.Proofs.FeatureLemmas

/-!
# C26, C27, C28: index table and feature table of a type
-/

namespace Dnmx.Props
open Spec

/-- C26: with the index table that type creation makes from the (different) ids of the mixins, `index_of(id)` is
`i` exactly if the mixin at position `i` has this id. -/
theorem C26_index_of_exact (t : TypeRec) (mid : Mix → Option Nat) (ids : List Nat)
    (hids : t.mixins.map mid = ids.map some) (hn : ids.Nodup) (ht : t.sparse = sparseTable ids) (id : Option Nat) (i : Nat) :
    t.indexOf id = some i ↔ ∃ x m, id = some x ∧ t.mixins[i]? = some m ∧ mid m = some x := by
  have key : ∀ x : Nat, ids[i]? = some x ↔ ∃ m, t.mixins[i]? = some m ∧ mid m = some x := by
    intro x
    have h := congrArg (fun l => l[i]?) hids
    simp only [List.getElem?_map] at h
    cases hm : t.mixins[i]? with
    | none =>
      rw [hm] at h
      cases hx : ids[i]? with
      | none => simp
      | some y => rw [hx] at h; simp at h
    | some m =>
      rw [hm] at h
      cases hx : ids[i]? with
      | none => rw [hx] at h; simp at h
      | some y => rw [hx] at h; simp at h; simp [h]
  unfold TypeRec.indexOf
  cases id with
  | none => simp
  | some x =>
    simp only [ht]
    have h1 := sparseTable_spec ids hn x i
    constructor
    · intro h
      have : (sparseTable ids)[x]? = some (some i) := by
        cases hs : (sparseTable ids)[x]? with
        | none => rw [hs] at h; simp at h
        | some r => rw [hs] at h; simp at h; rw [h]
      obtain ⟨m, h2, h3⟩ := (key x).1 (h1.1 this)
      exact ⟨x, m, rfl, h2, h3⟩
    · rintro ⟨y, m, h2, h3, h4⟩
      simp at h2; subst h2
      rw [h1.2 ((key x).2 ⟨m, h3, h4⟩)]

/-- C26: `has(id)` holds exactly if the type has a mixin with this id. -/
theorem C26_has_exact (t : TypeRec) (mid : Mix → Option Nat) (ids : List Nat)
    (hids : t.mixins.map mid = ids.map some) (hn : ids.Nodup) (ht : t.sparse = sparseTable ids) (id : Option Nat) :
    t.hasId id = true ↔ ∃ x m, id = some x ∧ m ∈ t.mixins ∧ mid m = some x := by
  unfold TypeRec.hasId
  rw [Option.isSome_iff_exists]
  constructor
  · rintro ⟨i, h⟩
    obtain ⟨x, m, h1, h2, h3⟩ := (C26_index_of_exact t mid ids hids hn ht id i).1 h
    exact ⟨x, m, h1, List.mem_of_getElem? h2, h3⟩
  · rintro ⟨x, m, h1, h2, h3⟩
    obtain ⟨i, hi, he⟩ := List.getElem_of_mem h2
    exact ⟨i, (C26_index_of_exact t mid ids hids hn ht id i).2 ⟨x, m, h1, by rw [List.getElem?_eq_getElem hi, he], h3⟩⟩

/-- Ids with a gap, not in order. -/
example :
    let t : TypeRec := ⟨1, 0, [70, 50, 60], ⟨[], 0, 8⟩, sparseTable [4, 0, 2], []⟩
    t.indexOf (some 4) = some 0 ∧ t.indexOf (some 0) = some 1 ∧ t.indexOf (some 2) = some 2 ∧ t.indexOf (some 1) = none ∧
    t.indexOf (some 9) = none ∧ t.indexOf none = none := by decide +kernel

/-- C27: a successfully built feature table has for each feature exactly the implementations its mixins provide,
best first, and no entry for a feature that nobody provides. -/
theorem C27_ftable_contents (D : Decls) (fid : Feat → Option Nat) (ms : List Mix) (hf : FeatIdsOk D fid ms)
    (t : TypeRec) (h : buildFtable D fid ms = .ok t.ftable) (f : Feat) (hreg : (fid f).isSome) :
    match t.ftableAt (fid f) with
    | none => allImpls D ms f = []
    | some e => e.pls ≠ [] ∧ RanksImpls D ms f (e.pls.map (fun p => (p.mixinIndex, p.data))) := by
  obtain ⟨i, hi⟩ := Option.isSome_iff_exists.1 hreg
  have := buildFtable_entry D fid ms hf t.ftable h f i hi
  have hat : t.ftableAt (fid f) = (t.ftable[i]?).getD none := by
    rw [hi]
    simp only [TypeRec.ftableAt]
    cases t.ftable[i]? <;> rfl
  rw [hat]
  cases he : (t.ftable[i]?).getD none with
  | none => rw [he] at this; exact this
  | some e => rw [he] at this; exact ⟨this.2.1, this.1⟩

/-- C27: `top_bid_back` is the position of the last implementation with the greatest bid. -/
theorem C27_top_bidders (D : Decls) (fid : Feat → Option Nat) (ms : List Mix) (hf : FeatIdsOk D fid ms)
    (t : TypeRec) (h : buildFtable D fid ms = .ok t.ftable) (f : Feat) (e : FEntry) (he : t.ftableAt (fid f) = some e)
    (k : Nat) (p : Payload) (hk : e.pls[k]? = some p) :
    e.topBack < e.pls.length ∧ (k ≤ e.topBack ↔ ∀ x ∈ allImpls D ms f, x.2.bid ≤ p.data.bid) := by
  cases hi : fid f with
  | none => rw [hi] at he; simp [TypeRec.ftableAt] at he
  | some i =>
  have hb := buildFtable_entry D fid ms hf t.ftable h f i hi
  have hti : t.ftable[i]? = some (some e) := by
    rw [hi] at he
    unfold TypeRec.ftableAt at he
    simp only at he
    cases hr : t.ftable[i]? with
    | none => rw [hr] at he; simp at he
    | some r => rw [hr] at he; simp at he; rw [he]
  rw [hti] at hb
  obtain ⟨hr, -, q, qs, hq, htb⟩ := hb
  obtain ⟨n, h1, h2, h3, h4⟩ := topBackLoop_spec q 0 qs
  rw [htb, h1, Nat.zero_add, hq]
  refine ⟨by simp; omega, ?_⟩
  have hsorted : ∀ (a b : Nat) (x y : Payload), a < b → e.pls[a]? = some x → e.pls[b]? = some y → y.data.bid ≤ x.data.bid := by
    intro a b x y hab hx hy
    have ho := hr.ordered
    rw [List.pairwise_map, List.pairwise_iff_getElem] at ho
    obtain ⟨ha, hx⟩ := List.getElem?_eq_some_iff.1 hx
    obtain ⟨hb, hy⟩ := List.getElem?_eq_some_iff.1 hy
    have := ho a b ha hb hab
    rw [hx, hy] at this
    simp only [WinsOrSame, Payload.pair] at this
    omega
  have hfirst : ∀ x ∈ allImpls D ms f, x.2.bid ≤ q.data.bid := by
    intro x hx
    have hx' := hr.complete.mem_iff.2 hx
    rw [List.mem_map] at hx'
    obtain ⟨p', hp', rfl⟩ := hx'
    obtain ⟨j, hj, hjp⟩ := List.getElem_of_mem hp'
    by_cases h0 : j = 0
    · subst h0; simp [hq] at hjp; rw [← hjp]; simp [Payload.pair]
    · exact hsorted 0 j q p' (by omega) (by simp [hq]) (by rw [List.getElem?_eq_getElem hj, hjp])
  have hmem : p.pair ∈ allImpls D ms f :=
    hr.complete.mem_iff.1 (List.mem_map.2 ⟨p, List.mem_of_getElem? hk, rfl⟩)
  have hqmem : q.pair ∈ allImpls D ms f :=
    hr.complete.mem_iff.1 (List.mem_map.2 ⟨q, by rw [hq]; simp, rfl⟩)
  have hpq : (∀ x ∈ allImpls D ms f, x.2.bid ≤ p.data.bid) ↔ p.data.bid = q.data.bid := by
    constructor
    · intro hx
      have h5 := hx _ hqmem
      have h6 := hfirst _ hmem
      simp only [Payload.pair] at h5 h6
      omega
    · intro hx x hxm; rw [hx]; exact hfirst x hxm
  rw [hpq]
  rw [hq] at hk
  constructor
  · intro hkn
    cases k with
    | zero => simp at hk; rw [hk]
    | succ k => exact h3 k p (by omega) (by simpa using hk)
  · intro hbid
    apply Classical.byContradiction
    intro hkn
    obtain ⟨k, rfl⟩ : ∃ k', k = k' + 1 := ⟨k - 1, by omega⟩
    simp at hk
    have hlt : k < qs.length := (List.getElem?_eq_some_iff.1 hk).1
    have hnl : n < qs.length := by omega
    have hne := h4 qs[n] (List.getElem?_eq_getElem hnl)
    by_cases hkn' : k = n
    · subst hkn'; rw [List.getElem?_eq_getElem hlt] at hk; simp at hk; rw [hk] at hne; exact hne hbid
    · have h5 := hsorted (n + 1) (k + 1) qs[n] p (by omega) (by rw [hq]; simp) (by rw [hq]; simpa using hk)
      have h6 := hfirst _ (hr.complete.mem_iff.1 (List.mem_map.2 ⟨qs[n], by rw [hq]; simp, rfl⟩))
      simp only [Payload.pair] at h6
      omega

/-- C28: building the table fails exactly if some feature which does not allow clashes has two implementations
with equal bid and priority; and it never does anything undefined. -/
theorem C28_clash_iff (D : Decls) (fid : Feat → Option Nat) (ms : List Mix) (hf : FeatIdsOk D fid ms) :
    (buildFtable D fid ms = .error .featureClash ↔ ∃ f, (D.feat f).allowClashes = false ∧ ClashesOn D ms f) ∧
    (buildFtable D fid ms = .error .featureClash ∨ ∃ t, buildFtable D fid ms = .ok t) := by
  have hreg : ∀ p ∈ featStream D 0 ms, ∃ i, fid p.data.feat = some i := by
    intro p hp
    obtain ⟨m, h1, h2⟩ := featStream_mem D ms 0 p hp
    exact hf.registered m h1 _ h2
  rcases buildFtable_spec D fid ms hreg with ⟨i, h1, h2⟩ | ⟨t, h1, h2⟩
  · exact ⟨⟨fun _ => finishEntry_error_iff D fid ms hf i _ h1, fun _ => h2⟩, .inl h2⟩
  · refine ⟨⟨fun h => by rw [h] at h1; simp at h1, ?_⟩, .inr ⟨t, h1⟩⟩
    rintro ⟨f, hc, hcl⟩
    -- the clashing feature has an id
    have ⟨k, l, a, b, hkl, ha, hb, _⟩ := hcl
    have ha' := List.mem_of_getElem? ha
    simp only [allImpls, List.mem_flatMap, List.mem_map, List.mem_filter] at ha'
    obtain ⟨⟨m, j⟩, hm, ff, ⟨hff, hfeat⟩, -⟩ := ha'
    have hmm : m ∈ ms := by
      rw [List.mem_zipIdx_iff_getElem?] at hm; exact List.mem_of_getElem? hm
    obtain ⟨i, hi⟩ := hf.registered m hmm ff hff
    simp at hfeat
    rw [hfeat] at hi
    rw [clashesOn_iff D fid ms hf f i hi] at hcl
    obtain ⟨r, h3, -⟩ := h2 i
    rcases finishEntry_ok D _ r h3 with ⟨-, h6⟩ | ⟨e, -, h6, -, p, ps, h8, -, h10⟩
    · rw [h6] at hcl; simp [sortPayloads, sortBy, hasClash] at hcl
    · rw [h6] at h10
      rcases h10 with h10 | h10
      · have hp : p ∈ implsOf fid i (featStream D 0 ms) := (sortPayloads_perm _).mem_iff.1 (by rw [← h6, h8]; simp)
        rw [implsOf, List.mem_filter] at hp
        have hpf := hf.distinct _ _ _ (by simpa using hp.2) hi
        rw [hpf, hc] at h10; simp at h10
      · rw [hcl] at h10; simp at h10

/-- Mixins 1, 2, 3 provide feature 7 (no clashes) with bids 0, 5, 5 and different priorities, 3 also feature 8. -/
def featDecls (prio3 : Int) : Decls where
  mem := fun _ => 0
  mix := fun m => { name := ⟨0, 0⟩, feats := if m = 1 then [⟨7, 100, 0, 0⟩] else if m = 2 then [⟨7, 200, 5, 1⟩]
    else if m = 3 then [⟨8, 300, 0, 0⟩, ⟨7, 301, 5, prio3⟩] else [] }
  feat := fun _ => { name := ⟨0, 0⟩, allowClashes := false }
  userRule := fun _ => ⟨⟨0, 0⟩, none, 0⟩
  cls := fun _ => ⟨⟨0, 0⟩, false, fun _ => true⟩

/-- ids of the features 7 and 8 -/
def exFid (f : Feat) : Option Nat := if f = 7 then some 2 else if f = 8 then some 0 else none

theorem exFid_ok (p : Int) (ms : List Mix) : FeatIdsOk (featDecls p) exFid ms := by
  constructor
  · intro m _ ff h
    simp only [featDecls] at h
    split at h
    · simp at h; subst h; exact ⟨2, rfl⟩
    · split at h
      · simp at h; subst h; exact ⟨2, rfl⟩
      · split at h
        · simp at h; rcases h with h | h <;> subst h
          · exact ⟨0, rfl⟩
          · exact ⟨2, rfl⟩
        · simp at h
  · intro f g i h1 h2
    unfold exFid at h1 h2
    grind

example : buildFtable (featDecls 3) exFid [1, 3, 2] =
    .ok [some ⟨[⟨1, 8, 300, 0, 0⟩], 0⟩, none, some ⟨[⟨2, 7, 200, 5, 1⟩, ⟨1, 7, 301, 5, 3⟩, ⟨0, 7, 100, 0, 0⟩], 1⟩] := by
  decide +kernel

example : buildFtable (featDecls 1) exFid [1, 3, 2] = .error .featureClash := by decide +kernel

end Dnmx.Props
