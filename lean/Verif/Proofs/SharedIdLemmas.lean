import Verif.Spec.SharedIds
import Verif.Proofs.DispatchLemmas
import Verif.Proofs.BuilderLemmas

set_option linter.unusedSimpArgs false
set_option linter.unusedVariables false

namespace Dnmx
open Spec

theorem featStream_ids (D : Decls) (fid : Feat → Option Nat) (j : Nat) (ms : List Mix) : ∀ (i : Nat),
    (implsOf fid j (featStream D i ms)).map Payload.pair =
    (ms.zipIdx i).flatMap (fun (m, i) => ((D.mix m).feats.filter (fun ff => fid ff.feat = some j)).map (fun ff => (i, ff))) := by
  induction ms with
  | nil => intro i; rfl
  | cons m ms ih =>
    intro i
    have ih := ih (i + 1)
    unfold implsOf at ih ⊢
    simp only [featStream, List.filter_append, List.map_append, List.zipIdx_cons, List.flatMap_cons, ih]
    congr 1
    rw [List.filter_map, List.map_map]
    rfl

theorem implsOf_ids (D : Decls) (fid : Feat → Option Nat) (j : Nat) (ms : List Mix) :
    (implsOf fid j (featStream D 0 ms)).map Payload.pair = implsWithId D fid ms j := featStream_ids D fid j ms 0

theorem mem_implsWithId {D : Decls} {fid : Feat → Option Nat} {ms : List Mix} {i : Nat} {x : Nat × FeatFor} :
    x ∈ implsWithId D fid ms i ↔ ∃ m, ms[x.1]? = some m ∧ x.2 ∈ (D.mix m).feats ∧ fid x.2.feat = some i := by
  unfold implsWithId
  simp only [List.mem_flatMap, List.mem_map, List.mem_filter, decide_eq_true_eq, Prod.exists, List.mem_zipIdx_iff_getElem?]
  constructor
  · rintro ⟨m, k, h1, ff, ⟨h2, h3⟩, rfl⟩; exact ⟨m, h1, h2, h3⟩
  · rintro ⟨m, h1, h2, h3⟩; exact ⟨m, x.1, h1, x.2, ⟨h2, h3⟩, rfl⟩

theorem mem_allImpls {D : Decls} {ms : List Mix} {f : Feat} {x : Nat × FeatFor} :
    x ∈ allImpls D ms f ↔ ∃ m, ms[x.1]? = some m ∧ x.2 ∈ (D.mix m).feats ∧ x.2.feat = f := by
  unfold allImpls
  simp only [List.mem_flatMap, List.mem_map, List.mem_filter, decide_eq_true_eq, Prod.exists, List.mem_zipIdx_iff_getElem?]
  constructor
  · rintro ⟨m, k, h1, ff, ⟨h2, h3⟩, rfl⟩; exact ⟨m, h1, h2, h3⟩
  · rintro ⟨m, h1, h2, h3⟩; exact ⟨m, x.1, h1, x.2, ⟨h2, h3⟩, rfl⟩

/-- a finished entry -/
theorem entryOf_sorted {pls : List Payload} {e : FEntry} {q : Payload} {qs : List Payload} (hs : e.pls = sortPayloads pls) (hq : e.pls = q :: qs) (ht : e.topBack = topBackLoop q 0 qs) :
    EntryOf (pls.map Payload.pair) e := by
  have hperm : (e.pls.map Payload.pair).Perm (pls.map Payload.pair) := by rw [hs]; exact (sortPayloads_perm _).map _
  have hord : (e.pls.map Payload.pair).Pairwise WinsOrSame := by
    rw [hs, List.pairwise_map]
    exact (sortPayloads_sorted _).imp (fun h => (payloadLt_pair _ _).1 h)
  obtain ⟨n, h1, h2, h3, h4⟩ := topBackLoop_spec q 0 qs
  refine ⟨by rw [hq]; simp, hperm, hord, fun k p hk => ?_, by rw [ht, h1, hq, List.length_cons]; omega⟩
  rw [ht, h1, Nat.zero_add]
  have hsorted : ∀ (a b : Nat) (x y : Payload), a < b → e.pls[a]? = some x → e.pls[b]? = some y → y.data.bid ≤ x.data.bid := by
    intro a b x y hab hx hy
    rw [List.pairwise_map, List.pairwise_iff_getElem] at hord
    obtain ⟨ha, hx⟩ := List.getElem?_eq_some_iff.1 hx
    obtain ⟨hb, hy⟩ := List.getElem?_eq_some_iff.1 hy
    have := hord a b ha hb hab
    rw [hx, hy] at this
    simp only [WinsOrSame, Payload.pair] at this
    omega
  have hfirst : ∀ x ∈ pls.map Payload.pair, x.2.bid ≤ q.data.bid := by
    intro x hx
    have hx' := hperm.mem_iff.2 hx
    rw [List.mem_map] at hx'
    obtain ⟨p', hp', rfl⟩ := hx'
    obtain ⟨j, hj, hjp⟩ := List.getElem_of_mem hp'
    by_cases h0 : j = 0
    · subst h0; simp [hq] at hjp; rw [← hjp]; simp [Payload.pair]
    · exact hsorted 0 j q p' (by omega) (by simp [hq]) (by rw [List.getElem?_eq_getElem hj, hjp])
  have hmem : p.pair ∈ pls.map Payload.pair := hperm.mem_iff.1 (List.mem_map.2 ⟨p, List.mem_of_getElem? hk, rfl⟩)
  have hqmem : q.pair ∈ pls.map Payload.pair := hperm.mem_iff.1 (List.mem_map.2 ⟨q, by rw [hq]; simp, rfl⟩)
  have hpq : (∀ x ∈ pls.map Payload.pair, x.2.bid ≤ p.data.bid) ↔ p.data.bid = q.data.bid := by
    constructor
    · intro hx
      have h5 := hx _ hqmem
      have h6 := hfirst _ hmem
      simp only [Payload.pair] at h5 h6
      omega
    · intro hx x hxm; rw [hx]; exact hfirst x hxm
  rw [hpq]
  rw [hq] at hk
  constructor
  · intro hkn
    cases k with
    | zero => simp at hk; rw [hk]
    | succ k => exact h3 k p (by omega) (by simpa using hk)
  · intro hbid
    apply Classical.byContradiction
    intro hkn
    obtain ⟨k, rfl⟩ : ∃ k', k = k' + 1 := ⟨k - 1, by omega⟩
    simp at hk
    have hlt : k < qs.length := (List.getElem?_eq_some_iff.1 hk).1
    have hnl : n < qs.length := by omega
    have hne := h4 qs[n] (List.getElem?_eq_getElem hnl)
    by_cases hkn' : k = n
    · subst hkn'; rw [List.getElem?_eq_getElem hlt] at hk; simp at hk; rw [hk] at hne; exact hne hbid
    · have h5 := hsorted (n + 1) (k + 1) qs[n] p (by omega) (by rw [hq]; simp) (by rw [hq]; simpa using hk)
      have h6 := hfirst _ (hperm.mem_iff.1 (List.mem_map.2 ⟨qs[n], by rw [hq]; simp, rfl⟩))
      simp only [Payload.pair] at h6
      omega

/-- without an id, the second pass leaves the table -/
theorem ftableCounts_none (fid : Feat → Option Nat) : ∀ (ps : List Payload) (counts : List Nat), (∃ p ∈ ps, fid p.data.feat = none) → ftableCounts fid ps counts = none
  | [], _, h => by obtain ⟨p, hp, -⟩ := h; simp at hp
  | p :: ps, counts, h => by
    rw [ftableCounts]
    cases hi : fid p.data.feat with
    | none => rfl
    | some i =>
      simp only
      cases hc : counts[i]? with
      | none => rfl
      | some c =>
        simp only
        apply ftableCounts_none fid ps
        obtain ⟨q, hq, hn⟩ := h
        rcases List.mem_cons.1 hq with rfl | hq
        · rw [hi] at hn; simp at hn
        · exact ⟨q, hq, hn⟩

theorem featStream_has (D : Decls) {m : Mix} {ff : FeatFor} (hf : ff ∈ (D.mix m).feats) : ∀ (ms : List Mix) (i : Nat), m ∈ ms → ∃ p ∈ featStream D i ms, p.data = ff
  | [], _, h => by simp at h
  | m' :: ms, i, h => by
    rcases List.mem_cons.1 h with rfl | h
    · exact ⟨⟨i, ff⟩, by rw [featStream, List.mem_append]; exact .inl (List.mem_map.2 ⟨ff, hf, rfl⟩), rfl⟩
    · obtain ⟨p, hp, he⟩ := featStream_has D hf ms (i + 1) h
      exact ⟨p, by rw [featStream, List.mem_append]; exact .inr hp, he⟩

/-- all outcomes of building a table -/
theorem buildFtable_all (D : Decls) (fid : Feat → Option Nat) (ms : List Mix) :
    ((∃ m ∈ ms, ∃ ff ∈ (D.mix m).feats, fid ff.feat = none) ∧ buildFtable D fid ms = .error .ub) ∨
    ((∀ m ∈ ms, ∀ ff ∈ (D.mix m).feats, ∃ i, fid ff.feat = some i) ∧
      ((∃ i, finishEntry D (implsOf fid i (featStream D 0 ms)) = .error .featureClash ∧ buildFtable D fid ms = .error .featureClash) ∨
      ∃ t, buildFtable D fid ms = .ok t ∧ ∀ i, ∃ r, finishEntry D (implsOf fid i (featStream D 0 ms)) = .ok r ∧ (t[i]?).getD none = r)) := by
  by_cases h : ∃ m ∈ ms, ∃ ff ∈ (D.mix m).feats, fid ff.feat = none
  · left
    refine ⟨h, ?_⟩
    obtain ⟨m, hm, ff, hff, hn⟩ := h
    obtain ⟨p, hp, he⟩ := featStream_has D hff ms 0 hm
    simp only [buildFtable, ftableCounts_none fid _ _ ⟨p, hp, by rw [he]; exact hn⟩]
  · right
    have hreg : ∀ m ∈ ms, ∀ ff ∈ (D.mix m).feats, ∃ i, fid ff.feat = some i := by
      intro m hm ff hff
      cases hi : fid ff.feat with
      | some i => exact ⟨i, rfl⟩
      | none => exact absurd ⟨m, hm, ff, hff, hi⟩ h
    refine ⟨hreg, buildFtable_spec D fid ms ?_⟩
    intro p hp
    obtain ⟨m, h1, h2⟩ := featStream_mem D ms 0 p hp
    exact hreg m h1 _ h2

/-- what a table that was built contains -/
theorem buildFtable_ids {D : Decls} {fid : Feat → Option Nat} {ms : List Mix} {t : List (Option FEntry)} (h : buildFtable D fid ms = .ok t) :
    (∀ m ∈ ms, ∀ ff ∈ (D.mix m).feats, ∃ i, fid ff.feat = some i) ∧ ∀ i, EntryFor (implsWithId D fid ms i) ((t[i]?).getD none) := by
  rcases buildFtable_all D fid ms with ⟨-, h1⟩ | ⟨hreg, ⟨i, -, h1⟩ | ⟨t', h1, h2⟩⟩
  · rw [h] at h1; simp at h1
  · rw [h] at h1; simp at h1
  · rw [h] at h1; simp only [Except.ok.injEq] at h1; subst h1
    refine ⟨hreg, fun i => ?_⟩
    obtain ⟨r, h3, h4⟩ := h2 i
    rw [h4, ← implsOf_ids]
    rcases finishEntry_ok D _ r h3 with ⟨h5, h6⟩ | ⟨e, h5, h6, h7, p, ps, h8, h9, _⟩
    · subst h5; rw [h6]; rfl
    · subst h5; exact entryOf_sorted h6 h8 h9

theorem ftableAt_getD (r : TypeRec) (i : Nat) : r.ftableAt (some i) = (r.ftable[i]?).getD none := by
  simp only [TypeRec.ftableAt]
  cases r.ftable[i]? <;> rfl

/-- what a step does to a type -/
theorem typeStep_new {D : Decls} {W W' : World} {d : DomId} (hs : TypeStep D W d W') {r : TypeRec} (hr : r ∈ (W'.doms d).types) :
    r ∈ (W.doms d).types ∨ (buildType D W d W.nextType r.mixins = .ok r ∧ r.tid = W.nextType) := by
  cases hs with
  | keep h1 => rw [h1] at hr; exact .inl hr
  | clear h1 => rw [h1] at hr; exact .inl hr
  | filter p pq h1 => rw [h1] at hr; exact .inl (List.mem_filter.1 hr).1
  | get q res hc =>
    generalize hx : (res, W') = x at hc
    cases hc with
    | hit t h => simp only [Prod.mk.injEq] at hx; rw [hx.2] at hr; exact .inl hr
    | ruleError e h => simp only [Prod.mk.injEq] at hx; rw [hx.2] at hr; exact .inl hr
    | empty h => simp only [Prod.mk.injEq] at hx; rw [hx.2] at hr; simp [World.setDom] at hr; exact .inl hr
    | found r' hne h h1 h2 => simp only [Prod.mk.injEq] at hx; rw [hx.2] at hr; simp [World.setDom] at hr; exact .inl hr
    | buildError ms e hne h hn hb => simp only [Prod.mk.injEq] at hx; rw [hx.2] at hr; exact .inl hr
    | built r' hne h hn hb ht =>
      simp only [Prod.mk.injEq] at hx; rw [hx.2] at hr; simp [World.setDom] at hr
      rcases hr with hr | rfl
      · exact .inl hr
      · exact .inr ⟨hb, ht⟩

/-- every type was made by a call, with the ids of that time -/
theorem made_after (D : Decls) (s : DomId → Settings) (d : DomId) (ops : List Op) : ∀ r ∈ ((run D (initWorld s) ops).doms d).types,
    ∃ pre, MadeAfter D s d ops pre r ∧ buildType D (run D (initWorld s) pre) d r.tid r.mixins = .ok r := by
  induction ops using snoc_induction with
  | h0 => intro r hr; simp [run, initWorld, newDom] at hr
  | h1 ops op ih =>
    intro r hr
    have hreg := reachable_reg D s ops
    have hty := reachable_types D s ops d
    have hty' := reachable_types D s (ops ++ [op]) d
    have hat := hty'.typeAt_mem r hr
    rw [run_snoc] at hr
    rcases typeStep_new (step_typeStep D _ hreg op d hty) hr with h | ⟨h, ht⟩
    · obtain ⟨pre, ⟨op', h1, h2, h3⟩, h4⟩ := ih r h
      exact ⟨pre, ⟨op', h1.trans (List.prefix_append _ _), h2, h3⟩, h4⟩
    · refine ⟨ops, ⟨op, List.prefix_refl _, ?_, hat⟩, by rw [ht]; exact h⟩
      cases hn : ((run D (initWorld s) ops).doms d).typeAt d r.tid with
      | none => rfl
      | some r' =>
        exfalso
        rcases typeAt_some hn with ⟨a, b⟩ | ⟨a, b, c⟩
        · have h1 := hty.nextPos
          rw [← ht, a] at h1
          simp [emptyTid] at h1
        · have h1 := (hty.tidPos r' b).2
          have h2 := typeAt_tid hn
          omega

end Dnmx
