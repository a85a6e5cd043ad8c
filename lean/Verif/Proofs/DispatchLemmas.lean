import Verif.Props.DomainFeatures
import Verif.Spec.Dispatch

/-! # Lemmas about calling messages -/

namespace Dnmx
open Spec Props

variable {σ R : Type}

/-- What the theorems about calls need to know of the table: that of a type made of `t.mixins` with some feature ids. -/
def BuiltFor (D : Decls) (t : TypeRec) (f : Feat) (fid : Option Nat) : Prop :=
  ∃ fids, FeatIdsOk D fids t.mixins ∧ buildFtable D fids t.mixins = .ok t.ftable ∧ fids f = fid ∧ fid.isSome

theorem BuiltFor.facts {D : Decls} {t : TypeRec} {f : Feat} {fid : Option Nat} (h : BuiltFor D t f fid) :
    match t.ftableAt fid with
    | none => allImpls D t.mixins f = []
    | some e => e.pls ≠ [] ∧ RanksImpls D t.mixins f (e.pls.map Payload.pair) ∧ e.topBack < e.pls.length ∧
        ∀ (k : Nat) (p : Payload), e.pls[k]? = some p → (k ≤ e.topBack ↔ ∀ x ∈ allImpls D t.mixins f, x.2.bid ≤ p.data.bid) := by
  obtain ⟨fids, hf, hb, rfl, hs⟩ := h
  have h1 := C27_ftable_contents D fids t.mixins hf t hb f hs
  cases he : t.ftableAt (fids f) with
  | none => rw [he] at h1; exact h1
  | some e =>
    rw [he] at h1
    refine ⟨h1.1, h1.2, ?_, ?_⟩
    · cases hp : e.pls with
      | nil => exact absurd hp h1.1
      | cons p ps =>
        have := (C27_top_bidders D fids t.mixins hf t hb f e he 0 p (by rw [hp]; rfl)).1
        rw [hp] at this; exact this
    · intro k p hk; exact (C27_top_bidders D fids t.mixins hf t hb f e he k p hk).2

theorem take_eq_filter {α : Type} (P : α → Bool) : ∀ (l : List α) (n : Nat), (∀ (k : Nat) (x : α), l[k]? = some x → (k < n ↔ P x = true)) →
    l.take n = l.filter P
  | [], n, _ => by simp
  | x :: l, 0, h => by
    have : ∀ y ∈ x :: l, P y = false := by
      intro y hy
      obtain ⟨k, hk⟩ := List.mem_iff_getElem?.1 hy
      have := h k y hk
      simp at this; simpa using this
    simp only [List.take_zero]
    symm; rw [List.filter_eq_nil_iff]
    intro y hy; simp [this y hy]
  | x :: l, n + 1, h => by
    have h0 := (h 0 x rfl).1 (by omega)
    rw [List.take_succ_cons, List.filter_cons_of_pos h0, take_eq_filter P l n]
    intro k y hk
    have := h (k + 1) y (by simpa using hk)
    rw [← this]; omega

/-- The table in the terms of the specification: the winner first, the top bidders form a prefix. -/
theorem BuiltFor.split {D : Decls} {t : TypeRec} {f : Feat} {fid : Option Nat} (h : BuiltFor D t f fid) {e : FEntry}
    (he : t.ftableAt fid = some e) : ∃ p ps, e.pls = p :: ps ∧ RanksImpls D t.mixins f (p.pair :: ps.map Payload.pair) ∧
      Winner D t.mixins f p.pair ∧ e.topBack ≤ ps.length ∧
      (p.pair :: (ps.take e.topBack).map Payload.pair).Perm (topImpls D t.mixins f) ∧
      (p.pair :: (ps.take e.topBack).map Payload.pair).Pairwise (fun a b => CalledBefore b a) := by
  have h1 := h.facts
  rw [he] at h1
  obtain ⟨hne, hr, hlt, htop⟩ := h1
  cases hp : e.pls with
  | nil => exact absurd hp hne
  | cons p ps =>
    rw [hp] at hr hlt htop
    rw [List.map_cons] at hr
    have hmem : ∀ x, x ∈ allImpls D t.mixins f ↔ x ∈ p.pair :: ps.map Payload.pair := fun x => hr.complete.mem_iff.symm
    have hw : Winner D t.mixins f p.pair := by
      refine ⟨(hmem _).2 (by simp), fun x hx => ?_⟩
      rcases List.mem_cons.1 ((hmem x).1 hx) with rfl | hx
      · simp [WinsOrSame]
      · exact (List.pairwise_cons.1 hr.ordered).1 x hx
    have hf : (p.pair :: (ps.take e.topBack).map Payload.pair) =
        (p.pair :: ps.map Payload.pair).filter (fun x => (allImpls D t.mixins f).all (fun y => y.2.bid ≤ x.2.bid)) := by
      rw [← take_eq_filter _ _ (e.topBack + 1)]
      · simp [List.map_take]
      · intro k x hk
        rw [← List.map_cons, List.getElem?_map] at hk
        cases hq : (p :: ps)[k]? with
        | none => rw [hq] at hk; simp at hk
        | some q =>
          rw [hq] at hk; simp at hk; subst hk
          rw [Nat.lt_succ_iff, htop k q hq]
          simp only [List.all_eq_true, decide_eq_true_eq]
          rfl
    refine ⟨p, ps, rfl, hr, hw, by simpa [Nat.lt_succ_iff] using hlt, ?_, ?_⟩
    · rw [hf]; exact hr.complete.filter _
    · rw [hf]
      have hpw := hr.ordered.filter (fun x => (allImpls D t.mixins f).all (fun y => y.2.bid ≤ x.2.bid))
      refine hpw.imp_of_mem ?_
      intro a b ha hb hab
      rw [List.mem_filter] at ha hb
      have h1 := ha.2; have h2 := hb.2
      simp only [List.all_eq_true, decide_eq_true_eq] at h1 h2
      have h3 := h1 b ((hmem b).2 hb.1)
      have h4 := h2 a ((hmem a).2 ha.1)
      simp only [WinsOrSame] at hab
      simp only [CalledBefore]
      omega

theorem callPayload_pair (I : Impls σ R) (p : Payload) (s : σ) : callPayload I p s = callImpl I p.pair s := rfl

theorem multicastLoop_spec (I : Impls σ R) (p : Payload) : ∀ (ps : List Payload) (s : σ),
    (match multicastLoop I ps s with
      | (.error err, s') => (.error err, s')
      | (.ok (), s') => callPayload I p s') = callInOrder I p.pair (ps.map Payload.pair) s
  | [], s => rfl
  | q :: ps, s => by
    simp only [multicastLoop, List.map_cons, callInOrder, callPayload_pair I q]
    rcases hc : callImpl I q.pair s with ⟨r, s'⟩
    cases r with
    | error e => rfl
    | ok r => exact multicastLoop_spec I p ps s'

/-- All calls of a combinator call, up to the first result that stops it. -/
def combineAll {C : Type} (I : Impls σ R) (K : Combinator R C) : List (Nat × FeatFor) → C → σ → Except CallErr Unit × C × σ
  | [], c, s => (.ok (), c, s)
  | x :: xs, c, s =>
    match callImpl I x s with
    | (.error e, s') => (.error e, c, s')
    | (.ok r, s') => if (K.add r c).2 then combineAll I K xs (K.add r c).1 s' else (.ok (), (K.add r c).1, s')

theorem combineLoop_spec {C : Type} (I : Impls σ R) (K : Combinator R C) (p : Payload) : ∀ (ps : List Payload) (c : C) (s : σ),
    (match combineLoop I K ps c s with
      | (.error err, c', s') => (.error err, c', s')
      | (.ok false, c', s') => (.ok (), c', s')
      | (.ok true, c', s') =>
        match callPayload I p s' with
        | (.error err, s'') => (.error err, c', s'')
        | (.ok r, s'') => (.ok (), (K.add r c').1, s'')) = combineAll I K (ps.map Payload.pair ++ [p.pair]) c s
  | [], c, s => by
    simp only [combineLoop, List.map_nil, List.nil_append, combineAll, callPayload_pair]
    rcases hc : callImpl I p.pair s with ⟨r, s'⟩
    cases r with
    | error e => rfl
    | ok r => simp
  | q :: ps, c, s => by
    simp only [combineLoop, List.map_cons, List.cons_append, combineAll, callPayload_pair I q]
    rcases hc : callImpl I q.pair s with ⟨r, s'⟩
    cases r with
    | error e => rfl
    | ok r =>
      simp only
      by_cases hb : (K.add r c).2 = true
      · rw [if_pos hb, if_pos hb]; exact combineLoop_spec I K p ps _ s'
      · rw [if_neg hb, if_neg hb]

/-! ## Next implementations -/

theorem findImplementer_spec (i : Nat) : ∀ (l : List Payload) (k : Nat),
    match findImplementer i k l with
    | none => ∀ p ∈ l, p.mixinIndex ≠ i
    | some j => ∃ n p, j = k + n ∧ l[n]? = some p ∧ p.mixinIndex = i ∧ ∀ m, m < n → ∀ q, l[m]? = some q → q.mixinIndex ≠ i
  | [], k => by simp [findImplementer]
  | p :: l, k => by
    by_cases h : p.mixinIndex = i
    · have h1 : findImplementer i k (p :: l) = some k := by simp [findImplementer, h]
      rw [h1]; exact ⟨0, p, rfl, rfl, h, fun m hm => by omega⟩
    · have h1 : findImplementer i k (p :: l) = findImplementer i (k + 1) l := by simp [findImplementer, h]
      rw [h1]
      have := findImplementer_spec i l (k + 1)
      cases hf : findImplementer i (k + 1) l with
      | none =>
        rw [hf] at this
        intro q hq
        rcases List.mem_cons.1 hq with rfl | hq
        · exact h
        · exact this q hq
      | some j =>
        rw [hf] at this
        obtain ⟨n, q, h2, h3, h4, h5⟩ := this
        refine ⟨n + 1, q, by omega, by simpa using h3, h4, ?_⟩
        intro m hm q' hq'
        cases m with
        | zero => simp at hq'; subst hq'; exact h
        | succ m => exact h5 m (by omega) q' (by simpa using hq')

theorem allImpls_nodup_idx (D : Decls) (f : Nat) (ms : List Nat) (h : ListsOnce D ms f) : ∀ k,
    (((ms.zipIdx k).flatMap (fun (m, i) => ((D.mix m).feats.filter (fun ff => ff.feat = f)).map (fun ff => (i, ff)))).map (·.1)).Nodup ∧
    ∀ x ∈ (ms.zipIdx k).flatMap (fun (m, i) => ((D.mix m).feats.filter (fun ff => ff.feat = f)).map (fun ff => (i, ff))), k ≤ x.1 := by
  induction ms with
  | nil => intro k; simp
  | cons m ms ih =>
    intro k
    obtain ⟨h1, h2⟩ := ih (fun m' hm' => h m' (by simp [hm'])) (k + 1)
    have hm := h m (by simp)
    rw [List.zipIdx_cons, List.flatMap_cons]
    constructor
    · rw [List.map_append, List.nodup_append]
      refine ⟨?_, h1, ?_⟩
      · dsimp only
        generalize (D.mix m).feats.filter (fun ff => ff.feat = f) = l at hm ⊢
        rcases l with _ | ⟨x, _ | ⟨y, l⟩⟩
        · simp
        · simp
        · simp at hm
      · intro a ha b hb
        simp only [List.map_map, List.mem_map] at ha
        obtain ⟨ff, -, rfl⟩ := ha
        obtain ⟨y, hy, rfl⟩ := List.mem_map.1 hb
        have := h2 y hy
        simp; omega
    · intro x hx
      rcases List.mem_append.1 hx with hx | hx
      · obtain ⟨ff, -, rfl⟩ := List.mem_map.1 hx; exact Nat.le_refl _
      · have := h2 x hx; omega

theorem _root_.Spec.RanksImpls.idx_nodup {D : Decls} {ms : List Nat} {f : Nat} {l : List (Nat × FeatFor)} (hr : RanksImpls D ms f l)
    (h : ListsOnce D ms f) : (l.map (·.1)).Nodup :=
  (hr.complete.map _).nodup_iff.2 (allImpls_nodup_idx D f ms h 0).1

theorem allImpls_idx_lt {D : Decls} {ms : List Nat} {f : Nat} {x : Nat × FeatFor} (h : x ∈ allImpls D ms f) :
    ∃ m, ms[x.1]? = some m ∧ x.2 ∈ (D.mix m).feats ∧ x.2.feat = f := by
  simp only [allImpls, List.mem_flatMap, List.mem_map, List.mem_filter] at h
  obtain ⟨⟨m, j⟩, hm, ff, ⟨hff, hfeat⟩, rfl⟩ := h
  rw [List.mem_zipIdx_iff_getElem?] at hm
  exact ⟨m, hm, hff, by simpa using hfeat⟩

theorem mem_allImpls_of {D : Decls} {ms : List Nat} {f : Nat} {i m : Nat} {ff : FeatFor} (hm : ms[i]? = some m)
    (hff : ff ∈ (D.mix m).feats) (hf : ff.feat = f) : (i, ff) ∈ allImpls D ms f := by
  simp only [allImpls, List.mem_flatMap, List.mem_map, List.mem_filter]
  exact ⟨(m, i), by rw [List.mem_zipIdx_iff_getElem?]; exact hm, ff, ⟨hff, by simpa using hf⟩, rfl⟩

/-- the position found for a mixin that occurs once -/
theorem findImplementer_at {l : List Payload} (hn : ((l.map Payload.pair).map (·.1)).Nodup) {k : Nat} {p : Payload}
    (hk : l[k]? = some p) : findImplementer p.mixinIndex 0 l = some k := by
  have hs := findImplementer_spec p.mixinIndex l 0
  cases hf : findImplementer p.mixinIndex 0 l with
  | none => rw [hf] at hs; exact absurd rfl (hs p (List.mem_of_getElem? hk))
  | some j =>
    rw [hf] at hs
    obtain ⟨n, q, h1, h2, h3, -⟩ := hs
    have hnn : n = k := by
      obtain ⟨hk', hkk⟩ := List.getElem?_eq_some_iff.1 hk
      obtain ⟨hn', hnn⟩ := List.getElem?_eq_some_iff.1 h2
      rcases Nat.lt_trichotomy n k with hlt | heq | hlt
      · have := List.pairwise_iff_getElem.1 hn n k (by simpa using hn') (by simpa using hk') hlt
        simp [hkk, hnn, Payload.pair, h3] at this
      · exact heq
      · have := List.pairwise_iff_getElem.1 hn k n (by simpa using hk') (by simpa using hn') hlt
        simp [hkk, hnn, Payload.pair, h3] at this
    simp [h1, hnn]

theorem skipBid_spec (b : Int) : ∀ (l : List Payload), (∀ p ∈ l, p.data.bid ≤ b) →
    (l.map Payload.pair).Pairwise WinsOrSame → skipBid b l = l.filter (fun p => decide (p.data.bid < b))
  | [], _, _ => rfl
  | p :: l, h, hs => by
    have hp := h p (by simp)
    rw [List.map_cons, List.pairwise_cons] at hs
    unfold skipBid
    split
    · rename_i h1
      rw [skipBid_spec b l (fun q hq => h q (by simp [hq])) hs.2, List.filter_cons_of_neg (by simp; omega)]
    · rename_i h1
      symm; rw [List.filter_eq_self]
      intro q hq
      rcases List.mem_cons.1 hq with rfl | hq
      · simp; omega
      · have := hs.1 q.pair (List.mem_map.2 ⟨q, hq, rfl⟩)
        simp only [WinsOrSame, Payload.pair] at this
        simp; omega

theorem takeBid_spec (b : Int) : ∀ (l : List Payload), (∀ p ∈ l, p.data.bid ≤ b) →
    (l.map Payload.pair).Pairwise WinsOrSame → takeBid b l = l.filter (fun p => decide (p.data.bid = b))
  | [], _, _ => rfl
  | p :: l, h, hs => by
    have hp := h p (by simp)
    rw [List.map_cons, List.pairwise_cons] at hs
    unfold takeBid
    split
    · rename_i h1
      rw [takeBid_spec b l (fun q hq => h q (by simp [hq])) hs.2, List.filter_cons_of_pos (by simp; omega)]
    · rename_i h1
      symm; rw [List.filter_eq_nil_iff]
      intro q hq
      rcases List.mem_cons.1 hq with rfl | hq
      · simp; omega
      · have := hs.1 q.pair (List.mem_map.2 ⟨q, hq, rfl⟩)
        simp only [WinsOrSame, Payload.pair] at this
        simp; omega

end Dnmx
