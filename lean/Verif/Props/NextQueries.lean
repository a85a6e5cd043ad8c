import Verif.Model.NextQueries
import Verif.Props.Dispatch

/-! # C31: asking for next implementations -/

namespace Dnmx.Props
open Spec

variable {σ R : Type}

theorem exists_max_bid : ∀ (l : List (Nat × FeatFor)), l ≠ [] → ∃ x ∈ l, ∀ y ∈ l, y.2.bid ≤ x.2.bid
  | [], h => absurd rfl h
  | [a], _ => ⟨a, by simp, fun y hy => by simp at hy; rw [hy]; exact Int.le_refl _⟩
  | a :: b :: l, _ => by
    obtain ⟨x, hx, hmax⟩ := exists_max_bid (b :: l) (by simp)
    by_cases h : a.2.bid ≤ x.2.bid
    · exact ⟨x, List.mem_cons_of_mem _ hx, fun y hy => by
        rcases List.mem_cons.1 hy with rfl | hy
        · exact h
        · exact hmax y hy⟩
    · exact ⟨a, List.mem_cons_self, fun y hy => by
        rcases List.mem_cons.1 hy with rfl | hy
        · exact Int.le_refl _
        · have := hmax y hy; omega⟩

theorem nextTop_nonempty (D : Decls) (ms : List Nat) (f : Nat) (b : Int) : nextTopImpls D ms f b ≠ [] ↔ ∃ y ∈ allImpls D ms f, y.2.bid < b := by
  constructor
  · intro h
    obtain ⟨x, hx⟩ := List.exists_mem_of_ne_nil _ h
    unfold nextTopImpls at hx
    rw [List.mem_filter, Bool.and_eq_true] at hx
    exact ⟨x, hx.1, by simpa using hx.2.1⟩
  · rintro ⟨y, hy, hb⟩
    obtain ⟨x, hx, hmax⟩ := exists_max_bid ((allImpls D ms f).filter (fun z => decide (z.2.bid < b)))
      (List.ne_nil_of_mem (a := y) (List.mem_filter.2 ⟨hy, by simpa using hb⟩))
    rw [List.mem_filter] at hx
    apply List.ne_nil_of_mem (a := x)
    unfold nextTopImpls
    rw [List.mem_filter, Bool.and_eq_true]
    refine ⟨hx.1, hx.2, ?_⟩
    rw [List.all_eq_true]
    intro z hz
    rw [decide_eq_true_eq]
    intro hzb
    exact hmax z (List.mem_filter.2 ⟨hz, by simpa using hzb⟩)

/-- C31: `has_next_impl_msg` is true for all implementing mixins but the one that is ranked last. If it is, calling the next implementation calls the one ranked next; if it is not, the call throws and
calls nothing, and likewise for mixins that do not implement the message. -/
theorem C31_has_next (D : Decls) (I : Impls σ R) (t : TypeRec) (f : Feat) (fid : Option Nat) (hb : BuiltFor D t f fid) (mid : Mix → Option Nat) (hix : IndexedBy t mid)
    (hone : ListsOnce D t.mixins f) :
    ∃ L, RanksImpls D t.mixins f L ∧
      (∀ (k : Nat) (x : Nat × FeatFor) (m : Mix), L[k]? = some x → t.mixins[x.1]? = some m →
        (hasNextImpl t fid (mid m) = true ↔ k + 1 < L.length) ∧
        (hasNextImpl t fid (mid m) = true → ∃ y, L[k + 1]? = some y ∧ ∀ s, callNextImpl I t fid (mid m) s = callImpl I y s)) ∧
      (∀ m ∈ t.mixins, (∀ ff ∈ (D.mix m).feats, ff.feat ≠ f) → hasNextImpl t fid (mid m) = false) ∧
      (∀ m s, hasNextImpl t fid (mid m) = false → callNextImpl I t fid (mid m) s = (.error .noNext, s)) := by
  obtain ⟨L, hL, h1, h2⟩ := C31_next_implementer D t f fid hb mid hix hone
  refine ⟨L, hL, ?_, ?_, ?_⟩
  · intro k x m hk hm
    have h3 := h1 k x m hk hm
    unfold hasNextImpl
    cases hn : t.findNextImplementer fid (mid m) with
    | none =>
      rw [hn] at h3
      simp only [Option.map_none] at h3
      have := List.getElem?_eq_none_iff.1 h3.symm
      exact ⟨⟨fun h => by simp at h, fun h => by omega⟩, fun h => by simp at h⟩
    | some p =>
      rw [hn] at h3
      simp only [Option.map_some] at h3
      refine ⟨⟨fun _ => (List.getElem?_eq_some_iff.1 h3.symm).1, fun _ => rfl⟩, fun _ => ⟨(p.mixinIndex, p.data), h3.symm, fun s => ?_⟩⟩
      rw [C31_call_next, hn]
  · intro m hm hf
    unfold hasNextImpl
    rw [h2 m hm hf]; rfl
  · intro m s h
    unfold hasNextImpl at h
    rw [C31_call_next]
    cases hn : t.findNextImplementer fid (mid m) with
    | none => rfl
    | some p => rw [hn] at h; simp at h

/-- C31: `has_next_bidder_set` is true exactly if some implementation has a lower bid; and exactly then the calls of the next bidders do not throw for want of one. -/
theorem C31_has_next_bidders (D : Decls) (t : TypeRec) (f : Feat) (fid : Option Nat) (hb : BuiltFor D t f fid) (mid : Mix → Option Nat) (hix : IndexedBy t mid)
    (hone : ListsOnce D t.mixins f) (x : Nat × FeatFor) (hx : x ∈ allImpls D t.mixins f) (m : Mix) (hm : t.mixins[x.1]? = some m) :
    (hasNextBidderSet t fid (mid m) = true ↔ ∃ y ∈ allImpls D t.mixins f, y.2.bid < x.2.bid) ∧
    (hasNextBidderSet t fid (mid m) = false → ∀ (I : Impls σ R) s, callNextBidderSet I t fid (mid m) s = (.error .noNext, s) ∧ callNextBidderTop I t fid (mid m) s = (.error .noNext, s)) := by
  obtain ⟨h1, -⟩ := C31_next_bidder_set D t f fid hb mid hix hone x hx m hm
  constructor
  · rw [← nextTop_nonempty]
    unfold hasNextBidderSet
    cases hs : t.findNextBidderSet fid (mid m) with
    | nil =>
      rw [hs] at h1
      have := h1.length_eq
      simp at this ⊢
      exact List.length_eq_zero_iff.1 this.symm
    | cons p ps =>
      rw [hs] at h1
      have := h1.length_eq
      simp at this ⊢
      intro h
      rw [h] at this; simp at this
  · intro h I s
    unfold hasNextBidderSet at h
    unfold callNextBidderSet callNextBidderTop
    cases hs : t.findNextBidderSet fid (mid m) with
    | nil => exact ⟨rfl, rfl⟩
    | cons p ps => rw [hs] at h; simp at h

/-- Both outcomes of both queries, on the type of `callType_built`: mixins 2, 3 and 1 implement message 7, in this order, the first two with the same bid. -/
example : hasNextImpl callType (exFid 7) (some 2) = true ∧ hasNextImpl callType (exFid 7) (some 3) = true ∧ hasNextImpl callType (exFid 7) (some 1) = false ∧
    hasNextBidderSet callType (exFid 7) (some 2) = true ∧ hasNextBidderSet callType (exFid 7) (some 3) = true ∧ hasNextBidderSet callType (exFid 7) (some 1) = false := by decide +kernel

end Dnmx.Props
