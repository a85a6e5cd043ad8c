import Verif.Proofs.WalkLemmas
import Verif.Props.Dispatch

/-!
# C31: exactly when going through the implementations ends

`C31_walk` is for features that no mixin lists twice; `C31_duplicate_feature_refuted` is an example of a walk that does not end. In between there is nothing.
-/

namespace Dnmx.Props
open Spec

/-- C31, also for mixins that list a feature several times: the next implementation is the one after the *first* of the mixin in the ranking. -/
theorem C31_next_exactly (D : Decls) (t : TypeRec) (f : Feat) (fid : Option Nat) (hb : BuiltFor D t f fid) (mid : Mix → Option Nat)
    (hix : IndexedBy t mid) :
    ∃ L, RanksImpls D t.mixins f L ∧ ∀ (k : Nat) (x : Nat × FeatFor), L[k]? = some x → (∀ j, j < k → ∀ y : Nat × FeatFor, L[j]? = some y → y.1 ≠ x.1) →
      nextOf t fid mid x.1 = L[k + 1]? := by
  have hfacts := hb.facts
  cases he : t.ftableAt fid with
  | none =>
    rw [he] at hfacts
    exact ⟨[], ⟨by rw [hfacts], List.Pairwise.nil⟩, fun k x hk => by simp at hk⟩
  | some e =>
    rw [he] at hfacts
    obtain ⟨-, hr, -, -⟩ := hfacts
    refine ⟨e.pls.map Payload.pair, hr, ?_⟩
    intro k x hk hfirst
    obtain ⟨m, hm, -⟩ := allImpls_idx_lt (hr.complete.mem_iff.1 (List.mem_of_getElem? hk))
    rw [List.getElem?_map] at hk
    cases hp : e.pls[k]? with
    | none => rw [hp] at hk; simp at hk
    | some p =>
      rw [hp] at hk; simp at hk; subst hk
      simp only [nextOf, hm, TypeRec.findNextImplementer, he, hix _ m hm]
      have hfi : findImplementer p.pair.1 0 e.pls = some k := findImplementer_first hp (fun j hj q hq =>
        hfirst j hj q.pair (by rw [List.getElem?_map, hq]; rfl))
      rw [hfi, List.getElem?_map]; rfl

/-- C31: going from the winner to the next implementation again and again ends *exactly* if no mixin of the type lists the feature twice; otherwise
it goes on forever. -/
theorem C31_walk_ends_exactly (D : Decls) (t : TypeRec) (f : Feat) (fid : Option Nat) (hb : BuiltFor D t f fid) (mid : Mix → Option Nat)
    (hix : IndexedBy t mid) (w : Nat × FeatFor) (hw : Winner D t.mixins f w) :
    ((∃ n, (walk (nextOf t fid mid) n (some w)).length < n) ↔ ListsOnce D t.mixins f) ∧
    (¬ ListsOnce D t.mixins f → ∀ n, (walk (nextOf t fid mid) n (some w)).length = n) := by
  have hdup : ¬ ListsOnce D t.mixins f → ∀ n, (walk (nextOf t fid mid) n (some w)).length = n := by
    intro hno
    obtain ⟨L, hL, hnext⟩ := C31_next_exactly D t f fid hb mid hix
    have hnd : ¬ (L.map (·.1)).Nodup := fun h => hno (listsOnce_of_nodup ((hL.complete.map _).nodup_iff.1 h))
    obtain ⟨i, j, hij, hjl, heq, hpre⟩ := first_repetition _ hnd
    simp only [List.length_map] at hjl
    have hfirst : ∀ p, p < j → ∀ x : Nat × FeatFor, L[p]? = some x → nextOf t fid mid x.1 = L[p + 1]? := by
      intro p hp x hx
      refine hnext p x hx (fun q hq y hy hyx => hpre p hp q hq ?_)
      rw [List.getElem?_map, List.getElem?_map, hx, hy]
      simp [hyx]
    have hlast : ∀ x : Nat × FeatFor, L[j]? = some x → nextOf t fid mid x.1 = L[i + 1]? := by
      intro x hx
      rw [List.getElem?_map, List.getElem?_map, hx] at heq
      cases hi : L[i]? with
      | none => rw [hi] at heq; simp at heq
      | some y =>
        rw [hi] at heq
        simp at heq
        rw [← heq]
        exact hfirst i hij y hi
    have hwalk : ∀ n p, p ≤ j → (walk (nextOf t fid mid) n L[p]?).length = n := by
      intro n
      induction n with
      | zero => intro p _; rfl
      | succ n ih =>
        intro p hp
        have hlt : p < L.length := by omega
        rw [List.getElem?_eq_getElem hlt, walk, List.length_cons]
        by_cases hpj : p = j
        · subst hpj
          rw [hlast _ (List.getElem?_eq_getElem hlt), ih (i + 1) (by omega)]
        · rw [hfirst p (by omega) _ (List.getElem?_eq_getElem hlt), ih (p + 1) (by omega)]
    have h0 : 0 < L.length := by omega
    have hwL : L[0].1 = w.1 := by
      have h1 := hw.2 L[0] (hL.complete.mem_iff.1 (List.getElem_mem h0))
      have hmem := hL.complete.mem_iff.2 hw.1
      have h2 : WinsOrSame L[0] w := by
        obtain ⟨k, hk⟩ := List.getElem?_of_mem hmem
        obtain ⟨hk1, hk2⟩ := List.getElem?_eq_some_iff.1 hk
        rcases Nat.eq_zero_or_pos k with rfl | hpos
        · rw [← hk2]; simp [WinsOrSame]
        · have := List.pairwise_iff_getElem.1 hL.ordered 0 k h0 hk1 hpos
          rw [hk2] at this; exact this
      simp only [WinsOrSame] at h1 h2
      omega
    intro n
    have := hwalk n 0 (by omega)
    rw [List.getElem?_eq_getElem h0] at this
    cases n with
    | zero => rfl
    | succ n =>
      rw [walk, List.length_cons] at this ⊢
      rw [← hwL]; exact this
  refine ⟨⟨?_, ?_⟩, hdup⟩
  · rintro ⟨n, hn⟩
    by_cases h : ListsOnce D t.mixins f
    · exact h
    · have := hdup h n; omega
  · intro h
    refine ⟨(allImpls D t.mixins f).length + 1, ?_⟩
    have := (C31_walk D t f fid hb mid hix h w hw ((allImpls D t.mixins f).length + 1) (by omega)).complete.length_eq
    omega

/-- Both cases occur: see `callType_built` and `C31_duplicate_feature_refuted`. -/
example : Winner twiceDecls twiceType.mixins 7 (0, ⟨7, 100, 2, 0⟩) ∧ ¬ ListsOnce twiceDecls twiceType.mixins 7 ∧
    (walk (nextOf twiceType (exFid 7) some) 5 (some (0, ⟨7, 100, 2, 0⟩))).map (·.1) = [0, 1, 0, 1, 0] := by
  refine ⟨?_, ?_, by decide +kernel⟩
  · unfold Winner WinsOrSame; decide +kernel
  · unfold ListsOnce; decide +kernel

end Dnmx.Props
