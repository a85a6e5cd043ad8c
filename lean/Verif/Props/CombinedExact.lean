import Verif.Props.SharedIds

/-! # C32 for all histories -/

namespace Dnmx.Props
open Spec

variable {σ R : Type}

theorem combineAll_and (I : Impls σ Bool) : ∀ (L : List (Nat × FeatFor)) (s : σ), Yields (combineAll I boolAnd L true s) (fun c => c) (callUntil I false L s) := by
  intro L
  induction L with
  | nil => intro s; exact ⟨rfl, rfl, rfl⟩
  | cons x L ih =>
    intro s
    unfold combineAll callUntil
    rcases hc : callImpl I x s with ⟨r, s'⟩
    cases r with
    | error e => exact ⟨rfl, rfl⟩
    | ok r =>
      cases r with
      | true => simpa [boolAnd] using ih s'
      | false => exact ⟨rfl, rfl, rfl⟩

theorem combineAll_or (I : Impls σ Bool) : ∀ (L : List (Nat × FeatFor)) (s : σ), Yields (combineAll I boolOr L false s) (fun c => c) (callUntil I true L s) := by
  intro L
  induction L with
  | nil => intro s; exact ⟨rfl, rfl, rfl⟩
  | cons x L ih =>
    intro s
    unfold combineAll callUntil
    rcases hc : callImpl I x s with ⟨r, s'⟩
    cases r with
    | error e => exact ⟨rfl, rfl⟩
    | ok r =>
      cases r with
      | true => exact ⟨rfl, rfl, rfl⟩
      | false => simpa [boolOr] using ih s'

theorem combineAll_sum (I : Impls σ Int) : ∀ (L : List (Nat × FeatFor)) (c : Int) (s : σ), Yields (combineAll I sumC L c s) (fun c' => c' - c) (callSum I L s) := by
  intro L
  induction L with
  | nil => intro c s; exact ⟨rfl, rfl, by show c - c = 0; omega⟩
  | cons x L ih =>
    intro c s
    unfold combineAll callSum
    rcases hc : callImpl I x s with ⟨r, s'⟩
    cases r with
    | error e => exact ⟨rfl, rfl⟩
    | ok r =>
      obtain ⟨i1, i2⟩ := ih (c + r) s'
      simp only [sumC, if_true] at i1 i2 ⊢
      rcases hq : callSum I L s' with ⟨q, s''⟩
      rw [hq] at i1 i2
      cases q with
      | error e => exact ⟨i1, i2⟩
      | ok q => exact ⟨i1, i2.1, by have := i2.2; simp only at this ⊢; omega⟩

/-- `mean` of the results of calls -/
def callMean (I : Impls σ Int) (L : List (Nat × FeatFor)) (s : σ) : Except CallErr Int × σ :=
  match callSum I L s with
  | (.error e, s') => (.error e, s')
  | (.ok v, s') => (.ok (v.tdiv L.length), s')

theorem combineAll_mean (I : Impls σ Int) : ∀ (L : List (Nat × FeatFor)) (c : Int × Nat) (s : σ), Yields (combineAll I meanC L c s) (fun c' => (c'.1 - c.1, c'.2))
    (match callSum I L s with
      | (.error e, s') => (.error e, s')
      | (.ok v, s') => (.ok (v, c.2), s')) := by
  intro L
  induction L with
  | nil => intro c s; exact ⟨rfl, rfl, by show (c.1 - c.1, c.2) = (0, c.2); simp⟩
  | cons x L ih =>
    intro c s
    unfold combineAll callSum
    rcases hc : callImpl I x s with ⟨r, s'⟩
    cases r with
    | error e => exact ⟨rfl, rfl⟩
    | ok r =>
      obtain ⟨i1, i2⟩ := ih (c.1 + r, c.2) s'
      simp only [meanC, if_true] at i1 i2 ⊢
      rcases hq : callSum I L s' with ⟨q, s''⟩
      rw [hq] at i1 i2
      cases q with
      | error e => exact ⟨i1, i2⟩
      | ok q =>
        refine ⟨i1, i2.1, ?_⟩
        have := i2.2
        simp only [Prod.mk.injEq] at this ⊢
        exact ⟨by omega, this.2⟩

/-- C32, for all histories and combinators: if no feature had the id `i` when the type was made, the combinator gets the result of the default implementation alone; otherwise it gets those of the
implementations with the greatest bid among those of the features which had this id, in the order of multicasts, up to the one at which it stops, and it is told their number. -/
theorem C32_called_exactly (D : Decls) (s : DomId → Settings) (ops : List Op) (d : DomId) (pre : List Op) (r : TypeRec) (h : MadeAfter D s d ops pre r) (i : Nat) :
    (implsWithId D (run D (initWorld s) pre).featId r.mixins i = [] ∧ ∀ {R C : Type} (I : Impls σ R) (K : Combinator R C) (f : Feat) c σ₀, callCombined D I K r f (some i) c σ₀ =
      match tryDefault D I f σ₀ with
      | (.error e, σ₁) => (.error e, K.setNum 1 c, σ₁)
      | (.ok v, σ₁) => (.ok (), (K.add v (K.setNum 1 c)).1, σ₁)) ∨
    ∃ L, L ≠ [] ∧ L.Perm (topOf (implsWithId D (run D (initWorld s) pre).featId r.mixins i)) ∧ L.Pairwise CalledBefore ∧
      ∀ {R C : Type} (I : Impls σ R) (K : Combinator R C) (f : Feat) c σ₀, callCombined D I K r f (some i) c σ₀ = combineAll I K L (K.setNum L.length c) σ₀ := by
  have hx := (MadeAfter.table h).2 i
  cases he : r.ftableAt (some i) with
  | none => rw [he] at hx; exact .inl ⟨hx, fun I K f c σ₀ => by
      simp only [callCombined, he]
      rcases tryDefault D I f σ₀ with ⟨v, σ₁⟩
      cases v <;> rfl⟩
  | some e =>
    rw [he] at hx
    have hx : EntryOf (implsWithId D (run D (initWorld s) pre).featId r.mixins i) e := hx
    have hin := hx.within
    obtain ⟨p, ps, hp, hw, h1, h2⟩ := EntryOf.split hx
    have hrev : ((ps.take e.topBack).reverse.map Payload.pair ++ [p.pair]) = (p.pair :: (ps.take e.topBack).map Payload.pair).reverse := by
      simp [List.map_reverse]
    refine .inr ⟨(ps.take e.topBack).reverse.map Payload.pair ++ [p.pair], by simp, ?_, ?_, fun I K f c σ₀ => ?_⟩
    · rw [hrev]; exact (List.reverse_perm _).trans h1
    · rw [hrev, List.pairwise_reverse]; exact h2
    · have hlen : ((ps.take e.topBack).reverse.map Payload.pair ++ [p.pair]).length = e.topBack + 1 := by
        rw [hp, List.length_cons] at hin
        simp
        omega
      rw [hlen]
      simp only [callCombined, he, hp]
      exact combineLoop_spec I K p _ _ σ₀

/-- C32, for all histories: what the four combinators say, if there are implementations: conjunction and disjunction up to the first deciding result, sum, and mean of the results of the same calls. -/
theorem C32_results_exactly (D : Decls) (s : DomId → Settings) (ops : List Op) (d : DomId) (pre : List Op) (r : TypeRec) (h : MadeAfter D s d ops pre r) (i : Nat)
    (hne : implsWithId D (run D (initWorld s) pre).featId r.mixins i ≠ []) :
    ∃ L, L ≠ [] ∧ L.Perm (topOf (implsWithId D (run D (initWorld s) pre).featId r.mixins i)) ∧ L.Pairwise CalledBefore ∧ ∀ (I : Impls σ Bool) (J : Impls σ Int) (f : Feat) σ₀,
      Yields (callCombined D I boolAnd r f (some i) true σ₀) (fun c => c) (callUntil I false L σ₀) ∧
      Yields (callCombined D I boolOr r f (some i) false σ₀) (fun c => c) (callUntil I true L σ₀) ∧
      Yields (callCombined D J sumC r f (some i) 0 σ₀) (fun c => c) (callSum J L σ₀) ∧
      Yields (callCombined D J meanC r f (some i) (0, 0) σ₀) meanResult (callMean J L σ₀) := by
  rcases C32_called_exactly (σ := σ) D s ops d pre r h i with ⟨h1, -⟩ | ⟨L, h1, h2, h3, h4⟩
  · exact absurd h1 hne
  · refine ⟨L, h1, h2, h3, fun I J f σ₀ => ⟨?_, ?_, ?_, ?_⟩⟩
    · rw [h4]; exact combineAll_and I L σ₀
    · rw [h4]; exact combineAll_or I L σ₀
    · rw [h4]
      have := combineAll_sum J L 0 σ₀
      simp only [Int.sub_zero] at this
      exact this
    · rw [h4]
      obtain ⟨k1, k2⟩ := combineAll_mean J L (meanC.setNum L.length (0, 0)) σ₀
      unfold callMean
      rcases hq : callSum J L σ₀ with ⟨q, s''⟩
      rw [hq] at k1 k2
      cases q with
      | error e => exact ⟨k1, k2⟩
      | ok q =>
        refine ⟨k1, k2.1, ?_⟩
        have := k2.2
        simp only [meanC, Prod.mk.injEq, Int.sub_zero] at this
        simp only [meanResult, meanC]
        rw [this.1, this.2]

/-- In the history of two features with one id, a combinator for feature 4 gets the result of the implementation of feature 1. -/
example : ∃ r, MadeAfter regDecls (fun _ => {}) 1 sharedHistory (sharedHistory.take 3) r ∧ implsWithId regDecls (run regDecls (initWorld fun _ => {}) (sharedHistory.take 3)).featId r.mixins 0 ≠ [] ∧
    callCombined regDecls (⟨fun _ i => i, fun p _ s => (.ok (p : Int), s + 1), fun p s => (.ok (p : Int), s)⟩ : Impls Nat Int) sumC r 4 (some 0) 0 0 = (.ok (), 10, 1) := by
  refine ⟨(((run regDecls (initWorld fun _ => {}) sharedHistory).doms 1).typeAt 1 1).getD (emptyType 1), ⟨.getType 1 [1], List.prefix_refl _, ?_, ?_⟩, ?_, ?_⟩ <;> decide +kernel

end Dnmx.Props
