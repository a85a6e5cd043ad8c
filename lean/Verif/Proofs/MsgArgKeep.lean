import Verif.Proofs.MsgArgSim

/-!
# What calls with arguments do not change
-/

set_option linter.unusedSimpArgs false
set_option linter.unusedVariables false

namespace Dnmx
open Spec

variable {σ R : Type}

/-- What all functions keep is kept by calls. -/
theorem callUnicast_keeps {D : Decls} {I : Impls σ R} {P : σ → Prop} (h1 : ∀ p d s, P s → P (I.fn p d s).2) (h2 : ∀ p s, P s → P (I.dflt p s).2)
    (t : TypeRec) (f : Feat) (fid : Option Nat) (s : σ) (hs : P s) : P (callUnicast D I t f fid s).2 := by
  have hd : P (tryDefault D I f s).2 := by
    unfold tryDefault
    split
    · exact hs
    · exact h2 _ _ hs
  unfold callUnicast
  split
  · split
    · exact h1 _ _ _ hs
    · exact hd
  · exact hd

theorem multicastLoop_keeps {I : Impls σ R} {P : σ → Prop} (h1 : ∀ p d s, P s → P (I.fn p d s).2) : ∀ (ps : List Payload) (s : σ), P s →
    P (multicastLoop I ps s).2
  | [], s, hs => hs
  | p :: ps, s, hs => by
    have := h1 p.data.payload (I.dataAt s p.mixinIndex) s hs
    simp only [multicastLoop, callPayload]
    rcases hc : I.fn p.data.payload (I.dataAt s p.mixinIndex) s with ⟨r, s'⟩
    rw [hc] at this
    cases r with
    | error e => exact this
    | ok r => exact multicastLoop_keeps h1 ps s' this

theorem callMulticast_keeps {D : Decls} {I : Impls σ R} {P : σ → Prop} (h1 : ∀ p d s, P s → P (I.fn p d s).2) (h2 : ∀ p s, P s → P (I.dflt p s).2)
    (t : TypeRec) (f : Feat) (fid : Option Nat) (s : σ) (hs : P s) : P (callMulticast D I t f fid s).2 := by
  have hd : P (tryDefault D I f s).2 := by
    unfold tryDefault
    split
    · exact hs
    · exact h2 _ _ hs
  unfold callMulticast
  split
  · rename_i e _
    split
    · rename_i p ps _
      have := multicastLoop_keeps h1 (ps.take e.topBack).reverse s hs
      rcases hc : multicastLoop I (ps.take e.topBack).reverse s with ⟨r, s'⟩
      rw [hc] at this
      cases r with
      | error err => exact this
      | ok u => exact h1 _ _ _ this
    · exact hd
  · exact hd

theorem left_keep {y : Nat} : ∀ (ks own : List Pass) (as : List Arg) (vs : List Val) (m : Nat → Val),
    (∀ (i : Nat) k a, ks[i]? = some k → as[i]? = some a → k = .ref ∨ k = .rref → a.cell ≠ y) → left ks own as vs m y = m y := by
  intro ks
  induction ks with
  | nil => intro own as vs m h; simp [left]
  | cons k ks ih =>
    intro own as vs m h
    cases own with
    | nil => cases k <;> simp [left]
    | cons o own =>
      cases as with
      | nil => cases k <;> cases o <;> simp [left]
      | cons a as =>
        cases vs with
        | nil => cases k <;> cases o <;> simp [left]
        | cons v vs =>
          have h' : ∀ (i : Nat) k a, ks[i]? = some k → as[i]? = some a → k = .ref ∨ k = .rref → a.cell ≠ y :=
            fun i k' a' e1 e2 => h (i + 1) k' a' (by simpa using e1) (by simpa using e2)
          have h0 := h 0 k a (by simp) (by simp)
          cases k <;> cases o <;> simp only [left] <;>
            first
            | exact ih _ _ _ _ h'
            | (rw [ih _ _ _ _ h', if_neg (fun e => h0 (by simp) e.symm)])

theorem takenBy_keep {y : Nat} : ∀ (ks own : List Pass) (as : List Arg) (m : Nat → Val),
    (∀ (i : Nat) k a, ks[i]? = some k → as[i]? = some a → k = .ref ∨ k = .rref → a.cell ≠ y) → takenBy ks own as m y = m y := by
  intro ks
  induction ks with
  | nil => intro own as m h; simp [takenBy]
  | cons k ks ih =>
    intro own as m h
    cases own with
    | nil => cases k <;> simp [takenBy]
    | cons o own =>
      cases as with
      | nil => cases k <;> cases o <;> simp [takenBy]
      | cons a as =>
        have h' : ∀ (i : Nat) k a, ks[i]? = some k → as[i]? = some a → k = .ref ∨ k = .rref → a.cell ≠ y :=
          fun i k' a' e1 e2 => h (i + 1) k' a' (by simpa using e1) (by simpa using e2)
        have h0 := h 0 k a (by simp) (by simp)
        cases k <;> cases o <;> simp only [takenBy] <;>
          first
          | exact ih _ _ _ h'
          | (rw [ih _ _ _ h', if_neg (fun e => h0 (by simp) e.symm)])

theorem taken_none {y : Nat} : ∀ (ks : List Pass) (as : List Arg) (m : Nat → Val), m y = none → argsTaken ks as m y = none := by
  intro ks
  induction ks with
  | nil => intro as m h; simpa [argsTaken] using h
  | cons k ks ih =>
    intro as m h
    cases as with
    | nil => cases k <;> simpa [argsTaken] using h
    | cons a as =>
      cases k <;> simp only [argsTaken]
      · split
        · exact ih _ _ (by split <;> simp_all)
        · exact ih _ _ h
      all_goals exact ih _ _ h

/-- A variable is moved from at the start of a call if and only if it is given by rvalue for a parameter by value. -/
theorem taken_at {y : Nat} : ∀ (ks : List Pass) (as : List Arg) (m : Nat → Val),
    ((∃ (i : Nat), ks[i]? = some .value ∧ as[i]? = some ⟨y, true⟩) → argsTaken ks as m y = none) ∧
    ((¬ ∃ (i : Nat), ks[i]? = some .value ∧ as[i]? = some ⟨y, true⟩) → argsTaken ks as m y = m y) := by
  intro ks
  induction ks with
  | nil => intro as m; simp [argsTaken]
  | cons k ks ih =>
    intro as m
    cases as with
    | nil => cases k <;> simp [argsTaken]
    | cons a as =>
      have hsplit : (∃ (i : Nat), (k :: ks)[i]? = some .value ∧ (a :: as)[i]? = some ⟨y, true⟩) ↔
          (k = .value ∧ a = ⟨y, true⟩) ∨ ∃ (i : Nat), ks[i]? = some .value ∧ as[i]? = some ⟨y, true⟩ := by
        constructor
        · rintro ⟨i, h1, h2⟩
          cases i with
          | zero => left; exact ⟨by simpa using h1, by simpa using h2⟩
          | succ i => right; exact ⟨i, by simpa using h1, by simpa using h2⟩
        · rintro (⟨h1, h2⟩ | ⟨i, h1, h2⟩)
          · exact ⟨0, by simp [h1], by simp [h2]⟩
          · exact ⟨i + 1, by simpa using h1, by simpa using h2⟩
      rw [hsplit]
      by_cases hv : k = .value
      · subst hv
        obtain ⟨c, rv⟩ := a
        cases rv
        · simp only [argsTaken, Bool.false_eq_true, if_false, Arg.mk.injEq, and_false, false_or]
          exact ih as m
        · simp only [argsTaken, if_true, Arg.mk.injEq, and_true, true_and]
          by_cases hc : c = y
          · subst hc
            exact ⟨fun _ => taken_none _ _ _ (by simp), fun h => absurd (.inl rfl) h⟩
          · simp only [hc, false_or]
            obtain ⟨h1, h2⟩ := ih as (fun x => if x = c then none else m x)
            refine ⟨h1, fun h => ?_⟩
            rw [h2 h, if_neg (fun e => hc e.symm)]
      · simp only [hv, false_and, false_or]
        have : argsTaken (k :: ks) (a :: as) m = argsTaken ks as m := by cases k <;> simp [argsTaken] at *
        rw [this]
        exact ih as m

theorem seen_at : ∀ (ks : List Pass) (as : List Arg) (vs : List Val) (m : Nat → Val) (i : Nat), ks[i]? = some .value →
    i < as.length → (∀ v, vs[i]? = some v → (seen ks as vs m)[i]? = some v) := by
  intro ks
  induction ks with
  | nil => intro as vs m i h; simp at h
  | cons k ks ih =>
    intro as vs m i h hi v hv
    cases as with
    | nil => simp at hi
    | cons a as =>
      cases vs with
      | nil => simp at hv
      | cons w vs =>
        cases i with
        | zero => simp at h hv; subst h; simp [seen, hv]
        | succ i =>
          simp at h hi hv
          have := ih as vs m i h hi v hv
          cases k <;> simpa [seen] using this

end Dnmx
