/-!
# Specification: orders on character sequences and strict total orders

Independent of the model.
-/

namespace Spec

/-- Lexicographic "before" on character sequences: a proper prefix comes first, otherwise the first
difference decides. -/
inductive LexBefore : List UInt8 → List UInt8 → Prop
  | nil (c : UInt8) (cs : List UInt8) : LexBefore [] (c :: cs)
  | head {a b : UInt8} (as bs : List UInt8) (h : a < b) : LexBefore (a :: as) (b :: bs)
  | tail (c : UInt8) {as bs : List UInt8} (h : LexBefore as bs) : LexBefore (c :: as) (c :: bs)

/-- What a comparison result means: negative / zero / positive for before / equal / after. -/
structure ComparesLex (result : Int) (a b : List UInt8) : Prop where
  neg : result < 0 ↔ LexBefore a b
  zero : result = 0 ↔ a = b
  pos : 0 < result ↔ LexBefore b a

/-- Requirements of `std::sort` on its comparator, plus totality on different elements. -/
structure StrictTotalOn {α : Type} (S : α → Prop) (lt : α → α → Bool) : Prop where
  irrefl : ∀ a, S a → lt a a = false
  trans : ∀ a b c, S a → S b → S c → lt a b = true → lt b c = true → lt a c = true
  total : ∀ a b, S a → S b → a ≠ b → lt a b = true ∨ lt b a = true

end Spec
