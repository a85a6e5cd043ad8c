import Verif.Model.Domain

/-! # Orders without cycles -/

namespace Spec
open Dnmx

/-- No three elements of `S` of which each comes before the next, and the last before the first. -/
def NoCycleOf {α : Type} (S : α → Prop) (lt : α → α → Bool) : Prop :=
  ¬ ∃ a b c, S a ∧ S b ∧ S c ∧ lt a b = true ∧ lt b c = true ∧ lt c a = true

end Spec
