import Verif.Spec.Concurrent

/-!
# Specification: moments of a schedule

What a call has done and seen, in schedules without any discipline.
-/

namespace Spec
open Dnmx

/-- In the schedule `is`, thread `i` executes a part of its call when the threads have come as far as `js`; its call is not over then. -/
def Executes (D : Decls) (C : Threads) (is : List Nat) (i : Nat) (js : List Nat) : Prop := js ++ [i] <+: is ∧ (C.run D js).outcome i = none

/-- A moment at which the call of thread `i` is in progress, or its end. -/
def InCall (D : Decls) (C : Threads) (is : List Nat) (i : Nat) (js : List Nat) : Prop := Executes D C is i js ∨ ∃ ks, Executes D C is i ks ∧ js = ks ++ [i]

end Spec
