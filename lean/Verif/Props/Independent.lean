import Verif.Proofs.IndependentPrograms
import Verif.Props.Objects

/-!
# Independence of objects (C77)
-/

namespace Dnmx.Props
open Spec

/-! ## C77 -/

/-- C77: any number of programs, each with its own objects, run together, in any interleaving of their calls. If no program has undefined
behaviour when it runs alone, then there is none, and each call of each program has the same outcome as when the program runs alone: the same
exception, and the same functions of mixins and allocators are called in the same order. Afterwards each object of each program is the same as
when the program runs alone, and no object belongs to two programs. -/
theorem C77_independent (D : Decls) (E : TyEnv) (calls : List (Nat × Call)) (hok : ∀ p, (execAll D E (ownOf p calls) {}).isSome = true) :
    ∃ outs N h, execTogether D E calls (fun _ => []) {} = some (outs, N, h) ∧
      (∀ p, ∃ h1, execAll D E (ownOf p calls) {} = some (ownOf p outs, h1) ∧ (N p).length = h1.objs.length ∧
        ∀ o, o < h1.objs.length → SameObject E h1 o h (numberIn (N p) o)) ∧
      ∀ p q o x, p ≠ q → o < (N p).length → x < (N q).length → numberIn (N p) o ≠ numberIn (N q) x := by
  obtain ⟨outs, N, h, ρ, H, k1, k2, k3⟩ := Indep.together calls _ _ _ _ Indep.parts_start hok
  exact ⟨outs, N, h, k1, fun p => ⟨H p, k3 p, k2.num p, fun o ho => (k2.core p).same ho⟩,
    fun p q o x hpq ho hx => k2.sdisj p q o x hpq (k2.num p ▸ ho) (k2.num q ▸ hx)⟩

/-- C77: so the order in which the calls of different programs are made does not matter. -/
theorem C77_order_does_not_matter (D : Decls) (E : TyEnv) (calls calls' : List (Nat × Call)) (hsame : ∀ p, ownOf p calls' = ownOf p calls)
    (hok : ∀ p, (execAll D E (ownOf p calls) {}).isSome = true) :
    ∃ outs N h outs' N' h', execTogether D E calls (fun _ => []) {} = some (outs, N, h) ∧ execTogether D E calls' (fun _ => []) {} = some (outs', N', h') ∧
      ∀ p, ownOf p outs' = ownOf p outs ∧ (N' p).length = (N p).length := by
  obtain ⟨outs, N, h, k1, k2, -⟩ := C77_independent D E calls hok
  obtain ⟨outs', N', h', k3, k4, -⟩ := C77_independent D E calls' (fun p => by rw [hsame p]; exact hok p)
  refine ⟨outs, N, h, outs', N', h', k1, k3, fun p => ?_⟩
  obtain ⟨h1, k5, k6, -⟩ := k2 p
  obtain ⟨h2, k7, k8, -⟩ := k4 p
  rw [hsame p, k5] at k7
  simp at k7
  obtain ⟨k7, rfl⟩ := k7
  exact ⟨k7.symm, by rw [k6, k8]⟩

/-- Program 0 makes an object and changes it to type 2, the second time it succeeds. Program 1 makes an object, copies it and moves it over the copy. -/
def twoPrograms : List (Nat × Call) :=
  [(0, ⟨objOrc, false, .newOfType 1 0 false⟩), (1, ⟨objOrc, false, .newOfType 2 0 false⟩), (1, ⟨objOrc, false, .copy 0 0⟩), (0, ⟨failAt 1, false, .reset 0 2⟩),
   (1, ⟨objOrc, false, .moveAssign 1 0⟩), (0, ⟨objOrc, false, .reset 0 2⟩), (1, ⟨objOrc, false, .destroy 0⟩)]

-- the object of program 1 has the numbers 1 and 2 among all; the failing call of program 0 is reported to it in the same way as alone
example : (∀ p, p < 2 → (execAll objDecls objEnv (ownOf p twoPrograms) {}).isSome = true) ∧
    (execTogether objDecls objEnv twoPrograms (fun _ => []) {}).map (fun r => (r.2.1 0, r.2.1 1, r.2.2.objs.map (fun ob => ob.bind (·.ty)))) = some ([0], [1, 2], [some 2, none, some 2]) ∧
    (execTogether objDecls objEnv twoPrograms (fun _ => []) {}).map (fun r => (ownOf 0 r.1).map (·.exc)) = some [none, some (.user 1), none] ∧
    (execAll objDecls objEnv (ownOf 0 twoPrograms) {}).map (fun r => r.1.map (·.exc)) = some [none, some (.user 1), none] := by
  refine ⟨?_, by decide +kernel, by decide +kernel, by decide +kernel⟩
  intro p hp
  have : p = 0 ∨ p = 1 := by omega
  rcases this with rfl | rfl <;> decide +kernel

end Dnmx.Props
