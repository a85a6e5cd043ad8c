import Verif.Proofs.NestedLemmas
import Verif.Props.ObjectThreads

/-!
# Calls within calls (C82)
-/

namespace Dnmx.Props
open Spec Steps

/-! ## C82 -/

/-- C82: functions of mixins and allocators use objects of other parts, to any depth. If no program of a part has undefined behaviour when it runs alone, then
there is none, and each call of each part, also if it was interrupted or interrupts others, has the same outcome as when the program of the part
runs alone. When a part is done, its objects are the same as when it runs alone. -/
theorem C82_nested (D : Decls) (E : TyEnv) (programs : Nat → List Call) (hok : ∀ p, (execAll D E (programs p) {}).isSome = true) (acts : List Act) :
    ∃ N, (Nest.start programs).run D E acts = some N ∧ N.stack.Nodup ∧
      ∀ p, ∃ outs h1, execAll D E (programs p) {} = some (outs, h1) ∧ (N.parts.threads p).outs <+: outs ∧
        ((N.parts.threads p).done → (N.parts.threads p).outs = outs ∧ (N.parts.threads p).nums.length = h1.objs.length ∧
          ∀ o, o < h1.objs.length → SameObject E h1 o N.parts.heap (numberIn (N.parts.threads p).nums o)) := by
  obtain ⟨N, made, ρ, H, k1, hN⟩ := nested_inv (D := D) (E := E) programs hok acts
  refine ⟨N, k1, hN.stack, fun p => ?_⟩
  have hI := hN.inv
  have hT := hI.each p
  cases hc : (N.parts.threads p).cur with
  | none =>
    obtain ⟨x, hx, hall, -⟩ := hT.idle hc
    refine ⟨_, _, hall, ⟨x.1, rfl⟩, ?_⟩
    rintro ⟨-, htodo⟩
    rw [htodo] at hx
    simp only [execAll, Option.some.injEq] at hx
    subst hx
    exact ⟨by simp, hI.parts.num p, fun o ho => (hI.parts.core p).same ho⟩
  | some wP =>
    obtain ⟨w, P⟩ := wP
    obtain ⟨P1, -, hgo⟩ := hT.busy w P hc
    cases hr : P1.run D w (H p) with
    | ub => rw [hr] at hgo; exact hgo.elim
    | ok r =>
      rw [hr] at hgo
      obtain ⟨x, -, hall, -⟩ := hgo
      exact ⟨_, _, hall, ⟨_, rfl⟩, fun hd => by have h2 := hd.1; rw [hc] at h2; simp at h2⟩
    | throw r e =>
      rw [hr] at hgo
      obtain ⟨x, -, hall, -⟩ := hgo
      exact ⟨_, _, hall, ⟨_, rfl⟩, fun hd => by have h2 := hd.1; rw [hc] at h2; simp at h2⟩

/-- C82: whatever other parts do while a call of part `q` is interrupted (or `q` has no call in progress), finds the objects of `q` as they were: the same type, mixins,
values and back pointers, complete or in the middle of a change. -/
theorem C82_interrupted (D : Decls) (E : TyEnv) (programs : Nat → List Call) (hok : ∀ p, (execAll D E (programs p) {}).isSome = true) (before during : List Act) (N N' : Nest)
    (hb : (Nest.start programs).run D E before = some N) (hd : N.run D E during = some N') (q : Nat) (hq : N.spares D E q during) :
    N'.parts.threads q = N.parts.threads q ∧
      ∀ o, o < (N.parts.threads q).nums.length → SameObject E N.parts.heap (numberIn (N.parts.threads q).nums o) N'.parts.heap (numberIn (N.parts.threads q).nums o) := by
  obtain ⟨N1, made, ρ, H, k1, hN⟩ := nested_inv (D := D) (E := E) programs hok before
  rw [hb] at k1
  simp only [Option.some.injEq] at k1
  subst k1
  obtain ⟨N2, made2, ρ2, H2, j1, j2, -, j4⟩ := nrun_inv during hN
  rw [hd] at j1
  simp only [Option.some.injEq] at j1
  subst j1
  obtain ⟨e1, e2⟩ := j4 q hq
  refine ⟨e2, fun o ho => ?_⟩
  have h1 : o < (H q).objs.length := by rw [← hN.inv.parts.num q]; exact ho
  have s1 := (hN.inv.parts.core q).same (E := E) h1
  have s2 := (j2.inv.parts.core q).same (E := E) (o := o) (by rw [e1]; exact h1)
  rw [e1, e2] at s2
  exact sameObject_via s1 s2

/-- C82: a call within others always comes to its end: after some steps it is over, and the calls it interrupted are where they were. -/
theorem C82_returns (D : Decls) (E : TyEnv) (programs : Nat → List Call) (hok : ∀ p, (execAll D E (programs p) {}).isSome = true) (acts : List Act) (N : Nest)
    (hrun : (Nest.start programs).run D E acts = some N) (p : Nat) (ps : List Nat) (hs : N.stack = p :: ps) :
    ∃ n N', N.run D E (List.replicate n .go) = some N' ∧ N'.stack = ps ∧ ∀ q, q ≠ p → N'.parts.threads q = N.parts.threads q := by
  obtain ⟨N1, made, ρ, H, k1, hN⟩ := nested_inv (D := D) (E := E) programs hok acts
  rw [hrun] at k1
  simp only [Option.some.injEq] at k1
  subst k1
  exact call_ends _ hN p ps hs (Nat.le_refl _)

/-- C82: all calls come to their end, whatever was entered so far. -/
theorem C82_all_return (D : Decls) (E : TyEnv) (programs : Nat → List Call) (hok : ∀ p, (execAll D E (programs p) {}).isSome = true) (acts : List Act) (N : Nest)
    (hrun : (Nest.start programs).run D E acts = some N) :
    ∃ n N', N.run D E (List.replicate n .go) = some N' ∧ N'.stack = [] ∧ ∀ p, (N'.parts.threads p).todo = (N.parts.threads p).todo := by
  generalize hk : N.stack.length = k
  induction k generalizing N acts with
  | zero => exact ⟨0, N, rfl, List.length_eq_zero_iff.mp hk, fun _ => rfl⟩
  | succ k ih =>
    cases hs : N.stack with
    | nil => rw [hs] at hk; simp at hk
    | cons p ps =>
      obtain ⟨N1, made, ρ, H, k1, hN⟩ := nested_inv (D := D) (E := E) programs hok acts
      rw [hrun] at k1
      simp only [Option.some.injEq] at k1
      subst k1
      obtain ⟨n, N2, j1, j2, j3, j4⟩ := call_ends_todo _ hN p ps hs (Nat.le_refl _)
      obtain ⟨n', N3, l1, l2, l3⟩ := ih (acts ++ List.replicate n .go) N2 (by rw [nrun_append, hrun]; exact j1) (by rw [j2]; rw [hs] at hk; simpa using hk)
      refine ⟨n + n', N3, ?_, l2, fun q => (l3 q).trans ?_⟩
      · rw [← List.replicate_append_replicate, nrun_append, j1]; exact l1
      · by_cases hq : q = p
        · subst hq; exact j4
        · rw [j3 q hq]

/-- Part 0 makes an object and changes its type; so do part 1, whose change fails, and part 2, which copies its object. -/
def nestParts (p : Nat) : List Call :=
  if p = 0 then [⟨objOrc, false, .newOfType 1 0 false⟩, ⟨objOrc, false, .reset 0 2⟩]
  else if p = 1 then [⟨objOrc, false, .newOfType 1 0 false⟩, ⟨failAt 1, false, .reset 0 2⟩]
  else if p = 2 then [⟨objOrc, false, .newOfType 2 0 false⟩, ⟨objOrc, false, .copy 0 0⟩]
  else []

/-- The change by part 0 is interrupted by part 1, and that of part 1 by the copy of part 2. -/
def nestActs : List Act :=
  [.enter 1] ++ List.replicate 40 .go ++ [.enter 2] ++ List.replicate 60 .go ++ [.enter 0] ++ List.replicate 40 .go ++ [.enter 0] ++ List.replicate 6 .go ++
    [.enter 1] ++ List.replicate 4 .go ++ [.enter 2] ++ List.replicate 5 .go

-- three calls within each other; when all are over, the call of part 1 has failed and left its object as it was, the others have done their work
example : (∀ p, (execAll objDecls objEnv (nestParts p) {}).isSome = true) ∧
    ((Nest.start nestParts).run objDecls objEnv nestActs).map (fun N => N.stack) = some [2, 1, 0] ∧
    ((Nest.start nestParts).run objDecls objEnv (nestActs ++ List.replicate 200 .go)).map (fun N => (N.stack, N.parts.heap.objs.map (fun ob => ob.bind (·.ty)), (N.parts.threads 1).outs.map (·.exc))) =
      some ([], [some 1, some 2, some 2, some 2], [none, some (.user 1)]) := by
  refine ⟨?_, by decide +kernel, by decide +kernel⟩
  intro p
  have : p = 0 ∨ p = 1 ∨ p = 2 ∨ nestParts p = [] := by unfold nestParts; grind
  rcases this with rfl | rfl | rfl | h
  · decide +kernel
  · decide +kernel
  · decide +kernel
  · rw [h]; rfl

/-- The first object of `objHeap` gets another type, and a function that is called for this clears the same object. -/
def sameObject : Nest := ⟨⟨objHeap, fun p => { todo := if p = 0 then [⟨objOrc, false, .reset 0 2⟩] else if p = 1 then [⟨objOrc, false, .clear 0⟩] else [], nums := [0] }⟩, []⟩

/-- Is the next step a call of a function of a mixin or an allocator? -/
def callsOutside (T : Thread) : Bool := match T.cur with | some (_, .outside _) => true | _ => false

/-- C82: the objects must be others. A function of a mixin that is called while the type of an object is changed clears this object: undefined behaviour, although both
calls are fine one after the other. -/
theorem C82_other_objects_needed :
    (sameObject.run objDecls objEnv ([.enter 0] ++ List.replicate 60 .go ++ [.enter 1] ++ List.replicate 60 .go)).map (fun N => N.stack) = some [] ∧
    (sameObject.run objDecls objEnv ([.enter 0] ++ List.replicate 2 .go)).map (fun N => callsOutside (N.parts.threads 0)) = some true ∧
    (sameObject.run objDecls objEnv ([.enter 0] ++ List.replicate 2 .go ++ [.enter 1] ++ List.replicate 60 .go)).isNone = true := by
  refine ⟨by decide +kernel, by decide +kernel, by decide +kernel⟩

end Dnmx.Props
