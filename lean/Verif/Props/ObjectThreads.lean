import Verif.Proofs.ThreadRuns
import Verif.Props.Independent

/-!
# Objects in several threads (C78)
-/

namespace Dnmx.Props
open Spec Steps

/-! ## C78 -/

/-- C78: the steps of an operation, done without interruption, are the operation. -/
theorem C78_steps_are_operations (D : Decls) (E : TyEnv) (orc : Orc) (u : Bool) (op : OOp) (h : Heap) :
    ostep D E orc u h op = match (program D E u op).run D orc h with
      | .ok r => .ok r.1
      | .throw r e => .throw r.1 e
      | .ub => .ub := by
  rw [← program_ref]
  cases (program D E u op).run D orc h <;> rfl

/-- C78: any number of threads, each with its own objects, run at the same time; the steps of their operations are mixed in any way. If no program
of a thread has undefined behaviour when it runs alone, then there is none, and each call of each thread has the same outcome as when the
program runs alone. When a thread is done, its objects are the same as when it runs alone. No object belongs to two threads. -/
theorem C78_threads (D : Decls) (E : TyEnv) (programs : Nat → List Call) (hok : ∀ p, (execAll D E (programs p) {}).isSome = true) (sched : List Nat) :
    ∃ S, (Threads.start programs).run D E sched = some S ∧
      (∀ p, ∃ outs h1, execAll D E (programs p) {} = some (outs, h1) ∧ (S.threads p).outs <+: outs ∧
        ((S.threads p).done → (S.threads p).outs = outs ∧ (S.threads p).nums.length = h1.objs.length ∧
          ∀ o, o < h1.objs.length → SameObject E h1 o S.heap (numberIn (S.threads p).nums o))) ∧
      ∀ p q o x, p ≠ q → o < (S.threads p).nums.length → x < (S.threads q).nums.length → numberIn (S.threads p).nums o ≠ numberIn (S.threads q).nums x := by
  obtain ⟨S, ρ, H, k1, hI⟩ := threads_inv (D := D) (E := E) programs hok sched
  refine ⟨S, k1, ?_, ?_⟩
  · intro p
    have hT := hI.each p
    cases hc : (S.threads p).cur with
    | none =>
      obtain ⟨x, hx, hall, -⟩ := hT.idle hc
      refine ⟨_, _, hall, ⟨x.1, rfl⟩, ?_⟩
      rintro ⟨-, htodo⟩
      rw [htodo] at hx
      simp only [execAll, Option.some.injEq] at hx
      subst hx
      exact ⟨by simp, hI.parts.num p, fun o ho => (hI.parts.core p).same ho⟩
    | some wP =>
      obtain ⟨w, P⟩ := wP
      obtain ⟨P1, -, hgo⟩ := hT.busy w P hc
      cases hr : P1.run D w (H p) with
      | ub => rw [hr] at hgo; exact hgo.elim
      | ok r =>
        rw [hr] at hgo
        obtain ⟨x, -, hall, -⟩ := hgo
        exact ⟨_, _, hall, ⟨_, rfl⟩, fun hd => by have h2 := hd.1; rw [hc] at h2; simp at h2⟩
      | throw r e =>
        rw [hr] at hgo
        obtain ⟨x, -, hall, -⟩ := hgo
        exact ⟨_, _, hall, ⟨_, rfl⟩, fun hd => by have h2 := hd.1; rw [hc] at h2; simp at h2⟩
  · intro p q o x hpq ho hx
    exact hI.parts.sdisj p q o x hpq (by rw [← hI.parts.num p]; exact ho) (by rw [← hI.parts.num q]; exact hx)

/-- C78: there are no data races: at no time the next steps of two threads read or write the same object, or the same block of memory. -/
theorem C78_no_races (D : Decls) (E : TyEnv) (programs : Nat → List Call) (hok : ∀ p, (execAll D E (programs p) {}).isSome = true) (sched : List Nat) (S : Threads)
    (hrun : (Threads.start programs).run D E sched = some S) (p q : Nat) (hpq : p ≠ q) (x : Place) (hx : x ∈ (S.threads p).touches) : x ∉ (S.threads q).touches := by
  obtain ⟨S', ρ, H, k1, hI⟩ := threads_inv (D := D) (E := E) programs hok sched
  rw [hrun] at k1
  simp only [Option.some.injEq] at k1
  subst k1
  have part : ∀ r, x ∈ (S.threads r).touches →
      (∃ o, o < (H r).objs.length ∧ x = .object (numberIn (S.threads r).nums o)) ∨ (∃ a, a < (H r).next ∧ x = .block (ρ r a)) := by
    intro r hxr
    unfold Thread.touches at hxr
    cases hc : (S.threads r).cur with
    | none => rw [hc] at hxr; simp at hxr
    | some wP =>
      obtain ⟨w, P⟩ := wP
      rw [hc] at hxr
      obtain ⟨P1, hsim, hgo⟩ := (hI.each r).busy w P hc
      have h0 : Indep.HS ⟨H r, S.heap, ρ r, numberIn (S.threads r).nums⟩ (numberIn (S.threads r).nums) (ρ r) (H r).next (H r).objs.length (H r) S.heap :=
        ⟨Indep.hsim_refl (hI.parts.core r), rfl, rfl⟩
      exact touches_part (D := D) (orc := w) h0 hsim (goesOn_ne_ub hgo) hxr
  intro hxq
  rcases part p hx with ⟨o, ho, h1⟩ | ⟨a, ha, h1⟩ <;> rcases part q hxq with ⟨o', ho', h2⟩ | ⟨a', ha', h2⟩
  · rw [h1] at h2; simp only [Place.object.injEq] at h2; exact hI.parts.sdisj p q o o' hpq ho ho' h2
  · rw [h1] at h2; simp at h2
  · rw [h1] at h2; simp at h2
  · rw [h1] at h2; simp only [Place.block.injEq] at h2; exact hI.parts.disj p q a a' hpq ha ha' h2

/-- C78: no thread waits for another: it is done exactly when it has done as many steps as it needs alone. -/
theorem C78_no_waiting (D : Decls) (E : TyEnv) (programs : Nat → List Call) (hok : ∀ p, (execAll D E (programs p) {}).isSome = true) (sched : List Nat) (S : Threads)
    (hrun : (Threads.start programs).run D E sched = some S) (p : Nat) : (S.threads p).done ↔ stepsAlone D E (programs p) {} ≤ sched.count p := by
  obtain ⟨S', ρ, H, k1, hI⟩ := threads_inv (D := D) (E := E) programs hok sched
  rw [hrun] at k1
  simp only [Option.some.injEq] at k1
  subst k1
  have hT := hI.each p
  cases hc : (S.threads p).cur with
  | none =>
    obtain ⟨x, -, -, hst⟩ := hT.idle hc
    constructor
    · rintro ⟨-, htodo⟩
      rw [htodo] at hst
      simp only [stepsAlone] at hst
      omega
    · intro h
      refine ⟨hc, ?_⟩
      cases htodo : (S.threads p).todo with
      | nil => rfl
      | cons c cs => rw [htodo] at hst; simp only [stepsAlone] at hst; omega
  | some wP =>
    obtain ⟨w, P⟩ := wP
    obtain ⟨P1, -, hgo⟩ := hT.busy w P hc
    constructor
    · rintro ⟨h2, -⟩; rw [hc] at h2; simp at h2
    · intro h
      cases hr : P1.run D w (H p) with
      | ub => rw [hr] at hgo; exact hgo.elim
      | ok r => rw [hr] at hgo; obtain ⟨x, -, -, k3⟩ := hgo; omega
      | throw r e => rw [hr] at hgo; obtain ⟨x, -, -, k3⟩ := hgo; omega

/-- C78: when all threads are done, `num_objects` of each type is the sum over the threads, as if each had run alone. -/
theorem C78_counts (D : Decls) (E : TyEnv) (programs : Nat → List Call) (hok : ∀ p, (execAll D E (programs p) {}).isSome = true) (n : Nat) (hn : ∀ p, n ≤ p → programs p = [])
    (sched : List Nat) (S : Threads) (hrun : (Threads.start programs).run D E sched = some S) (hdone : ∀ p, (S.threads p).done) (t : TypeId) :
    S.heap.count t = sumOver n (fun p => match execAll D E (programs p) {} with | some r => r.2.count t | none => 0) := by
  obtain ⟨S', ρ, H, k1, hI⟩ := threads_inv (D := D) (E := E) programs hok sched
  rw [hrun] at k1
  simp only [Option.some.injEq] at k1
  subst k1
  rw [hI.count n hn t]
  refine sumOver_congr (fun p _ => ?_)
  obtain ⟨x, hx, hall, -⟩ := (hI.each p).idle (hdone p).1
  rw [(hdone p).2] at hx
  simp only [execAll, Option.some.injEq] at hx
  subst hx
  rw [hall]

/-- C78: a call without interruption by other threads, for example while a lock is held, in any state, also if the object is used by several threads: the
call ends after as many steps as it has, the memory is that after the operation, and the other threads are as before. -/
theorem C78_locked (D : Decls) (E : TyEnv) (S : Threads) (p : Nat) (c : Call) (cs : List Call) (hc : (S.threads p).cur = none) (htodo : (S.threads p).todo = c :: cs) :
    let h := S.seenBy (S.threads p)
    let c' := { c with op := renOp (numberIn (S.threads p).nums) c.op }
    let sched := List.replicate (progSteps D (startingAt c.world h.tick) (program D E c.unwinding c'.op) h + 2) p
    match exec D E h c' with
    | .ok h' => ∃ S', S.run D E sched = some S' ∧ S'.seenBy (S'.threads p) = h' ∧ (S'.threads p).cur = none ∧ (S'.threads p).todo = cs ∧
        (S'.threads p).outs = (S.threads p).outs ++ [outcomeOf h none h'] ∧ ∀ q, q ≠ p → S'.threads q = S.threads q
    | .throw h' e => ∃ S', S.run D E sched = some S' ∧ S'.seenBy (S'.threads p) = h' ∧ (S'.threads p).cur = none ∧ (S'.threads p).todo = cs ∧
        (S'.threads p).outs = (S.threads p).outs ++ [outcomeOf h (some e) h'] ∧ ∀ q, q ≠ p → S'.threads q = S.threads q
    | .ub => True := by
  intro h c' sched
  have h0 : S.run D E sched = Threads.run D E (List.replicate (progSteps D (startingAt c.world h.tick) (program D E c.unwinding c'.op) h + 1) p)
      (S.with p S.heap ((S.threads p).begin D E c cs)) := by
    show S.run D E (List.replicate (_ + 1 + 1) p) = _
    rw [List.replicate_succ]
    simp [Threads.run, Threads.move, hc, htodo]
  rw [h0]
  have hb := run_busy (D := D) (E := E) _ (S.with p S.heap ((S.threads p).begin D E c cs)) p (startingAt c.world h.tick) (program D E c.unwinding c'.op)
    (by simp [Threads.with, Thread.begin]; exact ⟨rfl, rfl⟩) rfl
  have hseen : (S.with p S.heap ((S.threads p).begin D E c cs)).seenBy ((S.with p S.heap ((S.threads p).begin D E c cs)).threads p) = h := by
    simp [Threads.with, Threads.seenBy, Thread.begin, h]
  rw [hseen] at hb
  unfold exec
  rw [C78_steps_are_operations]
  have ht : (S.with p S.heap ((S.threads p).begin D E c cs)).threads p = (S.threads p).begin D E c cs := by simp [Threads.with]
  have hq : ∀ q, q ≠ p → (S.with p S.heap ((S.threads p).begin D E c cs)).threads q = S.threads q := fun q hq => by simp [Threads.with, hq]
  cases hr : (program D E c.unwinding c'.op).run D (startingAt c.world h.tick) h with
  | ub => trivial
  | ok r =>
    obtain ⟨S', k1, k2, k3, k4, k5, k6⟩ := hb.1 r hr
    rw [ht] at k4 k5
    exact ⟨S', k1, k2, k3, k4, k5, fun q h2 => (k6 q h2).trans (hq q h2)⟩
  | throw r e =>
    obtain ⟨S', k1, k2, k3, k4, k5, k6⟩ := hb.2 r e hr
    rw [ht] at k4 k5
    exact ⟨S', k1, k2, k3, k4, k5, fun q h2 => (k6 q h2).trans (hq q h2)⟩

/-- Two threads call `clear` on the first object of `objHeap`. -/
def sharedObject : Threads := ⟨objHeap, fun p => { todo := if p < 2 then [⟨objOrc, false, .clear 0⟩] else [], nums := [0] }⟩

/-- C78: objects must not be shared without a lock. Two threads clear the same object. One after the other, in both orders, all is well; but when the
second does its steps while the first one is destroying mixins, the mixins are destroyed twice; this is undefined behaviour. There are states in which the
next steps of both threads access the same object. -/
theorem C78_own_objects_needed :
    (sharedObject.run objDecls objEnv (List.replicate 20 0 ++ List.replicate 20 1)).isSome = true ∧
    (sharedObject.run objDecls objEnv (List.replicate 20 1 ++ List.replicate 20 0)).isSome = true ∧
    sharedObject.run objDecls objEnv (List.replicate 4 0 ++ List.replicate 20 1 ++ List.replicate 20 0) = none ∧
    ∃ S, sharedObject.run objDecls objEnv [0, 1] = some S ∧ ∃ x, x ∈ (S.threads 0).touches ∧ x ∈ (S.threads 1).touches := by
  refine ⟨by decide +kernel, by decide +kernel, ?_, ?_⟩
  · have h : (sharedObject.run objDecls objEnv (List.replicate 4 0 ++ List.replicate 20 1 ++ List.replicate 20 0)).isNone = true := by decide +kernel
    simpa using h
  · exact ⟨_, rfl, .object 0, by decide +kernel, by decide +kernel⟩

/-- The two programs of C77, now as threads. -/
def twoThreads (p : Nat) : List Call := ownOf p twoPrograms

/-- Thread 1 does two steps for each step of thread 0. -/
def mixedSteps : List Nat := (List.range 222).map (fun i => if i % 3 = 0 then 0 else 1)

-- alone the threads need 74 and 97 steps; here the object of thread 0 is the second one, its failing call is reported to it as alone
example : (∀ p, p < 2 → (execAll objDecls objEnv (twoThreads p) {}).isSome = true) ∧
    (stepsAlone objDecls objEnv (twoThreads 0) {}, stepsAlone objDecls objEnv (twoThreads 1) {}) = (74, 97) ∧ (mixedSteps.count 0, mixedSteps.count 1) = (74, 148) ∧
    ((Threads.start twoThreads).run objDecls objEnv mixedSteps).map (fun S => ((S.threads 0).nums, (S.threads 1).nums, (S.threads 0).outs.map (·.exc), S.heap.count 2)) =
      some ([1], [0, 2], [none, some (.user 1), none], 2) := by
  refine ⟨?_, by decide +kernel, by decide +kernel, by decide +kernel⟩
  intro p hp
  have : p = 0 ∨ p = 1 := by omega
  rcases this with rfl | rfl <;> decide +kernel

-- after 35 of these steps both threads are in the middle of a call and their next steps access different memory
example : ((Threads.start twoThreads).run objDecls objEnv (mixedSteps.take 35)).map (fun S => ((S.threads 0).cur.isSome, (S.threads 1).cur.isSome, (S.threads 0).touches, (S.threads 1).touches)) =
    some (true, true, [.block 3], [.block 2]) := by decide +kernel

end Dnmx.Props
