import Verif.Proofs.ThreadRuns
import Verif.Spec.Nested

/-!
# Lemmas about calls within calls (C82)
-/

set_option linter.unusedSimpArgs false
set_option linter.unusedVariables false

namespace Dnmx.Steps
open Spec Indep

variable {D : Decls} {E : TyEnv}

/-- A move of the threads changes only the thread which moves. -/
theorem move_others {S S' : Threads} {p : Nat} (h : S.move D E p = some S') (q : Nat) (hq : q ≠ p) : S'.threads q = S.threads q := by
  unfold Threads.move at h
  cases hc : (S.threads p).cur with
  | none =>
    rw [hc] at h
    cases ht : (S.threads p).todo with
    | nil => rw [ht] at h; simp at h; rw [h]
    | cons c cs => rw [ht] at h; simp at h; rw [← h]; simp [Threads.with, hq]
  | some wP =>
    obtain ⟨w, P⟩ := wP
    rw [hc] at h
    cases P <;> simp at h <;>
      first
      | (rw [← h]; simp [Threads.with, hq]; done)
      | (obtain ⟨a, b, h2, h3⟩ := h; rw [← h3]; simp [Threads.with, hq]; done)
      | skip

/-- A thread with nothing to do that starts a call is busy. -/
theorem move_begins {S S' : Threads} {p : Nat} (hc : (S.threads p).cur = none) (ht : (S.threads p).todo ≠ []) (h : S.move D E p = some S') : (S'.threads p).cur.isSome = true := by
  unfold Threads.move at h
  rw [hc] at h
  cases ht2 : (S.threads p).todo with
  | nil => exact absurd ht2 ht
  | cons c cs => rw [ht2] at h; simp at h; rw [← h]; simp [Threads.with, Thread.begin]

/-- A step of a call leaves the later calls of the thread. -/
theorem move_todo {S S' : Threads} {p : Nat} (hc : (S.threads p).cur.isSome = true) (h : S.move D E p = some S') : (S'.threads p).todo = (S.threads p).todo := by
  unfold Threads.move at h
  cases hc2 : (S.threads p).cur with
  | none => rw [hc2] at hc; simp at hc
  | some wP =>
    obtain ⟨w, P⟩ := wP
    rw [hc2] at h
    cases P <;> simp at h <;>
      first
      | (rw [← h]; simp [Threads.with, Thread.finish, Thread.stepped]; done)
      | (obtain ⟨a, b, h2, h3⟩ := h; rw [← h3]; simp [Threads.with, Thread.finish, Thread.stepped]; done)
      | skip

/-- What holds between steps. -/
structure NInv (D : Decls) (E : TyEnv) (programs : Nat → List Call) (made : Nat → Nat) (N : Nest) (ρ : Nat → Nat → Nat) (H : Nat → Heap) : Prop where
  inv : SInv D E programs made N.parts ρ H
  stack : N.stack.Nodup
  busy : ∀ p, p ∈ N.stack ↔ (N.parts.threads p).cur.isSome = true

theorem ninv_start (programs : Nat → List Call) (hok : ∀ p, (execAll D E (programs p) {}).isSome = true) :
    NInv D E programs (fun _ => 0) (Nest.start programs) (fun _ => id) (fun _ => {}) :=
  ⟨sinv_start programs hok, List.nodup_nil, fun p => by simp [Nest.start, Threads.start]⟩

theorem act_inv {programs : Nat → List Call} {made : Nat → Nat} {N : Nest} {ρ : Nat → Nat → Nat} {H : Nat → Heap} (hI : NInv D E programs made N ρ H) (a : Act) :
    ∃ N' ρ' H', N.act D E a = some N' ∧ NInv D E programs (fun q => if N.mover a = some q then made q + 1 else made q) N' ρ' H' ∧
      ∀ q, N.mover a ≠ some q → H' q = H q ∧ N'.parts.threads q = N.parts.threads q := by
  have fix : ∀ p, (fun q => if q = p then made p + 1 else made q) = fun q => if some p = some q then made q + 1 else made q := by
    intro p; funext q
    by_cases h : q = p
    · subst h; simp
    · have : p ≠ q := fun e => h e.symm
      simp [h, this]
  cases a with
  | go =>
    cases hs : N.stack with
    | nil =>
      refine ⟨N, ρ, H, by simp [Nest.act, hs], ?_, fun q _ => ⟨rfl, rfl⟩⟩
      simpa [Nest.mover, hs] using hI
    | cons p ps =>
      obtain ⟨S', ρ', H', k1, k2, k3⟩ := move_inv hI.inv p
      refine ⟨⟨S', if (S'.threads p).cur.isNone then ps else p :: ps⟩, ρ', H', by simp [Nest.act, hs, k1], ⟨?_, ?_, ?_⟩, ?_⟩
      · rw [fix] at k2
        simpa [Nest.mover, hs] using k2
      · have hn := hI.stack
        rw [hs] at hn
        show (if _ then ps else p :: ps).Nodup
        split
        · exact (List.nodup_cons.mp hn).2
        · exact hn
      · intro q
        have hn := hI.stack
        rw [hs] at hn
        have hb := hI.busy q
        rw [hs] at hb
        show q ∈ (if _ then ps else p :: ps) ↔ _
        by_cases hq : q = p
        · subst hq
          cases hc : (S'.threads q).cur with
          | none => simp [hc, (List.nodup_cons.mp hn).1]
          | some x => simp [hc]
        · have h1 := move_others k1 q hq
          show _ ↔ (S'.threads q).cur.isSome = true
          rw [h1, ← hb]
          split <;> simp [hq]
      · intro q hq
        have hq' : q ≠ p := by rintro rfl; simp [Nest.mover, hs] at hq
        exact ⟨k3 q hq', move_others k1 q hq'⟩
  | enter p =>
    by_cases hcond : p ∈ N.stack ∨ (N.parts.threads p).todo = []
    · refine ⟨N, ρ, H, by simp [Nest.act, hcond], ?_, fun q _ => ⟨rfl, rfl⟩⟩
      simpa [Nest.mover, hcond] using hI
    · obtain ⟨S', ρ', H', k1, k2, k3⟩ := move_inv hI.inv p
      have hnot : p ∉ N.stack := fun h => hcond (.inl h)
      have htodo : (N.parts.threads p).todo ≠ [] := fun h => hcond (.inr h)
      have hcur : (N.parts.threads p).cur = none := by
        have := hI.busy p
        cases hc : (N.parts.threads p).cur with
        | none => rfl
        | some x => rw [hc] at this; exact absurd (this.mpr rfl) hnot
      refine ⟨⟨S', p :: N.stack⟩, ρ', H', by simp [Nest.act, hcond, k1], ⟨?_, ?_, ?_⟩, ?_⟩
      · rw [fix] at k2
        simpa [Nest.mover, hcond] using k2
      · exact List.nodup_cons.mpr ⟨hnot, hI.stack⟩
      · intro q
        by_cases hq : q = p
        · subst hq
          simp [move_begins hcur htodo k1]
        · show q ∈ p :: N.stack ↔ (S'.threads q).cur.isSome = true
          rw [move_others k1 q hq, ← hI.busy q]
          simp [hq]
      · intro q hq
        have hq' : q ≠ p := by rintro rfl; simp [Nest.mover, hcond] at hq
        exact ⟨k3 q hq', move_others k1 q hq'⟩

theorem nrun_inv : ∀ (as : List Act) {programs : Nat → List Call} {made : Nat → Nat} {N : Nest} {ρ : Nat → Nat → Nat} {H : Nat → Heap}, NInv D E programs made N ρ H →
    ∃ N' made' ρ' H', N.run D E as = some N' ∧ NInv D E programs made' N' ρ' H' ∧ (∀ q, made q ≤ made' q) ∧
      ∀ q, N.spares D E q as → H' q = H q ∧ N'.parts.threads q = N.parts.threads q := by
  intro as
  induction as with
  | nil => intro programs made N ρ H hI; exact ⟨N, made, ρ, H, rfl, hI, fun _ => Nat.le_refl _, fun _ _ => ⟨rfl, rfl⟩⟩
  | cons a as ih =>
    intro programs made N ρ H hI
    obtain ⟨N1, ρ1, H1, k1, k2, k3⟩ := act_inv hI a
    obtain ⟨N2, made2, ρ2, H2, k4, k5, k6, k7⟩ := ih k2
    refine ⟨N2, made2, ρ2, H2, by simp [Nest.run, k1, k4], k5, ?_, ?_⟩
    · intro q
      have := k6 q
      split at this <;> omega
    · rintro q ⟨h1, h2⟩
      obtain ⟨j1, j2⟩ := k7 q (h2 N1 k1)
      obtain ⟨j3, j4⟩ := k3 q h1
      exact ⟨j1.trans j3, j2.trans j4⟩

theorem nested_inv (programs : Nat → List Call) (hok : ∀ p, (execAll D E (programs p) {}).isSome = true) (as : List Act) :
    ∃ N made ρ H, (Nest.start programs).run D E as = some N ∧ NInv D E programs made N ρ H := by
  obtain ⟨N, made, ρ, H, h1, h2, -, -⟩ := nrun_inv as (ninv_start (D := D) (E := E) programs hok)
  exact ⟨N, made, ρ, H, h1, h2⟩

theorem nrun_append (as bs : List Act) (N : Nest) : N.run D E (as ++ bs) = (N.run D E as).bind (Nest.run D E bs) := by
  induction as generalizing N with
  | nil => rfl
  | cons a as ih =>
    simp only [List.cons_append, Nest.run]
    cases N.act D E a with
    | none => rfl
    | some N' => simp [ih]

/-- The same object twice, seen from a third heap. -/
theorem sameObject_via {h1 h h' : Heap} {o x y : Nat} (h2 : SameObject E h1 o h x) (h3 : SameObject E h1 o h' y) : SameObject E h x h' y := by
  refine ⟨h3.there.trans h2.there.symm, ?_, ?_, ?_, ?_⟩
  · intro ob ob' hb hb'
    cases hb1 : h1.obj? o with
    | none =>
      have := h2.there
      rw [hb, hb1] at this
      simp at this
    | some ob1 =>
      obtain ⟨a1, a2, a3, a4⟩ := h2.fields ob1 ob hb1 hb
      obtain ⟨b1, b2, b3, b4⟩ := h3.fields ob1 ob' hb1 hb'
      exact ⟨b1.trans a1.symm, b2.trans a2.symm, b3.trans a3.symm, b4.trans a4.symm⟩
  · intro m v; exact (h3.mixins m v).trans (h2.mixins m v).symm
  · intro i m v; exact (h3.order i m v).trans (h2.order i m v).symm
  · intro i m; exact (h3.back i m).trans (h2.back i m).symm

/-- Steps left to a part. -/
theorem steps_left {programs : Nat → List Call} {made : Nat → Nat} {N : Nest} {ρ : Nat → Nat → Nat} {H : Nat → Heap} (hI : NInv D E programs made N ρ H) {p : Nat}
    (hp : p ∈ N.stack) : made p < stepsAlone D E (programs p) {} := by
  have hb := (hI.busy p).mp hp
  cases hc : (N.parts.threads p).cur with
  | none => rw [hc] at hb; simp at hb
  | some wP =>
    obtain ⟨w, P⟩ := wP
    obtain ⟨P1, -, hgo⟩ := (hI.inv.each p).busy w P hc
    cases hr : P1.run D w (H p) with
    | ub => rw [hr] at hgo; exact hgo.elim
    | ok r => rw [hr] at hgo; obtain ⟨x, -, -, k3⟩ := hgo; omega
    | throw r e => rw [hr] at hgo; obtain ⟨x, -, -, k3⟩ := hgo; omega

/-- The innermost call ends, and the later calls of its part remain. -/
theorem call_ends_todo {programs : Nat → List Call} : ∀ (k : Nat) {made : Nat → Nat} {N : Nest} {ρ : Nat → Nat → Nat} {H : Nat → Heap}, NInv D E programs made N ρ H →
    ∀ p ps, N.stack = p :: ps → stepsAlone D E (programs p) {} - made p ≤ k →
    ∃ n N', N.run D E (List.replicate n .go) = some N' ∧ N'.stack = ps ∧ (∀ q, q ≠ p → N'.parts.threads q = N.parts.threads q) ∧ (N'.parts.threads p).todo = (N.parts.threads p).todo := by
  intro k
  induction k with
  | zero =>
    intro made N ρ H hI p ps hs hk
    have := steps_left hI (p := p) (by rw [hs]; simp)
    omega
  | succ k ih =>
    intro made N ρ H hI p ps hs hk
    obtain ⟨N1, ρ1, H1, k1, k2, k3⟩ := act_inv hI .go
    have hm : N.mover .go = some p := by simp [Nest.mover, hs]
    have hothers : ∀ q, q ≠ p → N1.parts.threads q = N.parts.threads q := by
      intro q hq
      exact (k3 q (by rw [hm]; simpa using fun e => hq e.symm)).2
    have htodo : (N1.parts.threads p).todo = (N.parts.threads p).todo := by
      have hb := (hI.busy p).mp (by rw [hs]; simp)
      simp only [Nest.act, hs] at k1
      cases hmv : N.parts.move D E p with
      | none => rw [hmv] at k1; simp at k1
      | some S =>
        rw [hmv] at k1
        simp only [Option.map_some, Option.some.injEq] at k1
        rw [← k1]
        exact move_todo hb hmv
    have hst : N1.stack = ps ∨ N1.stack = p :: ps := by
      simp only [Nest.act, hs] at k1
      cases hmv : N.parts.move D E p with
      | none => rw [hmv] at k1; simp at k1
      | some S =>
        rw [hmv] at k1
        simp only [Option.map_some, Option.some.injEq] at k1
        rw [← k1]
        show (if _ then ps else p :: ps) = _ ∨ _
        split
        · exact .inl rfl
        · exact .inr rfl
    rcases hst with hst | hst
    · exact ⟨1, N1, by simp [Nest.run, k1], hst, hothers, htodo⟩
    · have hleft := steps_left k2 (p := p) (by rw [hst]; simp)
      rw [if_pos hm] at hleft
      obtain ⟨n, N2, j1, j2, j3, j4⟩ := ih k2 p ps hst (by rw [if_pos hm]; omega)
      refine ⟨n + 1, N2, ?_, j2, fun q hq => (j3 q hq).trans (hothers q hq), j4.trans htodo⟩
      rw [List.replicate_succ]
      simp only [Nest.run, k1, Option.bind_some]
      exact j1

/-- The innermost call ends. -/
theorem call_ends {programs : Nat → List Call} (k : Nat) {made : Nat → Nat} {N : Nest} {ρ : Nat → Nat → Nat} {H : Nat → Heap} (hI : NInv D E programs made N ρ H)
    (p : Nat) (ps : List Nat) (hs : N.stack = p :: ps) (hk : stepsAlone D E (programs p) {} - made p ≤ k) :
    ∃ n N', N.run D E (List.replicate n .go) = some N' ∧ N'.stack = ps ∧ ∀ q, q ≠ p → N'.parts.threads q = N.parts.threads q := by
  obtain ⟨n, N', h1, h2, h3, -⟩ := call_ends_todo k hI p ps hs hk
  exact ⟨n, N', h1, h2, h3⟩

end Dnmx.Steps
