import Verif.Proofs.ThreadSteps

/-!
# Lemmas on threads: executions
-/

set_option linter.unusedSimpArgs false
set_option linter.unusedVariables false

namespace Dnmx.Steps
open Spec Indep

variable {D : Decls} {E : TyEnv}

theorem Core.seen {σ ρ : Nat → Nat} {h1 h : Heap} (hc : Core σ ρ h1 h) (t : Nat) (l : List Ev) : Core σ ρ h1 { h with tick := t, log := l } :=
  { hc with fresh := hc.fresh.of_same rfl (fun _ h => h) rfl rfl rfl }

theorem Parts.seen {ρ : Nat → Nat → Nat} {H : Nat → Heap} {N : Nat → List Nat} {h : Heap} (hp : Parts ρ H N h) (t : Nat) (l : List Ev) : Parts ρ H N { h with tick := t, log := l } :=
  ⟨fun p => Core.seen (hp.core p) t l, hp.num, hp.disj, hp.sdisj⟩

/-- The parts after a step of thread `p`. -/
theorem Parts.afterStep {ρ : Nat → Nat → Nat} {H : Nat → Heap} {N : Nat → List Nat} {h : Heap} (hp : Parts ρ H N h) (p : Nat) {a b : Heap} {σ' ρp : Nat → Nat} {n' L' : Nat}
    (hs : HS ⟨H p, h, ρ p, numberIn (N p)⟩ σ' ρp n' L' a b) (hg : Grown (numberIn (N p)) (H p).objs.length h.objs.length σ' L' b.objs.length) :
    Parts (fun q => if q = p then ρp else ρ q) (fun q => if q = p then a else H q)
      (fun q => if q = p then (if h.objs.length < b.objs.length then N p ++ [h.objs.length] else N p) else N q) b ∧
    numberIn (if h.objs.length < b.objs.length then N p ++ [h.objs.length] else N p) = σ' := by
  rcases hg with ⟨rfl, rfl, hM⟩ | ⟨rfl, rfl, hM⟩
  · rw [if_neg (by omega)]
    refine ⟨?_, rfl⟩
    have := hp.afterWith p (.clear 0) hs
    simp only [addsObject, Bool.false_eq_true, if_false] at this
    rw [show (fun q => if q = p then N p else N q) = N from by funext q; by_cases hq : q = p <;> simp [hq]]
    exact this
  · rw [if_pos (by omega)]
    refine ⟨?_, ?_⟩
    · have := hp.afterWith p (.newEmpty 0 0) hs
      simpa only [addsObject, if_true] using this
    · rw [← hp.num p, extend_numberIn]

/-- The rest of the current call of a thread, and of the program of the thread. -/
def goesOn (D : Decls) (E : TyEnv) (all : List Call) (made : Nat) (T : Thread) (k : Nat) : Res (Heap × Unit) → Prop
  | .ok r => ∃ x, execAll D E T.todo r.1 = some x ∧ execAll D E all {} = some (T.outs ++ ⟨none, (r.1.log.drop T.startLog).map eventSeen⟩ :: x.1, x.2) ∧
      k + 1 + stepsAlone D E T.todo r.1 = stepsAlone D E all {} - made
  | .throw r e => ∃ x, execAll D E T.todo r.1 = some x ∧
      execAll D E all {} = some (T.outs ++ ⟨some (errorSince T.startTick e), (r.1.log.drop T.startLog).map eventSeen⟩ :: x.1, x.2) ∧
      k + 1 + stepsAlone D E T.todo r.1 = stepsAlone D E all {} - made
  | .ub => False

/-- A thread and its part of the memory. -/
structure TInv (D : Decls) (E : TyEnv) (all : List Call) (made : Nat) (T : Thread) (ρ : Nat → Nat) (H : Heap) : Prop where
  tick : T.tick = H.tick
  log : T.log.map eventSeen = H.log.map eventSeen
  idle : T.cur = none → ∃ x, execAll D E T.todo H = some x ∧ execAll D E all {} = some (T.outs ++ x.1, x.2) ∧ stepsAlone D E T.todo H = stepsAlone D E all {} - made
  busy : ∀ w P, T.cur = some (w, P) → ∃ P1, PSim RT (numberIn T.nums) ρ H.next H.objs.length P1 P ∧ goesOn D E all made T (progSteps D w P1 H) (P1.run D w H)

structure SInv (D : Decls) (E : TyEnv) (programs : Nat → List Call) (made : Nat → Nat) (S : Threads) (ρ : Nat → Nat → Nat) (H : Nat → Heap) : Prop where
  parts : Parts ρ H (fun p => (S.threads p).nums) S.heap
  each : ∀ p, TInv D E (programs p) (made p) (S.threads p) (ρ p) (H p)
  count : ∀ m, (∀ p, m ≤ p → programs p = []) → ∀ t, S.heap.count t = sumOver m (fun p => (H p).count t)

theorem sumOver_succ (m : Nat) (f : Nat → Int) : sumOver (m + 1) f = sumOver m f + f m := by
  unfold sumOver
  rw [List.range_succ, List.map_append, List.foldr_append]
  simp only [List.map_cons, List.map_nil, List.foldr_cons, List.foldr_nil, Int.add_zero]
  generalize (List.range m).map f = l
  induction l with
  | nil => simp
  | cons a l ih => simp only [List.foldr_cons]; rw [ih]; omega

theorem sumOver_zero (m : Nat) : sumOver m (fun _ => 0) = 0 := by
  induction m with
  | zero => rfl
  | succ m ih => rw [sumOver_succ, ih]; rfl

theorem sumOver_congr {m : Nat} {f g : Nat → Int} (h : ∀ p, p < m → f p = g p) : sumOver m f = sumOver m g := by
  induction m with
  | zero => rfl
  | succ m ih => rw [sumOver_succ, sumOver_succ, ih (fun p hp => h p (by omega)), h m (by omega)]

theorem sumOver_change {m p : Nat} (f : Nat → Int) (x : Int) (hp : p < m) : sumOver m (fun q => if q = p then x else f q) = sumOver m f + (x - f p) := by
  induction m with
  | zero => omega
  | succ m ih =>
    rw [sumOver_succ, sumOver_succ]
    by_cases h : p = m
    · subst h
      rw [sumOver_congr (g := f) (fun q hq => if_neg (by omega)), if_pos rfl]
      omega
    · rw [ih (by omega), if_neg (fun h2 => h h2.symm)]
      omega

theorem sinv_start (programs : Nat → List Call) (hok : ∀ p, (execAll D E (programs p) {}).isSome = true) :
    SInv D E programs (fun _ => 0) (Threads.start programs) (fun _ => id) (fun _ => {}) := by
  refine ⟨parts_start, fun p => ⟨rfl, rfl, ?_, ?_⟩, ?_⟩
  · intro _
    obtain ⟨x, hx⟩ := Option.isSome_iff_exists.1 (hok p)
    exact ⟨x, hx, by rw [hx]; simp [Threads.start], by simp [Threads.start]⟩
  · intro w P h; simp [Threads.start] at h
  · intro m _ t
    exact (sumOver_zero m).symm

theorem length_of_map {f : α → β} {l l' : List α} (h : l.map f = l'.map f) : l.length = l'.length := by
  have := congrArg List.length h; simpa using this

theorem drop_map_seen {l l' : List Ev} (h : l.map eventSeen = l'.map eventSeen) (k : Nat) : (l.drop k).map eventSeen = (l'.drop k).map eventSeen := by
  rw [List.map_drop, List.map_drop, h]

/-- A call is started. -/
theorem TInv.begin {all : List Call} {made : Nat} {T : Thread} {ρ : Nat → Nat} {H : Heap} (hT : TInv D E all made T ρ H) (hc : T.cur = none) {c : Call} {cs : List Call}
    (htodo : T.todo = c :: cs) (hinj : ∀ o p, o < H.objs.length → p < H.objs.length → numberIn T.nums o = numberIn T.nums p → o = p) :
    TInv D E all (made + 1) (T.begin D E c cs) ρ H := by
  refine ⟨hT.tick, hT.log, ?_, ?_⟩
  · intro h; simp [Thread.begin] at h
  · intro w P h
    simp only [Thread.begin, Option.some.injEq, Prod.mk.injEq] at h
    obtain ⟨rfl, rfl⟩ := h
    refine ⟨program D E c.unwinding c.op, program_psim hinj c.unwinding c.op, ?_⟩
    obtain ⟨x, hx, hall, hst⟩ := hT.idle hc
    rw [htodo] at hx hst
    have href := program_ref (D := D) (E := E) (orc := startingAt c.world T.tick) c.unwinding c.op H
    have hlen := length_of_map hT.log
    simp only [execAll, exec] at hx
    simp only [stepsAlone, exec] at hst
    rw [← hT.tick, ← href] at hx hst
    cases hr : (program D E c.unwinding c.op).run D (startingAt c.world T.tick) H with
    | ub => rw [hr] at hx; simp [Res.on] at hx
    | ok r =>
      obtain ⟨h', u⟩ := r
      rw [hr] at hx hst
      simp only [Res.on, mem] at hx hst
      obtain ⟨y, hy, hxy⟩ := Option.map_eq_some_iff.1 hx
      subst hxy
      refine ⟨y, hy, ?_, ?_⟩
      · rw [hall]
        simp only [outcomeOf, Thread.begin, hlen, Option.map_none]
      · simp only [Thread.begin]
        omega
    | throw r e =>
      obtain ⟨h', u⟩ := r
      rw [hr] at hx hst
      simp only [Res.on, mem] at hx hst
      obtain ⟨y, hy, hxy⟩ := Option.map_eq_some_iff.1 hx
      subst hxy
      refine ⟨y, hy, ?_, ?_⟩
      · rw [hall]
        simp only [outcomeOf, Thread.begin, hlen, Option.map_some, hT.tick]
      · simp only [Thread.begin]
        omega

/-- A call is over. -/
theorem TInv.finish {all : List Call} {made : Nat} {T : Thread} {ρ : Nat → Nat} {H : Heap} (hT : TInv D E all made T ρ H) {w : Orc} {P : Prog Unit} (hc : T.cur = some (w, P)) {e : Option XErr}
    (hP : P = (match e with | none => .ok () | some e => .throw () e)) : TInv D E all (made + 1) (T.finish e) ρ H := by
  refine ⟨hT.tick, hT.log, ?_, ?_⟩
  · intro _
    obtain ⟨P1, hsim, hgo⟩ := hT.busy w P hc
    have hdrop := drop_map_seen hT.log T.startLog
    cases e with
    | none =>
      simp only at hP
      subst hP
      have h1 : P1 = .ok () ∨ P1.run D w H = .ub := by
        cases hsim with
        | ub => exact Or.inr rfl
        | ok _ => exact Or.inl rfl
        | dead hd => exact Or.inr (hd D w H rfl)
      rcases h1 with rfl | h1
      · simp only [Prog.run, goesOn, progSteps] at hgo
        obtain ⟨x, k1, k2, k3⟩ := hgo
        refine ⟨x, k1, ?_, ?_⟩
        · rw [k2]; simp [Thread.finish, hdrop]
        · simp only [Thread.finish]; omega
      · rw [h1] at hgo; exact hgo.elim
    | some e =>
      simp only at hP
      subst hP
      have h1 : P1 = .throw () e ∨ P1.run D w H = .ub := by
        cases hsim with
        | ub => exact Or.inr rfl
        | throw _ => exact Or.inl rfl
        | dead hd => exact Or.inr (hd D w H rfl)
      rcases h1 with rfl | h1
      · simp only [Prog.run, goesOn, progSteps] at hgo
        obtain ⟨x, k1, k2, k3⟩ := hgo
        refine ⟨x, k1, ?_, ?_⟩
        · rw [k2]; simp [Thread.finish, hdrop]
        · simp only [Thread.finish]; omega
      · rw [h1] at hgo; exact hgo.elim
  · intro w P h; simp [Thread.finish] at h

theorem goesOn_ne_ub {all : List Call} {made k : Nat} {T : Thread} {r : Res (Heap × Unit)} (h : goesOn D E all made T k r) : r ≠ .ub := by
  intro h2; subst h2; exact h

theorem move_step {S : Threads} {p : Nat} {w : Orc} {P : Prog Unit} (hc : (S.threads p).cur = some (w, P)) (hn : P.over = false) :
    S.move D E p = (P.step D w (S.seenBy (S.threads p))).map (fun r => S.with p r.1 ((S.threads p).stepped w r.2 S.heap r.1)) := by
  unfold Threads.move
  rw [hc]
  cases P <;> first | (simp [Prog.over] at hn; done) | rfl

theorem with_nums {S : Threads} {p : Nat} {h : Heap} {T : Thread} (hT : T.nums = (S.threads p).nums) : (fun q => ((S.with p h T).threads q).nums) = fun q => (S.threads q).nums := by
  funext q
  simp only [Threads.with]
  by_cases hq : q = p
  · rw [if_pos hq, hq]; exact hT
  · rw [if_neg hq]

/-- Only thread `p` changes. -/
theorem each_with {programs : Nat → List Call} {made : Nat → Nat} {S : Threads} {ρ : Nat → Nat → Nat} {H : Nat → Heap} {p : Nat} {h : Heap} {T : Thread} {ρp : Nat → Nat} {Hp : Heap}
    (he : ∀ p, TInv D E (programs p) (made p) (S.threads p) (ρ p) (H p)) (hT : TInv D E (programs p) (made p + 1) T ρp Hp) (q : Nat) :
    TInv D E (programs q) (if q = p then made p + 1 else made q) ((S.with p h T).threads q) (if q = p then ρp else ρ q) (if q = p then Hp else H q) := by
  simp only [Threads.with]
  by_cases hq : q = p
  · subst hq; simp only [if_true]; exact hT
  · simp only [if_neg hq]; exact he q

theorem same_update {β : Type} (f : Nat → β) (p : Nat) : (fun q => if q = p then f p else f q) = f := by
  funext q; by_cases hq : q = p <;> simp [hq]

/-- A step of a thread. -/
theorem move_inv {programs : Nat → List Call} {made : Nat → Nat} {S : Threads} {ρ : Nat → Nat → Nat} {H : Nat → Heap} (hI : SInv D E programs made S ρ H) (p : Nat) :
    ∃ S' ρ' H', S.move D E p = some S' ∧ SInv D E programs (fun q => if q = p then made p + 1 else made q) S' ρ' H' ∧ ∀ q, q ≠ p → H' q = H q := by
  have hT := hI.each p
  -- thread `p` changes, but not its part
  have simple : ∀ T', T'.nums = (S.threads p).nums → TInv D E (programs p) (made p + 1) T' (ρ p) (H p) →
      SInv D E programs (fun q => if q = p then made p + 1 else made q) (S.with p S.heap T') ρ H := by
    intro T' hn hT'
    refine ⟨?_, ?_, hI.count⟩
    · rw [with_nums hn]; exact hI.parts
    · intro q
      have := each_with (h := S.heap) hI.each hT' q
      rw [show (if q = p then ρ p else ρ q) = ρ q from congrFun (same_update ρ p) q, show (if q = p then H p else H q) = H q from congrFun (same_update H p) q] at this
      exact this
  cases hc : (S.threads p).cur with
  | none =>
    cases htodo : (S.threads p).todo with
    | nil =>
      refine ⟨S, ρ, H, by simp [Threads.move, hc, htodo], ⟨hI.parts, ?_, hI.count⟩, fun _ _ => rfl⟩
      intro q
      by_cases hq : q = p
      · subst hq
        simp only [if_true]
        refine ⟨hT.tick, hT.log, ?_, ?_⟩
        · intro h
          obtain ⟨x, k1, k2, k3⟩ := hT.idle h
          refine ⟨x, k1, k2, ?_⟩
          rw [htodo] at k3 ⊢
          simp only [stepsAlone] at k3 ⊢
          omega
        · intro w P h; rw [hc] at h; simp at h
      · simp only [if_neg hq]; exact hI.each q
    | cons c cs =>
      exact ⟨S.with p S.heap ((S.threads p).begin D E c cs), ρ, H, by simp [Threads.move, hc, htodo], simple _ rfl (hT.begin hc htodo (hI.parts.core p).sinj), fun _ _ => rfl⟩
  | some wP =>
    obtain ⟨w, P⟩ := wP
    by_cases hn : P.over = false
    · obtain ⟨P1, hsim, hgo⟩ := hT.busy w P hc
      have hP := Parts.seen hI.parts (S.threads p).tick (S.threads p).log
      have h0 : HS ⟨H p, S.seenBy (S.threads p), ρ p, numberIn (S.threads p).nums⟩ (numberIn (S.threads p).nums) (ρ p) (H p).next (H p).objs.length (H p) (S.seenBy (S.threads p)) :=
        ⟨hsim_refl (hP.core p), rfl, rfl⟩
      have hub := goesOn_ne_ub hgo
      have hn1 : P1.over = false := by
        cases hsim with
        | ub => rfl
        | ok _ => simp [Prog.over] at hn
        | throw _ => simp [Prog.over] at hn
        | dead hd => exact absurd (hd D w (H p) rfl) hub
        | _ => rfl
      obtain ⟨h1', h', P1', P', hst⟩ := step_sim (D := D) (orc := w) h0 hT.tick hsim hn1 hub
      obtain ⟨σ', ρp, n', L', hs', hsim', hg⟩ := hst.sim
      obtain ⟨hparts, hσ⟩ := Parts.afterStep hP p hs' hg
      refine ⟨S.with p h' ((S.threads p).stepped w P' S.heap h'), fun q => if q = p then ρp else ρ q, fun q => if q = p then h1' else H q, by rw [move_step hc hn, hst.whole]; rfl, ⟨?_, ?_, ?_⟩, fun q hq => if_neg hq⟩
      · have : (fun q => ((S.with p h' ((S.threads p).stepped w P' S.heap h')).threads q).nums) =
            fun q => if q = p then (if S.heap.objs.length < h'.objs.length then (S.threads p).nums ++ [S.heap.objs.length] else (S.threads p).nums) else (S.threads q).nums := by
          funext q
          simp only [Threads.with]
          by_cases hq : q = p
          · rw [if_pos hq, if_pos hq]; rfl
          · rw [if_neg hq, if_neg hq]
        rw [this]
        exact hparts
      · refine each_with hI.each ?_
        obtain ⟨s1, s, l1, l2, l3⟩ := hs'.log
        obtain ⟨r1, r2⟩ := run_of_step hn1 hst.part
        refine ⟨hst.tick, ?_, ?_, ?_⟩
        · simp only [Thread.stepped]
          rw [l1, l2]
          simp only [List.map_append, l3]
          rw [show (S.seenBy (S.threads p)).log = (S.threads p).log from rfl, hT.log]
        · intro h; simp [Thread.stepped] at h
        · intro w' P'' h
          simp only [Thread.stepped, Option.some.injEq, Prod.mk.injEq] at h
          obtain ⟨rfl, rfl⟩ := h
          refine ⟨P1', ?_, ?_⟩
          · rw [hs'.nx, hs'.len]
            simp only [Thread.stepped]
            rw [show numberIn (if S.heap.objs.length < h'.objs.length then (S.threads p).nums ++ [S.heap.objs.length] else (S.threads p).nums) = σ' from hσ]
            exact hsim'
          · rw [r1, r2] at hgo
            cases hr : P1'.run D w h1' with
            | ub => rw [hr] at hgo; exact hgo
            | ok r =>
              rw [hr] at hgo
              obtain ⟨x, k1, k2, k3⟩ := hgo
              exact ⟨x, k1, k2, by simp only [Thread.stepped]; omega⟩
            | throw r e =>
              rw [hr] at hgo
              obtain ⟨x, k1, k2, k3⟩ := hgo
              exact ⟨x, k1, k2, by simp only [Thread.stepped]; omega⟩
      · intro m hm t
        have hpm : p < m := by
          by_cases h2 : p < m
          · exact h2
          · have h3 := hm p (by omega)
            rw [h3] at hgo
            cases hr : P1.run D w (H p) with
            | ub => rw [hr] at hgo; exact hgo.elim
            | ok r => rw [hr] at hgo; obtain ⟨x, k1, k2, k3⟩ := hgo; simp [execAll] at k2
            | throw r e => rw [hr] at hgo; obtain ⟨x, k1, k2, k3⟩ := hgo; simp [execAll] at k2
        have hcnt := hst.count t
        have hold := hI.count m hm t
        have : (fun q => (if q = p then h1' else H q).count t) = fun q => if q = p then h1'.count t else (H q).count t := by
          funext q; by_cases hq : q = p <;> simp [hq]
        show h'.count t = sumOver m (fun q => (if q = p then h1' else H q).count t)
        rw [this, sumOver_change _ _ hpm, ← hold]
        have h4 : (S.seenBy (S.threads p)).count t = S.heap.count t := rfl
        rw [h4] at hcnt
        omega
    · cases P with
      | ok a => exact ⟨S.with p S.heap ((S.threads p).finish none), ρ, H, by simp [Threads.move, hc], simple _ rfl (hT.finish hc (e := none) rfl), fun _ _ => rfl⟩
      | throw a e => exact ⟨S.with p S.heap ((S.threads p).finish (some e)), ρ, H, by simp [Threads.move, hc], simple _ rfl (hT.finish hc (e := some e) rfl), fun _ _ => rfl⟩
      | _ => exact absurd rfl hn

theorem run_inv : ∀ (sched : List Nat) {programs : Nat → List Call} {made : Nat → Nat} {S : Threads} {ρ : Nat → Nat → Nat} {H : Nat → Heap}, SInv D E programs made S ρ H →
    ∃ S' ρ' H', S.run D E sched = some S' ∧ SInv D E programs (fun q => made q + sched.count q) S' ρ' H' := by
  intro sched
  induction sched with
  | nil => intro programs made S ρ H hI; exact ⟨S, ρ, H, rfl, by simpa using hI⟩
  | cons p ps ih =>
    intro programs made S ρ H hI
    obtain ⟨S1, ρ1, H1, k1, k2, -⟩ := move_inv hI p
    obtain ⟨S2, ρ2, H2, k3, k4⟩ := ih k2
    refine ⟨S2, ρ2, H2, by simp [Threads.run, k1, k3], ?_⟩
    have : (fun q => made q + List.count q (p :: ps)) = fun q => (if q = p then made p + 1 else made q) + List.count q ps := by
      funext q
      rw [List.count_cons]
      by_cases hq : q = p
      · subst hq; simp; omega
      · have : ¬ p = q := fun h => hq h.symm
        simp [hq, this]
    rw [this]
    exact k4

theorem threads_inv (programs : Nat → List Call) (hok : ∀ p, (execAll D E (programs p) {}).isSome = true) (sched : List Nat) :
    ∃ S ρ H, (Threads.start programs).run D E sched = some S ∧ SInv D E programs (fun p => sched.count p) S ρ H := by
  obtain ⟨S, ρ, H, k1, k2⟩ := run_inv sched (sinv_start programs hok)
  refine ⟨S, ρ, H, k1, ?_⟩
  simpa using k2

/-- A call goes on without interruption. -/
theorem run_busy : ∀ (k : Nat) (S : Threads) (p : Nat) (w : Orc) (P : Prog Unit), (S.threads p).cur = some (w, P) → k = progSteps D w P (S.seenBy (S.threads p)) →
    (∀ r, P.run D w (S.seenBy (S.threads p)) = .ok r → ∃ S', S.run D E (List.replicate (k + 1) p) = some S' ∧ S'.seenBy (S'.threads p) = r.1 ∧ (S'.threads p).cur = none ∧
      (S'.threads p).todo = (S.threads p).todo ∧ (S'.threads p).outs = (S.threads p).outs ++ [⟨none, (r.1.log.drop (S.threads p).startLog).map eventSeen⟩] ∧
      ∀ q, q ≠ p → S'.threads q = S.threads q) ∧
    (∀ r e, P.run D w (S.seenBy (S.threads p)) = .throw r e → ∃ S', S.run D E (List.replicate (k + 1) p) = some S' ∧ S'.seenBy (S'.threads p) = r.1 ∧ (S'.threads p).cur = none ∧
      (S'.threads p).todo = (S.threads p).todo ∧ (S'.threads p).outs = (S.threads p).outs ++ [⟨some (errorSince (S.threads p).startTick e), (r.1.log.drop (S.threads p).startLog).map eventSeen⟩] ∧
      ∀ q, q ≠ p → S'.threads q = S.threads q) := by
  intro k
  induction k with
  | zero =>
    intro S p w P hc hk
    by_cases hn : P.over = false
    · cases hst : P.step D w (S.seenBy (S.threads p)) with
      | none =>
        have := run_of_none hst
        exact ⟨fun r hr => by rw [this] at hr; simp at hr, fun r e hr => by rw [this] at hr; simp at hr⟩
      | some x =>
        obtain ⟨h', P'⟩ := x
        have := (run_of_step hn hst).2
        omega
    · cases P with
      | ok a =>
        refine ⟨fun r hr => ?_, fun r e hr => by simp [Prog.run] at hr⟩
        simp only [Prog.run, Res.ok.injEq] at hr
        subst hr
        exact ⟨S.with p S.heap ((S.threads p).finish none), by simp [List.replicate, Threads.run, Threads.move, hc], by simp [Threads.with, Threads.seenBy, Thread.finish],
          by simp [Threads.with, Thread.finish], by simp [Threads.with, Thread.finish], by simp [Threads.with, Thread.finish, Threads.seenBy], fun q hq => by simp [Threads.with, hq]⟩
      | throw a e =>
        refine ⟨fun r hr => by simp [Prog.run] at hr, fun r e' hr => ?_⟩
        simp only [Prog.run, Res.throw.injEq] at hr
        obtain ⟨rfl, rfl⟩ := hr
        exact ⟨S.with p S.heap ((S.threads p).finish (some e)), by simp [List.replicate, Threads.run, Threads.move, hc], by simp [Threads.with, Threads.seenBy, Thread.finish],
          by simp [Threads.with, Thread.finish], by simp [Threads.with, Thread.finish], by simp [Threads.with, Thread.finish, Threads.seenBy], fun q hq => by simp [Threads.with, hq]⟩
      | _ => exact absurd rfl hn
  | succ k ih =>
    intro S p w P hc hk
    have hn : P.over = false := by
      cases P with
      | ok a => simp [progSteps] at hk
      | throw a e => simp [progSteps] at hk
      | _ => rfl
    cases hst : P.step D w (S.seenBy (S.threads p)) with
    | none =>
      have := run_of_none hst
      exact ⟨fun r hr => by rw [this] at hr; simp at hr, fun r e hr => by rw [this] at hr; simp at hr⟩
    | some x =>
      obtain ⟨h', P'⟩ := x
      obtain ⟨r1, r2⟩ := run_of_step hn hst
      have hmove : S.move D E p = some (S.with p h' ((S.threads p).stepped w P' S.heap h')) := by rw [move_step hc hn, hst]; rfl
      have ht : (S.with p h' ((S.threads p).stepped w P' S.heap h')).threads p = (S.threads p).stepped w P' S.heap h' := by simp [Threads.with]
      have hq : ∀ q, q ≠ p → (S.with p h' ((S.threads p).stepped w P' S.heap h')).threads q = S.threads q := fun q hq => by simp [Threads.with, hq]
      have hseen : (S.with p h' ((S.threads p).stepped w P' S.heap h')).seenBy ((S.with p h' ((S.threads p).stepped w P' S.heap h')).threads p) = h' := by
        rw [ht]; simp [Threads.seenBy, Thread.stepped, Threads.with]
      have hi := ih (S.with p h' ((S.threads p).stepped w P' S.heap h')) p w P' (by rw [ht]; rfl) (by rw [hseen]; omega)
      rw [hseen, ht] at hi
      rw [r1]
      have hrun : S.run D E (List.replicate (k + 1 + 1) p) = Threads.run D E (List.replicate (k + 1) p) (S.with p h' ((S.threads p).stepped w P' S.heap h')) := by
        rw [List.replicate_succ]; simp [Threads.run, hmove]
      rw [hrun]
      constructor
      · intro r hr
        obtain ⟨S', k1, k2, k3, k4, k5, k6⟩ := hi.1 r hr
        exact ⟨S', k1, k2, k3, k4, k5, fun q h2 => (k6 q h2).trans (hq q h2)⟩
      · intro r e hr
        obtain ⟨S', k1, k2, k3, k4, k5, k6⟩ := hi.2 r e hr
        exact ⟨S', k1, k2, k3, k4, k5, fun q h2 => (k6 q h2).trans (hq q h2)⟩

end Dnmx.Steps
