import Verif.Proofs.SerialLemmas
import Verif.Props.Types

/-!
# C48 to C50: calls of several threads that overlap

All statements are about threads that start on the world after an arbitrary history `hist` of calls; thread `i` executes the
call `ops[i]`. A schedule `is` lists which thread executes its next part, a part being a locked section of the code or the
unlocked code between two of them.
-/

namespace Dnmx.Props
open Spec

set_option linter.unusedVariables false

/-! ## Example -/

/-- Domains for examples: domain 0 canonicalizes types. -/
def concSettings (d : DomId) : Settings := { canonicalize := d = 0 }

/-- Mixins 3, 5, 7 and 9 are registered in domain 0, mixin 4 in domain 1. -/
def concHist : List Op := [.regMixin 0 3, .regMixin 0 5, .regMixin 0 7, .regMixin 0 9, .regMixin 1 4]

/-- World after `concHist`. -/
def concWorld : World := run tyDecls (initWorld concSettings) concHist

/-- Three threads ask for the same composition. -/
def concOps : List Op := [.getType 0 [3, 5], .getType 0 [5, 3], .getTypeMut 0 0 [3, 5]]

/-- A schedule in which all three threads build the type before one of them puts it into the registry. -/
def concSchedule : List Nat := [0, 1, 2, 0, 1, 0, 1, 2, 1, 0, 2]

/-- All three threads have built a type; then the second is the first to come to the registry. -/
example : ((spawn concWorld concOps).run tyDecls (concSchedule.take 8)).threads.map
      (fun th => match th.stage with | .built _ t => some t.tid | _ => none) = [some 1, some 2, some 3] ∧
    (List.range 3).map ((spawn concWorld concOps).run tyDecls concSchedule).outcome =
      [some (.ok (some 2)), some (.ok (some 2)), some (.ok (some 2))] ∧
    (typesOf ((spawn concWorld concOps).run tyDecls concSchedule).W 0).map (fun t => (t.tid, t.mixins)) = [(2, [3, 5])] ∧
    queriesOf ((spawn concWorld concOps).run tyDecls concSchedule).W 0 = [([5, 3], 2), ([3, 5], 2)] := by decide +kernel

theorem outcome_some {C : Threads} {i : Nat} {r : Except Err (Option TypeId)} (h : C.outcome i = some r) :
    ∃ th, C.threads[i]? = some th ∧ th.stage = .done r := by
  unfold Threads.outcome at h
  cases hi : C.threads[i]? with
  | none => rw [hi] at h; simp at h
  | some th =>
    rw [hi] at h
    obtain ⟨op, st⟩ := th
    cases st <;> simp at h
    subst h; exact ⟨_, rfl, rfl⟩

theorem outcome_done {C : Threads} {i : Nat} {th : Thread} {r : Except Err (Option TypeId)} (h : C.threads[i]? = some th)
    (hs : th.stage = .done r) : C.outcome i = some r := by
  obtain ⟨op, st⟩ := th
  simp only at hs
  subst hs
  unfold Threads.outcome
  rw [h]

theorem outcome_none {C : Threads} {i : Nat} {th : Thread} (h : C.outcome i = none) (hi : C.threads[i]? = some th) :
    ∀ r, th.stage ≠ .done r := by
  intro r hr
  rw [outcome_done hi hr] at h
  simp at h

/-! ## C48: the parts of a call -/

/-- C48: a call whose parts are not interleaved with those of another call has the outcome and the effect that it has in
sequential programs. -/
theorem C48_uninterrupted (D : Decls) (W : World) (op : Op) (n : Nat) :
    ((spawn W [op]).run D (List.replicate (n + 4) 0)).W = (alone D W op).2 ∧
    ((spawn W [op]).run D (List.replicate (n + 4) 0)).outcome 0 = some (alone D W op).1 := by
  have key : ∀ (k : Nat) (st : Stage) (W : World), ({ W := W, threads := [{ op := op, stage := st }] } : Threads).run D (List.replicate k 0) =
      { W := (runAlone D op k (st, W)).2, threads := [{ op := op, stage := (runAlone D op k (st, W)).1 }] } := by
    intro k
    induction k with
    | zero => intro st W; rfl
    | succ k ih => intro st W; exact ih _ _
  have h := key (n + 4) .todo W
  rw [runAlone_step] at h
  rw [show spawn W [op] = { W := W, threads := [{ op := op, stage := .todo }] } from rfl, h]
  exact ⟨rfl, rfl⟩

/-- C48: every call ends after at most four of its own parts, whatever the other threads do. -/
theorem C48_calls_end (D : Decls) (W : World) (ops : List Op) (is : List Nat) (i : Nat) (hi : i < ops.length) (hn : 4 ≤ is.count i) :
    ((spawn W ops).run D is).outcome i ≠ none := by
  have h0 : (spawn W ops).threads[i]? = some { op := ops[i] } := by
    simp [spawn, hi]
  obtain ⟨th, h1, h2⟩ := run_left D is (spawn W ops) i _ h0 (by
    intro j th' hj
    simp [spawn] at hj
    obtain ⟨o, -, ho⟩ := hj
    subst ho; trivial)
  have h3 : th.stage.left = 0 := by
    have h4 : ({ op := ops[i] } : Thread).stage.left = 4 := rfl
    rw [h4] at h2
    omega
  cases hst : th.stage with
  | done r => rw [outcome_done h1 hst]; simp
  | _ => rw [hst] at h3; simp [Stage.left] at h3

/-- With three parts the call is not over in general. -/
example : ((spawn concWorld concOps).run tyDecls [0, 0, 0]).outcome 0 = none ∧
    ((spawn concWorld concOps).run tyDecls [0, 2, 0, 1, 0, 0]).outcome 0 = some (.ok (some 1)) := by decide +kernel

/-! ## C48: overlapping get_type calls -/

theorem asksAll {ops : List Op} (hops : ∀ op ∈ ops, ∃ d, asks op d) : ∀ op ∈ ops, op.asked ≠ none := by
  intro o ho hn
  obtain ⟨d', q', hq'⟩ := hops o ho
  rw [hn] at hq'; simp at hq'

/-- C48: if all threads execute `get_type`, every call that is over has the outcome which it has if it is the only call: it
fails with the same error, or it gives a type with the same composition. -/
theorem C48_same_outcome (D : Decls) (s : DomId → Settings) (hist ops : List Op) (hops : ∀ op ∈ ops, ∃ d, asks op d)
    (is : List Nat) (i : Nat) (op : Op) (d : DomId) (ho : ops[i]? = some op) (hd : asks op d) (r : Except Err (Option TypeId))
    (h : ((spawn (run D (initWorld s) hist) ops).run D is).outcome i = some r) :
    (∀ e, (alone D (run D (initWorld s) hist) op).1 = .error e ↔ r = .error e) ∧
    (∀ t, (alone D (run D (initWorld s) hist) op).1 = .ok (some t) → ∃ t' ms, r = .ok (some t') ∧
      compositionOf ((spawn (run D (initWorld s) hist) ops).run D is).W d t' = some ms ∧
      compositionOf (alone D (run D (initWorld s) hist) op).2 d t = some ms) := by
  have ht := fun d => reachable_types D s hist d
  have hinv := AskInv.run (D := D) (ops := ops) (asksAll hops) is
    (askInv_spawn (reachable_reg D s hist) ht ops)
  obtain ⟨th, h1, h2⟩ := outcome_some h
  have hop := spawn_op h1
  rw [ho] at hop; simp at hop; subst hop
  have hst := (hinv.stage i th h1).2
  rw [h2] at hst
  obtain ⟨d', q, ha, hcase⟩ := hst
  obtain ⟨q0, hq0⟩ := hd
  rw [ha] at hq0
  simp at hq0
  obtain ⟨e1, e2⟩ := hq0
  subst e1; subst e2
  -- the sequential call
  have hseq : ∀ (p : Except Err TypeId × World), (∀ e, p.1 = .error e ↔ answerOf D (run D (initWorld s) hist) d' q = .error e) →
      (∀ ms, answerOf D (run D (initWorld s) hist) d' q = .ok ms ↔ ∃ t, p.1 = .ok t ∧ compositionOf p.2 d' t = some ms) →
      ((∃ e, answerOf D (run D (initWorld s) hist) d' q = .error e ∧ r = .error e) ∨
        (∃ t x, r = .ok (some t) ∧ ((((spawn (run D (initWorld s) hist) ops).run D is).W).doms d').typeAt d' t = some x ∧
          answerOf D (run D (initWorld s) hist) d' q = .ok x.mixins)) →
      (∀ e, withType p.1 = .error e ↔ r = .error e) ∧
      (∀ t, withType p.1 = .ok (some t) → ∃ t' ms, r = .ok (some t') ∧
        compositionOf ((spawn (run D (initWorld s) hist) ops).run D is).W d' t' = some ms ∧ compositionOf p.2 d' t = some ms) := by
    intro p hp1 hp2 hc
    rcases hc with ⟨e, k1, k2⟩ | ⟨t, x, k1, k2, k3⟩
    · have := (hp1 e).2 k1
      subst k2
      constructor
      · intro e'; rw [this]; simp [withType]
      · intro t ht'; rw [this] at ht'; simp [withType] at ht'
    · obtain ⟨t0, m1, m2⟩ := (hp2 _).1 k3
      subst k1
      constructor
      · intro e'; rw [m1]; simp [withType]
      · intro t' ht'
        rw [m1] at ht'
        simp [withType] at ht'
        subst ht'
        exact ⟨t, x.mixins, rfl, by simp [compositionOf, k2], m2⟩
  cases hopc : th.op with
  | getType d0 q0 =>
    rw [hopc] at ha
    simp [Op.asked] at ha
    obtain ⟨e1, e2⟩ := ha
    subst e1; subst e2
    obtain ⟨a1, a2⟩ := answerOf_getType (D := D) ht d0 q0
    refine hseq (getType D (run D (initWorld s) hist) d0 q0) a1 a2 ?_
    rcases hcase with ⟨md, c, -⟩ | c
    · rw [hopc] at c; simp at c
    · exact c
  | getTypeMut d0 md q0 =>
    rw [hopc] at ha
    simp [Op.asked] at ha
    obtain ⟨e1, e2⟩ := ha
    subst e1; subst e2
    by_cases hmd : md = d0
    · subst hmd
      obtain ⟨a1, a2⟩ := answerOf_getTypeMut (D := D) ht md q0
      refine hseq (getTypeMut D (run D (initWorld s) hist) md md q0) a1 a2 ?_
      rcases hcase with ⟨md', c, hne, -⟩ | c
      · rw [hopc] at c; simp at c; exact absurd c.symm hne
      · exact c
    · have hr : r = .error .foreignMutation := by
        rcases foreign_run (D := D) (q := q0) hmd is (spawn (run D (initWorld s) hist) ops) (by
          intro k th' hk _
          simp [spawn] at hk
          obtain ⟨o, -, ho'⟩ := hk
          subst ho'; exact Or.inl rfl) i th h1 hopc with h3 | h3
        · rw [h2] at h3; simp at h3
        · rw [h2] at h3; simpa using h3
      subst hr
      constructor
      · intro e; simp [alone, getTypeMut, hmd, withType]
      · intro t ht'; simp [alone, getTypeMut, hmd, withType] at ht'
  | _ => rw [hopc] at ha; simp [Op.asked] at ha

/-- C48: two calls that are over and gave types with the same composition gave the same type. -/
theorem C48_same_type (D : Decls) (s : DomId → Settings) (hist ops : List Op) (hops : ∀ op ∈ ops, ∃ d, asks op d)
    (is : List Nat) (i j : Nat) (d : DomId) (t1 t2 : TypeId) (ms : List Mix)
    (h1 : ((spawn (run D (initWorld s) hist) ops).run D is).outcome i = some (.ok (some t1)))
    (h2 : ((spawn (run D (initWorld s) hist) ops).run D is).outcome j = some (.ok (some t2)))
    (c1 : compositionOf ((spawn (run D (initWorld s) hist) ops).run D is).W d t1 = some ms)
    (c2 : compositionOf ((spawn (run D (initWorld s) hist) ops).run D is).W d t2 = some ms) : t1 = t2 := by
  have hinv := AskInv.run (D := D) (ops := ops) (asksAll hops) is
    (askInv_spawn (reachable_reg D s hist) (fun d => reachable_types D s hist d) ops)
  unfold compositionOf at c1 c2
  rw [Option.map_eq_some_iff] at c1 c2
  obtain ⟨r1, a1, b1⟩ := c1
  obtain ⟨r2, a2, b2⟩ := c2
  exact (hinv.conc.types d).typeAt_inj a1 a2 (by rw [b1, b2])

/-- C48: two threads that ask for the same mixins get the same type, even if they come to the registry at the same time. -/
theorem C48_same_query_same_type (D : Decls) (s : DomId → Settings) (hist ops : List Op) (hops : ∀ op ∈ ops, ∃ d, asks op d)
    (is : List Nat) (i j : Nat) (d : DomId) (q : List Mix) (ho : ops[i]? = some (.getType d q)) (ho' : ops[j]? = some (.getType d q))
    (r1 r2 : Except Err (Option TypeId))
    (h1 : ((spawn (run D (initWorld s) hist) ops).run D is).outcome i = some r1)
    (h2 : ((spawn (run D (initWorld s) hist) ops).run D is).outcome j = some r2) : r1 = r2 := by
  obtain ⟨a1, a2⟩ := C48_same_outcome D s hist ops hops is i _ d ho ⟨q, rfl⟩ r1 h1
  obtain ⟨b1, b2⟩ := C48_same_outcome D s hist ops hops is j _ d ho' ⟨q, rfl⟩ r2 h2
  cases hr : (getType D (run D (initWorld s) hist) d q).1 with
  | error e =>
    have he : (alone D (run D (initWorld s) hist) (.getType d q)).1 = .error e := by simp [alone, hr, withType]
    rw [(a1 e).1 he, (b1 e).1 he]
  | ok t =>
    have he : (alone D (run D (initWorld s) hist) (.getType d q)).1 = .ok (some t) := by simp [alone, hr, withType]
    obtain ⟨t1, ms1, k1, k2, k3⟩ := a2 t he
    obtain ⟨t2, ms2, l1, l2, l3⟩ := b2 t he
    rw [k3] at l3; simp at l3; subst l3
    subst k1; subst l1
    rw [C48_same_type D s hist ops hops is i j d t1 t2 ms1 h1 h2 k2 l2]

/-- C48: at any time during the calls the registry is in order: types have different compositions and different addresses,
and a type that was there before is still there. -/
theorem C48_registry (D : Decls) (s : DomId → Settings) (hist ops : List Op) (hops : ∀ op ∈ ops, ∃ d, asks op d)
    (is : List Nat) (d : DomId) :
    ((typesOf ((spawn (run D (initWorld s) hist) ops).run D is).W d).map (·.mixins)).Nodup ∧
    ((typesOf ((spawn (run D (initWorld s) hist) ops).run D is).W d).map (·.tid)).Nodup ∧
    (∀ t ∈ typesOf (run D (initWorld s) hist) d, t ∈ typesOf ((spawn (run D (initWorld s) hist) ops).run D is).W d) ∧
    (∀ e ∈ queriesOf (run D (initWorld s) hist) d, e ∈ queriesOf ((spawn (run D (initWorld s) hist) ops).run D is).W d) ∧
    (∀ t ∈ typesOf ((spawn (run D (initWorld s) hist) ops).run D is).W d, t ∉ typesOf (run D (initWorld s) hist) d →
      ∃ q t' W', (∃ op ∈ ops, op.asked = some (d, q)) ∧ getType D (run D (initWorld s) hist) d q = (.ok t', W') ∧
        compositionOf W' d t' = some t.mixins) := by
  have hinv := AskInv.run (D := D) (ops := ops) (asksAll hops) is
    (askInv_spawn (reachable_reg D s hist) (fun d => reachable_types D s hist d) ops)
  have h := hinv.conc.types d
  obtain ⟨l, hl, hl'⟩ := hinv.shared.types d
  refine ⟨?_, ?_, ?_, hinv.shared.keep d, ?_⟩
  · unfold List.Nodup typesOf; rw [List.pairwise_map]; exact h.comps
  · unfold List.Nodup typesOf; rw [List.pairwise_map]; exact h.tids
  · intro t ht
    unfold typesOf
    rw [hl]
    exact List.mem_append.2 (Or.inl ht)
  · intro t ht hn
    unfold typesOf at ht
    rw [hl, List.mem_append] at ht
    rcases ht with ht | ht
    · exact absurd ht hn
    · obtain ⟨-, op, ho, q, ha, hans⟩ := hl' t ht
      obtain ⟨t', k1, k2⟩ := ((answerOf_getType (fun d => reachable_types D s hist d) d q).2 _).1 hans
      exact ⟨q, t', (getType D (run D (initWorld s) hist) d q).2, ⟨op, ho, ha⟩, Prod.ext k1 rfl, k2⟩

/-- C48: at any time during the calls, every stored query leads to a type of the registry, whose composition is the one that
the query gives without other threads; and only queries that a thread asks for are added. -/
theorem C48_queries (D : Decls) (s : DomId → Settings) (hist ops : List Op) (hops : ∀ op ∈ ops, ∃ d, asks op d)
    (is : List Nat) (d : DomId) (q : List Mix) (t : TypeId)
    (h : (q, t) ∈ queriesOf ((spawn (run D (initWorld s) hist) ops).run D is).W d) :
    (∃ ms t' W', compositionOf ((spawn (run D (initWorld s) hist) ops).run D is).W d t = some ms ∧
      getType D (run D (initWorld s) hist) d q = (.ok t', W') ∧ compositionOf W' d t' = some ms) ∧
    ((q, t) ∈ queriesOf (run D (initWorld s) hist) d ∨ ∃ op ∈ ops, op.asked = some (d, q)) := by
  have hinv := AskInv.run (D := D) (ops := ops) (asksAll hops) is
    (askInv_spawn (reachable_reg D s hist) (fun d => reachable_types D s hist d) ops)
  refine ⟨?_, hinv.shared.known d _ h⟩
  obtain ⟨r, h1, h2⟩ := hinv.shared.queries d _ h
  obtain ⟨t', k1, k2⟩ := ((answerOf_getType (fun d => reachable_types D s hist d) d q).2 _).1 h2
  exact ⟨r.mixins, t', _, by simp [compositionOf, h1], Prod.ext k1 rfl, k2⟩

-- the hypotheses hold for the example, in which calls do overlap
example : (∀ op ∈ concOps, ∃ d, asks op d) ∧
    ((spawn concWorld concOps).run tyDecls concSchedule).outcome 0 = some (.ok (some 2)) ∧
    compositionOf ((spawn concWorld concOps).run tyDecls concSchedule).W 0 2 = some [3, 5] := by
  refine ⟨?_, by decide +kernel, by decide +kernel⟩
  intro op h
  simp [concOps] at h
  rcases h with h | h | h <;> subst h <;> exact ⟨0, _, rfl⟩

/-- C48: one of the schedules is that the threads execute one after the other; it ends with the world of the sequential
program. -/
theorem C48_one_after_another (D : Decls) (W : World) (ops : List Op) :
    ((spawn W ops).run D (blocks 0 ops.length)).W = run D W ops ∧
    ∀ i < ops.length, ((spawn W ops).run D (blocks 0 ops.length)).outcome i ≠ none := by
  obtain ⟨h1, h2⟩ := run_blocks D ops (spawn W ops) [] rfl (by simp)
  rw [List.length_nil] at h1 h2
  refine ⟨h1, fun i hi => ?_⟩
  have hlen : ((spawn W ops).run D (blocks 0 ops.length)).threads.length = ops.length := by
    rw [← List.length_map (f := fun th : Thread => th.op), Threads.run_ops]; simp [spawn]
  obtain ⟨r, hr⟩ := h2 _ (List.getElem_mem (by rw [hlen]; exact hi))
  rw [outcome_done (List.getElem?_eq_getElem (by rw [hlen]; exact hi)) hr]
  simp

theorem run_two (D : Decls) : ∀ (a b : List Op) (W : World), run D W (a ++ b) = run D (run D W a) b
  | [], _, _ => rfl
  | op :: a, b, W => run_two D a b (step D W op).2

theorem outcomeOf (D : Decls) (s : DomId → Settings) (hist ops : List Op) (hops : ∀ op ∈ ops, ∃ d, asks op d) (is : List Nat)
    (hf : ∀ i < ops.length, ((spawn (run D (initWorld s) hist) ops).run D is).outcome i ≠ none) :
    Outcome D (run D (initWorld s) hist) ops ((spawn (run D (initWorld s) hist) ops).run D is) := by
  have h0 := askInv_spawn (reachable_reg D s hist) (fun d => reachable_types D s hist d) ops
  have hl : ((spawn (run D (initWorld s) hist) ops).run D is).threads.map (·.op) = ops := by
    rw [Threads.run_ops]; simp [spawn, Function.comp_def]
  refine ⟨AskInv.run (asksAll hops) is h0, origin_run (asksAll hops) is h0 (origin_spawn _ _ _),
    allStored_run (asksAll hops) is h0 (allStored_spawn _ _), ?_, hl⟩
  intro th hth
  obtain ⟨i, hi⟩ := List.mem_iff_getElem?.1 hth
  have hlt : i < ops.length := by
    rw [← hl, List.length_map]
    exact (List.getElem?_eq_some_iff.1 hi).1
  cases ho : ((spawn (run D (initWorld s) hist) ops).run D is).outcome i with
  | none => exact absurd ho (hf i hlt)
  | some r =>
    obtain ⟨th', k1, k2⟩ := outcome_some ho
    rw [hi] at k1; simp at k1; subst k1
    exact ⟨r, k2⟩

/-- C48: when all calls are over, the domain has types of the same compositions as after the calls one after the other, and
the same queries are stored and lead to the same compositions. -/
theorem C48_final_state (D : Decls) (s : DomId → Settings) (hist ops : List Op) (hops : ∀ op ∈ ops, ∃ d, asks op d)
    (is : List Nat) (hf : ∀ i < ops.length, ((spawn (run D (initWorld s) hist) ops).run D is).outcome i ≠ none) (d : DomId) :
    (∀ ms, ms ∈ (typesOf ((spawn (run D (initWorld s) hist) ops).run D is).W d).map (·.mixins) ↔
      ms ∈ (typesOf (run D (initWorld s) (hist ++ ops)) d).map (·.mixins)) ∧
    (∀ q ms, (∃ t, (q, t) ∈ queriesOf ((spawn (run D (initWorld s) hist) ops).run D is).W d ∧
        compositionOf ((spawn (run D (initWorld s) hist) ops).run D is).W d t = some ms) ↔
      (∃ t, (q, t) ∈ queriesOf (run D (initWorld s) (hist ++ ops)) d ∧
        compositionOf (run D (initWorld s) (hist ++ ops)) d t = some ms)) := by
  have h1 := outcomeOf D s hist ops hops is hf
  obtain ⟨hw, hf'⟩ := C48_one_after_another D (run D (initWorld s) hist) ops
  have h2 := outcomeOf D s hist ops hops _ hf'
  rw [run_two, ← hw]
  exact ⟨fun ms => ⟨h1.types_le h2, h2.types_le h1⟩, fun q ms => ⟨h1.queries_le h2, h2.queries_le h1⟩⟩

/-- The calls of the example are over; the sequential program has the same compositions and queries, in a different order and
with other addresses. -/
example : (∀ i < concOps.length, ((spawn concWorld concOps).run tyDecls concSchedule).outcome i ≠ none) ∧
    (typesOf (run tyDecls (initWorld concSettings) (concHist ++ concOps)) 0).map (fun t => (t.tid, t.mixins)) = [(1, [3, 5])] ∧
    queriesOf (run tyDecls (initWorld concSettings) (concHist ++ concOps)) 0 = [([3, 5], 1), ([5, 3], 1)] := by
  refine ⟨by decide +kernel, by decide +kernel, by decide +kernel⟩

/-! ## C49: rule changes -/

/-- A thread asks for a type while another one adds rule 1. -/
def ruleOps : List Op := [.getType 0 [3], .addRule 0 1]

/-- World in which mixins 3, 5 and 9 are registered in domain 0, mixin 4 in domain 1, and no rules are in force. -/
def ruleWorld : World := run tyDecls (initWorld fun _ => {}) [.regMixin 0 3, .regMixin 0 5, .regMixin 0 9, .regMixin 1 4]

/-- The rule is added after the first thread has applied the rules and before it stores its query. -/
def ruleSchedule : List Nat := [0, 0, 1, 0, 0]

/-- C49 is wrong: rule 1 is added while a `get_type` is between its two locked sections. After both calls are over, the query
leads to the type that it had without the rule, and `get_type` gives this type, although the rule (which does not look at the
registry) asks for mixin 9. -/
theorem C49_refuted :
    (List.range 2).map ((spawn ruleWorld ruleOps).run tyDecls ruleSchedule).outcome = [some (.ok (some 1)), some (.ok none)] ∧
    inForce ((spawn ruleWorld ruleOps).run tyDecls ruleSchedule).W 0 = [1] ∧ RulePure tyDecls 1 ∧
    (getType tyDecls ((spawn ruleWorld ruleOps).run tyDecls ruleSchedule).W 0 [3]).1 = .ok 1 ∧
    compositionOf (getType tyDecls ((spawn ruleWorld ruleOps).run tyDecls ruleSchedule).W 0 [3]).2 0 1 = some [3] ∧
    resolve tyDecls (rulesOf tyDecls (((spawn ruleWorld ruleOps).run tyDecls ruleSchedule).W.view tyDecls 0)
      (((spawn ruleWorld ruleOps).run tyDecls ruleSchedule).W.doms 0)) [3] = .ok [3, 9] := by
  refine ⟨by decide +kernel, by decide +kernel, ?_, by decide +kernel, by decide +kernel, by decide +kernel⟩
  intro v v'
  rfl

/-- C49 (partial: rule changes do not overlap with `get_type` calls of the domain, and the rules in force do not look at the
registry): at the moment at which a successful `get_type` returns, its type has the composition which the rules in force give.
Missing: overlapping rule changes (`C49_refuted`). -/
theorem C49_composition_by_rules_partial (D : Decls) (s : DomId → Settings) (hist ops : List Op) (is : List Nat) (i : Nat)
    (hd : Disciplined true D (spawn (run D (initWorld s) hist) ops) (is ++ [i])) (op : Op) (d : DomId) (q : List Mix)
    (ho : ops[i]? = some op) (ha : op.asked = some (d, q)) (o : Option TypeId)
    (hbefore : ((spawn (run D (initWorld s) hist) ops).run D is).outcome i = none)
    (hafter : ((spawn (run D (initWorld s) hist) ops).run D (is ++ [i])).outcome i = some (.ok o))
    (hp : ∀ r ∈ inForce ((spawn (run D (initWorld s) hist) ops).run D (is ++ [i])).W d, RulePure D r) :
    ∃ t ms, o = some t ∧ compositionOf ((spawn (run D (initWorld s) hist) ops).run D (is ++ [i])).W d t = some ms ∧
      resolve D (rulesOf D (((spawn (run D (initWorld s) hist) ops).run D (is ++ [i])).W.view D d)
        (((spawn (run D (initWorld s) hist) ops).run D (is ++ [i])).W.doms d)) q = .ok ms := by
  obtain ⟨hd1, hd2⟩ := Disciplined.append is [i] hd
  have hinv := ConcInv.run is (concInv_spawn (b := true) (reachable_reg D s hist) (fun d => reachable_types D s hist d)
    (fun _ d => reachable_cache D s hist d) ops) hd1
  have hrun : (spawn (run D (initWorld s) hist) ops).run D (is ++ [i]) = ((spawn (run D (initWorld s) hist) ops).run D is).step D i := by
    rw [Threads.run_append]; rfl
  rw [hrun] at hafter hp ⊢
  generalize hC : (spawn (run D (initWorld s) hist) ops).run D is = C at *
  obtain ⟨th', k1, k2⟩ := outcome_some hafter
  cases hi : C.threads[i]? with
  | none =>
    rw [Threads.step_none hi, hi] at k1
    simp at k1
  | some th =>
    have hth := spawn_op (hC ▸ hi)
    rw [ho] at hth; simp at hth; subst hth
    rw [Threads.step_some hi] at k1 hp ⊢
    rcases get_set hi k1 with ⟨-, e⟩ | ⟨hne, -⟩
    · subst e
      obtain ⟨t, r, m1, m2, m3⟩ := getDone hinv.types hinv.cache (hinv.stage i th hi) (fun key t hst => hinv.fresh i th key t hi hst)
        ha (outcome_none hbefore hi) k2
      refine ⟨t, r.mixins, m1, by simp [compositionOf, m2], ?_⟩
      have := m3 ⟨rfl, hp⟩
      unfold resolvesTo at this
      simp [resolve, this]
    · exact absurd rfl hne

/-- C49 (partial, as above): at any time all stored queries are the ones that the rules in force give, so that a `get_type`
that starts later sees these rules (`C49_composition_by_rules_partial`). -/
theorem C49_queries_by_rules_partial (D : Decls) (s : DomId → Settings) (hist ops : List Op) (is : List Nat)
    (hd : Disciplined true D (spawn (run D (initWorld s) hist) ops) is) (d : DomId)
    (hp : ∀ r ∈ inForce ((spawn (run D (initWorld s) hist) ops).run D is).W d, RulePure D r) (q : List Mix) (t : TypeId)
    (h : (q, t) ∈ queriesOf ((spawn (run D (initWorld s) hist) ops).run D is).W d) :
    ∃ ms, compositionOf ((spawn (run D (initWorld s) hist) ops).run D is).W d t = some ms ∧
      resolve D (rulesOf D (((spawn (run D (initWorld s) hist) ops).run D is).W.view D d)
        (((spawn (run D (initWorld s) hist) ops).run D is).W.doms d)) q = .ok ms := by
  have hinv := ConcInv.run is (concInv_spawn (b := true) (reachable_reg D s hist) (fun d => reachable_types D s hist d)
    (fun _ d => reachable_cache D s hist d) ops) hd
  obtain ⟨r, h1, h2⟩ := hinv.cache rfl d hp _ h
  refine ⟨r.mixins, by simp [compositionOf, h1], ?_⟩
  simp only at h2
  simp [resolve, h2]

/-- Decides `clash`. -/
def clashes (b : Bool) (o o' : Op) : Bool :=
  match disturbed b o, disturbed b o', o.asked.map (·.1), o'.asked.map (·.1) with
  | d1, d2, a1, a2 => (d1.isSome && (d1 == d2 || d1 == a2)) || (a1.isSome && a1 == d2)

theorem asks_eq {o : Op} {d : DomId} : asks o d ↔ o.asked.map (·.1) = some d := by
  unfold asks
  cases o.asked with
  | none => simp
  | some p => obtain ⟨a, b⟩ := p; simp

theorem clash_eq (b : Bool) (o o' : Op) : clash b o o' ↔ clashes b o o' = true := by
  unfold clash clashes
  simp only [asks_eq]
  generalize disturbed b o = d1
  generalize disturbed b o' = d2
  generalize o.asked.map (·.1) = a1
  generalize o'.asked.map (·.1) = a2
  constructor
  · rintro ⟨d, ⟨h1, h2 | h2⟩ | ⟨h1, h2⟩⟩ <;> subst h1 <;> subst h2 <;> simp
  · intro h
    simp only [Bool.or_eq_true, Bool.and_eq_true, Option.isSome_iff_exists, beq_iff_eq] at h
    rcases h with ⟨⟨d, h1⟩, h2 | h2⟩ | ⟨⟨d, h1⟩, h2⟩ <;> subst h1 <;> exact ⟨d, by rw [← h2]; simp⟩

/-- Decides `mayRun`. -/
def mayRunB (b : Bool) (C : Threads) (i : Nat) : Bool :=
  match C.threads[i]? with
  | none => true
  | some th => (List.range C.threads.length).all (fun j => j == i || match C.threads[j]? with
    | none => true
    | some th' => match th'.stage with
      | .todo => true
      | .done _ => true
      | _ => !clashes b th.op th'.op)

theorem mayRun_of {b : Bool} {C : Threads} {i : Nat} (h : mayRunB b C i = true) : mayRun b C i := by
  intro th hi j th' hne hj hb hc
  unfold mayRunB at h
  rw [hi] at h
  simp only [List.all_eq_true, List.mem_range] at h
  have := h j (List.getElem?_eq_some_iff.1 hj).1
  rw [hj] at this
  simp only [(clash_eq b th.op th'.op).1 hc] at this
  obtain ⟨op', st'⟩ := th'
  cases st' <;> simp [Stage.begun, hne] at this hb

/-- Decides `Disciplined`. -/
def disciplinedB (b : Bool) (D : Decls) : Threads → List Nat → Bool
  | _, [] => true
  | C, i :: is => mayRunB b C i && disciplinedB b D (C.step D i) is

theorem disciplined_of {b : Bool} {D : Decls} (is : List Nat) : ∀ {C : Threads}, disciplinedB b D C is = true → Disciplined b D C is := by
  induction is with
  | nil => intro C _; trivial
  | cons i is ih =>
    intro C h
    simp only [disciplinedB, Bool.and_eq_true] at h
    exact ⟨mayRun_of h.1, ih h.2⟩

/-- Threads 0, 1, 3 and 5 ask for types, thread 2 adds rule 1, thread 4 registers a mixin. -/
def laterOps : List Op := [.getType 0 [3], .getType 0 [5], .addRule 0 1, .getType 0 [3], .regMixin 0 6, .getType 1 [4]]

/-- Threads 0 and 1 overlap, then the rule is added, then threads 3 and 4 overlap; thread 5, which uses another domain,
overlaps with all others. -/
def laterSchedule : List Nat := [5, 0, 1, 0, 1, 5, 1, 0, 0, 1, 5, 2, 3, 3, 4, 3, 5, 3]

-- the rule is added during a call of another domain; thread 3 sees it
example : Disciplined true tyDecls (spawn ruleWorld laterOps) laterSchedule ∧ laterSchedule = laterSchedule.dropLast ++ [3] ∧
    ((spawn ruleWorld laterOps).run tyDecls laterSchedule.dropLast).outcome 3 = none ∧
    ((spawn ruleWorld laterOps).run tyDecls laterSchedule).outcome 3 = some (.ok (some 4)) ∧
    (∀ r ∈ inForce ((spawn ruleWorld laterOps).run tyDecls laterSchedule).W 0, RulePure tyDecls r) ∧
    compositionOf ((spawn ruleWorld laterOps).run tyDecls laterSchedule).W 0 4 = some [3, 9] := by
  refine ⟨disciplined_of _ (by decide +kernel), by decide +kernel, by decide +kernel, by decide +kernel, ?_, by decide +kernel⟩
  have : inForce ((spawn ruleWorld laterOps).run tyDecls laterSchedule).W 0 = [1] := by decide +kernel
  rw [this]
  intro r hr
  simp at hr
  subst hr
  intro v v'
  rfl

/-! ## C50: removal of types -/

/-- A thread asks for a type that exists while another one removes types without objects. -/
def gcOps : List Op := [.getType 0 [5, 3], .gc 0 (fun _ => 0)]

/-- World in which type `[3, 5]` was asked for. -/
def gcWorld : World := run tyDecls (initWorld concSettings) (concHist ++ [.getType 0 [3, 5]])

/-- C50 is wrong: the garbage collection runs after `get_type` has found a type of the registry and before it stores its query.
The returned type is not in the registry, and the stored query leads to it, so that later calls give it as well. -/
theorem C50_refuted :
    ((spawn gcWorld gcOps).run tyDecls [0, 0, 1, 0]).outcome 0 = some (.ok (some 1)) ∧
    compositionOf gcWorld 0 1 = some [3, 5] ∧
    compositionOf ((spawn gcWorld gcOps).run tyDecls [0, 0, 1, 0]).W 0 1 = none ∧
    queriesOf ((spawn gcWorld gcOps).run tyDecls [0, 0, 1, 0]).W 0 = [([5, 3], 1)] ∧
    (getType tyDecls ((spawn gcWorld gcOps).run tyDecls [0, 0, 1, 0]).W 0 [5, 3]).1 = .ok 1 := by decide +kernel

/-- C50 (partial: garbage collections and unregistrations of mixins do not overlap with `get_type` calls of the domain; rule
changes and registrations may): the type that `get_type` returns is in the registry at the moment of return.
Missing: overlapping garbage collections (`C50_refuted`). -/
theorem C50_type_exists_partial (D : Decls) (s : DomId → Settings) (hist ops : List Op) (is : List Nat) (i : Nat)
    (hd : Disciplined false D (spawn (run D (initWorld s) hist) ops) (is ++ [i])) (op : Op) (d : DomId)
    (ho : ops[i]? = some op) (ha : asks op d) (o : Option TypeId)
    (hbefore : ((spawn (run D (initWorld s) hist) ops).run D is).outcome i = none)
    (hafter : ((spawn (run D (initWorld s) hist) ops).run D (is ++ [i])).outcome i = some (.ok o)) :
    ∃ t ms, o = some t ∧ compositionOf ((spawn (run D (initWorld s) hist) ops).run D (is ++ [i])).W d t = some ms := by
  obtain ⟨q, ha⟩ := ha
  obtain ⟨hd1, hd2⟩ := Disciplined.append is [i] hd
  have hinv := ConcInv.run is (concInv_spawn (b := false) (reachable_reg D s hist) (fun d => reachable_types D s hist d)
    (by simp) ops) hd1
  have hrun : (spawn (run D (initWorld s) hist) ops).run D (is ++ [i]) = ((spawn (run D (initWorld s) hist) ops).run D is).step D i := by
    rw [Threads.run_append]; rfl
  rw [hrun] at hafter ⊢
  generalize hC : (spawn (run D (initWorld s) hist) ops).run D is = C at *
  obtain ⟨th', k1, k2⟩ := outcome_some hafter
  cases hi : C.threads[i]? with
  | none =>
    rw [Threads.step_none hi, hi] at k1
    simp at k1
  | some th =>
    have hth := spawn_op (hC ▸ hi)
    rw [ho] at hth; simp at hth; subst hth
    rw [Threads.step_some hi] at k1 ⊢
    rcases get_set hi k1 with ⟨-, e⟩ | ⟨hne, -⟩
    · subst e
      obtain ⟨t, r, m1, m2, -⟩ := getDone hinv.types hinv.cache (hinv.stage i th hi) (fun key t hst => hinv.fresh i th key t hi hst)
        ha (outcome_none hbefore hi) k2
      exact ⟨t, r.mixins, m1, by simp [compositionOf, m2]⟩
    · exact absurd rfl hne

/-- C50 (partial, as above): at any time the compositions of types are different, types consist of mixins that are registered
in their domain, and stored queries lead to types of the registry. -/
theorem C50_registry_partial (D : Decls) (s : DomId → Settings) (hist ops : List Op) (is : List Nat)
    (hd : Disciplined false D (spawn (run D (initWorld s) hist) ops) is) (d : DomId) :
    ((typesOf ((spawn (run D (initWorld s) hist) ops).run D is).W d).map (·.mixins)).Nodup ∧
    (∀ t ∈ typesOf ((spawn (run D (initWorld s) hist) ops).run D is).W d, ∀ m ∈ t.mixins,
      ((spawn (run D (initWorld s) hist) ops).run D is).W.mixDom m = some d) ∧
    ∀ q t, (q, t) ∈ queriesOf ((spawn (run D (initWorld s) hist) ops).run D is).W d →
      compositionOf ((spawn (run D (initWorld s) hist) ops).run D is).W d t ≠ none := by
  have hinv := ConcInv.run is (concInv_spawn (b := false) (reachable_reg D s hist) (fun d => reachable_types D s hist d)
    (by simp) ops) hd
  have h := hinv.types d
  refine ⟨?_, ?_, ?_⟩
  · unfold List.Nodup typesOf; rw [List.pairwise_map]; exact h.comps
  · intro t ht m hm
    exact ((h.ok t ht).reg m hm).2
  · intro q t hq hn
    obtain ⟨r, hr⟩ := h.queries _ hq
    simp [compositionOf, hr] at hn

-- a rule is added and a mixin registered while two threads ask for types; the garbage is collected afterwards
example : Disciplined false tyDecls (spawn gcWorld [.getType 0 [5, 3], .getType 0 [7], .addRule 0 1, .regMixin 0 6, .gc 0 (fun _ => 0)])
      [0, 1, 0, 2, 1, 3, 0, 1, 1, 4] ∧
    ((spawn gcWorld [.getType 0 [5, 3], .getType 0 [7], .addRule 0 1, .regMixin 0 6, .gc 0 (fun _ => 0)]).run tyDecls
      [0, 1, 0, 2, 1, 3, 0, 1]).outcome 1 = none ∧
    ((spawn gcWorld [.getType 0 [5, 3], .getType 0 [7], .addRule 0 1, .regMixin 0 6, .gc 0 (fun _ => 0)]).run tyDecls
      ([0, 1, 0, 2, 1, 3, 0, 1] ++ [1])).outcome 1 = some (.ok (some 2)) :=
  ⟨disciplined_of _ (by decide +kernel), by decide +kernel, by decide +kernel⟩

/-- C50, the exception in its statement: if a mixin of the type is unregistered while `get_type` is between its two locked
sections, a type with this mixin is put into the registry after the mixin has left the domain. -/
theorem C50_unregister_refuted :
    ((spawn concWorld [.getType 0 [3, 5], .unregMixin 0 5]).run tyDecls [0, 0, 0, 1, 1, 0]).outcome 0 = some (.ok (some 1)) ∧
    ((spawn concWorld [.getType 0 [3, 5], .unregMixin 0 5]).run tyDecls [0, 0, 0, 1, 1, 0]).outcome 1 = some (.ok none) ∧
    compositionOf ((spawn concWorld [.getType 0 [3, 5], .unregMixin 0 5]).run tyDecls [0, 0, 0, 1, 1, 0]).W 0 1 = some [3, 5] ∧
    ((spawn concWorld [.getType 0 [3, 5], .unregMixin 0 5]).run tyDecls [0, 0, 0, 1, 1, 0]).W.mixDom 5 = none := by decide +kernel

end Dnmx.Props
