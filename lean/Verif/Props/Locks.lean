import Verif.Proofs.LockLemmas
import Verif.Proofs.PartLemmas

/-!
# C64: threads that use domains do not block each other for ever
-/

namespace Dnmx.Props
open Spec

set_option linter.unusedVariables false

theorem reach_inv {pref : Bool} {progs : List (List LCall)} {ts : List LThread} (h : LockReach pref (lockThreads progs) ts) : LockInv ts := by
  obtain ⟨is, h⟩ := h
  exact lockInv_run is _ _ (lockInv_start progs) h

/-- C64: threads that make any calls on any domains never come to a deadlock, whether or not those who wait for a unique lock go
first. -/
theorem C64_no_deadlock (pref : Bool) (progs : List (List LCall)) (ts : List LThread) (h : LockReach pref (lockThreads progs) ts) : ¬ Deadlock pref ts := by
  rintro ⟨h1, h2⟩
  obtain ⟨i, hi⟩ := no_deadlock pref (reach_inv h) h1
  exact hi (h2 i)

/-- C64: however the threads are scheduled, there are not more steps than twice the number of actions of the calls and one for each thread; from
any state it is possible to do everything, and then no locks are left. -/
theorem C64_all_calls_end (pref : Bool) (progs : List (List LCall)) (is : List Nat) (ts : List LThread) (h : lockRun pref is (lockThreads progs) = some ts) :
    is.length ≤ 2 * actsLeft (lockThreads progs) + progs.length ∧
    (∃ js ts', lockRun pref js ts = some ts' ∧ AllOver ts') ∧ (AllOver ts → ∀ t ∈ ts, t.held = []) := by
  have hi := reach_inv ⟨is, h⟩
  have hl := lockRun_left is _ _ (lockInv_start progs) h
  rw [work_start] at hl
  refine ⟨by omega, can_finish pref _ ts (Nat.le_refl _) hi, ?_⟩
  intro ho t ht
  have := hi.ordered t ht
  rw [ho t ht] at this
  exact this

/-- C64: no thread locks a mutex that it has locked already, or unlocks one that it has not locked. -/
theorem C64_no_recursive_lock (pref : Bool) (progs : List (List LCall)) (ts : List LThread) (h : LockReach pref (lockThreads progs) ts) :
    ¬ RecursiveLock ts ∧ ¬ StrayUnlock ts := by
  have hi := reach_inv h
  constructor
  · rintro ⟨t, ht, l, h1, b, h2⟩
    have ho := hi.ordered t ht
    have hm : mayLock t.held l := by
      cases htd : t.todo with
      | nil => rw [htd] at h1; simp at h1
      | cons a r =>
        rw [htd] at h1 ho
        simp at h1
        rcases h1 with rfl | rfl <;> exact ho.1
    cases l with
    | types d => have hm : t.held = [] := hm; rw [hm] at h2; simp at h2
    | elems d => have := hm _ h2; simp [Mutex.isTypes] at this
  · rintro ⟨t, ht, l, h1, h2⟩
    have ho := hi.ordered t ht
    cases htd : t.todo with
    | nil => rw [htd] at h1; simp at h1
    | cons a r =>
      rw [htd] at h1 ho
      simp at h1
      subst h1
      cases hh : t.held with
      | nil => rw [hh] at ho; exact ho
      | cons x hs =>
        rw [hh] at ho
        have ho : x.1 = l ∧ Ordered hs r := ho
        refine h2 x.2 ?_
        rw [hh, ← ho.1]
        exact List.mem_cons_self ..

/-- C64: a unique lock excludes all other locks of the mutex. -/
theorem C64_exclusion (pref : Bool) (progs : List (List LCall)) (ts : List LThread) (h : LockReach pref (lockThreads progs) ts) (i j : Nat) (t t' : LThread) (hij : i ≠ j)
    (hi : ts[i]? = some t) (hj : ts[j]? = some t') (l : Mutex) (hl : (l, true) ∈ t.held) (b : Bool) : (l, b) ∉ t'.held :=
  (reach_inv h).excl i j t t' hij hi hj l hl b

/-- C64: while a thread traverses a domain (it holds both locks), no other thread is where it may change the registries of the domain. -/
theorem C64_traversal_is_undisturbed (pref : Bool) (progs : List (List LCall)) (ts : List LThread) (h : LockReach pref (lockThreads progs) ts) (i j : Nat) (t t' : LThread) (hij : i ≠ j)
    (hi : ts[i]? = some t) (hj : ts[j]? = some t') (d : DomId) (ht : (.types d, false) ∈ t.held) (he : (.elems d, false) ∈ t.held) :
    (.types d, true) ∉ t'.held ∧ (.elems d, true) ∉ t'.held :=
  ⟨fun hx => (reach_inv h).excl j i t' t (Ne.symm hij) hj hi _ hx false ht, fun hx => (reach_inv h).excl j i t' t (Ne.symm hij) hj hi _ hx false he⟩

def lockDecls : Decls where
  mem := fun a => UInt8.ofNat a
  mix := fun m => { name := ⟨m, m + 1⟩ }
  feat := fun f => { name := ⟨f, f + 1⟩ }
  userRule := fun _ => ⟨⟨0, 0⟩, none, 0⟩
  cls := fun _ => ⟨⟨0, 0⟩, false, fun _ => true⟩

/-- Three threads; the rules of the domain look up mixins. -/
def lockProgs : List (List LCall) :=
  [[.getType 0 false [0, 0] false true, .collect 0], [.unregisterMixin 0, .element 1], [.traverse 0, .getTypeMut 1 false [0] false true]]

example : ∃ ts, LockReach true (lockThreads lockProgs) ts ∧ ts.map (·.held) = [[(.elems 0, false), (.types 0, false)], [], [(.types 0, false)]] ∧
    ts.map (·.waits) = [false, true, false] ∧ (lockStep true ts 1).isNone ∧ (lockStep true ts 2).isSome :=
  ⟨(lockRun true [0, 0, 0, 0, 0, 0, 0, 2, 1] (lockThreads lockProgs)).getD [], ⟨[0, 0, 0, 0, 0, 0, 0, 2, 1], by decide +kernel⟩, by decide +kernel, by decide +kernel, by decide +kernel, by decide +kernel⟩

/-- C64: the parts into which `Verif.Model.Concurrent` divides a call take the locks of the call in their order, whatever the other threads
do to the domains in between (`Ws`: what the parts see). -/
theorem C64_parts_take_the_locks (D : Decls) (op : Op) (Ws : List World) (hu : ∀ r, stageAfter D op .todo Ws = .done r → r ≠ .error .ub) :
    ∃ c, IsCall op c ∧ (∃ rest, taken (lockActs c) = lockTrail D op .todo Ws ++ rest) ∧ ∀ r, stageAfter D op .todo Ws = .done r → lockTrail D op .todo Ws = taken (lockActs c) := by
  obtain ⟨c, h1, h2, h3⟩ := follows_call D op Ws hu
  exact ⟨c, h1, h2, h3⟩

/-- C64: a part of a call changes the type registry of a domain only under the unique lock of its mutex, the element registry and the ids of
infos only under a unique lock of the other mutex; under a shared lock it changes nothing. -/
theorem C64_parts_change_what_they_own (D : Decls) (W : World) (op : Op) (st : Stage) :
    (∀ d, ¬ SameTypeReg d W (nextPart D W op st).2 → partLock op st = some (.types d, true)) ∧
    (∀ d, ¬ SameElemReg d W (nextPart D W op st).2 → partLock op st = some (.elems d, true)) ∧
    (¬ SameInfos W (nextPart D W op st).2 → ∃ d, partLock op st = some (.elems d, true)) ∧
    (∀ l, partLock op st = some (l, false) → (nextPart D W op st).2 = W) := by
  have h := nextPart_changes D W op st
  refine ⟨fun d hn => ?_, fun d hn => ?_, fun hn => ?_, fun l hl => ?_⟩
  · match hp : partLock op st with
    | some (.types d', true) =>
      rw [hp] at h
      by_cases hd : d = d'
      · rw [hd]
      · exact absurd ((h d).2.2 hd) hn
    | some (.elems d', true) => rw [hp] at h; exact absurd (h d).1 hn
    | some (.types d', false) => rw [hp] at h; have h : _ = W := h; rw [h] at hn; exact absurd (.refl d W) hn
    | some (.elems d', false) => rw [hp] at h; have h : _ = W := h; rw [h] at hn; exact absurd (.refl d W) hn
    | none => rw [hp] at h; exact absurd (h.1 d).1 hn
  · match hp : partLock op st with
    | some (.elems d', true) =>
      rw [hp] at h
      by_cases hd : d = d'
      · rw [hd]
      · exact absurd ((h d).2 hd) hn
    | some (.types d', true) => rw [hp] at h; exact absurd (h d).1 hn
    | some (.types d', false) => rw [hp] at h; have h : _ = W := h; rw [h] at hn; exact absurd (.refl d W) hn
    | some (.elems d', false) => rw [hp] at h; have h : _ = W := h; rw [h] at hn; exact absurd (.refl d W) hn
    | none => rw [hp] at h; exact absurd (h.1 d).2 hn
  · match hp : partLock op st with
    | some (.elems d', true) => exact ⟨d', rfl⟩
    | some (.types d', true) => rw [hp] at h; exact absurd (h 0).2.1 hn
    | some (.types d', false) => rw [hp] at h; have h : _ = W := h; rw [h] at hn; exact absurd (.refl W) hn
    | some (.elems d', false) => rw [hp] at h; have h : _ = W := h; rw [h] at hn; exact absurd (.refl W) hn
    | none => rw [hp] at h; exact absurd h.2 hn
  · rw [hl] at h
    cases l <;> exact h

/-- A request for a type in a world where the type is missing goes through all parts. -/
example : ∃ W, lockTrail lockDecls (.getType 0 [1]) .todo [W, W, W, W] = [(.types 0, false), (.types 0, false), (.types 0, true)] ∧
    ¬ SameElemReg 0 (initWorld fun _ => {}) (nextPart lockDecls (initWorld fun _ => {}) (.regMixin 0 1) .todo).2 := by
  refine ⟨run lockDecls (initWorld fun _ => {}) [.regMixin 0 1], by decide +kernel, ?_⟩
  rintro ⟨-, h, -⟩
  revert h
  decide +kernel

/-- C64, refuted for `dbg_dmp`: a dump of the types of a domain locks the mutex of the type registry while the same thread has locked it, which is
undefined for `std::shared_mutex`; -/
theorem C64_dump_recursive_refuted : ∃ ts, LockReach true [{ todo := dumpActs 0 { types := true } }] ts ∧ RecursiveLock ts := by
  refine ⟨[⟨(dumpActs 0 { types := true }).drop 3, [(.elems 0, false), (.types 0, false)], false⟩], ⟨[0, 0, 0], by decide +kernel⟩, ?_⟩
  exact ⟨_, List.mem_singleton.2 rfl, .types 0, .inl rfl, false, by simp⟩

/-- and where those who wait for a unique lock go first, the thread of the dump and one that collects garbage wait for each other. -/
theorem C64_dump_deadlock_refuted : ∃ ts, LockReach true [{ todo := dumpActs 0 { types := true } }, { todo := lockActs (.collect 0) }] ts ∧ Deadlock true ts := by
  refine ⟨[⟨(dumpActs 0 { types := true }).drop 3, [(.elems 0, false), (.types 0, false)], false⟩, ⟨lockActs (.collect 0), [], true⟩], ⟨[0, 0, 0, 1], by decide +kernel⟩, ?_, ?_⟩
  · intro h
    have := h _ (List.mem_cons_self ..)
    revert this
    decide
  · intro i
    match i with
    | 0 => decide +kernel
    | 1 => decide +kernel
    | n + 2 => rfl

/-- C64 (partial: dumps that list no rules, types or queries): such a dump is a traversal as far as locks are concerned. -/
theorem C64_dump_partial (d : DomId) : ∃ a, dumpActs d {} = [.share (.types d), .share (.elems d), .work, .work] ++ a ∧ lockActs (.traverse d) = [.share (.types d), .share (.elems d), .work] ++ a :=
  ⟨_, rfl, rfl⟩

end Dnmx.Props
