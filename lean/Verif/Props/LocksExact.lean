import Verif.Props.Locks

/-! C64 with dumps: exactly when no thread locks a mutex twice. -/

namespace Dnmx.Props
open Spec

/-- Calls on domains, and dumps. -/
inductive LItem
  | call (c : LCall)
  | dump (d : DomId) (f : DumpFlags)

def LItem.acts : LItem → List Act
  | .call c => lockActs c
  | .dump d f => dumpActs d f

/-- The dump lists rules, types or queries. -/
def LItem.lists : LItem → Bool
  | .call _ => false
  | .dump _ f => f.rules || f.types || f.queries

/-- Threads that are to make calls and dumps. -/
def itemThreads (progs : List (List LItem)) : List LThread := progs.map (fun p => { todo := p.flatMap LItem.acts })

theorem ordered_item (x : LItem) (h : x.lists = false) : Ordered [] x.acts := by
  cases x with
  | call c => exact ordered_call c
  | dump d f =>
    obtain ⟨a, b, c⟩ := f
    cases a <;> cases b <;> cases c <;> simp [LItem.lists] at h
    simp [LItem.acts, dumpActs, Ordered, mayLock, Mutex.isTypes]

theorem ordered_items : ∀ p : List LItem, (∀ x ∈ p, x.lists = false) → Ordered [] (p.flatMap LItem.acts)
  | [], _ => rfl
  | x :: p, h => by
    rw [List.flatMap_cons]
    exact ordered_append _ (ordered_items p (fun y hy => h y (List.mem_cons_of_mem _ hy))) _ _ (ordered_item x (h x (List.mem_cons_self ..)))

theorem lockInv_items (progs : List (List LItem)) (h : ∀ p ∈ progs, ∀ x ∈ p, x.lists = false) : LockInv (itemThreads progs) := by
  constructor
  · intro t ht
    simp [itemThreads] at ht
    obtain ⟨p, hp, rfl⟩ := ht
    exact ordered_items p (h p hp)
  · intro i j t t' hij h1 h2 l hl
    simp [itemThreads] at h1
    obtain ⟨p, -, rfl⟩ := h1
    simp at hl

/-- the others have done nothing yet -/
def Idle (i : Nat) (ts : List LThread) : Prop := ∀ (j : Nat) (t : LThread), j ≠ i → ts[j]? = some t → t.held = [] ∧ t.waits = false

theorem Idle.set {i : Nat} {ts : List LThread} (h : Idle i ts) (x : LThread) : Idle i (ts.set i x) := by
  intro j t hj ht
  rw [List.getElem?_set_ne (fun e => hj e.symm)] at ht
  exact h j t hj ht

theorem mayLock_free {held : List (Mutex × Bool)} {l : Mutex} (h : mayLock held l) (b : Bool) : (l, b) ∉ held := by
  cases l with
  | types d => simp only [mayLock] at h; rw [h]; simp
  | elems d =>
    intro hm
    have := h _ hm
    simp [Mutex.isTypes] at this

theorem lockRun_append (pref : Bool) : ∀ (is js : List Nat) (ts : List LThread), lockRun pref (is ++ js) ts = (lockRun pref is ts).bind (lockRun pref js)
  | [], js, ts => rfl
  | i :: is, js, ts => by
    show (lockStep pref ts i).bind (lockRun pref (is ++ js)) = ((lockStep pref ts i).bind (lockRun pref is)).bind (lockRun pref js)
    cases lockStep pref ts i with
    | none => rfl
    | some ts' => exact lockRun_append pref is js ts'

/-- one action of a thread where all others are idle -/
theorem act_alone (pref : Bool) {i : Nat} {ts : List LThread} (hI : Idle i ts) (a : Act) (r : List Act) (held : List (Mutex × Bool)) (ht : ts[i]? = some ⟨a :: r, held, false⟩)
    (hl : ∀ l, a = .share l ∨ a = .own l → ∀ b, (l, b) ∉ held) :
    ∃ held', lockStep pref ts i = some (ts.set i ⟨r, held', false⟩) ∧
      (∀ l, a = .share l → held' = (l, false) :: held) ∧ (∀ l, a = .own l → held' = (l, true) :: held) ∧ (∀ l, a = .release l → held' = dropHeld l held) ∧ (a = .work → held' = held) := by
  have hall : ∀ t ∈ ts, t.waits = false ∧ (t.held = [] ∨ t.held = held) := by
    intro t hm
    obtain ⟨j, hj⟩ := List.getElem?_of_mem hm
    by_cases e : j = i
    · subst e; rw [ht] at hj; cases hj; exact ⟨rfl, .inr rfl⟩
    · obtain ⟨h1, h2⟩ := hI j t e hj; exact ⟨h2, .inl h1⟩
  have hno : ∀ l, (∀ b, (l, b) ∉ held) → ts.any (fun t => t.holds l) = false ∧ ts.any (fun t => t.owns l) = false ∧ ts.any (fun t => t.waitsFor l) = false := by
    intro l hb
    refine ⟨List.any_eq_false.2 fun t hm => ?_, List.any_eq_false.2 fun t hm => ?_, List.any_eq_false.2 fun t hm => ?_⟩
    · obtain ⟨-, h | h⟩ := hall t hm
      · simp [LThread.holds, h]
      · simp only [LThread.holds, h, List.any_eq_true, beq_iff_eq, not_exists, not_and]
        rintro ⟨l', b⟩ hx rfl
        exact hb b hx
    · obtain ⟨-, h | h⟩ := hall t hm
      · simp [LThread.owns, h]
      · simp only [LThread.owns, h, List.any_eq_true, beq_iff_eq, not_exists, not_and]
        rintro x hx rfl
        exact hb true hx
    · obtain ⟨h, -⟩ := hall t hm
      simp [LThread.waitsFor, h]
  unfold lockStep
  rw [ht]
  cases a with
  | share l =>
    obtain ⟨-, h2, h3⟩ := hno l (hl l (.inl rfl))
    refine ⟨(l, false) :: held, by simp [LThread.act, h2, h3], ?_, ?_, ?_, ?_⟩ <;> simp
  | own l =>
    obtain ⟨h1, -, -⟩ := hno l (hl l (.inr rfl))
    refine ⟨(l, true) :: held, by simp [LThread.act, h1], ?_, ?_, ?_, ?_⟩ <;> simp
  | release l => refine ⟨dropHeld l held, by simp [LThread.act], ?_, ?_, ?_, ?_⟩ <;> simp
  | work => refine ⟨held, by simp [LThread.act], ?_, ?_, ?_, ?_⟩ <;> simp

/-- a thread can do its calls where all others are idle -/
theorem run_alone (pref : Bool) {i : Nat} (rest : List Act) : ∀ (a : List Act) (held : List (Mutex × Bool)) (ts : List LThread), Idle i ts → Ordered held a →
    ts[i]? = some ⟨a ++ rest, held, false⟩ → ∃ is, lockRun pref is ts = some (ts.set i ⟨rest, [], false⟩)
  | [], held, ts, hI, ho, ht => by
    have ho : held = [] := ho
    subst ho
    refine ⟨[], ?_⟩
    show some ts = _
    congr 1
    apply List.ext_getElem?
    intro j
    by_cases e : i = j
    · subst e
      rw [List.getElem?_set_self (List.getElem?_eq_some_iff.1 ht).1, ht]; rfl
    · rw [List.getElem?_set_ne e]
  | x :: a, held, ts, hI, ho, ht => by
    have hfree : ∀ l, x = .share l ∨ x = .own l → ∀ b, (l, b) ∉ held := by
      rintro l (rfl | rfl) b
      · exact mayLock_free ho.1 b
      · exact mayLock_free ho.1 b
    obtain ⟨held', h1, h2, h3, h4, h5⟩ := act_alone pref hI x (a ++ rest) held ht hfree
    have ho' : Ordered held' a := by
      cases x with
      | share l => rw [h2 l rfl]; exact ho.2
      | own l => rw [h3 l rfl]; exact ho.2
      | work => rw [h5 rfl]; exact ho
      | release l =>
        rw [h4 l rfl]
        cases held with
        | nil => exact ho.elim
        | cons h hs =>
          have ho : h.1 = l ∧ Ordered hs a := ho
          simp only [dropHeld, if_pos ho.1]
          exact ho.2
    obtain ⟨is, h6⟩ := run_alone pref rest a held' (ts.set i ⟨a ++ rest, held', false⟩) (hI.set _) ho'
      (List.getElem?_set_self (List.getElem?_eq_some_iff.1 ht).1)
    refine ⟨i :: is, ?_⟩
    show (lockStep pref ts i).bind _ = _
    rw [h1]
    simp only [Option.bind_some]
    rw [h6, List.set_set]

theorem split_first (p : List LItem) (h : ¬ ∀ x ∈ p, x.lists = false) : ∃ pre d f post, p = pre ++ .dump d f :: post ∧ (∀ x ∈ pre, x.lists = false) ∧ (f.rules || f.types || f.queries) = true := by
  induction p with
  | nil => simp at h
  | cons x p ih =>
    by_cases hx : x.lists = false
    · obtain ⟨pre, d, f, post, h1, h2, h3⟩ := ih (fun hall => h (by
        intro y hy
        rcases List.mem_cons.1 hy with rfl | hy
        · exact hx
        · exact hall y hy))
      refine ⟨x :: pre, d, f, post, by rw [h1]; rfl, ?_, h3⟩
      intro y hy
      rcases List.mem_cons.1 hy with rfl | hy
      · exact hx
      · exact h2 y hy
    · cases x with
      | call c => simp [LItem.lists] at hx
      | dump d f => exact ⟨[], d, f, p, rfl, by simp, (Bool.not_eq_false _).mp hx⟩

/-- C64, for programs with dumps: no thread ever locks a mutex that it has locked exactly if no dump lists rules, types or queries; -/
theorem C64_recursive_exactly (pref : Bool) (progs : List (List LItem)) :
    (∀ ts, LockReach pref (itemThreads progs) ts → ¬ RecursiveLock ts) ↔ ∀ p ∈ progs, ∀ x ∈ p, x.lists = false := by
  constructor
  · intro h
    apply Classical.byContradiction
    intro hc
    have hc' : ∃ p ∈ progs, ¬ ∀ x ∈ p, x.lists = false := by
      apply Classical.byContradiction
      intro hn
      exact hc fun p hp => Classical.byContradiction fun hx => hn ⟨p, hp, hx⟩
    obtain ⟨p, hp, hx⟩ := hc'
    obtain ⟨pre, d, f, post, rfl, h2, h3⟩ := split_first p hx
    obtain ⟨i, hi⟩ := List.getElem?_of_mem hp
    obtain ⟨tail, htail⟩ : ∃ tail, dumpActs d f = [.share (.types d), .share (.elems d), .work] ++ .share (.types d) :: tail := by
      unfold dumpActs
      cases hr : f.rules with
      | true => exact ⟨_, rfl⟩
      | false =>
        cases ht : f.types with
        | true => exact ⟨_, rfl⟩
        | false =>
          cases hq : f.queries with
          | true => exact ⟨_, rfl⟩
          | false => simp [hr, ht, hq] at h3
    let rest := tail ++ post.flatMap LItem.acts
    have ht : (itemThreads progs)[i]? = some ⟨pre.flatMap LItem.acts ++ (.share (.types d) :: .share (.elems d) :: .work :: .share (.types d) :: rest), [], false⟩ := by
      simp only [itemThreads, List.getElem?_map, hi, Option.map_some]
      simp [LItem.acts, htail, rest]
    have hI : Idle i (itemThreads progs) := by
      intro j t hj htj
      simp only [itemThreads, List.getElem?_map, Option.map_eq_some_iff] at htj
      obtain ⟨q, -, rfl⟩ := htj
      exact ⟨rfl, rfl⟩
    obtain ⟨is, h4⟩ := run_alone pref _ _ _ _ hI (ordered_items pre h2) ht
    have hlen := (List.getElem?_eq_some_iff.1 ht).1
    generalize itemThreads progs = ts at *
    have hget : ∀ x, (ts.set i x)[i]? = some x := fun x => List.getElem?_set_self hlen
    obtain ⟨k1, s1, e1, -, -, -⟩ := act_alone pref (hI.set _) (.share (.types d)) (.share (.elems d) :: .work :: .share (.types d) :: rest) [] (hget _) (by simp)
    have e1 := e1 _ rfl
    subst e1
    rw [List.set_set] at s1
    obtain ⟨k2, s2, e2, -, -, -⟩ := act_alone pref (hI.set _) (.share (.elems d)) (.work :: .share (.types d) :: rest) [(.types d, false)] (hget _) (by simp)
    have e2 := e2 _ rfl
    subst e2
    rw [List.set_set] at s2
    obtain ⟨k3, s3, -, -, -, e3⟩ := act_alone pref (hI.set _) .work (.share (.types d) :: rest) [(.elems d, false), (.types d, false)] (hget _) (by simp)
    have e3 := e3 rfl
    subst e3
    rw [List.set_set] at s3
    refine h (ts.set i ⟨.share (.types d) :: rest, [(.elems d, false), (.types d, false)], false⟩) ⟨is ++ [i, i, i], ?_⟩ ?_
    · rw [lockRun_append, h4]
      simp only [Option.bind_some, lockRun, s1, s2, s3]
    · exact ⟨_, List.mem_of_getElem? (hget _), .types d, .inl rfl, false, by simp⟩
  · intro h ts ⟨is, hr⟩
    have hi := lockInv_run is _ _ (lockInv_items progs h) hr
    rintro ⟨t, ht, l, h1, b, h2⟩
    have ho := hi.ordered t ht
    have hm : mayLock t.held l := by
      cases htd : t.todo with
      | nil => rw [htd] at h1; simp at h1
      | cons a r =>
        rw [htd] at h1 ho
        simp only [List.head?_cons, Option.some.injEq] at h1
        rcases h1 with rfl | rfl
        · exact ho.1
        · exact ho.1
    exact mayLock_free hm b h2

/-- and then there is no deadlock, and all calls and dumps can end. -/
theorem C64_dumps_end (pref : Bool) (progs : List (List LItem)) (h : ∀ p ∈ progs, ∀ x ∈ p, x.lists = false) (ts : List LThread) (hr : LockReach pref (itemThreads progs) ts) :
    ¬ Deadlock pref ts ∧ ∃ js ts', lockRun pref js ts = some ts' ∧ AllOver ts' := by
  obtain ⟨is, hr⟩ := hr
  have hi := lockInv_run is _ _ (lockInv_items progs h) hr
  refine ⟨?_, can_finish pref _ ts (Nat.le_refl _) hi⟩
  rintro ⟨h1, h2⟩
  obtain ⟨i, h3⟩ := no_deadlock pref hi h1
  exact h3 (h2 i)

-- three threads with dumps and calls; the first dump of the last thread that lists types is the one that matters
example : (∀ p ∈ [[LItem.dump 0 {}, .call (.collect 0)], [.call (.traverse 1), .dump 1 {}]], ∀ x ∈ p, x.lists = false) ∧
    (LItem.dump 0 { types := true }).lists = true ∧ actsLeft (itemThreads [[.dump 0 {}, .call (.collect 0)], [.call (.traverse 1), .dump 1 {}]]) = 20 := by
  refine ⟨?_, rfl, by decide +kernel⟩
  intro p hp x hx
  simp at hp
  rcases hp with rfl | rfl <;> simp at hx <;> rcases hx with rfl | rfl <;> rfl

end Dnmx.Props
