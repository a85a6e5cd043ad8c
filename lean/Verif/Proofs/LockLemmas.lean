import Verif.Spec.Locks

/-!
# Lemmas about locks

Each thread takes the mutex of an element registry last, and that of a type registry only if it holds none.
-/

namespace Dnmx
open Spec

set_option linter.unusedSimpArgs false
set_option linter.unusedVariables false

def Mutex.isTypes : Mutex → Bool
  | .types _ => true
  | .elems _ => false

/-- May a mutex be locked by one who holds `held`? -/
def mayLock (held : List (Mutex × Bool)) : Mutex → Prop
  | .types _ => held = []
  | .elems _ => ∀ h ∈ held, h.1.isTypes = true

/-- What is to be done keeps to the rules. -/
def Ordered : List (Mutex × Bool) → List Act → Prop
  | held, [] => held = []
  | held, .share l :: r => mayLock held l ∧ Ordered ((l, false) :: held) r
  | held, .own l :: r => mayLock held l ∧ Ordered ((l, true) :: held) r
  | held, .release l :: r => match held with
    | [] => False
    | h :: hs => h.1 = l ∧ Ordered hs r
  | held, .work :: r => Ordered held r

theorem ordered_append (b : List Act) (hb : Ordered [] b) : ∀ (a : List Act) (held : List (Mutex × Bool)), Ordered held a → Ordered held (a ++ b)
  | [], held, h => by have h : held = [] := h; subst h; exact hb
  | .share l :: r, held, h => ⟨h.1, ordered_append b hb r _ h.2⟩
  | .own l :: r, held, h => ⟨h.1, ordered_append b hb r _ h.2⟩
  | .release l :: r, [], h => False.elim h
  | .release l :: r, _ :: hs, h => ⟨h.1, ordered_append b hb r hs h.2⟩
  | .work :: r, held, h => ordered_append b hb r held h

/-- Lookups while the mutex of a type registry is held. -/
theorem ordered_lookups (r : List Act) (d : DomId) (b : Bool) (hr : Ordered [(.types d, b)] r) :
    ∀ ds : List DomId, Ordered [(.types d, b)] (ds.flatMap lookupActs ++ r)
  | [] => hr
  | x :: ds => by
    show Ordered _ (lookupActs x ++ ds.flatMap lookupActs ++ r)
    rw [List.append_assoc]
    refine ⟨?_, rfl, ordered_lookups r d b hr ds⟩
    intro h hh
    simp at hh
    subst hh
    rfl

theorem ordered_getType (d : DomId) (lookups : List DomId) (hit stores : Bool) : Ordered [] (getTypeActs d lookups hit stores) := by
  unfold getTypeActs
  cases hit with
  | true => exact ⟨rfl, rfl, rfl⟩
  | false =>
    simp only [Bool.false_eq_true, if_false, List.append_assoc]
    refine ⟨rfl, ?_⟩
    refine ordered_lookups _ d false ?_ lookups
    cases stores with
    | true => exact ⟨rfl, rfl, rfl, rfl⟩
    | false => exact ⟨rfl, rfl⟩

theorem ordered_call (c : LCall) : Ordered [] (lockActs c) := by
  cases c with
  | element d => exact ⟨by intro h hh; simp at hh, rfl, rfl⟩
  | unregisterMixin d => exact ⟨rfl, rfl, by intro h hh; simp at hh, rfl, rfl⟩
  | lookup d => exact ⟨by intro h hh; simp at hh, rfl, rfl⟩
  | rule d => exact ⟨rfl, rfl, rfl⟩
  | getTypeMut d foreign lookups hit stores =>
    cases foreign with
    | true => exact rfl
    | false => exact ordered_getType d lookups hit stores
  | getType d early lookups hit stores =>
    refine ordered_append _ ?_ [.share (.types d), .work, .release (.types d)] [] ⟨rfl, rfl, rfl⟩
    cases early with
    | true => exact rfl
    | false => exact ordered_getType d lookups hit stores
  | collect d => exact ⟨rfl, rfl, rfl⟩
  | count d => exact ⟨rfl, rfl, rfl⟩
  | traverse d => exact ⟨rfl, by intro h hh; simp at hh; subst hh; rfl, rfl, rfl, rfl⟩
  | other => exact rfl

theorem ordered_prog : ∀ p : List LCall, Ordered [] (p.flatMap lockActs)
  | [] => rfl
  | c :: p => ordered_append _ (ordered_prog p) _ _ (ordered_call c)

/-- The invariant: all threads keep to the rules, and a unique lock excludes the others. -/
structure LockInv (ts : List LThread) : Prop where
  ordered : ∀ t ∈ ts, Ordered t.held t.todo
  excl : ∀ (i j : Nat) (t t' : LThread), i ≠ j → ts[i]? = some t → ts[j]? = some t' → ∀ l, (l, true) ∈ t.held → ∀ b, (l, b) ∉ t'.held

theorem lockInv_start (progs : List (List LCall)) : LockInv (lockThreads progs) := by
  constructor
  · intro t ht
    simp [lockThreads] at ht
    obtain ⟨p, -, rfl⟩ := ht
    exact ordered_prog p
  · intro i j t t' hij h1 h2 l hl
    simp [lockThreads] at h1
    obtain ⟨p, -, rfl⟩ := h1
    simp at hl

theorem any_owns_false {ts : List LThread} {l : Mutex} (h : ts.any (fun t => t.owns l) = false) : ∀ t ∈ ts, (l, true) ∉ t.held := by
  intro t ht hl
  have := List.any_eq_false.1 h t ht
  simp [LThread.owns] at this
  exact this hl

theorem any_holds_false {ts : List LThread} {l : Mutex} (h : ts.any (fun t => t.holds l) = false) : ∀ t ∈ ts, ∀ b, (l, b) ∉ t.held := by
  intro t ht b hl
  have := List.any_eq_false.1 h t ht
  simp [LThread.holds] at this
  cases b
  · exact this.1 hl
  · exact this.2 hl

/-- What a thread has to do yet; waiting counts as well. -/
def LThread.work (t : LThread) : Nat := 2 * t.todo.length + (if t.waits then 0 else 1)

/-- What an action changes. -/
theorem act_cases {pref : Bool} {ts : List LThread} {t t' : LThread} (h : t.act pref ts = some t') (ho : Ordered t.held t.todo) :
    Ordered t'.held t'.todo ∧ t'.work < t.work ∧
    ((∃ l, t'.held = (l, false) :: t.held ∧ ∀ x ∈ ts, (l, true) ∉ x.held) ∨ (∃ l, t'.held = (l, true) :: t.held ∧ ∀ x ∈ ts, ∀ b, (l, b) ∉ x.held) ∨
      ∀ x ∈ t'.held, x ∈ t.held) := by
  obtain ⟨todo, held, waits⟩ := t
  unfold LThread.act at h
  cases todo with
  | nil => simp at h
  | cons a r =>
    cases a with
    | share l =>
      simp only at h
      by_cases hc : (ts.any (fun t' => t'.owns l) || (pref && ts.any (fun t' => t'.waitsFor l))) = true
      · rw [if_pos hc] at h; simp at h
      · rw [if_neg hc] at h
        simp only [Option.some.injEq] at h
        subst h
        simp only [Bool.or_eq_true, not_or, Bool.not_eq_true] at hc
        exact ⟨ho.2, by simp only [LThread.work, List.length_cons]; split <;> omega, .inl ⟨l, rfl, any_owns_false hc.1⟩⟩
    | own l =>
      simp only at h
      by_cases hc : ts.any (fun t' => t'.holds l) = true
      · rw [if_pos hc] at h
        cases waits with
        | true => simp at h
        | false =>
          simp at h
          subst h
          exact ⟨ho, by simp [LThread.work], .inr (.inr (fun y hy => hy))⟩
      · rw [if_neg hc] at h
        simp only [Option.some.injEq] at h
        subst h
        exact ⟨ho.2, by simp only [LThread.work, List.length_cons]; split <;> omega, .inr (.inl ⟨l, rfl, any_holds_false (by simpa using hc)⟩)⟩
    | release l =>
      simp only [Option.some.injEq] at h
      subst h
      cases held with
      | nil => exact False.elim ho
      | cons x hs =>
        have ho : x.1 = l ∧ Ordered hs r := ho
        simp only [dropHeld, ho.1, if_true]
        exact ⟨ho.2, by simp only [LThread.work, List.length_cons]; split <;> omega, .inr (.inr (fun y hy => List.mem_cons_of_mem _ hy))⟩
    | work =>
      simp only [Option.some.injEq] at h
      subst h
      exact ⟨ho, by simp only [LThread.work, List.length_cons]; split <;> omega, .inr (.inr (fun y hy => hy))⟩

theorem lockStep_some {pref : Bool} {ts ts' : List LThread} {i : Nat} (h : lockStep pref ts i = some ts') :
    ∃ t t', ts[i]? = some t ∧ t.act pref ts = some t' ∧ ts' = ts.set i t' := by
  unfold lockStep at h
  cases ht : ts[i]? with
  | none => rw [ht] at h; simp at h
  | some t =>
    rw [ht] at h
    simp only [Option.map_eq_some_iff] at h
    obtain ⟨t', h1, h2⟩ := h
    exact ⟨t, t', rfl, h1, h2.symm⟩

theorem lockInv_step {pref : Bool} {ts ts' : List LThread} {i : Nat} (hi : LockInv ts) (h : lockStep pref ts i = some ts') : LockInv ts' := by
  obtain ⟨t, t', h1, h2, rfl⟩ := lockStep_some h
  have hlt := (List.getElem?_eq_some_iff.1 h1).1
  obtain ⟨k1, -, k2⟩ := act_cases h2 (hi.ordered t (List.mem_of_getElem? h1))
  constructor
  · intro x hx
    rcases List.mem_or_eq_of_mem_set hx with hx | hx
    · exact hi.ordered x hx
    · rw [hx]; exact k1
  · intro a b x y hab hx hy l hl bb hb
    by_cases ha : a = i
    · subst ha
      rw [List.getElem?_set_self hlt] at hx
      rw [List.getElem?_set_ne hab] at hy
      simp only [Option.some.injEq] at hx
      subst hx
      rcases k2 with ⟨l', e, hn⟩ | ⟨l', e, hn⟩ | e
      · rw [e] at hl
        simp at hl
        exact hi.excl a b t y hab h1 hy l hl bb hb
      · rw [e] at hl
        simp at hl
        rcases hl with rfl | hl
        · exact hn y (List.mem_of_getElem? hy) bb hb
        · exact hi.excl a b t y hab h1 hy l hl bb hb
      · exact hi.excl a b t y hab h1 hy l (e _ hl) bb hb
    · rw [List.getElem?_set_ne (Ne.symm ha)] at hx
      by_cases hbi : b = i
      · subst hbi
        rw [List.getElem?_set_self hlt] at hy
        simp only [Option.some.injEq] at hy
        subst hy
        have hxm := List.mem_of_getElem? hx
        rcases k2 with ⟨l', e, hn⟩ | ⟨l', e, hn⟩ | e
        · rw [e] at hb
          simp at hb
          rcases hb with ⟨rfl, -⟩ | hb
          · exact hn x hxm hl
          · exact hi.excl a b x t hab hx h1 l hl bb hb
        · rw [e] at hb
          simp at hb
          rcases hb with ⟨rfl, -⟩ | hb
          · exact hn x hxm true hl
          · exact hi.excl a b x t hab hx h1 l hl bb hb
        · exact hi.excl a b x t hab hx h1 l hl bb (e _ hb)
      · rw [List.getElem?_set_ne (Ne.symm hbi)] at hy
        exact hi.excl a b x y hab hx hy l hl bb hb

theorem lockInv_run {pref : Bool} : ∀ (is : List Nat) (ts ts' : List LThread), LockInv ts → lockRun pref is ts = some ts' → LockInv ts'
  | [], ts, ts', hi, h => by simp [lockRun] at h; subst h; exact hi
  | i :: is, ts, ts', hi, h => by
    simp only [lockRun, Option.bind_eq_some_iff] at h
    obtain ⟨ts1, h1, h2⟩ := h
    exact lockInv_run is ts1 ts' (lockInv_step hi h1) h2

theorem step_of_act {pref : Bool} {ts : List LThread} {t t' : LThread} (ht : t ∈ ts) (h : t.act pref ts = some t') :
    ∃ i, lockStep pref ts i ≠ none := by
  obtain ⟨i, hi⟩ := List.getElem?_of_mem ht
  exact ⟨i, by simp [lockStep, hi, h]⟩

/-- Who wants a mutex exclusively that nobody holds can go on; hence so can someone if somebody wants to lock it. -/
theorem free_mutex (pref : Bool) {ts : List LThread} (l : Mutex) (hf : ∀ t ∈ ts, ∀ b, (l, b) ∉ t.held)
    (hw : ∃ t ∈ ts, t.todo.head? = some (.share l) ∨ t.todo.head? = some (.own l)) : ∃ i, lockStep pref ts i ≠ none := by
  have hh : ts.any (fun t' => t'.holds l) = false := by
    rw [List.any_eq_false]
    intro t ht hx
    simp [LThread.holds] at hx
    rcases hx with h1 | h1 <;> exact hf t ht _ h1
  have hown : ts.any (fun t' => t'.owns l) = false := by
    rw [List.any_eq_false]
    intro t ht hx
    simp [LThread.owns] at hx
    exact hf t ht true hx
  have key : (∃ t ∈ ts, t.todo.head? = some (.own l)) → ∃ i, lockStep pref ts i ≠ none := by
    rintro ⟨t, ht, hx⟩
    obtain ⟨todo, held, waits⟩ := t
    cases todo with
    | nil => simp at hx
    | cons a r =>
      have ha : a = .own l := by simpa using hx
      subst ha
      exact step_of_act ht (t' := ⟨r, (l, true) :: held, false⟩) (by simp only [LThread.act]; rw [hh]; rfl)
  cases hq : ts.any (fun t' => t'.waitsFor l) with
  | true =>
    obtain ⟨t, ht, hx⟩ := List.any_eq_true.1 hq
    simp [LThread.waitsFor] at hx
    exact key ⟨t, ht, hx.2⟩
  | false =>
    obtain ⟨t, ht, hx | hx⟩ := hw
    · obtain ⟨todo, held, waits⟩ := t
      cases todo with
      | nil => simp at hx
      | cons a r =>
        have ha : a = .share l := by simpa using hx
        subst ha
        exact step_of_act ht (t' := ⟨r, (l, false) :: held, false⟩) (by simp only [LThread.act]; rw [hown, hq]; simp)
    · exact key ⟨t, ht, hx⟩

theorem no_deadlock (pref : Bool) {ts : List LThread} (hi : LockInv ts) (hn : ¬ AllOver ts) : ∃ i, lockStep pref ts i ≠ none := by
  -- actions that never wait
  by_cases hfree : ∃ t ∈ ts, (∃ l, t.todo.head? = some (.release l)) ∨ t.todo.head? = some .work
  · obtain ⟨⟨todo, held, waits⟩, ht, hx⟩ := hfree
    cases todo with
    | nil => simp at hx
    | cons a r =>
      simp at hx
      rcases hx with ⟨l, rfl⟩ | rfl
      · exact step_of_act ht (t' := ⟨r, dropHeld l held, false⟩) rfl
      · exact step_of_act ht (t' := ⟨r, held, false⟩) rfl
  · -- all are at their end or want to lock
    have hall : ∀ t ∈ ts, t.todo = [] ∨ ∃ l, t.todo.head? = some (.share l) ∨ t.todo.head? = some (.own l) := by
      intro t ht
      cases htd : t.todo with
      | nil => exact .inl rfl
      | cons a r =>
        cases a with
        | share l => exact .inr ⟨l, .inl rfl⟩
        | own l => exact .inr ⟨l, .inr rfl⟩
        | release l => exact absurd ⟨t, ht, .inl ⟨l, by rw [htd]; rfl⟩⟩ hfree
        | work => exact absurd ⟨t, ht, .inr (by rw [htd]; rfl)⟩ hfree
    -- the ones who want to lock may do so
    have hmay : ∀ t ∈ ts, ∀ l, t.todo.head? = some (.share l) ∨ t.todo.head? = some (.own l) → mayLock t.held l := by
      intro t ht l hl
      have ho := hi.ordered t ht
      cases htd : t.todo with
      | nil => rw [htd] at hl; simp at hl
      | cons a r =>
        rw [htd] at hl ho
        simp at hl
        rcases hl with rfl | rfl
        · exact ho.1
        · exact ho.1
    have hend : ∀ t ∈ ts, t.todo = [] → t.held = [] := by
      intro t ht h
      have ho := hi.ordered t ht
      rw [h] at ho
      exact ho
    -- nobody holds the mutex of an element registry
    have helem : ∀ t ∈ ts, ∀ d b, (Mutex.elems d, b) ∉ t.held := by
      intro t ht d b hm
      rcases hall t ht with h | ⟨l, h⟩
      · rw [hend t ht h] at hm; simp at hm
      · have := hmay t ht l h
        cases l with
        | types d' => have this : t.held = [] := this; rw [this] at hm; simp at hm
        | elems d' => have := this _ hm; simp [Mutex.isTypes] at this
    by_cases he : ∃ t ∈ ts, ∃ d, t.todo.head? = some (.share (.elems d)) ∨ t.todo.head? = some (.own (.elems d))
    · obtain ⟨t, ht, d, h⟩ := he
      exact free_mutex pref (.elems d) (fun t ht b => helem t ht d b) ⟨t, ht, h⟩
    · -- all want type registries, so that nobody holds anything
      have hnone : ∀ t ∈ ts, t.held = [] := by
        intro t ht
        rcases hall t ht with h | ⟨l, h⟩
        · exact hend t ht h
        · have := hmay t ht l h
          cases l with
          | types d' => exact this
          | elems d' => exact absurd ⟨t, ht, d', h⟩ he
      obtain ⟨t, ht, hne⟩ : ∃ t ∈ ts, t.todo ≠ [] := by
        apply Classical.byContradiction
        intro hc
        exact hn (fun t ht => Classical.byContradiction (fun hx => hc ⟨t, ht, hx⟩))
      rcases hall t ht with h | ⟨l, h⟩
      · exact absurd h hne
      · exact free_mutex pref l (fun t ht b => by rw [hnone t ht]; simp) ⟨t, ht, h⟩

def workLeft (ts : List LThread) : Nat := (ts.map LThread.work).sum

theorem sum_set_lt (f : LThread → Nat) : ∀ (ts : List LThread) (i : Nat) (t t' : LThread), ts[i]? = some t → f t' < f t →
    ((ts.set i t').map f).sum < (ts.map f).sum
  | [], i, t, t', h, _ => by simp at h
  | x :: ts, 0, t, t', h, hf => by simp at h; subst h; simp; omega
  | x :: ts, i + 1, t, t', h, hf => by
    have := sum_set_lt f ts i t t' (by simpa using h) hf
    rw [List.set_cons_succ, List.map_cons, List.map_cons, List.sum_cons, List.sum_cons]; omega

theorem step_left {pref : Bool} {ts ts' : List LThread} {i : Nat} (hi : LockInv ts) (h : lockStep pref ts i = some ts') :
    workLeft ts' < workLeft ts := by
  obtain ⟨t, t', h1, h2, rfl⟩ := lockStep_some h
  obtain ⟨-, k, -⟩ := act_cases h2 (hi.ordered t (List.mem_of_getElem? h1))
  exact sum_set_lt LThread.work ts i t t' h1 k

theorem lockRun_left {pref : Bool} : ∀ (is : List Nat) (ts ts' : List LThread), LockInv ts → lockRun pref is ts = some ts' → workLeft ts' + is.length ≤ workLeft ts
  | [], ts, ts', hi, h => by simp [lockRun] at h; subst h; simp
  | i :: is, ts, ts', hi, h => by
    simp only [lockRun, Option.bind_eq_some_iff] at h
    obtain ⟨ts1, h1, h2⟩ := h
    have a := lockRun_left is ts1 ts' (lockInv_step hi h1) h2
    have b := step_left hi h1
    simp; omega

theorem can_finish (pref : Bool) : ∀ (n : Nat) (ts : List LThread), workLeft ts ≤ n → LockInv ts → ∃ is ts', lockRun pref is ts = some ts' ∧ AllOver ts'
  | n, ts, hn, hi => by
    by_cases ho : AllOver ts
    · exact ⟨[], ts, rfl, ho⟩
    · obtain ⟨i, h⟩ := no_deadlock pref hi ho
      cases hs : lockStep pref ts i with
      | none => exact absurd hs h
      | some ts1 =>
        have := step_left hi hs
        match n, hn with
        | 0, hn => omega
        | n + 1, hn =>
          obtain ⟨is, ts', h1, h2⟩ := can_finish pref n ts1 (by omega) (lockInv_step hi hs)
          exact ⟨i :: is, ts', by simp [lockRun, hs, h1], h2⟩

theorem work_start (progs : List (List LCall)) : workLeft (lockThreads progs) = 2 * actsLeft (lockThreads progs) + progs.length := by
  induction progs with
  | nil => rfl
  | cons p progs ih =>
    unfold workLeft actsLeft lockThreads at *
    simp only [List.map_cons, List.sum_cons, List.length_cons, LThread.work] at *
    simp at *
    omega

end Dnmx
