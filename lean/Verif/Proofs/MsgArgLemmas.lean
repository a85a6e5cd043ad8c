import Verif.Spec.MsgArgs

/-!
# Lemmas on the arguments of messages
-/

set_option linter.unusedSimpArgs false
set_option linter.unusedVariables false

namespace Dnmx
open Spec

variable {σ R : Type}

theorem taken_congr (n : Nat) (x : Nat) (hx : x < n) : ∀ (ks : List Pass) (as : List Arg) (m m' : Nat → Val), (∀ y, y < n → m y = m' y) →
    argsTaken ks as m x = argsTaken ks as m' x := by
  intro ks
  induction ks with
  | nil => intro as m m' h; simp [argsTaken, h x hx]
  | cons k ks ih =>
    intro as m m' h
    cases as with
    | nil => cases k <;> simp [argsTaken, h x hx]
    | cons a as =>
      cases k <;> simp only [argsTaken]
      · split
        · exact ih _ _ _ (fun y hy => by split <;> simp_all)
        · exact ih _ _ _ h
      all_goals exact ih _ _ _ h

/-- The variables of parameters: new ones from `lo` on, in increasing order, for parameters by value. -/
def CRel (hi : Nat) : Nat → List Pass → List Nat → List Nat → Prop
  | lo, k :: ks, a :: as, c :: cs => if k = .value then lo ≤ c ∧ c < hi ∧ CRel hi (c + 1) ks as cs else c = a ∧ CRel hi lo ks as cs
  | _, [], [], [] => True
  | _, _, _, _ => False

theorem CRel.mono {hi hi' : Nat} (h : hi ≤ hi') : ∀ {ks lo as cs}, CRel hi lo ks as cs → CRel hi' lo ks as cs := by
  intro ks
  induction ks with
  | nil => intro lo as cs; cases as <;> cases cs <;> simp [CRel]
  | cons k ks ih =>
    intro lo as cs
    cases as <;> cases cs <;> simp only [CRel, imp_self]
    split
    · intro ⟨a, b, c⟩; exact ⟨a, by omega, ih c⟩
    · intro ⟨a, b⟩; exact ⟨a, ih b⟩

theorem CRel.lower {hi : Nat} : ∀ {ks lo lo' as cs}, lo' ≤ lo → CRel hi lo ks as cs → CRel hi lo' ks as cs := by
  intro ks
  induction ks with
  | nil => intro lo lo' as cs; cases as <;> cases cs <;> simp [CRel]
  | cons k ks ih =>
    intro lo lo' as cs h
    cases as <;> cases cs <;> simp only [CRel, imp_self]
    split
    · intro ⟨a, b, c⟩; exact ⟨by omega, b, c⟩
    · intro ⟨a, b⟩; exact ⟨a, ih h b⟩

/-- Initialization of parameters. -/
theorem bindParams_ok : ∀ (ks : List Pass) (as : List Arg) (st : Store), as.length = ks.length → (∀ a ∈ as, a.cell < st.next) →
    as.Pairwise (fun a b => a.rv = true ∨ b.rv = true → a.cell ≠ b.cell) →
    (bindParams ks as st).1.map (bindParams ks as st).2.val = as.map (fun a => st.val a.cell) ∧
    (∀ x, x < st.next → (bindParams ks as st).2.val x = argsTaken ks as st.val x) ∧
    st.next ≤ (bindParams ks as st).2.next ∧
    CRel (bindParams ks as st).2.next st.next ks (as.map Arg.cell) (bindParams ks as st).1 ∧
    (bindParams ks as st).2.copies = st.copies + made false ks as ∧ (bindParams ks as st).2.moves = st.moves + made true ks as ∧
    (∀ x, (∀ a ∈ as, a.rv = true → x ≠ a.cell) → x < st.next → (bindParams ks as st).2.val x = st.val x) := by
  intro ks
  induction ks with
  | nil => intro as st hl _ _; cases as <;> simp [bindParams, argsTaken, CRel, made] at *
  | cons k ks ih =>
    intro as st hl hk hp
    cases as with
    | nil => simp at hl
    | cons a as =>
      simp only [List.length_cons, Nat.add_right_cancel_iff] at hl
      simp only [List.mem_cons, forall_eq_or_imp] at hk
      rw [List.pairwise_cons] at hp
      obtain ⟨ha, hk⟩ := hk
      obtain ⟨hp1, hp⟩ := hp
      by_cases hv : k = .value
      · subst hv
        -- the state after the first parameter
        obtain ⟨st', hst', hn, hval, hc, hm⟩ : ∃ st' : Store, bindParam .value a st = (st.next, st') ∧ st'.next = st.next + 1 ∧
            (∀ x, st'.val x = if x = st.next then st.val a.cell else if a.rv = true ∧ x = a.cell then none else st.val x) ∧
            st'.copies = st.copies + (if a.rv = false then 1 else 0) ∧ st'.moves = st.moves + (if a.rv = true then 1 else 0) := by
          simp only [bindParam]
          cases hrv : a.rv
          · refine ⟨_, by simp; rfl, rfl, fun x => ?_, ?_, ?_⟩ <;> simp
          · refine ⟨_, by simp; rfl, rfl, fun x => ?_, ?_, ?_⟩ <;> simp
        have hb : bindParams (.value :: ks) (a :: as) st = (st.next :: (bindParams ks as st').1, (bindParams ks as st').2) := by
          simp only [bindParams, hst']
        obtain ⟨i1, i2, i3, i4, i5, i6, i7⟩ := ih as st' hl (fun b hb => by have := hk b hb; omega) hp
        have hsame : ∀ b ∈ as, st'.val b.cell = st.val b.cell := by
          intro b hb
          have h1 := hk b hb
          have h2 := hp1 b hb
          rw [hval]
          rw [if_neg (by omega)]
          split
          · rename_i h; exact absurd h.2.symm (h2 (.inl h.1))
          · rfl
        have hkeep : (bindParams ks as st').2.val st.next = st.val a.cell := by
          rw [i7 st.next (fun b hb _ => by have := hk b hb; omega) (by omega), hval]; simp
        rw [hb]
        refine ⟨?_, ?_, ?_, ?_, ?_, ?_, ?_⟩
        · simp only [List.map_cons, hkeep, i1]
          congr 1
          exact List.map_congr_left hsame
        · intro x hx
          show (bindParams ks as st').2.val x = _
          rw [i2 x (by omega)]
          simp only [argsTaken]
          cases hrv : a.rv
          · simp only [Bool.false_eq_true, if_false]
            exact taken_congr st.next x hx _ _ _ _ (fun y hy => by rw [hval, if_neg (by omega)]; simp [hrv])
          · simp only [if_true]
            exact taken_congr st.next x hx _ _ _ _ (fun y hy => by rw [hval, if_neg (by omega)]; simp [hrv])
        · show st.next ≤ (bindParams ks as st').2.next; omega
        · simp only [List.map_cons, CRel, if_true]
          refine ⟨Nat.le_refl _, by omega, ?_⟩
          rw [← hn]; exact i4
        · show (bindParams ks as st').2.copies = _
          rw [i5, hc]; simp only [made]; omega
        · show (bindParams ks as st').2.moves = _
          rw [i6, hm]; simp only [made]; omega
        · intro x h1 h2
          show (bindParams ks as st').2.val x = _
          rw [i7 x (fun b hb => h1 b (List.mem_cons_of_mem _ hb)) (by omega), hval, if_neg (by omega)]
          split
          · rename_i h; exact absurd h.2 (h1 a (List.mem_cons_self ..) h.1)
          · rfl
      · have hst' : bindParam k a st = (a.cell, st) := by cases k <;> simp [bindParam] at *
        have hb : bindParams (k :: ks) (a :: as) st = (a.cell :: (bindParams ks as st).1, (bindParams ks as st).2) := by
          simp only [bindParams, hst']
        obtain ⟨i1, i2, i3, i4, i5, i6, i7⟩ := ih as st hl hk hp
        have hkeep : (bindParams ks as st).2.val a.cell = st.val a.cell :=
          i7 a.cell (fun b hb hr => hp1 b hb (.inr hr)) ha
        rw [hb]
        refine ⟨?_, ?_, i3, ?_, ?_, ?_, ?_⟩
        · simp only [List.map_cons, hkeep, i1]
        · intro x hx
          show (bindParams ks as st).2.val x = _
          rw [i2 x hx]; cases k <;> simp [argsTaken] at *
        · simp only [List.map_cons, CRel, if_neg hv]
          exact ⟨trivial, i4⟩
        · show (bindParams ks as st).2.copies = _
          rw [i5]; cases k <;> simp [made] at *
        · show (bindParams ks as st).2.moves = _
          rw [i6]; cases k <;> simp [made] at *
        · intro x h1 h2
          exact i7 x (fun b hb => h1 b (List.mem_cons_of_mem _ hb)) h2

/-! ## Giving parameters on -/

theorem CRel.len {hi : Nat} : ∀ {ks lo as cs}, CRel hi lo ks as cs → as.length = ks.length ∧ cs.length = ks.length := by
  intro ks
  induction ks with
  | nil => intro lo as cs; cases as <;> cases cs <;> simp [CRel]
  | cons k ks ih =>
    intro lo as cs
    cases as <;> cases cs <;> simp only [CRel, false_imp_iff]
    split
    · intro ⟨_, _, c⟩; simp [ih c]
    · intro ⟨_, c⟩; simp [ih c]

/-- All of the variables of parameters are known. -/
theorem CRel.below {hi n : Nat} (hn : n ≤ hi) : ∀ {ks lo as cs}, CRel hi lo ks as cs → (∀ a ∈ as, a < n) → ∀ c ∈ cs, c < hi := by
  intro ks
  induction ks with
  | nil => intro lo as cs; cases as <;> cases cs <;> simp [CRel]
  | cons k ks ih =>
    intro lo as cs
    cases as <;> cases cs <;> simp only [CRel, false_imp_iff]
    split
    · intro ⟨a, b, c⟩ h x hx
      rcases List.mem_cons.1 hx with rfl | hx
      · exact b
      · exact ih c (fun y hy => h y (List.mem_cons_of_mem _ hy)) x hx
    · intro ⟨a, b⟩ h x hx
      rcases List.mem_cons.1 hx with rfl | hx
      · have := h _ (List.mem_cons_self ..); omega
      · exact ih b (fun y hy => h y (List.mem_cons_of_mem _ hy)) x hx

theorem lvArgs_facts (cs : List Nat) : (lvArgs cs).length = cs.length ∧
    (lvArgs cs).Pairwise (fun a b => a.rv = true ∨ b.rv = true → a.cell ≠ b.cell) ∧ (lvArgs cs).map Arg.cell = cs ∧
    (∀ a ∈ lvArgs cs, a.rv = false) := by
  unfold lvArgs
  refine ⟨by simp, ?_, ?_, by simp⟩
  · rw [List.pairwise_map]; simp only [Bool.false_eq_true, or_self, false_imp_iff]; exact List.pairwise_of_forall (fun _ _ => trivial)
  · rw [List.map_map]; exact List.map_id'' (fun _ => rfl) cs

theorem fwdArgs_cells : ∀ (ks : List Pass) (cs : List Nat), cs.length = ks.length → (fwdArgs ks cs).map Arg.cell = cs ∧
    (fwdArgs ks cs).length = ks.length := by
  intro ks
  induction ks with
  | nil => intro cs h; cases cs <;> simp [fwdArgs] at *
  | cons k ks ih =>
    intro cs h
    cases cs with
    | nil => simp at h
    | cons c cs => simp at h; simp [fwdArgs, fwdArg, ih cs h]

/-- Forwarded parameters are new variables or arguments of the caller. -/
theorem fwdArgs_mem {hi : Nat} : ∀ {ks : List Pass} {as : List Arg} {cs lo}, CRel hi lo ks (as.map Arg.cell) cs →
    (∀ (i : Nat) k a, ks[i]? = some k → as[i]? = some a → argFits k a) →
    ∀ b ∈ fwdArgs ks cs, lo ≤ b.cell ∨ ∃ a ∈ as, b.cell = a.cell ∧ (b.rv = true → a.rv = true) := by
  intro ks
  induction ks with
  | nil => intro as cs lo h _ b hb; cases cs <;> simp [fwdArgs] at hb
  | cons k ks ih =>
    intro as cs lo h hf b hb
    cases as with
    | nil => cases cs <;> simp [CRel] at h
    | cons a as =>
      cases cs with
      | nil => simp [CRel] at h
      | cons c cs =>
        simp only [List.map_cons, CRel] at h
        have hf' : ∀ (i : Nat) k a, ks[i]? = some k → as[i]? = some a → argFits k a := fun i k' a' h1 h2 => hf (i + 1) k' a' (by simpa using h1) (by simpa using h2)
        have hf0 := hf 0 k a (by simp) (by simp)
        simp only [fwdArgs] at hb
        by_cases hv : k = .value
        · rw [if_pos hv] at h
          rcases List.mem_cons.1 hb with rfl | hb
          · left; exact h.1
          · rcases ih h.2.2 hf' b hb with h1 | ⟨x, h1, h2⟩
            · left; have := h.1; omega
            · right; exact ⟨x, List.mem_cons_of_mem _ h1, h2⟩
        · rw [if_neg hv] at h
          rcases List.mem_cons.1 hb with rfl | hb
          · right
            refine ⟨a, List.mem_cons_self .., h.1, ?_⟩
            cases k <;> simp [fwdArg, argFits] at *
            exact hf0
          · rcases ih h.2 hf' b hb with h1 | ⟨x, h1, h2⟩
            · left; exact h1
            · right; exact ⟨x, List.mem_cons_of_mem _ h1, h2⟩

theorem fwdArgs_once {hi n : Nat} : ∀ {ks : List Pass} {as : List Arg} {cs lo}, CRel hi lo ks (as.map Arg.cell) cs →
    (∀ (i : Nat) k a, ks[i]? = some k → as[i]? = some a → argFits k a) → (∀ a ∈ as, a.cell < n) → n ≤ lo →
    as.Pairwise (fun a b => a.rv = true ∨ b.rv = true → a.cell ≠ b.cell) →
    (fwdArgs ks cs).Pairwise (fun a b => a.rv = true ∨ b.rv = true → a.cell ≠ b.cell) := by
  intro ks
  induction ks with
  | nil => intro as cs lo h _ _ _ _; cases cs <;> simp [fwdArgs]
  | cons k ks ih =>
    intro as cs lo h hf hk hn hp
    cases as with
    | nil => cases cs <;> simp [CRel] at h
    | cons a as =>
      cases cs with
      | nil => simp [CRel] at h
      | cons c cs =>
        simp only [List.map_cons, CRel] at h
        have hf' : ∀ (i : Nat) k a, ks[i]? = some k → as[i]? = some a → argFits k a := fun i k' a' h1 h2 => hf (i + 1) k' a' (by simpa using h1) (by simpa using h2)
        have hf0 := hf 0 k a (by simp) (by simp)
        have hk' : ∀ a ∈ as, a.cell < n := fun x hx => hk x (List.mem_cons_of_mem _ hx)
        have ha := hk a (List.mem_cons_self ..)
        rw [List.pairwise_cons] at hp
        simp only [fwdArgs, List.pairwise_cons]
        by_cases hv : k = .value
        · rw [if_pos hv] at h
          refine ⟨fun b hb _ => ?_, ih h.2.2 hf' hk' (by omega) hp.2⟩
          simp only [fwdArg]
          rcases fwdArgs_mem h.2.2 hf' b hb with h1 | ⟨x, h1, h2, -⟩
          · omega
          · have := hk' x h1; have := h.1; omega
        · rw [if_neg hv] at h
          refine ⟨fun b hb hr => ?_, ih h.2 hf' hk' hn hp.2⟩
          simp only [fwdArg]
          rw [h.1]
          rcases fwdArgs_mem h.2 hf' b hb with h1 | ⟨x, h1, h2, h3⟩
          · omega
          · rw [h2]
            refine hp.1 x h1 ?_
            rcases hr with hr | hr
            · left; cases k <;> simp [fwdArg, argFits] at *; exact hf0
            · exact .inr (h3 hr)

theorem taken_lv : ∀ (ks : List Pass) (cs : List Nat) (m : Nat → Val), argsTaken ks (lvArgs cs) m = m := by
  intro ks
  induction ks with
  | nil => intro cs m; simp [argsTaken]
  | cons k ks ih =>
    intro cs m
    cases cs with
    | nil => cases k <;> simp [argsTaken, lvArgs]
    | cons c cs =>
      have := ih cs m
      unfold lvArgs at this ⊢
      cases k <;> simp [argsTaken, this]

theorem taken_fwd {hi x : Nat} : ∀ {ks : List Pass} {as : List Nat} {cs lo} (m m' : Nat → Val), CRel hi lo ks as cs → x < lo → m x = m' x →
    argsTaken ks (fwdArgs ks cs) m x = m' x := by
  intro ks
  induction ks with
  | nil => intro as cs lo m m' h hx hm; simpa [argsTaken] using hm
  | cons k ks ih =>
    intro as cs lo m m' h hx hm
    cases as with
    | nil => cases cs <;> simp [CRel] at h
    | cons a as =>
      cases cs with
      | nil => simp [CRel] at h
      | cons c cs =>
        simp only [CRel] at h
        cases k
        · simp only [if_true] at h
          simp only [fwdArgs, fwdArg, argsTaken, if_true]
          exact ih _ _ h.2.2 (by omega) (by rw [if_neg (by omega)]; exact hm)
        all_goals
          rw [if_neg (by decide)] at h
          simp only [fwdArgs, fwdArg, argsTaken, if_true]
          exact ih _ _ h.2 hx hm

theorem taken_own {hi x n : Nat} (hx : x < n) : ∀ {ks own : List Pass} {as : List Arg} {cs lo} (m m' : Nat → Val), CRel hi lo ks (as.map Arg.cell) cs →
    n ≤ lo → (∀ y, y < n → m y = m' y) → own.length = ks.length →
    argsTaken own (fwdArgs ks cs) m x = takenBy ks own as m' x := by
  intro ks
  induction ks with
  | nil =>
    intro own as cs lo m m' h hn hm hl
    cases own with
    | nil => simp [argsTaken, takenBy, hm x hx]
    | cons o own => simp at hl
  | cons k ks ih =>
    intro own as cs lo m m' h hn hm hl
    cases own with
    | nil => simp at hl
    | cons o own =>
      simp only [List.length_cons, Nat.add_right_cancel_iff] at hl
      cases as with
      | nil => cases cs <;> simp [CRel] at h
      | cons a as =>
        cases cs with
        | nil => simp [CRel] at h
        | cons c cs =>
          simp only [List.map_cons, CRel] at h
          cases k
          · simp only [if_true] at h
            cases o
            · simp only [fwdArgs, fwdArg, argsTaken, takenBy, if_true]
              exact ih _ _ h.2.2 (by omega) (fun y hy => by rw [if_neg (by omega)]; exact hm y hy) hl
            all_goals
              simp only [fwdArgs, fwdArg, argsTaken, takenBy]
              exact ih _ _ h.2.2 (by omega) hm hl
          all_goals
            rw [if_neg (by decide)] at h
            cases o <;> simp only [fwdArgs, fwdArg, argsTaken, takenBy, if_true, Bool.false_eq_true, if_false] <;>
              first
              | exact ih _ _ h.2 hn hm hl
              | exact ih _ _ h.2 hn (fun y hy => by rw [h.1]; split <;> simp_all) hl

theorem seen_congr : ∀ (ks : List Pass) (as : List Arg) (vs : List Val) (m m' : Nat → Val), (∀ a ∈ as, m a.cell = m' a.cell) →
    seen ks as vs m = seen ks as vs m' := by
  intro ks
  induction ks with
  | nil => intro as vs m m' h; simp [seen]
  | cons k ks ih =>
    intro as vs m m' h
    cases as with
    | nil => cases k <;> simp [seen]
    | cons a as =>
      cases vs with
      | nil => cases k <;> simp [seen]
      | cons v vs =>
        have := ih as vs m m' (fun x hx => h x (List.mem_cons_of_mem _ hx))
        have h0 := h a (List.mem_cons_self ..)
        cases k <;> simp [seen, this, h0]

/-- The variables of parameters have the right values as long as the new ones are not changed. -/
theorem seen_keep {hi : Nat} : ∀ {ks : List Pass} {as : List Arg} {vs : List Val} {cs lo} (m m' : Nat → Val),
    CRel hi lo ks (as.map Arg.cell) cs → vs.length = ks.length → cs.map m = seen ks as vs m → (∀ y, lo ≤ y → y < hi → m' y = m y) →
    cs.map m' = seen ks as vs m' := by
  intro ks
  induction ks with
  | nil => intro as vs cs lo m m' h hl hs hk; cases as <;> cases cs <;> simp [CRel, seen] at *
  | cons k ks ih =>
    intro as vs cs lo m m' h hl hs hk
    cases as with
    | nil => cases cs <;> simp [CRel] at h
    | cons a as =>
      cases cs with
      | nil => simp [CRel] at h
      | cons c cs =>
        cases vs with
        | nil => simp at hl
        | cons v vs =>
          simp only [List.length_cons, Nat.add_right_cancel_iff] at hl
          simp only [List.map_cons, CRel] at h
          cases k
          · simp only [if_true] at h
            simp only [List.map_cons, seen, List.cons.injEq] at hs ⊢
            exact ⟨by rw [hk c h.1 h.2.1]; exact hs.1, ih m m' h.2.2 hl hs.2 (fun y h1 h2 => hk y (by omega) h2)⟩
          all_goals
            rw [if_neg (by decide)] at h
            simp only [List.map_cons, seen, List.cons.injEq] at hs ⊢
            exact ⟨by rw [h.1], ih m m' h.2 hl hs.2 hk⟩

/-- At the start of a call the parameters have the values of the arguments. -/
theorem seen_start : ∀ (ks : List Pass) (as : List Arg) (m : Nat → Val), as.length = ks.length →
    seen ks as (as.map (fun a => m a.cell)) m = as.map (fun a => m a.cell) := by
  intro ks
  induction ks with
  | nil => intro as m h; cases as <;> simp [seen] at *
  | cons k ks ih =>
    intro as m h
    cases as with
    | nil => simp at h
    | cons a as =>
      simp at h
      cases k <;> simp [seen, ih as m h]

/-! ## Writes -/

/-- Where an implementation with parameters `own` writes. -/
def ERel (lo : Nat) : List Pass → List Pass → List Arg → List Nat → Prop
  | k :: ks, o :: own, a :: as, c :: cs =>
    (if o = .cref then True else if k = o ∧ (k = .ref ∨ k = .rref) then c = a.cell else lo ≤ c) ∧ ERel lo ks own as cs
  | [], [], [], [] => True
  | _, _, _, _ => False

theorem writeBack_ok {lo n : Nat} (hn : n ≤ lo) : ∀ {ks own : List Pass} {as : List Arg} {cs : List Nat} (vs : List Val) (st : Store) (m : Nat → Val),
    ERel lo ks own as cs → (∀ a ∈ as, a.cell < n) → (∀ y, y < n → st.val y = m y) →
    (∀ x, x < n → (writeBack own cs vs st).val x = left ks own as vs m x) ∧
    (∀ x, n ≤ x → x < lo → (writeBack own cs vs st).val x = st.val x) ∧ (writeBack own cs vs st).next = st.next ∧
    (writeBack own cs vs st).copies = st.copies ∧ (writeBack own cs vs st).moves = st.moves := by
  intro ks
  induction ks with
  | nil =>
    intro own as cs vs st m h hk hm
    cases own <;> cases as <;> cases cs <;> simp [ERel] at h
    simp [writeBack, left]; exact hm
  | cons k ks ih =>
    intro own as cs vs st m h hk hm
    cases own <;> cases as <;> cases cs <;> simp only [ERel] at h
    rename_i o own a as c cs
    cases vs with
    | nil => cases k <;> cases o <;> (simp [writeBack, left]; exact hm)
    | cons v vs =>
      have hk' : ∀ a ∈ as, a.cell < n := fun x hx => hk x (List.mem_cons_of_mem _ hx)
      have ha := hk a (List.mem_cons_self ..)
      -- a write outside
      have hout : ∀ {w : Val}, lo ≤ c → (∀ x, x < n → (writeBack own cs vs (st.set c w)).val x = left ks own as vs m x) ∧
          (∀ x, n ≤ x → x < lo → (writeBack own cs vs (st.set c w)).val x = st.val x) ∧ (writeBack own cs vs (st.set c w)).next = st.next ∧
          (writeBack own cs vs (st.set c w)).copies = st.copies ∧ (writeBack own cs vs (st.set c w)).moves = st.moves := by
        intro w hc
        obtain ⟨i1, i2, i3, i4⟩ := ih vs (st.set c w) m h.2 hk' (fun y hy => by
          show (if y = c then w else st.val y) = _
          rw [if_neg (by omega)]; exact hm y hy)
        refine ⟨i1, fun x h1 h2 => ?_, i3, i4⟩
        rw [i2 x h1 h2]
        show (if x = c then w else st.val x) = _
        rw [if_neg (by omega)]
      have hin : ∀ {w : Val}, c = a.cell → (∀ x, x < n → (writeBack own cs vs (st.set c w)).val x = left ks own as vs (fun x => if x = a.cell then w else m x) x) ∧
          (∀ x, n ≤ x → x < lo → (writeBack own cs vs (st.set c w)).val x = st.val x) ∧ (writeBack own cs vs (st.set c w)).next = st.next ∧
          (writeBack own cs vs (st.set c w)).copies = st.copies ∧ (writeBack own cs vs (st.set c w)).moves = st.moves := by
        intro w hc
        obtain ⟨i1, i2, i3, i4⟩ := ih vs (st.set c w) (fun x => if x = a.cell then w else m x) h.2 hk' (fun y hy => by
          show (if y = c then w else st.val y) = _
          rw [hc]; split
          · rfl
          · exact hm y hy)
        refine ⟨i1, fun x h1 h2 => ?_, i3, i4⟩
        rw [i2 x h1 h2]
        show (if x = c then w else st.val x) = _
        rw [if_neg (by omega)]
      have hno := ih vs st m h.2 hk' hm
      have h1 := h.1
      cases k <;> cases o <;> simp [writeBack, left] at h1 ⊢ <;> first | exact hno | exact hout h1 | exact hin h1

theorem ERel_plain {hi : Nat} : ∀ {ks : List Pass} {as : List Arg} {cs lo}, CRel hi lo ks (as.map Arg.cell) cs → ERel lo ks ks as cs := by
  intro ks
  induction ks with
  | nil => intro as cs lo h; cases as <;> cases cs <;> simp [CRel, ERel] at *
  | cons k ks ih =>
    intro as cs lo h
    cases as <;> cases cs <;> simp only [List.map_nil, List.map_cons, CRel] at h
    rename_i a as c cs
    have hlow : ∀ {lo lo' : Nat} {ks own as cs}, lo' ≤ lo → ERel lo ks own as cs → ERel lo' ks own as cs := by
      intro lo lo' ks
      induction ks with
      | nil => intro own as cs _; cases own <;> cases as <;> cases cs <;> simp [ERel]
      | cons k ks ih =>
        intro own as cs hl
        cases own <;> cases as <;> cases cs <;> simp only [ERel, imp_self]
        rename_i o own b bs d ds
        intro ⟨h1, h2⟩
        refine ⟨?_, ih hl h2⟩
        by_cases a1 : o = .cref
        · rw [if_pos a1]; trivial
        · rw [if_neg a1] at h1 ⊢
          by_cases a2 : k = o ∧ (k = .ref ∨ k = .rref)
          · rw [if_pos a2] at h1 ⊢; exact h1
          · rw [if_neg a2] at h1 ⊢; omega
    cases k
    · simp only [if_true] at h
      exact ⟨by simp [h.1], hlow (by omega) (ih h.2.2)⟩
    all_goals
      rw [if_neg (by decide)] at h
      exact ⟨by simp [h.1], ih h.2⟩

theorem ERel_own {hi hi' : Nat} : ∀ {ks own : List Pass} {as : List Arg} {cs ds lo lo'}, CRel hi lo ks (as.map Arg.cell) cs → CRel hi' lo' own cs ds →
    (∀ (i : Nat) o k, own[i]? = some o → ks[i]? = some k → ownFits o k) → ∀ l, l ≤ lo → l ≤ lo' → ERel l ks own as ds := by
  intro ks
  induction ks with
  | nil => intro own as cs ds lo lo' h h' _; cases as <;> cases cs <;> cases own <;> cases ds <;> simp [CRel, ERel] at *
  | cons k ks ih =>
    intro own as cs ds lo lo' h h' hf l hl hl'
    cases as <;> cases cs <;> simp only [List.map_nil, List.map_cons, CRel] at h
    cases own <;> cases ds <;> simp only [CRel] at h'
    rename_i a as c cs o own d ds
    have hf' : ∀ (i : Nat) o k, own[i]? = some o → ks[i]? = some k → ownFits o k := fun i k' a' h1 h2 => hf (i + 1) k' a' (by simpa using h1) (by simpa using h2)
    have hf0 := hf 0 o k (by simp) (by simp)
    simp only [ERel]
    constructor
    · cases k <;> cases o <;> simp [ownFits] at * <;> first | omega | (have := h.1; have := h'.1; omega) | (rw [h'.1]; exact h.1)
    · by_cases hv : k = .value
      · rw [if_pos hv] at h
        by_cases ho : o = .value
        · rw [if_pos ho] at h'; exact ih h.2.2 h'.2.2 hf' l (by omega) (by omega)
        · rw [if_neg ho] at h'; exact ih h.2.2 h'.2 hf' l (by omega) (by omega)
      · rw [if_neg hv] at h
        by_cases ho : o = .value
        · rw [if_pos ho] at h'; exact ih h.2 h'.2.2 hf' l (by omega) (by omega)
        · rw [if_neg ho] at h'; exact ih h.2 h'.2 hf' l (by omega) (by omega)

/-! ## Counts -/

theorem made_lv : ∀ (ks : List Pass) (cs : List Nat), cs.length = ks.length → made false ks (lvArgs cs) = byValue ks ∧ made true ks (lvArgs cs) = 0 := by
  intro ks
  induction ks with
  | nil => intro cs h; simp [made, byValue]
  | cons k ks ih =>
    intro cs h
    cases cs with
    | nil => simp at h
    | cons c cs =>
      simp at h
      have := ih cs h
      unfold lvArgs byValue at this ⊢
      cases k <;> simp [made, this]

theorem made_fwd : ∀ (ks : List Pass) (cs : List Nat), cs.length = ks.length → made false ks (fwdArgs ks cs) = 0 ∧ made true ks (fwdArgs ks cs) = byValue ks := by
  intro ks
  induction ks with
  | nil => intro cs h; simp [made, byValue]
  | cons k ks ih =>
    intro cs h
    cases cs with
    | nil => simp at h
    | cons c cs =>
      simp at h
      have := ih cs h
      unfold byValue at this ⊢
      cases k <;> simp [made, fwdArgs, fwdArg, this]

theorem made_own : ∀ (ks own : List Pass) (cs : List Nat), cs.length = ks.length → own.length = ks.length →
    made false own (fwdArgs ks cs) = ownCopies ks own ∧ made true own (fwdArgs ks cs) = ownMoves ks own := by
  intro ks
  induction ks with
  | nil => intro own cs h h'; cases own <;> simp [made, ownCopies, ownMoves] at *
  | cons k ks ih =>
    intro own cs h h'
    cases cs with
    | nil => simp at h
    | cons c cs =>
      cases own with
      | nil => simp at h'
      | cons o own =>
        simp at h h'
        have := ih own cs h h'
        cases k <;> cases o <;> simp [made, fwdArgs, fwdArg, ownCopies, ownMoves, this]

end Dnmx
