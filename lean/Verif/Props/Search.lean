import Verif.Model.Sv

/-!
# C75: searching in string views
-/

namespace Dnmx.Props

/-- The characters at an address and after it. -/
def charsFrom (mem : Mem) (a n : Nat) : List UInt8 := (List.range n).map (fun i => mem (a + i))

theorem charsFrom_succ (mem : Mem) (a n : Nat) : charsFrom mem a (n + 1) = mem a :: charsFrom mem (a + 1) n := by
  unfold charsFrom
  rw [List.range_succ_eq_map, List.map_cons, List.map_map]
  congr 1
  apply List.map_congr_left
  intro i _
  simp only [Function.comp_apply]
  congr 1
  omega

theorem go_prefix (mem : Mem) (pre : List UInt8) : ∀ a n, pre.length ≤ n → (svStartsWith.go mem a pre = true ↔ pre <+: charsFrom mem a n) := by
  induction pre with
  | nil => intro a n _; simp [svStartsWith.go]
  | cons c pre ih =>
    intro a n hn
    obtain ⟨n, rfl⟩ : ∃ k, n = k + 1 := ⟨n - 1, by simp at hn; omega⟩
    rw [charsFrom_succ, List.cons_prefix_cons, ← ih (a + 1) n (by simpa using hn)]
    rw [svStartsWith.go]
    by_cases h : mem a = c
    · rw [if_pos h]; simp [h]
    · rw [if_neg h]
      constructor
      · intro h'; simp at h'
      · intro h'; exact absurd h'.1.symm h

/-- C75: `dnmx_sv_starts_with` says whether the prefix is one of the characters of the view. -/
theorem C75_starts_with (mem : Mem) (s : Sv) (pre : List UInt8) : svStartsWith mem s pre = true ↔ pre <+: s.chars mem := by
  unfold svStartsWith
  by_cases h : s.len < pre.length
  · rw [if_pos h]
    refine ⟨by simp, fun hp => ?_⟩
    have := hp.length_le
    simp [Sv.chars] at this
    omega
  · rw [if_neg h]
    by_cases h0 : s.len = 0 ∧ pre.length = 0
    · rw [if_pos h0]
      have : pre = [] := List.length_eq_zero_iff.1 h0.2
      simp [this]
    · rw [if_neg h0]
      exact go_prefix mem pre s.first s.len (by omega)

theorem memchr_none (mem : Mem) (q : UInt8) : ∀ n a, memchr mem q a n = none ↔ q ∉ charsFrom mem a n := by
  intro n
  induction n with
  | zero => intro a; simp [memchr, charsFrom]
  | succ n ih =>
    intro a
    rw [charsFrom_succ]
    unfold memchr
    by_cases h : mem a = q
    · simp [h]
    · rw [if_neg h, ih]
      simp only [List.mem_cons, not_or]
      exact ⟨fun h' => ⟨fun e => h e.symm, h'⟩, fun h' => h'.2⟩

theorem memchr_some (mem : Mem) (q : UInt8) : ∀ n a x, memchr mem q a n = some x ↔ a ≤ x ∧ x < a + n ∧ mem x = q ∧ ∀ y, a ≤ y → y < x → mem y ≠ q := by
  intro n
  induction n with
  | zero => intro a x; simp [memchr]; omega
  | succ n ih =>
    intro a x
    unfold memchr
    by_cases h : mem a = q
    · rw [if_pos h]
      constructor
      · intro e
        injection e with e
        subst e
        exact ⟨by omega, by omega, h, fun y h1 h2 => by omega⟩
      · rintro ⟨h1, h2, h3, h4⟩
        have : ¬ a < x := fun hlt => h4 a (by omega) hlt h
        rw [show a = x by omega]
    · rw [if_neg h, ih]
      constructor
      · rintro ⟨h1, h2, h3, h4⟩
        refine ⟨by omega, by omega, h3, fun y h5 h6 => ?_⟩
        by_cases hy : y = a
        · rw [hy]; exact h
        · exact h4 y (by omega) h6
      · rintro ⟨h1, h2, h3, h4⟩
        have : x ≠ a := fun e => h (e ▸ h3)
        exact ⟨by omega, by omega, h3, fun y h5 h6 => h4 y (by omega) h6⟩

/-- C75: `dnmx_sv_find_first` gives the first place of the character inside the view, and null if there is none. -/
theorem C75_find_first (mem : Mem) (s : Sv) (q : UInt8) :
    (∀ x, svFindFirst mem s q = some x ↔ s.first ≤ x ∧ x < s.last ∧ mem x = q ∧ ∀ y, s.first ≤ y → y < x → mem y ≠ q) ∧
    (svFindFirst mem s q = none ↔ q ∉ s.chars mem) := by
  unfold svFindFirst
  by_cases h : s.len = 0
  · rw [if_pos h]
    unfold Sv.len at h
    refine ⟨fun x => ⟨by simp, fun h' => by omega⟩, ?_⟩
    simp [Sv.chars, Sv.len, h]
  · rw [if_neg h]
    refine ⟨fun x => ?_, memchr_none mem q s.len s.first⟩
    rw [memchr_some]
    unfold Sv.len at h ⊢
    rw [show s.first + (s.last - s.first) = s.last by omega]

theorem findLast_go (mem : Mem) (s : Sv) (q : UInt8) : ∀ n,
    (∀ x, svFindLast.go mem s q n = some x ↔ s.first ≤ x ∧ x < s.first + n ∧ mem x = q ∧ ∀ y, x < y → y < s.first + n → mem y ≠ q) ∧
    (svFindLast.go mem s q n = none ↔ ∀ y, s.first ≤ y → y < s.first + n → mem y ≠ q) := by
  intro n
  induction n with
  | zero =>
    refine ⟨fun x => ?_, ?_⟩
    · simp [svFindLast.go]; omega
    · simp [svFindLast.go]; omega
  | succ n ih =>
    unfold svFindLast.go
    by_cases h : mem (s.first + n) = q
    · rw [if_pos h]
      refine ⟨fun x => ?_, ?_⟩
      · constructor
        · intro e
          injection e with e
          subst e
          exact ⟨by omega, by omega, h, fun y h1 h2 => by omega⟩
        · rintro ⟨h1, h2, h3, h4⟩
          have : ¬ x < s.first + n := fun hlt => h4 _ hlt (by omega) h
          rw [show s.first + n = x by omega]
      · constructor
        · intro e; simp at e
        · intro h'; exact absurd h (h' _ (by omega) (by omega))
    · rw [if_neg h]
      refine ⟨fun x => ?_, ?_⟩
      · rw [ih.1]
        constructor
        · rintro ⟨h1, h2, h3, h4⟩
          refine ⟨h1, by omega, h3, fun y h5 h6 => ?_⟩
          by_cases hy : y = s.first + n
          · rw [hy]; exact h
          · exact h4 y h5 (by omega)
        · rintro ⟨h1, h2, h3, h4⟩
          have : x ≠ s.first + n := fun e => h (e ▸ h3)
          exact ⟨h1, by omega, h3, fun y h5 h6 => h4 y h5 (by omega)⟩
      · rw [ih.2]
        constructor
        · intro h' y h5 h6
          by_cases hy : y = s.first + n
          · rw [hy]; exact h
          · exact h' y h5 (by omega)
        · intro h' y h5 h6
          exact h' y h5 (by omega)

theorem mem_chars {mem : Mem} {s : Sv} {q : UInt8} : q ∈ s.chars mem ↔ ∃ y, s.first ≤ y ∧ y < s.first + s.len ∧ mem y = q := by
  unfold Sv.chars
  rw [List.mem_map]
  constructor
  · rintro ⟨i, h1, h2⟩
    rw [List.mem_range] at h1
    exact ⟨s.first + i, by omega, by omega, h2⟩
  · rintro ⟨y, h1, h2, h3⟩
    refine ⟨y - s.first, by rw [List.mem_range]; omega, ?_⟩
    rw [show s.first + (y - s.first) = y by omega]
    exact h3

/-- C75: `dnmx_sv_find_last` gives the last place of the character inside the view, and null if there is none. -/
theorem C75_find_last (mem : Mem) (s : Sv) (q : UInt8) :
    (∀ x, svFindLast mem s q = some x ↔ s.first ≤ x ∧ x < s.last ∧ mem x = q ∧ ∀ y, x < y → y < s.last → mem y ≠ q) ∧
    (svFindLast mem s q = none ↔ q ∉ s.chars mem) := by
  obtain ⟨h1, h2⟩ := findLast_go mem s q s.len
  unfold svFindLast
  refine ⟨fun x => ?_, ?_⟩
  · rw [h1]
    unfold Sv.len
    constructor
    · rintro ⟨a, b, c, e⟩
      exact ⟨a, by omega, c, fun y g1 g2 => e y g1 (by omega)⟩
    · rintro ⟨a, b, c, e⟩
      exact ⟨a, by omega, c, fun y g1 g2 => e y g1 (by omega)⟩
  · rw [h2, mem_chars]
    constructor
    · rintro h ⟨y, g1, g2, g3⟩; exact h y g1 g2 g3
    · intro h y g1 g2 g3; exact h ⟨y, g1, g2, g3⟩

/-- Text of the example: "abab" at 8. -/
def seekMem : Mem := fun a => if a = 8 ∨ a = 10 then 97 else if a = 9 ∨ a = 11 then 98 else 0

example : svStartsWith seekMem ⟨8, 12⟩ [97, 98, 97] = true ∧ svStartsWith seekMem ⟨8, 12⟩ [97, 98, 97, 98] = true ∧
    svStartsWith seekMem ⟨8, 10⟩ [97, 98, 97] = false ∧ svStartsWith seekMem ⟨0, 0⟩ [] = true ∧ svStartsWith seekMem ⟨8, 12⟩ [98] = false ∧
    svFindFirst seekMem ⟨8, 12⟩ 98 = some 9 ∧ svFindLast seekMem ⟨8, 12⟩ 98 = some 11 ∧ svFindLast seekMem ⟨8, 11⟩ 98 = some 9 ∧
    svFindFirst seekMem ⟨8, 9⟩ 98 = none ∧ svFindLast seekMem ⟨0, 0⟩ 98 = none := by decide

end Dnmx.Props
