import Verif.Model.Sv
import Verif.Spec.Order

namespace Dnmx
open Spec

/-- characters starting at an address -/
def charsFrom (mem : Mem) (a : Nat) : Nat → List UInt8
  | 0 => []
  | n + 1 => mem a :: charsFrom mem (a + 1) n

theorem charsFrom_eq (mem : Mem) : ∀ (n a : Nat), (List.range n).map (fun i => mem (a + i)) = charsFrom mem a n := by
  intro n
  induction n with
  | zero => intro a; rfl
  | succ n ih =>
    intro a
    rw [List.range_succ_eq_map]
    simp only [List.map_cons, List.map_map, charsFrom, Nat.add_zero, List.cons.injEq, true_and]
    rw [← ih (a + 1)]
    apply List.map_congr_left
    intro i _
    simp only [Function.comp_apply]
    congr 1; omega

theorem chars_eq (mem : Mem) (s : Sv) : s.chars mem = charsFrom mem s.first s.len := charsFrom_eq ..

@[simp] theorem charsFrom_length (mem : Mem) : ∀ (n a : Nat), (charsFrom mem a n).length = n := by
  intro n
  induction n with
  | zero => intro a; rfl
  | succ n ih => intro a; simp [charsFrom, ih]

theorem lexBefore_irrefl : ∀ l, ¬ LexBefore l l := by
  intro l
  induction l with
  | nil => intro h; cases h
  | cons c cs ih =>
    intro h
    cases h with
    | head _ _ h => exact absurd h (UInt8.lt_irrefl c)
    | tail _ h => exact ih h

theorem lexBefore_trans {a b c : List UInt8} (h1 : LexBefore a b) (h2 : LexBefore b c) : LexBefore a c := by
  induction h1 generalizing c with
  | nil x xs => cases h2 <;> exact .nil ..
  | head as bs h =>
    cases h2 with
    | head _ _ h' => exact .head _ _ (UInt8.lt_trans h h')
    | tail _ h' => exact .head _ _ h
  | tail x h ih =>
    cases h2 with
    | head _ _ h' => exact .head _ _ h'
    | tail _ h' => exact .tail _ (ih h')

theorem lexBefore_asymm {a b : List UInt8} (h1 : LexBefore a b) (h2 : LexBefore b a) : False :=
  lexBefore_irrefl _ (lexBefore_trans h1 h2)

theorem lexBefore_total : ∀ (a b : List UInt8), a = b ∨ LexBefore a b ∨ LexBefore b a := by
  intro a
  induction a with
  | nil =>
    intro b
    cases b with
    | nil => exact .inl rfl
    | cons => exact .inr (.inl (.nil ..))
  | cons x xs ih =>
    intro b
    cases b with
    | nil => exact .inr (.inr (.nil ..))
    | cons y ys =>
      by_cases hxy : x = y
      · subst hxy
        rcases ih ys with h | h | h
        · exact .inl (by rw [h])
        · exact .inr (.inl (.tail _ h))
        · exact .inr (.inr (.tail _ h))
      · rcases UInt8.lt_or_lt_of_ne hxy with h | h
        · exact .inr (.inl (.head _ _ h))
        · exact .inr (.inr (.head _ _ h))

/-- A result consistent with one of the three cases compares lexicographically. -/
theorem comparesLex_of {r : Int} {a b : List UInt8}
    (h : (r < 0 ∧ LexBefore a b) ∨ (r = 0 ∧ a = b) ∨ (0 < r ∧ LexBefore b a)) : ComparesLex r a b := by
  rcases h with ⟨hr, h⟩ | ⟨hr, h⟩ | ⟨hr, h⟩
  · refine ⟨⟨fun _ => h, fun _ => hr⟩, ⟨fun h0 => by omega, fun e => ?_⟩, ⟨fun h0 => by omega, fun h' => ?_⟩⟩
    · subst e; exact absurd h (lexBefore_irrefl _)
    · exact absurd h' (fun h' => lexBefore_asymm h h')
  · subst h
    refine ⟨⟨fun h0 => by omega, fun h' => absurd h' (lexBefore_irrefl _)⟩, ⟨fun _ => rfl, fun _ => hr⟩,
      ⟨fun h0 => by omega, fun h' => absurd h' (lexBefore_irrefl _)⟩⟩
  · refine ⟨⟨fun h0 => by omega, fun h' => absurd h' (fun h' => lexBefore_asymm h h')⟩,
      ⟨fun h0 => by omega, fun e => ?_⟩, ⟨fun _ => h, fun _ => hr⟩⟩
    subst e; exact absurd h (lexBefore_irrefl _)

/-- `memcmp` over the common length decides, or finds a common prefix. -/
theorem memcmp_spec (mem : Mem) : ∀ (n a b k l : Nat), n ≤ k → n ≤ l →
    (memcmp mem a b n = -1 ∧ LexBefore (charsFrom mem a k) (charsFrom mem b l)) ∨
    (memcmp mem a b n = 1 ∧ LexBefore (charsFrom mem b l) (charsFrom mem a k)) ∨
    (memcmp mem a b n = 0 ∧ ∃ p, p.length = n ∧ charsFrom mem a k = p ++ charsFrom mem (a + n) (k - n) ∧
      charsFrom mem b l = p ++ charsFrom mem (b + n) (l - n)) := by
  intro n
  induction n with
  | zero =>
    intro a b k l _ _
    exact .inr (.inr ⟨rfl, [], rfl, by simp, by simp⟩)
  | succ n ih =>
    intro a b k l hk hl
    obtain ⟨k, rfl⟩ : ∃ k', k = k' + 1 := ⟨k - 1, by omega⟩
    obtain ⟨l, rfl⟩ : ∃ l', l = l' + 1 := ⟨l - 1, by omega⟩
    by_cases h1 : mem a < mem b
    · exact .inl ⟨by simp [memcmp, h1], .head _ _ h1⟩
    · by_cases h2 : mem b < mem a
      · exact .inr (.inl ⟨by simp [memcmp, h1, h2], .head _ _ h2⟩)
      · have heq : mem a = mem b := by
          have := UInt8.lt_or_lt_of_ne (a := mem a) (b := mem b)
          by_cases h : mem a = mem b
          · exact h
          · rcases this h with h | h <;> contradiction
        have hstep : memcmp mem a b (n + 1) = memcmp mem (a + 1) (b + 1) n := by simp [memcmp, h1, h2]
        rw [hstep]
        rcases ih (a + 1) (b + 1) k l (by omega) (by omega) with ⟨h, h'⟩ | ⟨h, h'⟩ | ⟨h, p, hp, ha, hb⟩
        · refine .inl ⟨h, ?_⟩
          simp only [charsFrom, heq]; exact .tail _ h'
        · refine .inr (.inl ⟨h, ?_⟩)
          simp only [charsFrom, heq]; exact .tail _ h'
        · refine .inr (.inr ⟨h, mem b :: p, by simp [hp], ?_, ?_⟩)
          · simp only [charsFrom, heq, List.cons_append, ha]
            congr 3 <;> omega
          · simp only [charsFrom, List.cons_append, hb]
            congr 3 <;> omega

theorem lexBefore_append (p : List UInt8) {a b : List UInt8} (h : LexBefore a b) : LexBefore (p ++ a) (p ++ b) := by
  induction p with
  | nil => exact h
  | cons c cs ih => exact .tail c ih

theorem svCmp_lex (mem : Mem) (a b : Sv) (ha : a.Valid) (hb : b.Valid)
    (hal : a.first = b.first → a.len = b.len) : ComparesLex (svCmp mem a b) (a.chars mem) (b.chars mem) := by
  apply comparesLex_of
  rw [chars_eq, chars_eq]
  unfold svCmp
  have hla : a.first = 0 → a.len = 0 := fun h => by have := ha.2 h; simp [Sv.len]; omega
  have hlb : b.first = 0 → b.len = 0 := fun h => by have := hb.2 h; simp [Sv.len]; omega
  have nilBefore : ∀ (x : Nat) {n : Nat}, n ≠ 0 → LexBefore [] (charsFrom mem x n) := by
    intro x n hn
    obtain ⟨k, rfl⟩ : ∃ k, n = k + 1 := ⟨n - 1, by omega⟩
    exact .nil _ _
  by_cases h0 : a.first = b.first
  · simp only [h0, if_true]
    exact .inr (.inl ⟨trivial, by rw [hal h0]⟩)
  simp only [h0, if_false]
  by_cases hb0 : b.first = 0
  · simp only [hb0, if_true, hlb hb0]
    by_cases hl : a.len = 0
    · simp only [hl, if_true]; exact .inr (.inl ⟨trivial, rfl⟩)
    · simp only [hl, if_false]; exact .inr (.inr ⟨by decide, nilBefore _ hl⟩)
  simp only [hb0, if_false]
  by_cases ha0 : a.first = 0
  · simp only [ha0, if_true, hla ha0]
    by_cases hl : b.len = 0
    · simp only [hl, if_true]; exact .inr (.inl ⟨trivial, rfl⟩)
    · simp only [hl, if_false]; exact .inl ⟨by decide, nilBefore _ hl⟩
  simp only [ha0, if_false]
  by_cases hl : a.len = b.len
  · simp only [hl, if_true]
    rcases memcmp_spec mem b.len a.first b.first b.len b.len (by omega) (by omega) with ⟨h, h'⟩ | ⟨h, h'⟩ | ⟨h, p, hp, hpa, hpb⟩
    · exact .inl ⟨by omega, h'⟩
    · exact .inr (.inr ⟨by omega, h'⟩)
    · refine .inr (.inl ⟨h, ?_⟩)
      rw [hpa, hpb]; simp [charsFrom]
  simp only [hl, if_false]
  by_cases hlt : a.len < b.len
  · simp only [hlt, if_true]
    rcases memcmp_spec mem a.len a.first b.first a.len b.len (by omega) (by omega) with ⟨h, h'⟩ | ⟨h, h'⟩ | ⟨h, p, hp, hpa, hpb⟩
    · simp only [h]; exact .inl ⟨by decide, h'⟩
    · simp only [h]; exact .inr (.inr ⟨by decide, h'⟩)
    · simp only [h]
      refine .inl ⟨by decide, ?_⟩
      rw [hpa, hpb]
      refine lexBefore_append p ?_
      simp only [Nat.sub_self]
      exact nilBefore _ (by omega)
  · simp only [hlt, if_false]
    rcases memcmp_spec mem b.len a.first b.first a.len b.len (by omega) (by omega) with ⟨h, h'⟩ | ⟨h, h'⟩ | ⟨h, p, hp, hpa, hpb⟩
    · simp only [h]; exact .inl ⟨by decide, h'⟩
    · simp only [h]; exact .inr (.inr ⟨by decide, h'⟩)
    · simp only [h]
      refine .inr (.inr ⟨by decide, ?_⟩)
      rw [hpa, hpb]
      refine lexBefore_append p ?_
      simp only [Nat.sub_self]
      exact nilBefore _ (by omega)

end Dnmx
