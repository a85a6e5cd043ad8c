import Verif.Proofs.LayoutExact
import Verif.Spec.MemoryResource

/-! # Lemmas on the default memory resource -/

namespace Dnmx
open Spec

set_option linter.unusedSimpArgs false
set_option linter.unusedVariables false

theorem pow2_pos {a : Nat} (h : Pow2 a) : 0 < a := by
  obtain ⟨k, rfl⟩ := h
  exact Nat.two_pow_pos k

/-- adding multiples of 2^32 before or after rounding is the same -/
theorem rounded_u32 {n : Nat} (hn : 0 < n) (hd : n ∣ 4294967296) (s : Nat) :
    u32 ((u32 s + n - 1) / n * n) = u32 ((s + n - 1) / n * n) := by
  obtain ⟨h1, h2, h3⟩ := roundUp_spec s hn
  obtain ⟨g1, g2, g3⟩ := roundUp_spec (u32 s) hn
  have hs : s = u32 s + 4294967296 * (s / 4294967296) := by
    unfold u32; have := Nat.mod_add_div s 4294967296; omega
  have : (s + n - 1) / n * n = (u32 s + n - 1) / n * n + 4294967296 * (s / 4294967296) := by
    apply multiple_unique (x := s) (d := n) h1 _ h2 h3 (by omega) (by omega)
    exact Nat.dvd_add g1 (Nat.dvd_trans hd (Nat.dvd_mul_right _ _))
  rw [this]
  unfold u32
  rw [Nat.add_mul_mod_self_left]

theorem askAligned_pow2 {n : Nat} (hp : Pow2 n) (hlt : n < 4294967296) (s : Nat) :
    askAligned s n = .block n (u32 (rounded s n)) := by
  have h0 := pow2_pos hp
  have hd := pow2_dvd_u32 hp hlt
  unfold askAligned
  rw [u32_of_lt hlt, if_neg (by omega), nextMultiple_exact h0 hd (u32_lt s), rounded_u32 h0 hd]
  rfl

theorem askAligned_big {n : Nat} (hp : Pow2 n) (hge : 4294967296 ≤ n) (s : Nat) : askAligned s n = .divByZero := by
  have : 4294967296 ∣ n := pow2_dvd ⟨32, rfl⟩ hp hge
  unfold askAligned u32
  rw [Nat.mod_eq_zero_of_dvd this, if_pos rfl]

/-- truncated blocks are too small -/
theorem rounded_fits {n : Nat} (hp : Pow2 n) (hlt : n < 4294967296) (s : Nat) :
    s ≤ u32 (rounded s n) ↔ rounded s n < 4294967296 := by
  have h0 := pow2_pos hp
  have hd := pow2_dvd_u32 hp hlt
  obtain ⟨h1, h2, h3⟩ := roundUp_spec s h0
  change n ∣ rounded s n at h1
  change s ≤ rounded s n at h2
  change rounded s n < s + n at h3
  constructor
  · intro h
    apply Decidable.byContradiction
    intro hc
    have hu : n ∣ u32 (rounded s n) := (Nat.dvd_mod_iff hd).2 h1
    have hl := u32_lt (rounded s n)
    have : u32 (rounded s n) + n ≤ 4294967296 := by
      obtain ⟨a, ha⟩ := hu
      obtain ⟨b, hb⟩ := hd
      have hab : a + 1 ≤ b := by
        apply Decidable.byContradiction
        intro h'
        have := Nat.mul_le_mul_left n (show b ≤ a by omega)
        omega
      have := Nat.mul_le_mul_left n hab
      rw [Nat.mul_add] at this
      omega
    omega
  · intro h
    rw [u32_of_lt h]; exact h2

/-- what `askAligned` asks for is good exactly if the rounded size has 32 bits -/
theorem askAligned_good {n : Nat} (hp : Pow2 n) (s : Nat) (hs : s < 2 ^ 64) :
    GoodBlock s n (askAligned s n) ↔ n < 4294967296 ∧ rounded s n < 4294967296 := by
  by_cases hlt : n < 4294967296
  · rw [askAligned_pow2 hp hlt]
    show (s ≤ u32 (rounded s n) ∧ n ∣ n) ↔ _
    rw [rounded_fits hp hlt]
    simp [hlt]
  · rw [askAligned_big hp (by omega)]
    simp [GoodBlock, hlt]

theorem layoutLoop_align_lt : ∀ (ms : List MixDecl) (size align : Nat), align < 4294967296 →
    (∀ m ∈ ms, m.external = false → m.align < 4294967296) → (layoutLoop ms size align).align < 4294967296 := by
  intro ms
  induction ms with
  | nil => intro _ _ h _; exact h
  | cons m ms ih =>
    intro size align h hl
    have hl' : ∀ x ∈ ms, x.external = false → x.align < 4294967296 := fun x hx => hl x (by simp [hx])
    cases hext : m.external with
    | true => rw [layoutLoop_ext hext]; exact ih size align h hl'
    | false =>
      have hm := hl m (by simp) hext
      have ha : (layoutAlign m align).2 < 4294967296 := by
        unfold layoutAlign; split
        · exact hm
        · split <;> exact h
      rw [layoutLoop, if_neg (by simp [hext])]
      exact ih _ _ ha hl'

end Dnmx
