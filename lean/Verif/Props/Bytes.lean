import Verif.Model.Bytes
import Verif.Model.Builder
import Verif.Proofs.SvLemmas
import Verif.Spec.Compare

/-!
# C67: mixins that are plain bytes

The functions that dynamix gives to mixins of trivial types, and that C programs use. `size` is the size of the mixin.

Finding. Moving a mixin onto itself with `move_asgn` (as `o.move_matching_from(o)` does) calls `memcpy` with overlapping ranges, which is
undefined; where that works, the value is lost (`C67_self_move_clears`).
-/

namespace Dnmx.Props
open Spec

/-- The bytes of a mixin at `p`. -/
def bytesAt (mem : Mem) (p size : Nat) : List UInt8 := (List.range size).map fun i => mem (p + i)

/-- Two mixins of the size are apart. -/
def Apart (p q size : Nat) : Prop := p + size ≤ q ∨ q + size ≤ p

theorem memset_at (c : UInt8) : ∀ (n p : Nat) (mem : Mem) (a : Nat), memset mem p c n a = if p ≤ a ∧ a < p + n then c else mem a
  | 0, p, mem, a => by
    unfold memset
    rw [if_neg (by omega)]
  | n + 1, p, mem, a => by
    unfold memset
    rw [memset_at c n (p + 1)]
    by_cases h : p + 1 ≤ a ∧ a < p + 1 + n
    · rw [if_pos h, if_pos (by omega)]
    · rw [if_neg h]
      by_cases h' : a = p
      · subst h'
        rw [if_pos rfl, if_pos (by omega)]
      · rw [if_neg h', if_neg (by omega)]

theorem memcpy_at : ∀ (n d s : Nat) (mem : Mem), d + n ≤ s ∨ s + n ≤ d → ∀ a, memcpy mem d s n a = if d ≤ a ∧ a < d + n then mem (s + (a - d)) else mem a
  | 0, d, s, mem, _, a => by
    unfold memcpy
    rw [if_neg (by omega)]
  | n + 1, d, s, mem, h, a => by
    unfold memcpy
    rw [memcpy_at n (d + 1) (s + 1) _ (by omega)]
    by_cases h1 : d + 1 ≤ a ∧ a < d + 1 + n
    · rw [if_pos h1, if_neg (show ¬ (s + 1 + (a - (d + 1)) = d) by omega), if_pos (show d ≤ a ∧ a < d + (n + 1) by omega)]
      congr 1; omega
    · rw [if_neg h1]
      by_cases h2 : a = d
      · subst h2
        rw [if_pos rfl, if_pos (by omega)]
        congr 1; omega
      · rw [if_neg h2, if_neg (by omega)]

theorem bytesAt_congr {mem mem' : Mem} {p q size : Nat} (h : ∀ i, i < size → mem (p + i) = mem' (q + i)) : bytesAt mem p size = bytesAt mem' q size := by
  unfold bytesAt
  apply List.map_congr_left
  intro i hi
  exact h i (List.mem_range.1 hi)

theorem bytesAt_const {mem : Mem} {p size : Nat} {c : UInt8} (h : ∀ i, i < size → mem (p + i) = c) : bytesAt mem p size = List.replicate size c := by
  unfold bytesAt
  rw [List.map_congr_left (g := fun _ => c) fun i hi => h i (List.mem_range.1 hi), List.map_const', List.length_range]

/-- C67: a new mixin consists of zeros, a destroyed one of bytes 0xfe; nothing else changes. -/
theorem C67_init_destroy (mem : Mem) (size p : Nat) :
    bytesAt (bytesInit mem size p) p size = List.replicate size 0 ∧ bytesAt (bytesDestroy mem size p) p size = List.replicate size 0xfe ∧
    ∀ a, a < p ∨ p + size ≤ a → bytesInit mem size p a = mem a ∧ bytesDestroy mem size p a = mem a := by
  refine ⟨bytesAt_const fun i hi => ?_, bytesAt_const fun i hi => ?_, fun a ha => ⟨?_, ?_⟩⟩
  · unfold bytesInit; rw [memset_at, if_pos (by omega)]
  · unfold bytesDestroy; rw [memset_at, if_pos (by omega)]
  · unfold bytesInit; rw [memset_at, if_neg (by omega)]
  · unfold bytesDestroy; rw [memset_at, if_neg (by omega)]

/-- C67: a copy has the bytes of its source; nothing else changes, also not the source. -/
theorem C67_copy (mem : Mem) (size p src : Nat) (h : Apart p src size) :
    bytesAt (bytesCopy mem size p src) p size = bytesAt mem src size ∧ ∀ a, a < p ∨ p + size ≤ a → bytesCopy mem size p src a = mem a := by
  refine ⟨bytesAt_congr fun i hi => ?_, fun a ha => ?_⟩
  · unfold bytesCopy; rw [memcpy_at _ _ _ _ h, if_pos (by omega)]; congr 1; omega
  · unfold bytesCopy; rw [memcpy_at _ _ _ _ h, if_neg (by omega)]

/-- C67: a moved mixin has the bytes of its source, which is like a new one afterwards; nothing else changes. -/
theorem C67_move (mem : Mem) (size p src : Nat) (h : Apart p src size) :
    bytesAt (bytesMove mem size p src) p size = bytesAt mem src size ∧ bytesAt (bytesMove mem size p src) src size = List.replicate size 0 ∧
    ∀ a, a < p ∨ p + size ≤ a → a < src ∨ src + size ≤ a → bytesMove mem size p src a = mem a := by
  unfold Apart at h
  refine ⟨bytesAt_congr fun i hi => ?_, bytesAt_const fun i hi => ?_, fun a ha hs => ?_⟩
  · unfold bytesMove; rw [memset_at, if_neg (by omega), memcpy_at _ _ _ _ h, if_pos (by omega)]; congr 1; omega
  · unfold bytesMove; rw [memset_at, if_pos (by omega)]
  · unfold bytesMove; rw [memset_at, if_neg (by omega), memcpy_at _ _ _ _ h, if_neg (by omega)]

/-- C67: `compare` orders mixins lexicographically by their bytes, and `equals` says whether these are the same. -/
theorem C67_compare (mem : Mem) (size p q : Nat) :
    ComparesLex (bytesCmp mem size p q) (bytesAt mem p size) (bytesAt mem q size) ∧ (bytesEq mem size p q = true ↔ bytesAt mem p size = bytesAt mem q size) ∧
    (bytesEq mem size p q = true ↔ bytesCmp mem size p q = 0) := by
  have e : ∀ p, bytesAt mem p size = charsFrom mem p size := fun p => charsFrom_eq mem size p
  have h : ComparesLex (bytesCmp mem size p q) (bytesAt mem p size) (bytesAt mem q size) := by
    rw [e, e]
    apply comparesLex_of
    unfold bytesCmp
    rcases memcmp_spec mem size p q size size (Nat.le_refl _) (Nat.le_refl _) with ⟨h1, h2⟩ | ⟨h1, h2⟩ | ⟨h1, x, -, h2, h3⟩
    · exact .inl ⟨by omega, h2⟩
    · exact .inr (.inr ⟨by omega, h2⟩)
    · refine .inr (.inl ⟨h1, ?_⟩)
      rw [h2, h3]
      simp [charsFrom]
  have hz : bytesEq mem size p q = true ↔ bytesCmp mem size p q = 0 := by
    unfold bytesEq bytesCmp; exact beq_iff_eq
  exact ⟨h, hz.trans h.zero, hz⟩

/-- C67: a copy equals its source; a moved mixin equals what its source was, and the source equals a new mixin. -/
theorem C67_copies_equal (mem : Mem) (size p src q : Nat) (h : Apart p src size) (hq : Apart q p size) (hq' : Apart q src size) :
    bytesEq (bytesCopy mem size p src) size p src = true ∧
    (bytesEq mem size src q = true → bytesEq (bytesMove mem size p src) size p q = true) ∧
    bytesEq (bytesInit (bytesMove mem size p src) size q) size src q = true := by
  unfold Apart at h hq hq'
  obtain ⟨c1, c2⟩ := C67_copy mem size p src h
  obtain ⟨m1, m2, m3⟩ := C67_move mem size p src h
  obtain ⟨i1, -, i2⟩ := C67_init_destroy (bytesMove mem size p src) size q
  refine ⟨?_, fun he => ?_, ?_⟩
  · rw [(C67_compare _ _ _ _).2.1, c1]
    exact bytesAt_congr fun i hi => (c2 _ (by omega)).symm
  · rw [(C67_compare _ _ _ _).2.1] at he ⊢
    rw [m1, he]
    exact bytesAt_congr fun i hi => (m3 _ (by omega) (by omega)).symm
  · rw [(C67_compare _ _ _ _).2.1, i1, ← m2]
    exact bytesAt_congr fun i hi => (i2 _ (by omega)).1

/-- C67: these functions meet what C43 asks of the functions of mixins, for any sizes and wherever values are in memory. -/
theorem C67_lawful (D : Decls) (mem : Mem) (F : CmpFns) (size : Mix → Nat) (place : Mix → Nat → Nat)
    (he : ∀ m v w, F.eq m v w = bytesEq mem (size m) (place m v) (place m w)) (hc : ∀ m v w, F.cmp m v w = bytesCmp mem (size m) (place m v) (place m w)) :
    Lawful D F where
  eqSymm := by
    intro m v w _ h
    rw [he, (C67_compare _ _ _ _).2.1] at h ⊢
    exact h.symm
  eqTrans := by
    intro m u v w _ h h'
    rw [he, (C67_compare _ _ _ _).2.1] at h h' ⊢
    exact h.trans h'
  cmpAnti := by
    intro m v w _
    rw [hc, hc, (C67_compare mem _ _ _).1.neg, (C67_compare mem _ _ _).1.pos]
  cmpTrans := by
    intro m u v w _ h h'
    rw [hc] at h h' ⊢
    have key : ∀ p q, bytesCmp mem (size m) p q ≤ 0 ↔ ¬ LexBefore (bytesAt mem q (size m)) (bytesAt mem p (size m)) := by
      intro p q
      rw [← (C67_compare mem _ _ _).1.pos]
      omega
    rw [key] at h h' ⊢
    intro h3
    rcases lexBefore_total (bytesAt mem (place m u) (size m)) (bytesAt mem (place m v) (size m)) with h1 | h1 | h1
    · rw [h1] at h3; exact h' h3
    · exact h' (lexBefore_trans h3 h1)
    · exact h h1
  agree := by
    intro m v w _ _
    rw [he, hc, (C67_compare _ _ _ _).2.2]

/-- C67: moving a mixin onto itself, where the C library lets `memcpy` do that, clears it. -/
theorem C67_self_move_clears (mem : Mem) (size p : Nat) : bytesAt (bytesMove mem size p p) p size = List.replicate size 0 := by
  apply bytesAt_const
  intro i hi
  unfold bytesMove
  rw [memset_at, if_pos (by omega)]

/-- Example memory: each byte is its address. -/
def byMem : Mem := fun a => UInt8.ofNat a

example : Apart 10 20 3 ∧ bytesAt (bytesMove byMem 3 10 20) 10 3 = [20, 21, 22] ∧ bytesAt (bytesMove byMem 3 10 20) 20 3 = [0, 0, 0] ∧
    bytesAt (bytesMove byMem 3 10 20) 13 3 = [13, 14, 15] ∧ bytesCmp byMem 3 10 20 = -1 ∧ bytesEq (bytesCopy byMem 3 10 20) 3 10 20 = true := by
  refine ⟨.inl (by omega), ?_⟩
  decide +kernel

end Dnmx.Props
