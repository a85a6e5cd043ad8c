import Verif.Proofs.OrderLemmas

/-!
# C22, C23: string view comparison and canonical order

Full statement of C23: for all valid views, `dnmx_sv_cmp` compares the characters lexicographically.
Full statement of C22: the canonical mixin order is a strict total order on all mixins.
Both are false for names which share their first address but have different lengths (line 84 of
code/dnmx/bits/sv.h returns 0 for equal `begin` pointers without looking at the lengths); the theorems
`*_refuted` prove that, the theorems `*_partial` prove everything else, and `C23_sv_cmp_correct_iff` says that
this is the only failing case.
-/

namespace Dnmx.Props
open Spec

/-- Two views that do not have the failing shape: same first address implies same length. -/
def NoAlias (a b : Sv) : Prop := a.first = b.first → a.len = b.len

/-- C23 (partial: for views without a common first address and different lengths). -/
theorem C23_sv_cmp_lexicographic_partial (mem : Mem) (a b : Sv) (ha : a.Valid) (hb : b.Valid) (hal : NoAlias a b) :
    ComparesLex (svCmp mem a b) (a.chars mem) (b.chars mem) :=
  svCmp_lex mem a b ha hb hal

/-- C23: exactly the aliasing views are compared wrongly, for every memory. -/
theorem C23_sv_cmp_correct_iff (mem : Mem) (a b : Sv) (ha : a.Valid) (hb : b.Valid) :
    ComparesLex (svCmp mem a b) (a.chars mem) (b.chars mem) ↔ NoAlias a b := by
  refine ⟨fun h hf => ?_, svCmp_lex mem a b ha hb⟩
  have h0 : svCmp mem a b = 0 := by simp [svCmp, hf]
  have := congrArg List.length (h.zero.1 h0)
  simpa [Sv.chars] using this

/-- C23 (partial): `dnmx_sv_eq` is equality of the characters. -/
theorem C23_sv_eq_content_partial (mem : Mem) (a b : Sv) (ha : a.Valid) (hb : b.Valid) (hal : NoAlias a b) :
    svEq mem a b = true ↔ a.chars mem = b.chars mem := by
  rw [← (svCmp_lex mem a b ha hb hal).zero]
  simp [svEq]

/-- C23 is false in general: in every memory `dnmx_sv_eq` calls a one-character view and its two-character
extension equal. -/
theorem C23_sv_eq_refuted : ¬ ∀ (mem : Mem) (a b : Sv), a.Valid → b.Valid →
    (svEq mem a b = true ↔ a.chars mem = b.chars mem) := by
  intro h
  have := (h (fun _ => 97) ⟨8, 9⟩ ⟨8, 10⟩ (by decide) (by decide)).1 (by decide)
  exact absurd this (by decide)

/-- Text of the examples: at 8 "ac", at 16 "ab". -/
def exMem : Mem := fun a => if a = 8 ∨ a = 16 then 97 else if a = 9 then 99 else if a = 17 then 98 else 0

/-- The hypotheses of the C23 theorems are met by different, partly equal names, and both outcomes occur. -/
example : (⟨8, 10⟩ : Sv).Valid ∧ (⟨16, 18⟩ : Sv).Valid ∧ NoAlias ⟨8, 10⟩ ⟨16, 18⟩ ∧
    svCmp exMem ⟨8, 10⟩ ⟨16, 18⟩ = 1 ∧ svCmp exMem ⟨16, 17⟩ ⟨8, 9⟩ = 0 ∧ svCmp exMem ⟨0, 0⟩ ⟨8, 9⟩ = -1 := by
  refine ⟨by decide, by decide, ?_, by decide, by decide, by decide⟩
  intro h; exact absurd h (by decide)

/-- C22 (partial: mixins whose names are valid views and do not alias with different lengths). -/
theorem C22_canonical_order_strict_total_partial (D : Decls) (ids : Mix → Option Nat) (S : Mix → Prop)
    (hv : ∀ m, S m → (D.mix m).name.Valid)
    (hal : ∀ a b, S a → S b → NoAlias (D.mix a).name (D.mix b).name) :
    StrictTotalOn S (canonicalOrder D ids) :=
  canonicalOrder_strictTotal D ids S hv hal

/-- C22, first key: a smaller `order_priority` comes first whatever the names are. -/
theorem C22_order_priority_decides (D : Decls) (ids : Mix → Option Nat) (a b : Mix)
    (h : (D.mix a).orderPriority < (D.mix b).orderPriority) :
    canonicalOrder D ids a b = true ∧ canonicalOrder D ids b a = false := by
  have h1 : (D.mix a).orderPriority ≠ (D.mix b).orderPriority := by omega
  have h2 : (D.mix b).orderPriority ≠ (D.mix a).orderPriority := by omega
  simp [canonicalOrder, h1, h2]; omega

/-- C22, second key (partial): with equal priorities the lexicographically smaller name comes first. -/
theorem C22_name_decides_partial (D : Decls) (ids : Mix → Option Nat) (a b : Mix)
    (hp : (D.mix a).orderPriority = (D.mix b).orderPriority)
    (ha : (D.mix a).name.Valid) (hb : (D.mix b).name.Valid) (hal : NoAlias (D.mix a).name (D.mix b).name)
    (h : LexBefore (D.mixName a) (D.mixName b)) :
    canonicalOrder D ids a b = true ∧ canonicalOrder D ids b a = false := by
  have c1 := (svCmp_lex D.mem _ _ ha hb hal).neg.2 h
  have c2 := (svCmp_lex D.mem _ _ hb ha (fun e => (hal e.symm).symm)).pos.2 h
  have n1 : svCmp D.mem (D.mix a).name (D.mix b).name ≠ 0 := by omega
  have n2 : svCmp D.mem (D.mix b).name (D.mix a).name ≠ 0 := by omega
  simp [canonicalOrder, hp, n1, n2]; omega

/-- Mixins of the refutation: names "a" (at 8), "ac" (at 8), "ab" (at 16). -/
def exDecls : Decls where
  mem := exMem
  mix := fun m => { name := if m = 0 then ⟨8, 9⟩ else if m = 1 then ⟨8, 10⟩ else ⟨16, 18⟩ }
  feat := fun _ => { name := ⟨0, 0⟩ }
  userRule := fun _ => { name := ⟨0, 0⟩, apply := none }
  cls := fun _ => { name := ⟨0, 0⟩, matchesT := fun _ => true }

/-- Ids of the refutation. -/
def exIds : Mix → Option Nat := fun m => if m = 0 then some 1 else if m = 1 then some 0 else some 2

/-- C22 is false in general: three mixins with valid, pairwise different names form a cycle, so that no
arrangement of them is sorted. -/
theorem C22_canonical_order_refuted :
    (∀ m, m < 3 → (exDecls.mix m).name.Valid) ∧
    (∀ a, a < 3 → ∀ b, b < 3 → a ≠ b → exDecls.mixName a ≠ exDecls.mixName b) ∧
    ¬ StrictTotalOn (fun m => m < 3) (canonicalOrder exDecls exIds) := by
  refine ⟨by decide, by decide, fun h => ?_⟩
  have := h.trans 1 0 2 (by decide) (by decide) (by decide) (by decide) (by decide)
  have h2 : canonicalOrder exDecls exIds 2 1 = true := by decide
  have h3 := h.trans 1 2 1 (by decide) (by decide) (by decide) this h2
  have h4 := h.irrefl 1 (by decide)
  rw [h4] at h3; exact absurd h3 (by decide)

/-- The hypotheses of the C22 theorems are met by mixins 1 ("ac") and 2 ("ab") of the example. -/
example : (∀ m, (m = 1 ∨ m = 2) → (exDecls.mix m).name.Valid) ∧
    (∀ a b, (a = 1 ∨ a = 2) → (b = 1 ∨ b = 2) → NoAlias (exDecls.mix a).name (exDecls.mix b).name) ∧
    canonicalOrder exDecls exIds 2 1 = true := by
  refine ⟨?_, ?_, by decide⟩
  · rintro m (rfl | rfl) <;> decide
  · rintro a b (rfl | rfl) (rfl | rfl) h <;> first | rfl | exact absurd h (by decide)

end Dnmx.Props
