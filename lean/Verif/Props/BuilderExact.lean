import Verif.Props.Builder
import Verif.Proofs.PlainObjectLemmas

/-!
# C66, exactly: which rules of a definition run in the order of their definition

Rules of one definition with generated names, of the same kind and the same priority, run in the order of the texts of their numbers, not in
the order of the numbers. Cut the greater number to as many digits as the smaller one has: for rules without names the order is kept iff the smaller
number is not greater than what is left, and for "attaches to" and "also adds" (where the number is followed by '>', that is after the digits)
iff it is less. So "rule 1" is before "rule 10", and "attaches_to<10>" is before "attaches_to<1>".
-/

namespace Dnmx

theorem decimal_length_mono : ∀ (i j : Nat), i ≤ j → (decimal i).length ≤ (decimal j).length := by
  intro i
  induction i using Nat.strongRecOn with
  | _ i ih =>
    intro j h
    by_cases hi : i < 10
    · rw [decimal_small i hi]
      exact List.length_pos_iff.2 (decimal_ne_nil j)
    · rw [decimal_large i hi, decimal_large j (by omega), List.length_append, List.length_append]
      have := ih (i / 10) (by omega) (j / 10) (Nat.div_le_div_right h)
      simpa using this

theorem decimal_split (j : Nat) : ∀ (k : Nat), k < (decimal j).length →
    ∃ t, decimal j = decimal (j / 10 ^ k) ++ t ∧ t.length = k ∧ ∀ c ∈ t, isDigit c = true
  | 0, _ => ⟨[], by simp, rfl, by simp⟩
  | k + 1, hk => by
    obtain ⟨t, h1, h2, h3⟩ := decimal_split j k (by omega)
    have hl := congrArg List.length h1
    rw [List.length_append, h2] at hl
    have hbig : ¬ j / 10 ^ k < 10 := by
      intro hs
      rw [decimal_small _ hs] at hl
      simp at hl
      omega
    have hd := decimal_large _ hbig
    rw [Nat.div_div_eq_div_mul, ← Nat.pow_succ] at hd
    refine ⟨[UInt8.ofNat (48 + j / 10 ^ k % 10)] ++ t, ?_, by simp [h2], ?_⟩
    · rw [← List.append_assoc, ← hd]; exact h1
    · intro c hc
      refine decimal_digits j c ?_
      rw [h1, hd, List.append_assoc]
      exact List.mem_append_right _ hc

theorem lexBefore_decimal : ∀ (a b : Nat), a < b → (decimal a).length = (decimal b).length → Spec.LexBefore (decimal a) (decimal b) := by
  intro a
  induction a using Nat.strongRecOn with
  | _ a ih =>
    intro b h hl
    by_cases ha : a < 10
    · by_cases hb : b < 10
      · have := lexBefore_digits [] [] h hb
        simpa using this
      · rw [decimal_small a ha, decimal_large b hb, List.length_append] at hl
        have := List.length_pos_iff.2 (decimal_ne_nil (b / 10))
        simp at hl
        exact absurd hl (decimal_ne_nil _)
    · have hb : ¬ b < 10 := by omega
      rw [decimal_large a ha, decimal_large b hb] at hl ⊢
      have hl' : (decimal (a / 10)).length = (decimal (b / 10)).length := by simpa using hl
      by_cases hq : a / 10 < b / 10
      · exact lexBefore_append_left hl' (ih (a / 10) (by omega) (b / 10) hq hl')
      · have he : a / 10 = b / 10 := by omega
        rw [he]
        refine lexBefore_append _ (.head _ _ ?_)
        rw [UInt8.lt_iff_toNat_lt, digit_toNat _ (Nat.mod_lt _ (by omega)), digit_toNat _ (Nat.mod_lt _ (by omega))]
        omega

/-- Texts of two numbers with other texts behind them. -/
theorem lexBefore_numbers (s u : List UInt8) {i j : Nat} (h : i < j) :
    ∃ t, t.length = (decimal j).length - (decimal i).length ∧ (∀ c ∈ t, isDigit c = true) ∧
      (Spec.LexBefore (decimal i ++ s) (decimal j ++ u) ↔
        i < j / 10 ^ ((decimal j).length - (decimal i).length) ∨
        (i = j / 10 ^ ((decimal j).length - (decimal i).length) ∧ Spec.LexBefore s (t ++ u))) := by
  have hm := decimal_length_mono i j (Nat.le_of_lt h)
  have hp := List.length_pos_iff.2 (decimal_ne_nil i)
  obtain ⟨t, h1, h2, h3⟩ := decimal_split j ((decimal j).length - (decimal i).length) (by omega)
  refine ⟨t, h2, h3, ?_⟩
  have hl := congrArg List.length h1
  rw [List.length_append, h2] at hl
  generalize hq : j / 10 ^ ((decimal j).length - (decimal i).length) = q at *
  have hlen : (decimal i).length = (decimal q).length := by omega
  rw [h1, List.append_assoc]
  rcases Nat.lt_trichotomy i q with hlt | heq | hgt
  · exact ⟨fun _ => .inl hlt, fun _ => lexBefore_append_left hlen (lexBefore_decimal i q hlt hlen)⟩
  · rw [heq]
    exact ⟨fun hb => .inr ⟨rfl, lexBefore_append_cancel _ hb⟩, fun hb => lexBefore_append _ (hb.resolve_left (by omega)).2⟩
  · exact ⟨fun hb => (lexBefore_asymm hb (lexBefore_append_left hlen.symm (lexBefore_decimal q i hgt hlen.symm))).elim, fun hb => by omega⟩

end Dnmx

namespace Dnmx.Props
open Spec

/-- The greater number, cut to as many digits as the smaller one has. -/
def cutTo (i j : Nat) : Nat := j / 10 ^ ((decimal j).length - (decimal i).length)

/-- When rule number `i` runs before rule number `j`, which is defined later. -/
def KeepsOrder : GenKind → Nat → Nat → Prop
  | .unnamed, i, j => i ≤ cutTo i j
  | _, i, j => i < cutTo i j

/-- C66, exactly: which generated names are in the order of the definition. -/
theorem C66_name_order_exactly (n : List UInt8) (k : GenKind) (i j : Nat) (h : i < j) :
    LexBefore (genName n k i) (genName n k j) ↔ KeepsOrder k i j := by
  have common : ∀ (p : List UInt8), LexBefore (p ++ decimal i ++ bytesOf ">") (p ++ decimal j ++ bytesOf ">") ↔ i < cutTo i j := by
    intro p
    obtain ⟨t, h2, h3, hiff⟩ := lexBefore_numbers (bytesOf ">") (bytesOf ">") h
    rw [List.append_assoc, List.append_assoc]
    refine ⟨fun hb => ?_, fun hb => lexBefore_append p (hiff.2 (.inl hb))⟩
    rcases hiff.1 (lexBefore_append_cancel p hb) with hb | ⟨-, hb⟩
    · exact hb
    · refine absurd hb (fun hb => ?_)
      cases t with
      | nil => exact lexBefore_irrefl _ hb
      | cons c t =>
        have hd := h3 c (List.mem_cons_self ..)
        have hs : bytesOf ">" = [62] := by decide
        rw [hs] at hb
        have hc : c.toNat < 58 := by
          simp [isDigit] at hd
          exact hd.2
        cases hb with
        | head _ _ hb =>
          rw [UInt8.lt_iff_toNat_lt] at hb
          have : (62 : UInt8).toNat = 62 := rfl
          omega
        | tail _ hb =>
          have : (62 : UInt8).toNat = 62 := rfl
          omega
  cases k with
  | attachesTo => exact common _
  | alsoAdds => exact common _
  | unnamed =>
    obtain ⟨t, h2, h3, hiff⟩ := lexBefore_numbers [] [] h
    rw [List.append_nil, List.append_nil, List.append_nil] at hiff
    show LexBefore (n ++ bytesOf " rule " ++ decimal i) (n ++ bytesOf " rule " ++ decimal j) ↔ i ≤ cutTo i j
    refine ⟨fun hb => ?_, fun hb => lexBefore_append _ (hiff.2 ?_)⟩
    · rcases hiff.1 (lexBefore_append_cancel _ hb) with hb | ⟨hb, -⟩
      · exact Nat.le_of_lt hb
      · exact Nat.le_of_eq hb
    · rcases Nat.lt_or_eq_of_le hb with hb | hb
      · exact .inl hb
      · refine .inr ⟨hb, ?_⟩
        cases t with
        | cons c t => exact .nil _ _
        | nil =>
          rw [List.length_nil] at h2
          rw [cutTo, ← h2] at hb
          simp at hb
          omega

/-- C66, exactly: of two rules of one definition, of the same kind, with generated names and the same priority, where the mixin is not renamed in
between, the one that is defined first runs first iff its number is not greater (for "attaches to" and "also adds": is less) than the number of the other
one, cut to as many digits. -/
theorem C66_definition_order_exactly (D : Decls) (fns : Nat → ElemView → List Mix → Except Err (List Mix)) (m : Mix) (rules : List Rule)
    (name : List UInt8) (a b c : List BuildOp) (op op' : BuildOp) (k : GenKind) (hk : genKind op = some k) (hk' : genKind op' = some k)
    (hreal : Realizes D fns m rules (buildDef m name (a ++ op :: b ++ op' :: c)))
    (hname : nameAfter name (a ++ op :: b) = nameAfter name a)
    (r r' : Rule) (hr : rules[(a.filter AddsRule).length]? = some r) (hr' : rules[((a ++ op :: b).filter AddsRule).length]? = some r')
    (hp : (ruleOf D r).orderPriority = (ruleOf D r').orderPriority) :
    RuleBefore D r r' ↔ KeepsOrder k (a.filter AddsRule).length ((a ++ op :: b).filter AddsRule).length := by
  have key : ∀ (mix : List UInt8) (i : Nat) (op : BuildOp) (k : GenKind), genKind op = some k →
      AddsRule op = true ∧ ∃ x p, ruleFrom m mix i op = some (.stored (genName mix k i) x p) := by
    intro mix i op k hk
    cases op with
    | unnamedRule f q => simp [genKind] at hk; subst hk; exact ⟨rfl, _, _, rfl⟩
    | onMutation f q => cases f <;> simp [genKind] at hk <;> subst hk <;> exact ⟨rfl, _, _, rfl⟩
    | _ => simp [genKind] at hk
  obtain ⟨ho, x1, p1, h1⟩ := key (nameAfter name a) (a.filter AddsRule).length op k hk
  obtain ⟨-, x2, p2, h2⟩ := key (nameAfter name (a ++ op :: b)) ((a ++ op :: b).filter AddsRule).length op' k hk'
  have e1 := buildDef_rule_at m name a (b ++ op' :: c) op _ h1
  have e2 := buildDef_rule_at m name (a ++ op :: b) c op' _ h2
  rw [show a ++ op :: (b ++ op' :: c) = a ++ op :: b ++ op' :: c by simp] at e1
  have isr : ∀ (i : Nat) (r : Rule) (y : DefRule), rules[i]? = some r → (buildDef m name (a ++ op :: b ++ op' :: c)).rules[i]? = some y → IsRule D fns r y := by
    intro i r y h1 h2
    refine hreal.rules (r, y) (List.mem_iff_getElem?.2 ⟨i, ?_⟩)
    rw [List.getElem?_zip_eq_some]
    exact ⟨h1, h2⟩
  have i1 := isr _ _ _ hr e1
  have i2 := isr _ _ _ hr' e2
  have hlt : (a.filter AddsRule).length < ((a ++ op :: b).filter AddsRule).length := by simp [List.filter_append, ho]
  have hne : genName (nameAfter name a) k (a.filter AddsRule).length ≠ genName (nameAfter name (a ++ op :: b)) k ((a ++ op :: b).filter AddsRule).length := by
    intro he
    have := (genName_inj he).2.2
    omega
  rw [C66_order_by_names D fns r r' _ _ _ _ _ _ i1 i2 hne]
  rw [i1.2.2, i2.2.2] at hp
  have hp' : p1 = p2 := hp
  rw [hname, ← C66_name_order_exactly (nameAfter name a) k _ _ hlt]
  subst hp'
  simp

/-- Consequence: as long as the numbers have as many digits as each other, the order is the one of the definition. -/
theorem C66_same_digits (k : GenKind) (i j : Nat) (h : i < j) (hl : (decimal i).length = (decimal j).length) : KeepsOrder k i j := by
  have : cutTo i j = j := by simp [cutTo, hl]
  cases k <;> simp only [KeepsOrder, this] <;> omega

/-- Concrete cases: "rule 1" is before "rule 10" but "attaches_to<10>" before "attaches_to<1>"; "rule 2" is after "rule 10" and before "rule 20". -/
example : KeepsOrder .unnamed 1 10 ∧ ¬ KeepsOrder .attachesTo 1 10 ∧ ¬ KeepsOrder .unnamed 2 10 ∧ KeepsOrder .unnamed 2 20 ∧
    KeepsOrder .alsoAdds 2 30 ∧ KeepsOrder .alsoAdds 11 12 := by
  have d : ∀ n, n < 10 → (decimal n).length = 1 := fun n h => by rw [decimal_small n h]; rfl
  have d2 : ∀ n, 10 ≤ n → n < 100 → (decimal n).length = 2 := fun n h h' => by
    rw [decimal_large n (by omega), List.length_append, d _ (by omega)]; rfl
  refine ⟨?_, ?_, ?_, ?_, ?_, ?_⟩ <;> simp [KeepsOrder, cutTo, d, d2]

end Dnmx.Props
