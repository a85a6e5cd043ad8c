import Verif.Proofs.CanonLast
import Verif.Props.Types

/-!
# C21 in domains with other rules

`sort_by_canonical_order_rule` has the greatest order priority there is (code/dynamix/domain.cpp 60-66), so that it is
applied last. Here: as long as no other rule has this order priority, every type of the domain is in canonical order,
whatever the other rules do, and whenever they come and go.
-/

namespace Dnmx.Props
open Spec

theorem sorted_canonBefore (D : Decls) (ids : Mix → Option Nat) (y : List Mix)
    (hv : ∀ m ∈ sortBy (canonicalOrder D ids) y, (D.mix m).name.Valid)
    (hal : ∀ a ∈ sortBy (canonicalOrder D ids) y, ∀ b ∈ sortBy (canonicalOrder D ids) y, NoAlias (D.mix a).name (D.mix b).name) :
    (sortBy (canonicalOrder D ids) y).Pairwise (CanonBeforeOrSame D) := by
  have hm : ∀ m ∈ y, m ∈ sortBy (canonicalOrder D ids) y := fun m h => (sortBy_perm _ _).mem_iff.2 h
  have hv' : ∀ m ∈ y, (D.mix m).name.Valid := fun m h => hv m (hm m h)
  have hal' : ∀ a ∈ y, ∀ b ∈ y, NoAlias (D.mix a).name (D.mix b).name := fun a ha b hb => hal a (hm a ha) b (hm b hb)
  have ho := canonicalOrder_strictTotal D ids (fun m => m ∈ y) hv' (fun a b ha hb => hal' a ha b hb)
  have hasym : ∀ a b, a ∈ y → b ∈ y → canonicalOrder D ids a b = true → canonicalOrder D ids b a = false := by
    intro a b ha hb h
    cases hba : canonicalOrder D ids b a
    · rfl
    · have := ho.trans a b a ha hb ha h hba
      rw [ho.irrefl a ha] at this; simp at this
  have htrans : ∀ a b c, a ∈ y → b ∈ y → c ∈ y → canonicalOrder D ids b a = false → canonicalOrder D ids c b = false →
      canonicalOrder D ids c a = false := by
    intro a b c ha hb hc h1 h2
    cases hca : canonicalOrder D ids c a
    · rfl
    · by_cases hab : a = b
      · subst hab; rw [hca] at h2; simp at h2
      · rcases ho.total a b ha hb hab with h3 | h3
        · rw [ho.trans c a b hc ha hb hca h3] at h2; simp at h2
        · rw [h3] at h1; simp at h1
  refine (sortBy_sorted _ (fun m => m ∈ y) htrans hasym y (fun m h => h)).imp_of_mem ?_
  intro a b ha hb hab
  have ha' := (sortBy_perm _ _).mem_iff.1 ha
  have hb' := (sortBy_perm _ _).mem_iff.1 hb
  have hc := svCmp_lex D.mem _ _ (hv' b hb') (hv' a ha') (hal' b hb' a ha')
  unfold canonicalOrder at hab
  unfold CanonBeforeOrSame
  by_cases hp : (D.mix b).orderPriority ≠ (D.mix a).orderPriority
  · rw [if_pos hp] at hab
    left; simp at hab; omega
  · rw [if_neg hp] at hab
    have hp : (D.mix b).orderPriority = (D.mix a).orderPriority := by simpa using hp
    simp only at hab
    right
    by_cases hn : svCmp D.mem (D.mix b).name (D.mix a).name ≠ 0
    · rw [if_pos hn] at hab
      refine ⟨hp.symm, .inl (hc.pos.1 ?_)⟩
      simp at hab; omega
    · exact ⟨hp.symm, .inr ((hc.zero.1 (by simpa using hn)).symm)⟩

/-- C21 (partial: names are valid and do not alias with different lengths): in a domain with canonical types, at any
time every type is in canonical order, if no other rule that was ever added or removed has the greatest order priority.
Nothing else is assumed about the other rules. -/
theorem C21_canonical_with_rules_partial (D : Decls) (s : DomId → Settings) (ops : List Op) (d : DomId)
    (hs : (s d).canonicalize = true)
    (hlow : ∀ r, .addRule d r ∈ ops ∨ .removeRule d r ∈ ops → r ≠ 0 ∧ (D.userRule r).orderPriority < 2147483647)
    (t : TypeId) (ms : List Mix) (h : compositionOf (run D (initWorld s) ops) d t = some ms)
    (hv : ∀ m ∈ ms, (D.mix m).name.Valid) (hal : ∀ a ∈ ms, ∀ b ∈ ms, NoAlias (D.mix a).name (D.mix b).name) :
    ms.Pairwise (CanonBeforeOrSame D) := by
  have hk := (run_allSorted D s d hs ops (fun op ho r hr => hlow r (by rcases hr with rfl | rfl <;> simp [ho]))).2
  generalize run D (initWorld s) ops = W at hk h
  unfold compositionOf at h
  cases ht : (W.doms d).typeAt d t with
  | none => rw [ht] at h; simp at h
  | some r =>
    rw [ht] at h
    simp only [Option.map_some, Option.some.injEq] at h
    subst h
    rcases typeAt_some ht with ⟨-, b⟩ | ⟨-, b, -⟩
    · subst b; simp [emptyType]
    · obtain ⟨ids, y, hy⟩ := hk r b
      rw [hy] at hv hal ⊢
      exact sorted_canonBefore D ids y hv hal

/-- Mixins with one-character names. Rule 1 appends mixin 3 to types without it, rule 2 turns types around; `p` is the
order priority of the rules. -/
def canonDecls (p : Int) : Decls where
  mem := fun a => UInt8.ofNat a
  mix := fun m => { name := ⟨m, m + 1⟩ }
  feat := fun f => { name := ⟨f, f + 1⟩ }
  canonName := ⟨1, 2⟩
  userRule := fun r =>
    { name := ⟨r + 1, r + 2⟩, orderPriority := p
      apply := some fun _ ms => if r = 1 then (if ms.contains 3 then .ok ms else .ok (ms ++ [3])) else .ok ms.reverse }
  cls := fun c => { name := ⟨c, c + 1⟩, matchesT := fun _ => true }

def canonOps : List Op :=
  [.regMixin 0 3, .regMixin 0 5, .regMixin 0 4, .addRule 0 2, .getType 0 [5, 4], .addRule 0 1, .getType 0 [5, 4], .removeRule 0 2]

-- the greatest order priority but one
example : (∀ r, .addRule 0 r ∈ canonOps ∨ .removeRule 0 r ∈ canonOps →
      r ≠ 0 ∧ ((canonDecls 2147483646).userRule r).orderPriority < 2147483647) ∧
    (typesOf (run (canonDecls 2147483646) (initWorld fun _ => { canonicalize := true }) canonOps) 0).map (fun t => t.mixins) =
      [[4, 5], [3, 4, 5]] := by
  refine ⟨?_, by decide +kernel⟩
  intro r hr
  simp [canonOps] at hr
  rcases hr with (rfl | rfl) | rfl <;> simp [canonDecls]

/-- C21 (condition needed): with a rule of the greatest order priority whose name comes after that of the canonical order,
a canonical domain has types which are not in canonical order. -/
theorem C21_priority_needed :
    ∃ (D : Decls) (s : DomId → Settings) (ops : List Op) (t : TypeId) (ms : List Mix), (s 0).canonicalize = true ∧
      compositionOf (run D (initWorld s) ops) 0 t = some ms ∧ (∀ m ∈ ms, (D.mix m).name.Valid) ∧
      (∀ a ∈ ms, ∀ b ∈ ms, NoAlias (D.mix a).name (D.mix b).name) ∧ ¬ ms.Pairwise (CanonBeforeOrSame D) := by
  refine ⟨canonDecls 2147483647, fun _ => { canonicalize := true }, canonOps, 1, [5, 4], rfl, by decide +kernel, ?_, ?_, ?_⟩
  · intro m hm; simp at hm; simp [canonDecls, Sv.Valid]; omega
  · intro a ha b hb h; simp [canonDecls, Sv.len]
  · intro h
    have h1 : CanonBeforeOrSame (canonDecls 2147483647) 5 4 := by
      have := List.pairwise_cons.1 h
      exact this.1 4 (by simp)
    rcases h1 with h1 | ⟨-, h1 | h1⟩
    · simp [canonDecls] at h1
    · revert h1
      have a : (canonDecls 2147483647).mixName 5 = [5] := by decide +kernel
      have b : (canonDecls 2147483647).mixName 4 = [4] := by decide +kernel
      rw [a, b]
      intro h2
      cases h2 with
      | head _ _ h3 => exact absurd h3 (by decide)
    · revert h1; decide +kernel

end Dnmx.Props
