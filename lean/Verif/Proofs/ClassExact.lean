import Verif.Proofs.ClassLemmas
import Verif.Proofs.BuilderLemmas
import Verif.Proofs.TypeLemmas

set_option linter.unusedSimpArgs false
set_option linter.unusedVariables false

namespace Dnmx
open Spec

theorem clearFirst_free (c : Cls) : ∀ l : List (Option Cls), none ∈ clearFirst c l ↔ none ∈ l ∨ some c ∈ l
  | [] => by simp [clearFirst]
  | x :: l => by
    by_cases h : x = some c
    · subst h; simp [clearFirst]
    · simp only [clearFirst, if_neg h, List.mem_cons, clearFirst_free c l]
      constructor
      · rintro (h1 | h1 | h1)
        · exact .inl (.inl h1)
        · exact .inl (.inr h1)
        · exact .inr (.inr h1)
      · rintro ((h1 | h1) | (h1 | h1))
        · exact .inl h1
        · exact .inr (.inl h1)
        · exact absurd h1.symm h
        · exact .inr (.inr h1)

/-- How free slots come about. -/
theorem step_free (D : Decls) (W : World) (h : RegInv W) (op : Op) (d : DomId) :
    none ∈ ((step D W op).2.doms d).classes ↔ none ∈ (W.doms d).classes ∨ ∃ c, op = .unregClass d c ∧ c ∈ classesOf W d := by
  by_cases h1 : ∃ c, op = .unregClass d c
  · obtain ⟨c, rfl⟩ := h1
    show none ∈ ((unregisterTypeClass W d c).2.doms d).classes ↔ _
    simp only [unregisterTypeClass, setDom_same, clearFirst_free]
    constructor
    · rintro (h1 | h1)
      · exact .inl h1
      · exact .inr ⟨c, rfl, (mem_classesOf _ _ _).2 (List.getElem?_of_mem h1)⟩
    · rintro (h1 | ⟨c', h1, h2⟩)
      · exact .inl h1
      · simp at h1; subst h1
        obtain ⟨i, hi⟩ := (mem_classesOf _ _ _).1 h2
        exact .inr (List.mem_of_getElem? hi)
  · have hno : ∀ c, op ≠ .unregClass d c := fun c e => h1 ⟨c, e⟩
    constructor
    · intro hn
      by_cases hf : none ∈ (W.doms d).classes
      · exact .inl hf
      · exact absurd hn (step_noFree D W h op d hno hf)
    · rintro (hn | ⟨c, e, -⟩)
      · by_cases h2 : ∃ c', op = .regClass d c'
        · obtain ⟨c', rfl⟩ := h2
          show none ∈ ((registerTypeClass D W d c').2.doms d).classes
          rcases registerTypeClass_cases D W d c' with h | h | h | h | ⟨h, hne, hnn, huq, -⟩
          · rw [h.1]; exact hn
          · rw [h.1]; exact hn
          · rw [h.1]; exact hn
          · rw [h.1]; exact hn
          · rw [h]; simp [setDom_same, hn]
        · rw [step_classes_same D W h op d (fun c e => h2 ⟨c, e⟩) hno]; exact hn
      · exact absurd e (hno c)

/-- There is a free slot exactly if a registered class was unregistered some time. -/
theorem run_free (D : Decls) (s : DomId → Settings) (d : DomId) : ∀ ops : List Op,
    none ∈ ((run D (initWorld s) ops).doms d).classes ↔
      ∃ before c after, ops = before ++ .unregClass d c :: after ∧ c ∈ classesOf (run D (initWorld s) before) d := by
  apply snoc_induction
  · constructor
    · intro h; simp [run, initWorld, newDom] at h
    · rintro ⟨b, c, a, h, -⟩; simp at h
  · intro ops op ih
    rw [run_snoc, step_free D _ (reachable_reg D s ops) op d, ih]
    constructor
    · rintro (⟨b, c, a, h1, h2⟩ | ⟨c, rfl, h2⟩)
      · exact ⟨b, c, a ++ [op], by rw [h1]; simp, h2⟩
      · exact ⟨ops, c, [], rfl, h2⟩
    · rintro ⟨b, c, a, h1, h2⟩
      rcases List.eq_nil_or_concat a with rfl | ⟨a', x, rfl⟩
      · have := List.append_inj' (t₁ := [op]) (t₂ := [Op.unregClass d c]) h1 rfl
        obtain ⟨rfl, h3⟩ := this
        simp at h3
        exact .inr ⟨c, h3, h2⟩
      · rw [List.concat_eq_append] at h1
        have h1' : ops ++ [op] = (b ++ .unregClass d c :: a') ++ [x] := by rw [h1]; simp
        have := List.append_inj' h1' rfl
        exact .inl ⟨b, c, a', this.1, h2⟩

end Dnmx
