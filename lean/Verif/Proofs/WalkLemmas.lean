import Verif.Proofs.DispatchLemmas

set_option linter.unusedSimpArgs false
set_option linter.unusedVariables false

namespace Dnmx
open Spec

/-- A mixin that lists a feature twice is twice among the implementations. -/
theorem listsOnce_of_nodup {D : Decls} {ms : List Nat} {f : Nat} (h : ((allImpls D ms f).map (·.1)).Nodup) : ListsOnce D ms f := by
  intro m hm
  obtain ⟨i, hi⟩ := List.getElem?_of_mem hm
  have hz : (m, i) ∈ ms.zipIdx := by rw [List.mem_zipIdx_iff_getElem?]; exact hi
  obtain ⟨A, B, hAB⟩ := List.append_of_mem hz
  rw [allImpls, hAB, List.flatMap_append, List.flatMap_cons, List.map_append, List.map_append] at h
  rw [List.nodup_append, List.nodup_append] at h
  have h2 := h.2.1.1
  simp only [List.map_map] at h2
  generalize (D.mix m).feats.filter (fun ff => ff.feat = f) = l at h2 ⊢
  rcases l with _ | ⟨a, _ | ⟨b, l⟩⟩
  · simp
  · simp
  · simp at h2

/-- The first repetition in a list. -/
theorem first_repetition (l : List Nat) (h : ¬ l.Nodup) :
    ∃ i j, i < j ∧ j < l.length ∧ l[i]? = l[j]? ∧ ∀ p, p < j → ∀ p', p' < p → l[p']? ≠ l[p]? := by
  suffices hs : ∀ n, n ≤ l.length → (∃ i j, i < j ∧ j < n ∧ l[i]? = l[j]? ∧ ∀ p, p < j → ∀ p', p' < p → l[p']? ≠ l[p]?) ∨
      ∀ p, p < n → ∀ p', p' < p → l[p']? ≠ l[p]? by
    rcases hs l.length (Nat.le_refl _) with ⟨i, j, h1, h2, h3, h4⟩ | hs
    · exact ⟨i, j, h1, h2, h3, h4⟩
    · exfalso
      apply h
      rw [List.Nodup, List.pairwise_iff_getElem]
      intro a b ha hb hab heq
      have := hs b hb a hab
      rw [List.getElem?_eq_getElem ha, List.getElem?_eq_getElem hb, heq] at this
      exact this rfl
  intro n
  induction n with
  | zero => intro _; exact .inr (fun p hp => by omega)
  | succ n ih =>
    intro hn
    rcases ih (by omega) with ⟨i, j, h1, h2, h3, h4⟩ | ih
    · exact .inl ⟨i, j, h1, by omega, h3, h4⟩
    · by_cases hex : ∃ i, i < n ∧ l[i]? = l[n]?
      · obtain ⟨i, hi, he⟩ := hex
        exact .inl ⟨i, n, hi, by omega, he, ih⟩
      · right
        intro p hp p' hp' he
        by_cases hpn : p = n
        · subst hpn; exact hex ⟨p', hp', he⟩
        · exact ih p (by omega) p' hp' he

/-- The search for a mixin finds its first entry. -/
theorem findImplementer_first {l : List Payload} {k : Nat} {p : Payload} (hk : l[k]? = some p)
    (hfirst : ∀ j, j < k → ∀ q, l[j]? = some q → q.mixinIndex ≠ p.mixinIndex) : findImplementer p.mixinIndex 0 l = some k := by
  have hs := findImplementer_spec p.mixinIndex l 0
  cases hf : findImplementer p.mixinIndex 0 l with
  | none => rw [hf] at hs; exact absurd rfl (hs p (List.mem_of_getElem? hk))
  | some j =>
    rw [hf] at hs
    obtain ⟨n, q, h1, h2, h3, h4⟩ := hs
    have : n = k := by
      rcases Nat.lt_trichotomy n k with hlt | heq | hlt
      · exact absurd h3 (hfirst n hlt q h2)
      · exact heq
      · exact absurd rfl (h4 k hlt p hk)
    subst this
    rw [h1]; simp

end Dnmx
