import Verif.Model.TypeMutation
import Verif.Spec.Lists

namespace Dnmx
open Spec

theorem tmHas_iff (ms : List Mix) (m : Mix) : tmHas ms m = true ↔ m ∈ ms := by
  simp [tmHas]

theorem tmRemove_absent {ms : List Mix} {m : Mix} (h : m ∉ ms) : tmRemove ms m = (ms, false) := by
  induction ms with
  | nil => rfl
  | cons x xs ih =>
    simp only [List.mem_cons, not_or] at h
    have hx : ¬ x = m := fun e => h.1 e.symm
    simp [tmRemove, hx, ih h.2]

theorem tmRemove_present {ms : List Mix} {m : Mix} (h : m ∈ ms) :
    (tmRemove ms m).2 = true ∧ RemovesFirst ms m (tmRemove ms m).1 := by
  induction ms with
  | nil => simp at h
  | cons x xs ih =>
    by_cases hx : x = m
    · subst hx
      simp [tmRemove]
      exact ⟨[], xs, rfl, by simp, rfl⟩
    · have hm : m ∈ xs := by
        rcases List.mem_cons.1 h with h | h
        · exact absurd h.symm hx
        · exact h
      obtain ⟨h1, pre, post, h2, h3, h4⟩ := ih hm
      simp only [tmRemove, hx, if_false]
      refine ⟨h1, x :: pre, post, by rw [h2]; rfl, ?_, by rw [h4]; rfl⟩
      simp only [List.mem_cons, not_or]
      exact ⟨fun e => hx e.symm, h3⟩

theorem dedupInner_none (l : List Mix) : dedupInner none l = none := by
  induction l with
  | nil => rfl
  | cons x xs ih => simp [dedupInner, ih]

theorem dedupInner_some (m : Mix) (l : List Mix) : dedupInner (some m) l = if m ∈ l then none else some m := by
  induction l with
  | nil => rfl
  | cons x xs ih =>
    by_cases hx : m = x
    · subst hx; simp [dedupInner, dedupInner_none]
    · simp [dedupInner, hx, ih]

theorem tmDedup_cons (m : Mix) (l : List Mix) : tmDedup (m :: l) = if m ∈ l then tmDedup l else m :: tmDedup l := by
  simp only [tmDedup, dedupMark, dedupInner_some]
  split <;> simp

theorem isLastPos_zero (m : Mix) (l : List Mix) : IsLastPos (m :: l) 0 ↔ m ∉ l := by
  constructor
  · rintro ⟨x, hx, h⟩ hm
    simp at hx; subst hx
    obtain ⟨i, hi, he⟩ := List.getElem_of_mem hm
    exact h (i + 1) (by omega) (by simp [List.getElem?_eq_getElem hi, he])
  · intro hm
    refine ⟨m, rfl, fun q hq hc => ?_⟩
    obtain ⟨q, rfl⟩ : ∃ q', q = q' + 1 := ⟨q - 1, by omega⟩
    simp at hc
    exact hm (List.mem_of_getElem? hc)

theorem isLastPos_succ (m : Mix) (l : List Mix) (p : Nat) : IsLastPos (m :: l) (p + 1) ↔ IsLastPos l p := by
  constructor
  · rintro ⟨x, hx, h⟩
    refine ⟨x, by simpa using hx, fun q hq hc => h (q + 1) (by omega) (by simpa using hc)⟩
  · rintro ⟨x, hx, h⟩
    refine ⟨x, by simpa using hx, fun q hq hc => ?_⟩
    obtain ⟨q, rfl⟩ : ∃ q', q = q' + 1 := ⟨q - 1, by omega⟩
    exact h q (by omega) (by simpa using hc)

theorem tmDedup_keepsLast (l : List Mix) : KeepsLast l (tmDedup l) := by
  induction l with
  | nil =>
    refine ⟨[], List.Pairwise.nil, fun p => ?_, rfl⟩
    simp [IsLastPos]
  | cons m l ih =>
    obtain ⟨ps, hs, hm, he⟩ := ih
    have hs' : (ps.map (· + 1)).Pairwise (· < ·) := by
      rw [List.pairwise_map]
      exact hs.imp (by intro a b h; omega)
    rw [tmDedup_cons]
    by_cases hml : m ∈ l
    · simp only [hml, if_true]
      refine ⟨ps.map (· + 1), hs', fun p => ?_, ?_⟩
      · cases p with
        | zero =>
          rw [isLastPos_zero]
          simp [hml]
        | succ p =>
          rw [isLastPos_succ, ← hm]
          simp
      · rw [he]; simp
    · simp only [hml, if_false]
      refine ⟨0 :: ps.map (· + 1), ?_, fun p => ?_, ?_⟩
      · rw [List.pairwise_cons]
        refine ⟨?_, hs'⟩
        intro a ha
        simp at ha; omega
      · cases p with
        | zero => rw [isLastPos_zero]; simp [hml]
        | succ p =>
          rw [isLastPos_succ, ← hm]
          simp
      · simp [he]

theorem mem_tmDedup (l : List Mix) (x : Mix) : x ∈ tmDedup l ↔ x ∈ l := by
  induction l with
  | nil => simp [tmDedup, dedupMark]
  | cons m l ih =>
    rw [tmDedup_cons]
    by_cases hml : m ∈ l
    · simp only [hml, if_true, ih, List.mem_cons]
      constructor
      · exact .inr
      · rintro (h | h)
        · exact h ▸ hml
        · exact h
    · simp [hml, ih]

theorem tmDedup_nodup (l : List Mix) : (tmDedup l).Nodup := by
  induction l with
  | nil => simp [tmDedup, dedupMark]
  | cons m l ih =>
    rw [tmDedup_cons]
    by_cases hml : m ∈ l
    · simp [hml, ih]
    · simp [hml, ih, mem_tmDedup]

theorem tmDedup_of_nodup {l : List Mix} (h : l.Nodup) : tmDedup l = l := by
  induction l with
  | nil => rfl
  | cons m l ih =>
    rw [List.nodup_cons] at h
    rw [tmDedup_cons]; simp [h.1, ih h.2]

theorem tmDedup_sublist (l : List Mix) : (tmDedup l).Sublist l := by
  induction l with
  | nil => simp [tmDedup, dedupMark]
  | cons m l ih =>
    rw [tmDedup_cons]
    by_cases hml : m ∈ l
    · simp [hml]; exact ih.cons m
    · simp [hml]; exact ih

theorem tmFindName_none (D : Decls) (name : List UInt8) (ms : List Mix) :
    tmFindName D name ms = none ↔ ∀ m ∈ ms, D.mixName m ≠ name := by
  induction ms with
  | nil => simp [tmFindName]
  | cons x xs ih =>
    by_cases hx : D.mixName x = name
    · simp [tmFindName, hx]
    · simp [tmFindName, hx, ih]

theorem tmFindName_some (D : Decls) (name : List UInt8) (ms : List Mix) (m : Mix) :
    tmFindName D name ms = some m ↔
      ∃ pre post, ms = pre ++ m :: post ∧ D.mixName m = name ∧ ∀ x ∈ pre, D.mixName x ≠ name := by
  induction ms with
  | nil => simp [tmFindName]
  | cons x xs ih =>
    by_cases hx : D.mixName x = name
    · simp only [tmFindName, hx, if_true, Option.some.injEq]
      constructor
      · rintro rfl; exact ⟨[], xs, rfl, hx, by simp⟩
      · rintro ⟨pre, post, he, hm, hp⟩
        cases pre with
        | nil => simp at he; exact he.1
        | cons p ps =>
          simp at he
          exact absurd hx (he.1 ▸ hp p (by simp))
    · simp only [tmFindName, hx, if_false, ih]
      constructor
      · rintro ⟨pre, post, he, hm, hp⟩
        exact ⟨x :: pre, post, by rw [he]; rfl, hm, by simpa using ⟨hx, hp⟩⟩
      · rintro ⟨pre, post, he, hm, hp⟩
        cases pre with
        | nil => simp at he; exact absurd (he.1 ▸ hm) hx
        | cons p ps =>
          simp at he
          exact ⟨ps, post, he.2, hm, fun y hy => hp y (by simp [hy])⟩

theorem tmEraseName_eq (D : Decls) (name : List UInt8) (pre post : List Mix) (m : Mix)
    (hm : D.mixName m = name) (hp : ∀ x ∈ pre, D.mixName x ≠ name) :
    tmEraseName D name (pre ++ m :: post) = pre ++ post := by
  induction pre with
  | nil => simp [tmEraseName, hm]
  | cons p ps ih =>
    have h1 := hp p (by simp)
    simp only [List.cons_append, tmEraseName, h1, if_false]
    rw [ih (fun x hx => hp x (by simp [hx]))]

end Dnmx
