import Verif.Model.Sort

namespace Dnmx

variable {α : Type}

theorem insertBy_perm (lt : α → α → Bool) (x : α) (l : List α) : (insertBy lt x l).Perm (x :: l) := by
  induction l with
  | nil => exact List.Perm.refl _
  | cons y ys ih =>
    unfold insertBy
    split
    · exact (ih.cons y).trans (List.Perm.swap x y ys)
    · exact List.Perm.refl _

theorem sortBy_perm (lt : α → α → Bool) (l : List α) : (sortBy lt l).Perm l := by
  induction l with
  | nil => exact List.Perm.refl _
  | cons x xs ih => exact (insertBy_perm lt x _).trans (ih.cons x)

/-- sorted if the comparator is a strict weak order on the elements -/
theorem insertBy_sorted (lt : α → α → Bool) (S : α → Prop)
    (htrans : ∀ a b c, S a → S b → S c → lt b a = false → lt c b = false → lt c a = false)
    (hasym : ∀ a b, S a → S b → lt a b = true → lt b a = false)
    (x : α) (hx : S x) (l : List α) (hl : ∀ y ∈ l, S y) (h : l.Pairwise (fun a b => lt b a = false)) :
    (insertBy lt x l).Pairwise (fun a b => lt b a = false) := by
  induction l with
  | nil => simp [insertBy]
  | cons y ys ih =>
    rw [List.pairwise_cons] at h
    have hy : S y := hl y (by simp)
    have hys : ∀ z ∈ ys, S z := fun z hz => hl z (by simp [hz])
    unfold insertBy
    split
    · rename_i hlt
      rw [List.pairwise_cons]
      refine ⟨fun z hz => ?_, ih hys h.2⟩
      have := (insertBy_perm lt x ys).mem_iff.1 hz
      rcases List.mem_cons.1 this with h1 | h1
      · subst h1; exact hasym _ _ hy hx hlt
      · exact h.1 z h1
    · rename_i hlt
      rw [List.pairwise_cons]
      refine ⟨fun z hz => ?_, List.pairwise_cons.2 h⟩
      rcases List.mem_cons.1 hz with h1 | h1
      · subst h1; simpa using hlt
      · exact htrans x y z hx hy (hys z h1) (by simpa using hlt) (h.1 z h1)

theorem sortBy_sorted (lt : α → α → Bool) (S : α → Prop)
    (htrans : ∀ a b c, S a → S b → S c → lt b a = false → lt c b = false → lt c a = false)
    (hasym : ∀ a b, S a → S b → lt a b = true → lt b a = false)
    (l : List α) (hl : ∀ y ∈ l, S y) : (sortBy lt l).Pairwise (fun a b => lt b a = false) := by
  induction l with
  | nil => simp [sortBy]
  | cons x xs ih =>
    have hxs : ∀ z ∈ xs, S z := fun z hz => hl z (by simp [hz])
    exact insertBy_sorted lt S htrans hasym x (hl x (by simp)) _ (fun y hy => hxs y ((sortBy_perm lt xs).mem_iff.1 hy)) (ih hxs)

/-- two sorted permutations of each other are equal if different elements are comparable -/
theorem sorted_perm_unique (lt : α → α → Bool) (S : α → Prop)
    (htotal : ∀ a b, S a → S b → a ≠ b → lt a b = true ∨ lt b a = true) (l l' : List α) (hl : ∀ y ∈ l, S y)
    (hp : l.Perm l') (h : l.Pairwise (fun a b => lt b a = false)) (h' : l'.Pairwise (fun a b => lt b a = false)) : l = l' := by
  apply List.Perm.eq_of_pairwise ?_ h h' hp
  intro a b ha hb h1 h2
  apply Classical.byContradiction
  intro hne
  rcases htotal a b (hl a ha) (hl b (hp.mem_iff.2 hb)) hne with h3 | h3
  · rw [h3] at h2; simp at h2
  · rw [h3] at h1; simp at h1

theorem sortBy_of_sorted (lt : α → α → Bool) (l : List α) (h : l.Pairwise (fun a b => lt b a = false)) : sortBy lt l = l := by
  induction l with
  | nil => rfl
  | cons x xs ih =>
    rw [List.pairwise_cons] at h
    rw [sortBy, ih h.2]
    cases xs with
    | nil => rfl
    | cons y ys => simp [insertBy, h.1 y (by simp)]

end Dnmx
