import Verif.Props.PlainObjects

/-! C94: exactly what becomes of an object that is moved onto itself. -/

namespace Dnmx.Props
open Spec

variable (D : Decls) (E : TyEnv)

theorem memset_self (c : UInt8) : ∀ (n : Nat) (mem : Mem) (p x : Nat), (InRange x p n → memset mem p c n x = c) ∧ (¬ InRange x p n → memset mem p c n x = mem x)
  | 0, mem, p, x => ⟨fun h => by simp only [InRange] at h; omega, fun _ => rfl⟩
  | n + 1, mem, p, x => by
    obtain ⟨h1, h2⟩ := memset_self c n (fun a => if a = p then c else mem a) (p + 1) x
    simp only [InRange] at h1 h2 ⊢
    simp only [memset]
    by_cases hx : x = p
    · subst hx
      rw [h2 (by omega)]
      exact ⟨fun _ => by simp, fun h => absurd ⟨Nat.le_refl _, by omega⟩ h⟩
    · refine ⟨fun h => h1 (by omega), fun h => ?_⟩
      rw [h2 (by omega)]
      simp [hx]

theorem memcpy_self : ∀ (n : Nat) (mem : Mem) (p : Nat), memcpy mem p p n = mem
  | 0, mem, p => rfl
  | n + 1, mem, p => by
    have : (fun a => if a = p then mem p else mem a) = mem := by
      funext a
      by_cases h : a = p
      · subst h; simp
      · simp [h]
    simp only [memcpy, this]
    exact memcpy_self n mem (p + 1)

theorem moveOne_self (mem : Mem) (m : Mix) (p x : Nat) :
    (InRange x p (D.mix m).size → movePlainOne D mem m p p x = 0) ∧ (¬ InRange x p (D.mix m).size → movePlainOne D mem m p p x = mem x) := by
  unfold movePlainOne bytesMove
  rw [memcpy_self, memcpy_self]
  by_cases h1 : (D.mix m).hasMoveAsgn = true
  · rw [if_pos h1]; exact memset_self 0 _ _ _ _
  · rw [if_neg h1]
    refine ⟨(memset_self 0 _ _ _ _).1, fun h => ?_⟩
    rw [(memset_self 0 _ _ _ _).2 h]
    by_cases h2 : (D.mix m).hasDestroy = true
    · rw [if_pos h2]; exact (memset_self 254 _ _ _ _).2 h
    · rw [if_neg h2]

theorem matchingStep_self {o : PlainObj} (x : Nat) : ∀ (l : List (Mix × Nat)) (mem : Mem), (∀ e ∈ l, placeIn E o e.1 = some e.2) →
    ((∃ e ∈ l, InRange x e.2 (D.mix e.1).size) → matchingStep E (movePlainOne D) o mem l x = 0) ∧
    ((¬ ∃ e ∈ l, InRange x e.2 (D.mix e.1).size) → matchingStep E (movePlainOne D) o mem l x = mem x)
  | [], mem, _ => ⟨fun h => (by obtain ⟨e, he, -⟩ := h; simp at he), fun _ => rfl⟩
  | (m, p) :: l, mem, h => by
    have hp : placeIn E o m = some p := h (m, p) (List.mem_cons_self ..)
    obtain ⟨h1, h2⟩ := matchingStep_self x l (movePlainOne D mem m p p) (fun e he => h e (List.mem_cons_of_mem _ he))
    obtain ⟨h3, h4⟩ := moveOne_self D mem m p x
    simp only [matchingStep, hp]
    by_cases hl : ∃ e ∈ l, InRange x e.2 (D.mix e.1).size
    · refine ⟨fun _ => h1 hl, fun hn => ?_⟩
      obtain ⟨e, he, hx⟩ := hl
      exact absurd ⟨e, List.mem_cons_of_mem _ he, hx⟩ hn
    · rw [h2 hl]
      refine ⟨fun hx => h3 ?_, fun hn => h4 fun hx => hn ⟨_, List.mem_cons_self .., hx⟩⟩
      obtain ⟨e, he, hx⟩ := hx
      rcases List.mem_cons.1 he with rfl | he
      · exact hx
      · exact absurd ⟨e, he, hx⟩ hl

/-- C94: a move of an object onto itself that does not fail makes every byte of it zero, and no other byte of memory changes. Its mixins may be anywhere. -/
theorem C94_self_move (mem mem' : Mem) (fb : Bool) (o : PlainObj) (ho : PlainOk E o) (h : moveMatchingPlain D E mem fb o o = some (.ok mem')) :
    (∀ b ∈ contentOf D E mem' o, b = 0) ∧ ∀ x, (∀ m p, placeIn E o m = some p → ¬ InRange x p (D.mix m).size) → mem' x = mem x := by
  have hm : mem' = matchingStep E (movePlainOne D) o mem (List.zip (E.mixins o.ty) o.data) := by
    unfold moveMatchingPlain at h
    cases hc : movePlainCheck D E fb o (E.mixins o.ty) with
    | some m => rw [hc] at h; simp at h
    | none =>
      rw [hc] at h
      simp only [movePlain_steps ho (u := o.ty) _ _ mem (fun _ h => h) ho.places, Option.map_some, Option.some.injEq, Except.ok.injEq] at h
      exact h.symm
  have hall : ∀ e ∈ List.zip (E.mixins o.ty) o.data, placeIn E o e.1 = some e.2 := fun e he => (plainOk_at_iff ho _ _).2 he
  subst hm
  constructor
  · intro b hb
    simp only [contentOf, List.mem_flatMap, valueOf, List.mem_map, List.mem_range] at hb
    obtain ⟨e, he, i, hi, rfl⟩ := hb
    exact (matchingStep_self D E _ _ mem hall).1 ⟨e, he, Nat.le_add_right .., by omega⟩
  · intro x hx
    refine (matchingStep_self D E x _ mem hall).2 ?_
    rintro ⟨e, he, h⟩
    exact hx e.1 e.2 (hall e he) h

theorem content_length (mem mem' : Mem) (o : PlainObj) : (contentOf D E mem' o).length = (contentOf D E mem o).length := by
  simp [contentOf, valueOf, List.length_flatMap]

/-- C94: an object that is moved onto itself keeps its bytes exactly if the move fails, as a mixin cannot be moved, or all its bytes are zero. -/
theorem C94_self_move_exactly (mem : Mem) (o : PlainObj) (ho : PlainOk E o) :
    SelfMoveKeeps D E mem o ↔ (∃ m ∈ E.mixins o.ty, (D.mix m).hasMoveAsgn = false) ∨ ∀ b ∈ contentOf D E mem o, b = 0 := by
  constructor
  · intro h
    by_cases hx : ∃ m ∈ E.mixins o.ty, (D.mix m).hasMoveAsgn = false
    · exact .inl hx
    · right
      have hc : movePlainCheck D E false o (E.mixins o.ty) = none := (movePlainCheck_none ho false (u := o.ty) _ (fun _ h => h)).2 fun m hm _ =>
        .inl ((Bool.not_eq_false _).mp fun hf => hx ⟨m, hm, hf⟩)
      have hr : moveMatchingPlain D E mem false o o = some (.ok (matchingStep E (movePlainOne D) o mem (List.zip (E.mixins o.ty) o.data))) := by
        unfold moveMatchingPlain
        rw [hc]
        simp only [movePlain_steps ho (u := o.ty) _ _ mem (fun _ h => h) ho.places, Option.map_some]
      rw [← h _ hr]
      exact (C94_self_move D E mem _ false o ho hr).1
  · rintro (⟨m, hm, hf⟩ | hz) mem' hr
    · unfold moveMatchingPlain at hr
      cases hc : movePlainCheck D E false o (E.mixins o.ty) with
      | some k => rw [hc] at hr; simp at hr
      | none =>
        rcases (movePlainCheck_none ho false (u := o.ty) _ (fun _ h => h)).1 hc m hm hm with h | h
        · rw [hf] at h; cases h
        · cases h.1
    · have hz' := (C94_self_move D E mem mem' false o ho hr).1
      rw [List.eq_replicate_iff.2 ⟨rfl, hz'⟩, List.eq_replicate_iff.2 ⟨rfl, hz⟩, content_length D E mem mem' o]

-- an object of two mixins; in this memory it is not zero
example : moveMatchingPlain plainD plainE byMem false ⟨0, [10, 20]⟩ ⟨0, [10, 20]⟩ ≠ none ∧ contentOf plainD plainE byMem ⟨0, [10, 20]⟩ ≠ [0, 0, 0, 0, 0] ∧
    contentOf plainD plainE (fun _ => 0) ⟨0, [10, 20]⟩ = [0, 0, 0, 0, 0] := by
  refine ⟨?_, by decide +kernel, by decide +kernel⟩
  intro h
  have : (moveMatchingPlain plainD plainE byMem false ⟨0, [10, 20]⟩ ⟨0, [10, 20]⟩).isSome = true := by rfl
  rw [h] at this
  cases this

end Dnmx.Props
