import Verif.Props.DefMemory

/-! C87: exactly what a call of the builder that throws does. -/

namespace Dnmx.Props
open Spec

/-- C87, for all calls: a call that throws makes of the meaning of the definition what `failedCall` says, and leaves it as it was exactly if it is not `on_mutation` with a
rule that attaches or the mixin is a dependency already. The definitions of other mixins keep their meaning in any case. -/
theorem C87_failed_exactly (es : List DefEvent) (hl : LegalRun defStart es) (W : DefWorld) (hW : defRun defStart es = some W) (i : Nat) (d : DefData)
    (hd : W.def? i = some d) (c : DefCall) (g : Growths) (hc : LegalCall W d c) (W' : DefWorld) (ht : defStep W (.call i c g) = .threw W') :
    (W'.def? i).bind (readDef W'.mem) = (readDef W.mem d).map (fun v => failedCall v c) ∧
    ((W'.def? i).bind (readDef W'.mem) = readDef W.mem d ↔ (∀ p q, c ≠ .onMutation (.attachesTo p) q) ∨ d.dependency = true) ∧
    ∀ j, j ≠ i → (W'.def? j).bind (readDef W'.mem) = (W.def? j).bind (readDef W.mem) := by
  obtain ⟨W1, h1, h2⟩ := WorldOk.start.run es hl
  rw [hW] at h1; cases h1
  obtain ⟨X, h3, h4⟩ := h2.step (.call i c g) ⟨d, hd, hc⟩
  rw [ht] at h3
  cases h3
  have hall : ∀ {V : DefWorld} {val : Nat → Option MixinDef}, WorldOk V val → ∀ j, (V.def? j).bind (readDef V.mem) = val j := by
    intro V val hv j
    cases hx : V.def? j with
    | none => exact (hv.absent j hx).symm
    | some x =>
      obtain ⟨v, v1, v2⟩ := hv.value j x hx
      show readDef V.mem x = _
      rw [(readDef_iff _ _ _).2 v2, v1]
  have hv : ∀ j (x : Option MixinDef), valueStep j W x (.call i c g) = if i = j then x.map (fun v => failedCall v c) else x := by
    intro j x
    by_cases e : i = j
    · subst e
      simp only [valueStep, if_true, hd, ht]
    · simp only [valueStep, if_neg e]
  have hread : readDef W.mem d = valueAfter i defStart none es := by
    have := hall h2 i
    rw [hd] at this
    exact this
  obtain ⟨v, v1, v2⟩ := h2.value i d hd
  have hi : (W'.def? i).bind (readDef W'.mem) = (readDef W.mem d).map (fun v => failedCall v c) := by
    rw [hall h4 i, hv, if_pos rfl, hread]
  refine ⟨hi, ?_, fun j hj => ?_⟩
  · rw [hi, (readDef_iff _ _ _).2 v2, Option.map_some, Option.some.injEq, v2.dep]
    constructor
    · intro h
      cases c with
      | onMutation r p =>
        cases r with
        | attachesTo q =>
          right
          have := congrArg MixinDef.dependency h
          exact this.symm
        | _ => left; intro p q e; cases e
      | _ => left; intro p q e; cases e
    · intro h
      cases c with
      | onMutation r p =>
        cases r with
        | attachesTo q =>
          rcases h with h | h
          · exact absurd rfl (h q p)
          · cases v
            simp only at h
            simp [failedCall, h]
        | _ => rfl
      | _ => rfl
  · rw [hall h4 j, hv, if_neg (fun e => hj e.symm), hall h2 j]

-- a call that throws after other calls of a proper program, for both cases
example : (defRun defStart [.newString [77], .construct 4 0]).map (fun W => match defStep W (.call 0 (.onMutation (.attachesTo 3) {}) { first := .fails }) with
      | .threw W' => (W'.def? 0).bind (readDef W'.mem) |>.map (·.dependency)
      | _ => none) = some (some true) ∧
    (defRun defStart defProgram).map (fun W => match defStep W (.call 0 (.onMutation (.attachesTo 3) {}) { first := .fails }) with
      | .threw _ => ((W.def? 0).map (·.dependency))
      | _ => none) = some (some true) := by
  decide +kernel

end Dnmx.Props
