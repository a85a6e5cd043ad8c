import Verif.Spec.Heap

/-!
# Specification: programs that use objects properly
-/

namespace Spec
open Dnmx

/-- Functions that users pass to mutations. -/
def ownNew : NewFn → Bool
  | .copy _ _ => false
  | _ => true

def ownUpd : UpdFn → Bool
  | .assign _ => false
  | _ => true

/-- Steps of a mutation that leave its end to the destructor. -/
def properStep : MStep → Bool
  | .next f g => ownNew f && ownUpd g
  | .each f g _ => ownNew f && ownUpd g
  | .at _ f g => ownNew f && ownUpd g
  | .throw => true
  | .finalize => false
  | .rollback => false

/-- Steps that do not update common mixins. -/
def noUpdate : MStep → Bool
  | .next _ g => g == .noop
  | .each _ g _ => g == .noop
  | .at _ _ g => g == .noop
  | _ => true

/-- Operations that do not change values of mixins that an object has before and after. -/
def Careful : OOp → Prop
  | .copyFrom _ _ => False
  | .copyMatching _ _ => False
  | .mutation _ _ steps => ∀ st ∈ steps, noUpdate st.1 = true
  | _ => True

/-- Object `o` lives. -/
def Alive (h : Heap) (o : Nat) : Prop := h.obj? o ≠ none

/-- Proper use of objects: only living objects are used; objects are mutated to types with mixins only (see `C45`); an object's
mixins are not moved onto themselves with fallback. -/
def Proper (E : TyEnv) (h : Heap) : OOp → Prop
  | .newEmpty _ _ => True
  | .newOfType _ _ _ => True
  | .moveNew src => Alive h src
  | .destroy o => Alive h o
  | .moveAssign o src => Alive h o ∧ Alive h src
  | .copy src _ => Alive h src
  | .copyFrom o src => Alive h o ∧ Alive h src
  | .copyMatching o src => Alive h o ∧ Alive h src
  | .moveMatching o src fb => Alive h o ∧ Alive h src ∧ (o = src → fb = false)
  | .clear o => Alive h o
  | .reset o _ => Alive h o
  | .seal o => Alive h o
  | .mutation o t steps => Alive h o ∧ E.mixins t ≠ [] ∧ ∀ st ∈ steps, properStep st.1 = true
  | .mutateTo o t _ => ∃ ob, h.obj? o = some ob ∧ (ob.ty = some t ∨ E.mixins t ≠ [])

/-- The objects whose type, mixins or sealed status an operation may change. -/
def subjects : OOp → List Nat
  | .newEmpty _ _ => []
  | .newOfType _ _ _ => []
  | .moveNew src => [src]
  | .destroy o => [o]
  | .moveAssign o src => [o, src]
  | .copy _ _ => []
  | .copyFrom o _ => [o]
  | .copyMatching _ _ => []
  | .moveMatching _ _ _ => []
  | .clear o => [o]
  | .reset o _ => [o]
  | .seal o => [o]
  | .mutation o _ _ => [o]
  | .mutateTo o _ _ => [o]

/-- The objects that an operation may change, including the values of mixins. -/
def affected : OOp → List Nat
  | .copyMatching o _ => [o]
  | .moveMatching o src _ => [o, src]
  | op => subjects op

/-- Construction of objects with mixins. -/
def makesObject : OOp → Bool
  | .newOfType _ _ _ => true
  | .copy _ _ => true
  | _ => false

/-- Programs that use objects properly and do not construct objects with mixins during stack unwinding (see `C47`). -/
def ProperRun (D : Decls) (E : TyEnv) (orc : Orc) : List (Bool × OOp) → Heap → Prop
  | [], _ => True
  | (u, op) :: ops, h => (Proper E h op ∧ (u && makesObject op) = false) ∧
    ∀ h', (ostep D E orc u h op = .ok h' ∨ ∃ e, ostep D E orc u h op = .throw h' e) → ProperRun D E orc ops h'

instance (h : Heap) (o : Nat) : Decidable (Alive h o) := inferInstanceAs (Decidable (_ ≠ _))

instance (E : TyEnv) (h : Heap) : (op : OOp) → Decidable (Proper E h op)
  | .newEmpty _ _ => isTrue trivial
  | .newOfType _ _ _ => isTrue trivial
  | .moveNew src => inferInstanceAs (Decidable (Alive h src))
  | .destroy o => inferInstanceAs (Decidable (Alive h o))
  | .moveAssign o src => inferInstanceAs (Decidable (Alive h o ∧ Alive h src))
  | .copy src _ => inferInstanceAs (Decidable (Alive h src))
  | .copyFrom o src => inferInstanceAs (Decidable (Alive h o ∧ Alive h src))
  | .copyMatching o src => inferInstanceAs (Decidable (Alive h o ∧ Alive h src))
  | .moveMatching o src fb => inferInstanceAs (Decidable (Alive h o ∧ Alive h src ∧ (o = src → fb = false)))
  | .clear o => inferInstanceAs (Decidable (Alive h o))
  | .reset o _ => inferInstanceAs (Decidable (Alive h o))
  | .seal o => inferInstanceAs (Decidable (Alive h o))
  | .mutation o t steps => inferInstanceAs (Decidable (Alive h o ∧ E.mixins t ≠ [] ∧ ∀ st ∈ steps, properStep st.1 = true))
  | .mutateTo o t _ =>
    match hx : h.obj? o with
    | none => isFalse (by rintro ⟨ob, h1, -⟩; rw [hx] at h1; simp at h1)
    | some ob =>
      if hd : ob.ty = some t ∨ E.mixins t ≠ [] then isTrue ⟨ob, hx, hd⟩
      else isFalse (by rintro ⟨ob', h1, h2⟩; rw [hx] at h1; simp at h1; subst h1; exact hd h2)

instance instDecidableProperRun (D : Decls) (E : TyEnv) (orc : Orc) : (ops : List (Bool × OOp)) → (h : Heap) → Decidable (ProperRun D E orc ops h)
  | [], _ => isTrue trivial
  | (u, op) :: ops, h =>
    if hp : Proper E h op ∧ (u && makesObject op) = false then
      match hr : ostep D E orc u h op with
      | .ub => isTrue ⟨hp, by rintro h' (h1 | ⟨e, h1⟩) <;> rw [hr] at h1 <;> simp at h1⟩
      | .ok h1 =>
        match instDecidableProperRun D E orc ops h1 with
        | isTrue hq => isTrue ⟨hp, by rintro h' (h2 | ⟨e, h2⟩) <;> rw [hr] at h2 <;> simp at h2; subst h2; exact hq⟩
        | isFalse hq => isFalse (fun hx => hq (hx.2 h1 (.inl hr)))
      | .throw h1 e =>
        match instDecidableProperRun D E orc ops h1 with
        | isTrue hq => isTrue ⟨hp, by rintro h' (h2 | ⟨e', h2⟩) <;> rw [hr] at h2 <;> simp at h2; obtain ⟨rfl, -⟩ := h2; exact hq⟩
        | isFalse hq => isFalse (fun hx => hq (hx.2 h1 (.inr ⟨e, hr⟩)))
    else isFalse (fun hx => hp hx.1)

end Spec
