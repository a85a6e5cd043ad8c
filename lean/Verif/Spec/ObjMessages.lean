import Verif.Model.ObjMessages
import Verif.Spec.Heap

/-!
# Specification: what exceptions of operations on objects say, and when it is true
-/

namespace Spec
open Dnmx

/-- The outcome is an exception. -/
def thrownBy {σ : Type} : Res σ → Option XErr
  | .throw _ e => some e
  | _ => none

/-- The object has a mixin already. -/
def hasAlready (E : TyEnv) (ob : Obj) (m : Mix) : Bool := ob.data.isSome && (ob.ty.elim [] E.mixins).contains m

/-- Mixins for which a function is called: the new ones, and if there is a function for updates, the others as well. -/
def callsFor (E : TyEnv) (ob : Obj) (updates : Bool) (m : Mix) : Bool := updates || !hasAlready E ob m

/-- The number of function calls before the one for the mixin with index `i` of type `t`. -/
def callsBefore (E : TyEnv) (ob : Obj) (t : TypeId) (updates : Bool) (i : Nat) : Nat := ((E.mixins t).take i).countP (callsFor E ob updates)

/-- The number of calls of allocators: none if the type stays, else one for the buffer and one for each new external mixin. -/
def allocCalls (D : Decls) (E : TyEnv) (ob : Obj) (t : TypeId) : Nat :=
  if ob.ty = some t then 0 else 1 + (E.mixins t).countP (fun m => (D.mix m).external && !hasAlready E ob m)

/-- All mixins are made with the same function. -/
def always (f : NewFn) : Mix → NewFn → Prop := fun _ f' => f' = f

/-- Mixins are made with the function that an operation of `mutate_to` gives for them, else with their own. -/
def chosenBy (ops : List InitOp) : Mix → NewFn → Prop := fun m f => (∃ k, (m, k) ∈ ops ∧ f = .custom k) ∨ ((∀ k, (m, k) ∉ ops) ∧ f = .dflt)

/-- The operations of `mutate_to` are for different mixins, which are mixins of types. -/
def PlainOps (E : TyEnv) : OOp → Prop
  | .mutateTo _ _ ops => (ops.map Prod.fst).Nodup ∧ ∀ x ∈ ops, ∃ u, x.1 ∈ E.mixins u
  | _ => True

/-- Mutations with steps by hand. -/
def byHand : OOp → Bool
  | .mutation _ _ _ => true
  | _ => false

section
variable (D : Decls) (E : TyEnv) (orc : Orc) (T : Telling)

/-- What is said about an object of a type. -/
def about (t : TypeId) (op : String) : List Piece := [.dom (T.dom t), .lit ": ", .lit op, .lit " object of type ", .comp (E.mixins t)]

/-- What is said about a sealed object. -/
def aboutSealed (t : TypeId) (op : String) : List Piece := [.dom (T.dom t), .lit ": ", .lit op, .lit " sealed object of type ", .comp (E.mixins t)]

/-- A function of `m`, named `fn`, failed at its n-th call, and gave an error code or threw. -/
def failedWith (t : TypeId) (op fn : String) (m : Mix) (n : Nat) : ObjThrown :=
  ⟨.user n, (T.code n).map (fun c => about E T t op ++ [.lit ": ", .lit fn, .lit " ", .mix m, .lit " failed with error ", .code c])⟩

/-- `m` cannot be treated. -/
def lacking (t : TypeId) (op what : String) (m : Mix) : ObjThrown :=
  ⟨.missingFunc m, some (about E T t op ++ [.lit ": ", .mix m, .lit " ", .lit what])⟩

/-- Exceptions for a mixin `m` of the type `t`, with the number `n` of the call if a function was called. The flag: the object had the mixin already. -/
inductive FnSays (t : TypeId) (m : Mix) (n : Nat) : Bool → NewFn → UpdFn → ObjThrown → Prop
  | noInit (g : UpdFn) : (D.mix m).hasInit = false → FnSays t m n false .dflt g (lacking E T t "mutate to" "missing default init" m)
  | initFails (g : UpdFn) : (D.mix m).hasInit = true → orc.fail n = true → FnSays t m n false .dflt g (failedWith E T t "mutate to" "deafult init" m n)
  | ownNew (k : Nat) (g : UpdFn) : orc.fail n = true → FnSays t m n false (.custom k) g ⟨.user n, none⟩
  | noCopy (src : Nat) (g : UpdFn) : (D.mix m).hasCopyInit = false → FnSays t m n false (.copy src true) g (lacking E T t "copy" "missing copy init" m)
  | copyFails (src : Nat) (g : UpdFn) : (D.mix m).hasCopyInit = true → orc.fail n = true →
    FnSays t m n false (.copy src true) g (failedWith E T t "copy" "copy init" m n)
  | copyFromFails (src : Nat) (g : UpdFn) : (D.mix m).hasCopyInit = true → orc.fail n = true →
    FnSays t m n false (.copy src false) g (failedWith E T t "copy_from" "copy init" m n)
  | ownUpdate (f : NewFn) (k : Nat) : orc.fail n = true → FnSays t m n true f (.custom k) ⟨.user n, none⟩
  | assignFails (f : NewFn) (src : Nat) : orc.fail n = true → FnSays t m n true f (.assign src) (failedWith E T t "copy_from" "copy assign" m n)

/-- The mixin has the function that makes a new one. -/
def HasFn (f : NewFn) (m : Mix) : Prop :=
  match f with
  | .dflt => (D.mix m).hasInit = true
  | .custom _ => True
  | .copy _ _ => (D.mix m).hasCopyInit = true

/-- The number of the call for the mixin with index `i`, if all mixins are treated in order. -/
def callNumber (h : Heap) (ob : Obj) (t : TypeId) (updates : Bool) (i : Nat) : Nat := h.tick + allocCalls D E ob t + callsBefore E ob t updates i

/-- Up to index `i` all went well: functions that were called did not fail, and the new mixins have one. -/
def WellBefore (h : Heap) (ob : Obj) (t : TypeId) (updates : Bool) (fs : Mix → NewFn → Prop) (i : Nat) : Prop :=
  ∀ (j : Nat) (m : Mix), j < i → (E.mixins t)[j]? = some m → callsFor E ob updates m = true →
    orc.fail (callNumber D E h ob t updates j) = false ∧ (hasAlready E ob m = false → ∃ f, fs m f ∧ HasFn D f m)

/-- Exceptions for the first mixin that could not be treated, when mixins are made with the functions given by `fs` and updated with `g`. -/
def FirstFailed (h : Heap) (ob : Obj) (t : TypeId) (fs : Mix → NewFn → Prop) (g : UpdFn) (x : ObjThrown) : Prop :=
  ∃ (i : Nat) (m : Mix), (E.mixins t)[i]? = some m ∧
    (∃ f, fs m f ∧ FnSays D E orc T t m (callNumber D E h ob t (g != .noop) i) (hasAlready E ob m) f g x) ∧
    WellBefore D E orc h ob t (g != .noop) fs i

/-- An allocation failed, the first that did. -/
def AllocFailed (h : Heap) (ob : Obj) (t : TypeId) (x : ObjThrown) : Prop :=
  x = ⟨.badAlloc, none⟩ ∧ ∃ k, k < allocCalls D E ob t ∧ orc.fail (h.tick + k) = true ∧ ∀ j, j < k → orc.fail (h.tick + j) = false

/-- The object is sealed. -/
def SealedSays (ob : Obj) (op : String) (x : ObjThrown) : Prop := ob.isSealed = true ∧ x = ⟨.isSealed, ob.ty.map (fun t => aboutSealed E T t op)⟩

/-- Exceptions of a mutation that treats all mixins in order. -/
inductive MutSays (h : Heap) (ob : Obj) (t : TypeId) (fs : Mix → NewFn → Prop) (g : UpdFn) (x : ObjThrown) : Prop
  | sealed : SealedSays E T ob "mutate" x → MutSays h ob t fs g x
  | alloc : ob.isSealed = false → AllocFailed D E orc h ob t x → MutSays h ob t fs g x
  | mixin : ob.isSealed = false → (∀ k, k < allocCalls D E ob t → orc.fail (h.tick + k) = false) → FirstFailed D E orc T h ob t fs g x →
    MutSays h ob t fs g x

/-- The functions that steps of a mutation use, and the defaults. -/
def UsedBy (steps : List (MStep × Bool)) (f : NewFn) (g : UpdFn) : Prop :=
  (f = .dflt ∧ g = .noop) ∨ ∃ st c, (st, c) ∈ steps ∧
    (st = .next f g ∨ (∃ upto, st = .each f g upto) ∨ ∃ i, st = .at i f g)

/-- Exceptions of a mutation with steps by hand. -/
inductive StepsSay (h : Heap) (ob : Obj) (t : TypeId) (steps : List (MStep × Bool)) (x : ObjThrown) : Prop
  | sealed : SealedSays E T ob "mutate" x → StepsSay h ob t steps x
  | alloc : AllocFailed D E orc h ob t x → StepsSay h ob t steps x
  | mixin (m : Mix) (n : Nat) (already : Bool) (f : NewFn) (g : UpdFn) : m ∈ E.mixins t → UsedBy steps f g →
    FnSays D E orc T t m n already f g x → StepsSay h ob t steps x
  | outOfOrder (i : Nat) (f : NewFn) (g : UpdFn) : (.at i f g, false) ∈ steps →
    x = ⟨.outOfOrder, some (about E T t "piecewise mutation out of order while mtating to")⟩ → StepsSay h ob t steps x
  | outside : (.throw, false) ∈ steps → x = ⟨.outside, none⟩ → StepsSay h ob t steps x

/-- A mixin that both objects have, in the order of the other object. -/
def commonMixins (own t : TypeId) : List Mix := (E.mixins t).filter (fun m => (E.mixins own).contains m)

/-- Exceptions of operations on objects, and their reasons. -/
inductive OpSays (h : Heap) : OOp → ObjThrown → Prop
  | newOfType (t : TypeId) (al : Nat) (sd : Bool) (x : ObjThrown) : E.mixins t ≠ [] → MutSays D E orc T h ⟨none, none, false, al⟩ t (always .dflt) .noop x →
    OpSays h (.newOfType t al sd) x
  | reset (o : Nat) (t : TypeId) (ob : Obj) (x : ObjThrown) : h.obj? o = some ob → ob.isSealed = false → ob.ty ≠ some t → E.mixins t ≠ [] →
    MutSays D E orc T h ob t (always .dflt) .noop x → OpSays h (.reset o t) x
  | resetSealed (o : Nat) (t : TypeId) (ob : Obj) (x : ObjThrown) : h.obj? o = some ob → SealedSays E T ob "reset_type" x → OpSays h (.reset o t) x
  | moveSealed (o src : Nat) (ob sb : Obj) (x : ObjThrown) : o ≠ src → h.obj? o = some ob → h.obj? src = some sb → ob.alloc = sb.alloc →
    SealedSays E T ob "move assign" x → OpSays h (.moveAssign o src) x
  | moveAllocators (o src : Nat) (ob sb : Obj) : o ≠ src → h.obj? o = some ob → h.obj? src = some sb → ob.alloc ≠ sb.alloc →
    OpSays h (.moveAssign o src) ⟨.allocMismatch, ob.ty.map (fun t => about E T t "move assign with mismatched allocators")⟩
  | copy (src al : Nat) (sb : Obj) (t : TypeId) (x : ObjThrown) : h.obj? src = some sb → sb.data ≠ none → sb.ty = some t →
    MutSays D E orc T h ⟨none, none, false, al⟩ t (always (.copy src true)) .noop x → OpSays h (.copy src al) x
  | copyFromSealed (o src : Nat) (ob sb : Obj) (x : ObjThrown) : h.obj? o = some ob → h.obj? src = some sb → sb.data = none →
    SealedSays E T ob "copy_from" x → OpSays h (.copyFrom o src) x
  /-- the first mixin of the source that cannot be copied -/
  | copyFromLacks (o src : Nat) (ob sb : Obj) (own t : TypeId) (m : Mix) (pre post : List Mix) : h.obj? o = some ob → h.obj? src = some sb → sb.data ≠ none →
    ob.ty = some own → sb.ty = some t → E.mixins t = pre ++ m :: post →
    (∀ y ∈ pre, if y ∈ E.mixins own then (D.mix y).hasCopyAsgn = true else (D.mix y).hasCopyInit = true) →
    (if m ∈ E.mixins own then (D.mix m).hasCopyAsgn = false else (D.mix m).hasCopyInit = false) →
    OpSays h (.copyFrom o src) (lacking E T t "copy_from" (if m ∈ E.mixins own then "missing copy assign" else "missing copy init") m)
  | copyFrom (o src : Nat) (ob sb : Obj) (own t : TypeId) (x : ObjThrown) : h.obj? o = some ob → h.obj? src = some sb → sb.data ≠ none →
    ob.ty = some own → sb.ty = some t →
    (∀ y ∈ E.mixins t, if y ∈ E.mixins own then (D.mix y).hasCopyAsgn = true else (D.mix y).hasCopyInit = true) →
    MutSays D E orc T h ob t (always (.copy src false)) (.assign src) x → OpSays h (.copyFrom o src) x
  | copyMatchingLacks (o src : Nat) (ob sb : Obj) (own t : TypeId) (m : Mix) (pre post : List Mix) : h.obj? o = some ob → h.obj? src = some sb →
    ob.ty = some own → sb.ty = some t → commonMixins E own t = pre ++ m :: post → (∀ y ∈ pre, (D.mix y).hasCopyAsgn = true) → (D.mix m).hasCopyAsgn = false →
    OpSays h (.copyMatching o src) (lacking E T own "copy_matching_from" "missing copy assign" m)
  | copyMatching (o src : Nat) (ob sb : Obj) (own t : TypeId) (i : Nat) (m : Mix) : h.obj? o = some ob → h.obj? src = some sb →
    ob.ty = some own → sb.ty = some t → (∀ y ∈ commonMixins E own t, (D.mix y).hasCopyAsgn = true) → (commonMixins E own t)[i]? = some m → orc.fail (h.tick + i) = true → (∀ j, j < i → orc.fail (h.tick + j) = false) →
    OpSays h (.copyMatching o src) (failedWith E T own "copy_matching_from" "copy assign" m (h.tick + i))
  | moveMatchingLacks (o src : Nat) (fb : Bool) (ob sb : Obj) (own t : TypeId) (m : Mix) (pre post : List Mix) : h.obj? o = some ob → h.obj? src = some sb →
    ob.ty = some own → sb.ty = some t → commonMixins E own t = pre ++ m :: post →
    (∀ y ∈ pre, (D.mix y).hasMoveAsgn = true ∨ (fb = true ∧ (D.mix y).hasMoveInit = true)) →
    (D.mix m).hasMoveAsgn = false → (fb = true → (D.mix m).hasMoveInit = false) →
    OpSays h (.moveMatching o src fb) (lacking E T own "move_matching_from" "cannot be moved" m)
  | clear (o : Nat) (ob : Obj) (x : ObjThrown) : h.obj? o = some ob → SealedSays E T ob "clear" x → OpSays h (.clear o) x
  | mutation (o : Nat) (t : TypeId) (steps : List (MStep × Bool)) (ob : Obj) (x : ObjThrown) : h.obj? o = some ob → StepsSay D E orc T h ob t steps x →
    OpSays h (.mutation o t steps) x
  | mutateTo (o : Nat) (t : TypeId) (ops : List InitOp) (ob : Obj) (x : ObjThrown) : h.obj? o = some ob → ob.ty ≠ some t →
    MutSays D E orc T h ob t (chosenBy ops) .noop x → OpSays h (.mutateTo o t ops) x

end

end Spec
