import Verif.Model.PlainObjects

/-! # What objects of plain mixins are -/

namespace Spec
open Dnmx

/-- Address `x` is in the `n` bytes from `p` on. -/
def InRange (x p n : Nat) : Prop := p ≤ x ∧ x < p + n

/-- Two pieces of memory have no byte in common. -/
def RangesApart (p n q k : Nat) : Prop := ∀ x, InRange x p n → ¬ InRange x q k

/-- Where the object has the mixin; `none` if it does not. -/
def placeIn (E : TyEnv) (o : PlainObj) (m : Mix) : Option Nat := (List.zip (E.mixins o.ty) o.data).lookup m

/-- The type of an object: its mixins are different and `index_of` gives the index of any mixin that is in a type of the domain. The object has a place
for each. -/
structure PlainOk (E : TyEnv) (o : PlainObj) : Prop where
  nodup : (E.mixins o.ty).Nodup
  index : ∀ u m (i : Nat), m ∈ E.mixins u → (E.indexOf o.ty m = some i ↔ (E.mixins o.ty)[i]? = some m)
  places : o.data.length = (E.mixins o.ty).length

/-- Different mixins of the object are at different places. -/
def OwnApart (D : Decls) (E : TyEnv) (o : PlainObj) : Prop :=
  ∀ m m' p p', m ≠ m' → placeIn E o m = some p → placeIn E o m' = some p' → RangesApart p (D.mix m).size p' (D.mix m').size

/-- The mixins of two objects are at different places. -/
def ObjsApart (D : Decls) (E : TyEnv) (o o' : PlainObj) : Prop :=
  ∀ m m' p p', placeIn E o m = some p → placeIn E o' m' = some p' → RangesApart p (D.mix m).size p' (D.mix m').size

/-- The bytes of a mixin. -/
def valueOf (D : Decls) (mem : Mem) (m : Mix) (p : Nat) : List UInt8 := (List.range (D.mix m).size).map (fun i => mem (p + i))

/-- The bytes of an object: those of its mixins, one after the other. -/
def contentOf (D : Decls) (E : TyEnv) (mem : Mem) (o : PlainObj) : List UInt8 := (List.zip (E.mixins o.ty) o.data).flatMap (fun e => valueOf D mem e.1 e.2)

end Spec
