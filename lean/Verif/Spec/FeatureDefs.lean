import Verif.Model.FeatureDefs
import Verif.Spec.DefMemory

/-!
# What feature definitions should hold
-/

namespace Spec
open Dnmx

/-- What a feature info says: the characters of its name and the address of the default payload. -/
structure FVal where
  name : List UInt8
  payload : Option Nat
deriving DecidableEq, Repr

/-- What somebody sees who follows the view of the name. `none`: it leads to nothing. -/
def readF (M : DefMem) (d : FDef) : Option FVal := (M.chars? d.name).map (fun n => ⟨n, d.payload⟩)

/-- What the user has to care for in a call: views lead to strings of the user or to that of the definition, shared pointers own something that exists. -/
def LegalFCall (W : FWorld) (d : FDef) : FCall → Prop
  | .name a => a ∈ W.strings ∨ a = d.storedName
  | .storeName a => ∃ s, W.mem.chars? a = some s
  | .payload p => ∀ c, p.owner = some c → IsShared W.mem c
  | .payloadWith => True

def LegalF (W : FWorld) : FEvent → Prop
  | .freeString a => a ∈ W.strings ∧ ∀ i d, W.def? i = some d → d.name ≠ a
  | .copyShared c => IsShared W.mem c
  | .dropShared c => c ∈ W.held
  | .construct a => a ∈ W.strings
  | .call i c _ => ∃ d, W.def? i = some d ∧ LegalFCall W d c
  | .destroy i => ∃ d, W.def? i = some d
  | _ => True

def LegalFRun : FWorld → List FEvent → Prop
  | _, [] => True
  | W, e :: es => LegalF W e ∧ ∀ W', (fStep W e).world = some W' → LegalFRun W' es

/-- What a call that succeeds makes of the meaning of a definition. -/
def fDone (W : FWorld) (v : FVal) : FCall → FVal
  | .name a => { v with name := (W.mem.chars? a).getD [] }
  | .storeName a => { v with name := (W.mem.chars? a).getD [] }
  | .payload p => { v with payload := some p.ptr }
  | .payloadWith => { v with payload := some W.mem.next }

/-- What an event makes of the meaning of definition number `i`: calls that throw do nothing. -/
def fValueStep (i : Nat) (W : FWorld) (v : Option FVal) : FEvent → Option FVal
  | .construct a => if W.defs.length = i then some ⟨(W.mem.chars? a).getD [], none⟩ else v
  | .call j c g => if j = i then
      match fStep W (.call j c g) with
      | .ok _ => v.map (fun x => fDone W x c)
      | _ => v
    else v
  | .destroy j => if j = i then none else v
  | _ => v

/-- The meaning of definition number `i` after a program. -/
def fValueAfter (i : Nat) : FWorld → Option FVal → List FEvent → Option FVal
  | _, v, [] => v
  | W, v, e :: es => match (fStep W e).world with
    | none => fValueStep i W v e
    | some W' => fValueAfter i W' (fValueStep i W v e) es

end Spec
