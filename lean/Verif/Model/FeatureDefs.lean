import Verif.Model.DefMemory

/-!
# The memory of feature definitions

Model of `util::feature_info_data` (code/dynamix/feature_info_data.hpp 13-24) and of the functions of its builder (27-76) as they use memory. Memory is that of
`Model/DefMemory.lean`, with the same simplifications; in addition the temporary string in `store_name` and the parameter of `default_payload` are modelled, which live
until the end of the call. A definition cannot be copied or moved (common_feature_info.hpp 26-27).
-/

namespace Dnmx

/-- `feature_info_data` (feature_info_data.hpp 13-24). -/
structure FDef where
  /-- `info.name`: where the characters are -/
  name : Nat
  /-- `stored_name`: where its characters are -/
  storedName : Nat
  /-- `info.default_payload` -/
  payload : Option Nat := none
  /-- `default_payload_storage` -/
  storage : Option AnyPtr := none
deriving DecidableEq, Repr

/-- Functions of the builder, with views as addresses. -/
inductive FCall
  /-- `name` (feature_info_data.hpp 47-50) -/
  | name (a : Nat)
  /-- `store_name` (53-56) -/
  | storeName (a : Nat)
  /-- `default_payload` (58-62) with a copy of a shared pointer; without owner: `default_payload_by` (64-67) -/
  | payload (p : AnyPtr)
  /-- `default_payload_with` (69-72) -/
  | payloadWith
deriving DecidableEq, Repr

inductive FOut
  | ok (M : DefMem) (d : FDef)
  | threw (M : DefMem) (d : FDef)
  | ub

/-- The end of a call, where a temporary or parameter is destroyed. -/
def FOut.finish (k : DefMem → Option DefMem) : FOut → FOut
  | .ok M d => match k M with
    | none => .ub
    | some M' => .ok M' d
  | .threw M d => match k M with
    | none => .ub
    | some M' => .threw M' d
  | .ub => .ub

/-- The assignment to `stored_name` and `name(stored_name)` (feature_info_data.hpp 54-55). -/
def fAssign (M : DefMem) (d : FDef) (s : List UInt8) : Growth → FOut
  | .fails => .threw M d
  | .inPlace => .ok (M.put d.storedName (some (.chars s))) { d with name := d.storedName }
  | .moved => .ok ((M.new (.chars s)).put d.storedName none) { d with storedName := M.next, name := M.next }

/-- The assignment to `default_payload_storage` and to `info.default_payload` (feature_info_data.hpp 59-60). -/
def fSetPayload (M : DefMem) (d : FDef) (p : AnyPtr) : FOut :=
  match M.retain p.owner with
  | none => .ub
  | some M1 => match M1.release (d.storage.bind AnyPtr.owner) with
    | none => .ub
    | some M2 => .ok M2 { d with storage := some p, payload := some p.ptr }

/-- One call of a function of the builder. -/
def fCall (M : DefMem) (d : FDef) (g : Growths) : FCall → FOut
  | .name a => .ok M { d with name := a }
  | .storeName a => match M.chars? a with
    | none => .ub
    | some s =>
      -- `std::string(sname)`
      if g.first = .fails then .threw M d
      else (fAssign (M.new (.chars s)) d s g.second).finish (fun M' => M'.freeAll [M.next])
  | .payload p => match M.retain p.owner with
    | none => .ub
    | some M1 => (fSetPayload M1 d p).finish (fun M' => M'.release p.owner)
  | .payloadWith =>
    -- `make_any` (any.hpp 29-32)
    if g.first = .fails then .threw M d
    else (fSetPayload (M.new (.shared 1)) d ⟨M.next, some M.next⟩).finish (fun M' => M'.release (some M.next))

/-- `~feature_info_data`: members in reverse order. -/
def fDestroy (M : DefMem) (d : FDef) : Option DefMem :=
  match M.release (d.storage.bind AnyPtr.owner) with
  | none => none
  | some M1 => M1.freeAll [d.storedName]

/-- A program: definitions, the strings and the shared pointers of the user. -/
structure FWorld where
  mem : DefMem
  defs : List (Option FDef)
  strings : List Nat
  held : List Nat

def fStart : FWorld := ⟨⟨fun _ => none, 0⟩, [], [], []⟩

inductive FEvent
  | newString (s : List UInt8)
  | freeString (a : Nat)
  | newShared
  | copyShared (c : Nat)
  | dropShared (c : Nat)
  /-- a definition and its builder with a name (feature_info_data.hpp 14-16, 30-38) -/
  | construct (a : Nat)
  | call (i : Nat) (c : FCall) (g : Growths)
  | destroy (i : Nat)
deriving DecidableEq, Repr

inductive FResult
  | ok (W : FWorld)
  | threw (W : FWorld)
  | ub

def FWorld.def? (W : FWorld) (i : Nat) : Option FDef := (W.defs[i]?).join

def fStep (W : FWorld) : FEvent → FResult
  | .newString s => .ok { W with mem := W.mem.new (.chars s), strings := W.mem.next :: W.strings }
  | .freeString a => match W.mem.freeAll [a] with
    | none => .ub
    | some M => .ok { W with mem := M, strings := W.strings.erase a }
  | .newShared => .ok { W with mem := W.mem.new (.shared 1), held := W.mem.next :: W.held }
  | .copyShared c => match W.mem.retain (some c) with
    | none => .ub
    | some M => .ok { W with mem := M, held := c :: W.held }
  | .dropShared c => match W.mem.release (some c) with
    | none => .ub
    | some M => .ok { W with mem := M, held := W.held.erase c }
  | .construct a => .ok { W with mem := W.mem.new (.chars []), defs := W.defs ++ [some { name := a, storedName := W.mem.next }] }
  | .call i c g => match W.def? i with
    | none => .ub
    | some d => match fCall W.mem d g c with
      | .ok M d' => .ok { W with mem := M, defs := W.defs.set i (some d') }
      | .threw M d' => .threw { W with mem := M, defs := W.defs.set i (some d') }
      | .ub => .ub
  | .destroy i => match W.def? i with
    | none => .ub
    | some d => match fDestroy W.mem d with
      | none => .ub
      | some M => .ok { W with mem := M, defs := W.defs.set i none }

def FResult.world : FResult → Option FWorld
  | .ok W => some W
  | .threw W => some W
  | .ub => none

/-- A program runs; exceptions are caught by the user. `none`: undefined behaviour. -/
def fRun : FWorld → List FEvent → Option FWorld
  | W, [] => some W
  | W, e :: es => match (fStep W e).world with
    | none => none
    | some W' => fRun W' es

end Dnmx
