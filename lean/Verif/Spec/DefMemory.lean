import Verif.Model.DefMemory

/-!
# What the memory of definitions should hold
-/

namespace Spec
open Dnmx

/-- What is found by following a pointer to a rule, and the view of its name. -/
def readRule (M : DefMem) : RulePtr → Option DefRule
  | .user r => some (.given r)
  | .stored a => match M.cells a with
    | some (.ruleInfo n b p) => (M.chars? n).map (fun s => .stored s b p)
    | _ => none

def readRules (M : DefMem) : List RulePtr → Option (List DefRule)
  | [] => some []
  | r :: rs => match readRule M r, readRules M rs with
    | some x, some xs => some (x :: xs)
    | _, _ => none

/-- What is found in the features of a mixin info. -/
def readFeats (M : DefMem) (d : DefData) : Option (List FeatFor) :=
  match d.features with
  | none => if d.numFeatures = 0 then some [] else none
  | some v => match M.cells v with
    | some (.feats l) => if d.numFeatures ≤ l.length then some (l.take d.numFeatures) else none
    | _ => none

/-- What somebody sees of a definition who follows all its pointers and views. `none`: one leads to nothing. -/
def readDef (M : DefMem) (d : DefData) : Option MixinDef :=
  match M.chars? d.name, readFeats M d, readRules M d.ruleInfos with
  | some n, some fs, some rs => some ⟨n, d.allocator.isSome, d.dependency, fs, rs⟩
  | _, _, _ => none

/-- What a feature table finds behind an address of a feature. -/
def readFeat (M : DefMem) (a : Nat × Nat) : Option FeatFor :=
  match M.cells a.1 with
  | some (.feats l) => l[a.2]?
  | _ => none

/-- There is something that shared pointers own. -/
def IsShared (M : DefMem) (c : Nat) : Prop := ∃ n, M.cells c = some (.shared n)

/-- What the user has to care for in a call: views lead to strings of the user or to that of the definition, shared pointers own something that exists, the
allocator is not null. -/
def LegalCall (W : DefWorld) (d : DefData) : DefCall → Prop
  | .name a => a ∈ W.strings ∨ a = d.storedName
  | .storeName a => ∃ s, W.mem.chars? a = some s
  | .usesAllocator p => ∃ q, p = some q ∧ ∀ c, q.owner = some c → IsShared W.mem c
  | .implements _ p _ _ => ∀ c, p.owner = some c → IsShared W.mem c
  | _ => True

/-- What the user has to care for: strings that are the name of a definition stay, the user destroys what is theirs. -/
def LegalEvent (W : DefWorld) : DefEvent → Prop
  | .freeString a => a ∈ W.strings ∧ ∀ i d, W.def? i = some d → d.name ≠ a
  | .copyShared c => IsShared W.mem c
  | .dropShared c => c ∈ W.held
  | .construct _ a => a ∈ W.strings
  | .call i c _ => ∃ d, W.def? i = some d ∧ LegalCall W d c
  | .destroy i => ∃ d, W.def? i = some d
  | _ => True

def LegalRun : DefWorld → List DefEvent → Prop
  | _, [] => True
  | W, e :: es => LegalEvent W e ∧ ∀ W', (defStep W e).world = some W' → LegalRun W' es

/-- The call as one of the model without memory. -/
def opOf (M : DefMem) : DefCall → BuildOp
  | .name a => .name ((M.chars? a).getD [])
  | .storeName a => .name ((M.chars? a).getD [])
  | .usesAllocator _ => .usesAllocator
  | .dependency b => .dependency b
  | .implements f p a b => .implements f p.ptr a b
  | .rule r => .rule r
  | .namedRule n k p => .namedRule n k p
  | .unnamedRule k p => .unnamedRule k p
  | .onMutation c p => .onMutation c p

/-- What a call that throws does to a definition: only `on_mutation` with a rule that makes the mixin a dependency does something. -/
def failedCall (v : MixinDef) : DefCall → MixinDef
  | .onMutation (.attachesTo _) _ => { v with dependency := true }
  | _ => v

/-- What an event with its result makes of the meaning of definition number `i`. -/
def valueStep (i : Nat) (W : DefWorld) (v : Option MixinDef) : DefEvent → Option MixinDef
  | .construct _ a => if W.defs.length = i then some { name := (W.mem.chars? a).getD [] } else v
  | .call j c g => if j = i then
      match W.def? i, defStep W (.call j c g) with
      | some d, .ok _ => v.map (fun x => buildStep d.mixin x (opOf W.mem c))
      | _, _ => v.map (fun x => failedCall x c)
    else v
  | .destroy j => if j = i then none else v
  | _ => v

/-- The meaning of definition number `i` after a program, by the calls that succeeded. -/
def valueAfter (i : Nat) : DefWorld → Option MixinDef → List DefEvent → Option MixinDef
  | _, v, [] => v
  | W, v, e :: es => match (defStep W e).world with
    | none => valueStep i W v e
    | some W' => valueAfter i W' (valueStep i W v e) es

/-- A call of `implements…` on one of these definitions, or the end of one. -/
def touchesDef (is : List Nat) : DefEvent → Bool
  | .call i (.implements ..) _ => decide (i ∈ is)
  | .destroy i => decide (i ∈ is)
  | _ => false

/-- The cells that a definition owns. -/
def ownCells (d : DefData) : List Nat := d.nameStorage ++ d.ruleStorage ++ d.payloadVec.toList ++ [d.storedName]

/-- What the shared pointers in a definition own. -/
def ownShares (d : DefData) : List (Option Nat) := d.payloadStorage.map AnyPtr.owner ++ [d.storedAlloc.bind AnyPtr.owner]

end Spec
