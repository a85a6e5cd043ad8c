import Verif.Model.Builder

/-!
# The memory of mixin definitions

Model of `util::mixin_info_data` (code/dynamix/mixin_info_data.hpp 25-54) and of the functions of its builder (58-229) as they use memory: which strings,
arrays and shared payloads are allocated, where the views in the mixin info and in the rule infos lead to, and what remains if an allocation fails.
`Model/Builder.lean` has the same functions without memory.

Simplifications: a cell of memory is a whole string, array or shared object. A string always has its characters in a cell of its own (this is an
allocation or, for short strings, a part of the string, which does not move with the containers used here: `std::deque` does not move its elements).
Whether an assignment or a `push_back` allocates is left open (`Growth`), also where the capacity would decide. The characters that `on_mutation` appends one
after the other are appended at once, and its failure leaves the name empty. `user_data` and the functions of the mixin are left out.
-/

namespace Dnmx

/-- What a container does to hold more: use what it has, allocate, or fail to. -/
inductive Growth
  | inPlace
  | moved
  | fails
deriving DecidableEq, Repr

/-- The choices of the containers that are used in one call, in their order. -/
structure Growths where
  first : Growth := .inPlace
  second : Growth := .inPlace
  third : Growth := .inPlace
  fourth : Growth := .inPlace
deriving DecidableEq, Repr

/-- `any` (any.hpp 20-23): a `std::shared_ptr` has an address and may own something, `fwd_any` (34-42) makes one that does not. -/
structure AnyPtr where
  ptr : Nat
  owner : Option Nat
deriving DecidableEq, Repr

/-- A piece of memory. -/
inductive DefCell
  /-- characters of a string -/
  | chars (s : List UInt8)
  /-- what shared pointers own, with the number of these -/
  | shared (refs : Nat)
  /-- buffer of a vector of `feature_for_mixin` -/
  | feats (l : List FeatFor)
  /-- a `mutation_rule_info` in a deque; its name is a view of the characters at the given address -/
  | ruleInfo (name : Nat) (body : RuleBody) (priority : Int)
deriving DecidableEq, Repr

/-- Memory; addresses from `next` on were never used. -/
structure DefMem where
  cells : Nat → Option DefCell
  next : Nat

def DefMem.put (M : DefMem) (a : Nat) (x : Option DefCell) : DefMem := { M with cells := fun b => if b = a then x else M.cells b }

/-- A new cell, at address `M.next`. -/
def DefMem.new (M : DefMem) (x : DefCell) : DefMem := { cells := fun b => if b = M.next then some x else M.cells b, next := M.next + 1 }

/-- The characters that a view leads to. -/
def DefMem.chars? (M : DefMem) (a : Nat) : Option (List UInt8) :=
  match M.cells a with
  | some (.chars s) => some s
  | _ => none

/-- Copying a shared pointer; `none`: what it owns does not exist any more. -/
def DefMem.retain (M : DefMem) : Option Nat → Option DefMem
  | none => some M
  | some c => match M.cells c with
    | some (.shared n) => some (M.put c (some (.shared (n + 1))))
    | _ => none

/-- Destroying a shared pointer; the last one destroys what it owns. -/
def DefMem.release (M : DefMem) : Option Nat → Option DefMem
  | none => some M
  | some c => match M.cells c with
    | some (.shared 1) => some (M.put c none)
    | some (.shared (n + 2)) => some (M.put c (some (.shared (n + 1))))
    | _ => none

def DefMem.releaseAll (M : DefMem) : List AnyPtr → Option DefMem
  | [] => some M
  | p :: l => match M.release p.owner with
    | none => none
    | some M' => M'.releaseAll l

/-- Releasing cells; `none`: one is not there. -/
def DefMem.freeAll (M : DefMem) : List Nat → Option DefMem
  | [] => some M
  | a :: l => match M.cells a with
    | none => none
    | some _ => (M.put a none).freeAll l

/-- What a rule pointer of a definition leads to: an info of the user or one that is stored in a definition. -/
inductive RulePtr
  | user (r : Rule)
  | stored (a : Nat)
deriving DecidableEq, Repr

/-- `mixin_info_data` (mixin_info_data.hpp 25-49), of the mixin `mixin`. -/
structure DefData where
  mixin : Mix
  /-- `info.name`: where the characters are -/
  name : Nat
  /-- `info.allocator` -/
  allocator : Option Nat := none
  dependency : Bool := false
  /-- `info.features`, `info.num_features` -/
  features : Option Nat := none
  numFeatures : Nat := 0
  /-- `stored_name`: where its characters are -/
  storedName : Nat
  storedAlloc : Option AnyPtr := none
  /-- `feature_payloads`: its buffer -/
  payloadVec : Option Nat := none
  payloadStorage : List AnyPtr := []
  ruleInfos : List RulePtr := []
  ruleStorage : List Nat := []
  nameStorage : List Nat := []
deriving DecidableEq, Repr

/-- Functions of the builder, with views as addresses. -/
inductive DefCall
  /-- `name` (mixin_info_data.hpp 84-87) -/
  | name (a : Nat)
  /-- `store_name` (90-93) -/
  | storeName (a : Nat)
  /-- `uses_allocator` (96-109); `none`: a null pointer -/
  | usesAllocator (p : Option AnyPtr)
  /-- `dependency` (118-121) -/
  | dependency (b : Bool)
  /-- `implements_with_payload` (124-131) -/
  | implements (f : Feat) (p : AnyPtr) (a b : Perks)
  /-- `adds_mutation_rule(info)` (178-182) -/
  | rule (r : Rule)
  /-- `adds_mutation_rule(name, apply, ...)` (184-189) -/
  | namedRule (n : List UInt8) (k : Nat) (p : Perks)
  /-- `adds_mutation_rule(apply, ...)` (191-197) -/
  | unnamedRule (k : Nat) (p : Perks)
  /-- `on_mutation` (201-228) -/
  | onMutation (c : CommonRule) (p : Perks)
deriving DecidableEq, Repr

/-- What a call leads to. -/
inductive DefOut
  | ok (M : DefMem) (d : DefData)
  | threw (M : DefMem) (d : DefData)
  | ub

/-- `uses_allocator` (mixin_info_data.hpp 96-100): the pointer is copied over the old one, then dereferenced. -/
def setAllocator (M : DefMem) (d : DefData) : Option AnyPtr → DefOut
  | none => .ub
  | some p => match M.retain p.owner with
    | none => .ub
    | some M1 => match M1.release (d.storedAlloc.bind AnyPtr.owner) with
      | none => .ub
      | some M2 => .ok M2 { d with storedAlloc := some p, allocator := some p.ptr }

/-- `feature_payloads.push_back` and `set_features` (mixin_info_data.hpp 128-129). -/
def pushFeature (M : DefMem) (d : DefData) (x : FeatFor) (g : Growth) : DefOut :=
  match g, d.payloadVec with
  | .fails, _ => .threw M d
  | _, none => .ok (M.new (.feats [x])) { d with payloadVec := some M.next, features := some M.next, numFeatures := 1 }
  | .inPlace, some v => match M.cells v with
    | some (.feats l) => .ok (M.put v (some (.feats (l ++ [x])))) { d with features := some v, numFeatures := l.length + 1 }
    | _ => .ub
  | .moved, some v => match M.cells v with
    | some (.feats l) => .ok ((M.new (.feats (l ++ [x]))).put v none)
        { d with payloadVec := some M.next, features := some M.next, numFeatures := l.length + 1 }
    | _ => .ub

/-- `implements_with_payload` (mixin_info_data.hpp 124-131). -/
def addFeature (M : DefMem) (d : DefData) (f : Feat) (p : AnyPtr) (a b : Perks) (g : Growths) : DefOut :=
  match M.retain p.owner with
  | none => .ub
  | some M1 =>
    -- without memory for the storage the parameter is destroyed
    if g.first = .fails then .threw M d
    else pushFeature M1 { d with payloadStorage := d.payloadStorage ++ [p] }
      ⟨f, p.ptr, a.bid.getD (b.bid.getD 0), a.priority.getD (b.priority.getD 0)⟩ g.second

/-- `adds_mutation_rule(info)` (mixin_info_data.hpp 178-182). -/
def pushRule (M : DefMem) (d : DefData) (r : RulePtr) (g : Growth) : DefOut :=
  if g = .fails then .threw M d
  else .ok M { d with ruleInfos := d.ruleInfos ++ [r], dependency := true }

/-- `adds_mutation_rule(name, apply, ...)` (mixin_info_data.hpp 184-189). -/
def addNamedRule (M : DefMem) (d : DefData) (n : List UInt8) (k : Nat) (p : Perks) (g1 g2 g3 : Growth) : DefOut :=
  if g1 = .fails then .threw M d
  else
    let M1 := M.new (.chars n)
    let d1 := { d with nameStorage := d.nameStorage ++ [M.next] }
    if g2 = .fails then .threw M1 d1
    else
      let M2 := M1.new (.ruleInfo M.next (.user k) (p.priority.getD 0))
      let d2 := { d1 with ruleStorage := d1.ruleStorage ++ [M1.next] }
      pushRule M2 d2 (.stored M1.next) g3

/-- `on_mutation` (mixin_info_data.hpp 201-228). -/
def addCommonRule (M : DefMem) (d : DefData) (c : CommonRule) (p : Perks) (g : Growths) : DefOut :=
  let d0 := { d with dependency := if (c.ruleFor d.mixin).2 then true else d.dependency }
  if g.first = .fails then .threw M d0
  else
    let d1 := { d0 with nameStorage := d0.nameStorage ++ [M.next] }
    match M.chars? d.name with
    | none => .ub
    | some s =>
      if g.second = .fails then .threw (M.new (.chars [])) d1
      else
        let M1 := M.new (.chars (commonName s c d.ruleInfos.length))
        if g.third = .fails then .threw M1 d1
        else
          let M2 := M1.new (.ruleInfo M.next (c.ruleFor d.mixin).1 (p.priority.getD 0))
          let d2 := { d1 with ruleStorage := d1.ruleStorage ++ [M1.next] }
          if g.fourth = .fails then .threw M2 d2
          else .ok M2 { d2 with ruleInfos := d2.ruleInfos ++ [.stored M1.next] }

/-- `store_name` (mixin_info_data.hpp 90-93). -/
def storeName (M : DefMem) (d : DefData) (a : Nat) (g : Growth) : DefOut :=
  match M.chars? a with
  | none => .ub
  | some s => match g with
    | .fails => .threw M d
    | .inPlace => .ok (M.put d.storedName (some (.chars s))) { d with name := d.storedName }
    | .moved => .ok ((M.new (.chars s)).put d.storedName none) { d with storedName := M.next, name := M.next }

/-- One call of a function of the builder. -/
def defCall (M : DefMem) (d : DefData) (g : Growths) : DefCall → DefOut
  | .name a => .ok M { d with name := a }
  | .storeName a => storeName M d a g.first
  | .usesAllocator p => setAllocator M d p
  | .dependency b => .ok M { d with dependency := b }
  | .implements f p a b => addFeature M d f p a b g
  | .rule r => pushRule M d (.user r) g.first
  | .namedRule n k p => addNamedRule M d n k p g.first g.second g.third
  | .unnamedRule k p =>
    match M.chars? d.name with
    | none => .ub
    | some s => if g.first = .fails then .threw M d else addNamedRule M d (unnamedName s d.ruleInfos.length) k p g.second g.third g.fourth
  | .onMutation c p => addCommonRule M d c p g

/-- `~mixin_info_data` (mixin_info_data.hpp 25-54): members in reverse order. -/
def defDestroy (M : DefMem) (d : DefData) : Option DefMem := do
  let M1 ← M.freeAll d.nameStorage
  let M2 ← M1.freeAll d.ruleStorage
  let M3 ← M2.releaseAll d.payloadStorage
  let M4 ← M3.freeAll d.payloadVec.toList
  let M5 ← M4.release (d.storedAlloc.bind AnyPtr.owner)
  M5.freeAll [d.storedName]

/-- A program: definitions, the strings of the user, the shared pointers of the user, and the feature tables of types (the addresses of features in them,
domain.cpp 619-646). -/
structure DefWorld where
  mem : DefMem
  defs : List (Option DefData)
  strings : List Nat
  held : List Nat
  tables : List (List (Nat × Nat))

def defStart : DefWorld := ⟨⟨fun _ => none, 0⟩, [], [], [], []⟩

inductive DefEvent
  /-- the user makes a string -/
  | newString (s : List UInt8)
  /-- the user destroys a string -/
  | freeString (a : Nat)
  /-- `make_any` (any.hpp 24-32) -/
  | newShared
  /-- the user copies a shared pointer -/
  | copyShared (c : Nat)
  /-- the user destroys a shared pointer -/
  | dropShared (c : Nat)
  /-- a definition and its builder with a name (mixin_info_data.hpp 26-33, 62-70) -/
  | construct (m : Mix) (a : Nat)
  | call (i : Nat) (c : DefCall) (g : Growths)
  | destroy (i : Nat)
  /-- a type with these mixins is built (domain.cpp 619-646: `data` points into the features of the mixin infos) -/
  | makeType (is : List Nat)
deriving DecidableEq, Repr

inductive DefResult
  | ok (W : DefWorld)
  | threw (W : DefWorld)
  | ub

def DefWorld.def? (W : DefWorld) (i : Nat) : Option DefData := (W.defs[i]?).join

/-- The addresses of the features of definitions: buffer and position. -/
def DefWorld.table (W : DefWorld) : List Nat → List (Nat × Nat)
  | [] => []
  | i :: is => (match W.def? i with
      | none => []
      | some d => match d.features with
        | none => []
        | some v => (List.range d.numFeatures).map (fun k => (v, k))) ++ W.table is

def defStep (W : DefWorld) : DefEvent → DefResult
  | .newString s => .ok { W with mem := W.mem.new (.chars s), strings := W.mem.next :: W.strings }
  | .freeString a => match W.mem.freeAll [a] with
    | none => .ub
    | some M => .ok { W with mem := M, strings := W.strings.erase a }
  | .newShared => .ok { W with mem := W.mem.new (.shared 1), held := W.mem.next :: W.held }
  | .copyShared c => match W.mem.retain (some c) with
    | none => .ub
    | some M => .ok { W with mem := M, held := c :: W.held }
  | .dropShared c => match W.mem.release (some c) with
    | none => .ub
    | some M => .ok { W with mem := M, held := W.held.erase c }
  | .construct m a =>
    .ok { W with mem := W.mem.new (.chars []), defs := W.defs ++ [some { mixin := m, name := a, storedName := W.mem.next }] }
  | .call i c g => match W.def? i with
    | none => .ub
    | some d => match defCall W.mem d g c with
      | .ok M d' => .ok { W with mem := M, defs := W.defs.set i (some d') }
      | .threw M d' => .threw { W with mem := M, defs := W.defs.set i (some d') }
      | .ub => .ub
  | .destroy i => match W.def? i with
    | none => .ub
    | some d => match defDestroy W.mem d with
      | none => .ub
      | some M => .ok { W with mem := M, defs := W.defs.set i none }
  | .makeType is => .ok { W with tables := W.table is :: W.tables }

def DefResult.world : DefResult → Option DefWorld
  | .ok W => some W
  | .threw W => some W
  | .ub => none

/-- A program runs; exceptions are caught by the user. `none`: undefined behaviour. -/
def defRun : DefWorld → List DefEvent → Option DefWorld
  | W, [] => some W
  | W, e :: es => match (defStep W e).world with
    | none => none
    | some W' => defRun W' es

end Dnmx
