import Verif.Model.Domain

/-!
# Domains that run out of memory

The operations of `Verif.Model.Domain` once more, now with every allocation that they make: each may fail with
`std::bad_alloc`. Blocks of memory for types are tracked: they are allocated by `create_type` and given back by the
deleter of the `unique_ptr` that holds the type (code/dynamix/domain.cpp 100-110).

Simplifications:
* the text of an exception can always be made (see `Verif.Model.Messages`);
* the nodes of the set of types and of the map of queries, and the elements of vectors, are owned by standard containers
  and not tracked; an insertion into a container that fails has no effect. (The elements are pointers and vectors, which
  are moved without exceptions);
* `std::set::emplace` makes its node before it looks for an equal type, `std::map::operator[]` makes one only for a new key.
-/

namespace Dnmx

/-- Which allocations of a call fail. Where a container has room for one more element there is no allocation, which is
the same as one that succeeds. -/
structure Faults where
  /-- room for one more element in a vector of the registry: for the `i`-th feature of a mixin, for the mixin itself
  (with the number of its features), for another element (0) -/
  grow : Nat → Bool := fun _ => false
  /-- the copies of the list of mixins: before the rules (0), and in each pass, by the rules too -/
  lists : Nat → Bool := fun _ => false
  /-- `m_num_reachable_pls` (domain.cpp 553, 575) -/
  counts : Bool := false
  /-- the block of the type (domain.cpp 746) -/
  block : Bool := false
  /-- the node in the set of types (domain.cpp 819) -/
  typeNode : Bool := false
  /-- the node in the map of queries (domain.cpp 526, 834) -/
  queryNode : Bool := false

/-- How a call fails. -/
inductive MemErr
  /-- `std::bad_alloc` -/
  | badAlloc
  /-- a block is given back that is not allocated: undefined behaviour -/
  | badFree
  /-- as without failures of memory -/
  | err (e : Err)
deriving DecidableEq, Repr

/-- Domains and the allocated blocks of types, with the domain whose allocator they are from. -/
structure MWorld where
  W : World
  blocks : List (DomId × TypeId) := []

/-- The deleter of types (domain.cpp 101-107). -/
def freeBlock (d : DomId) (t : TypeId) (bs : List (DomId × TypeId)) : Option (List (DomId × TypeId)) :=
  if bs.contains (d, t) then some (bs.erase (d, t)) else none

/-- Several types are deleted. -/
def freeBlocks (d : DomId) : List TypeId → List (DomId × TypeId) → Option (List (DomId × TypeId))
  | [], bs => some bs
  | t :: ts, bs =>
    match freeBlock d t bs with
    | none => none
    | some bs' => freeBlocks d ts bs'

/-- `basic_register_l` (domain.cpp 194-234); `fail`: of the `push_back` (229). -/
def basicRegisterM (nameOf : Nat → List UInt8) (enforce : Bool) (id : Option Nat) (info : Nat) (sparse : List (Option Nat)) (fail : Bool) :
    Except MemErr (Nat × List (Option Nat)) :=
  if id ≠ none then .error (.err .idRegistered)
  else if enforce && (nameOf info).isEmpty then .error (.err .emptyName)
  else
    match (if enforce then scanRev nameOf (nameOf info) 0 sparse else .ok (scanFwd 0 sparse)) with
    | .error e => .error (.err e)
    | .ok none => if fail then .error .badAlloc else .ok (sparse.length, sparse ++ [some info])
    | .ok (some i) => .ok (i, sparse.set i (some info))

/-- `register_feature` (domain.cpp 245-247). -/
def registerFeatureM (D : Decls) (fail : Bool) (W : World) (d : DomId) (f : Feat) : Except MemErr Unit × World :=
  match basicRegisterM D.featName (!(W.doms d).settings.allowDupFeat) (W.featId f) f (W.doms d).feats fail with
  | .error e => (.error e, W)
  | .ok (id, sparse) =>
    (.ok (), { W.setDom d { W.doms d with feats := sparse } with featId := upd W.featId f (some id) })

/-- The feature loop of `register_mixin` (domain.cpp 269-280), from the `i`-th feature on. -/
def registerFeaturesM (D : Decls) (grow : Nat → Bool) (W : World) (d : DomId) : Nat → List Feat → Except MemErr Unit × World
  | _, [] => (.ok (), W)
  | i, f :: fs =>
    if W.featId f ≠ none then registerFeaturesM D grow W d (i + 1) fs
    else
      match registerFeatureM D (grow i) W d f with
      | (.error e, W') => (.error e, W')
      | (.ok (), W') => registerFeaturesM D grow W' d (i + 1) fs

/-- `register_mixin` (domain.cpp 264-285). -/
def registerMixinM (D : Decls) (grow : Nat → Bool) (W : World) (d : DomId) (m : Mix) : Except MemErr Unit × World :=
  if W.mixDom m ≠ none ∧ W.mixDom m ≠ some d then (.error (.err .infoHasDomain), W)
  else
    match registerFeaturesM D grow W d 0 ((D.mix m).feats.map (·.feat)) with
    | (.error e, W') => (.error e, W')
    | (.ok (), W') =>
      match basicRegisterM D.mixName (!(W'.doms d).settings.allowDupMix) (W'.mixId m) m (W'.doms d).mixins
          (grow (D.mix m).feats.length) with
      | .error e => (.error e, W')
      | .ok (id, sparse) =>
        (.ok (), { W'.setDom d { W'.doms d with mixins := sparse } with
          mixId := upd W'.mixId m (some id), mixDom := upd W'.mixDom m (some d) })

/-- `register_type_class` (domain.cpp 337-360); `fail`: of the `emplace_back` (356). -/
def registerTypeClassM (D : Decls) (fail : Bool) (W : World) (d : DomId) (c : Cls) : Except MemErr Unit × World :=
  let x := W.doms d
  if (D.clsName c).isEmpty then (.error (.err .emptyName), W)
  else if (D.cls c).isNull then (.error (.err .noFunc), W)
  else if classNameTaken D (D.clsName c) x.classes then (.error (.err .duplicateName), W)
  else if none ∈ x.classes then (.error (.err .ub), W)
  else if fail then (.error .badAlloc, W)
  else (.ok (), W.setDom d { x with classes := x.classes ++ [some c] })

/-- `add_mutation_rule` (domain.cpp 405-418); `fail`: of the insertion of a new rule (410). -/
def addRuleM (D : Decls) (fail : Bool) (W : World) (d : DomId) (r : Rule) : Except MemErr Unit × World :=
  if (ruleOf D r).apply.isNone then (.error (.err .noFunc), W)
  else
    let x := W.doms d
    let (rules, rc) := ruleIncr D r x.rules
    if rc ≠ 1 then (.ok (), W.setDom d { x with rules := rules })
    else if fail then (.error .badAlloc, W)
    else (.ok (), W.setDom d { x with rules := rules, queries := [] })

/-- `unregister_mixin` (domain.cpp 287-335): the types are deleted before ownership is tested. -/
def unregisterMixinM (M : MWorld) (d : DomId) (m : Mix) : Except MemErr Unit × MWorld :=
  let x := M.W.doms d
  match purgeQueries x d (M.W.mixId m) m x.queries with
  | none => (.error (.err .ub), M)
  | some queries =>
    match freeBlocks d ((x.types.filter (fun t => t.hasId (M.W.mixId m))).map (·.tid)) M.blocks with
    | none => (.error .badFree, M)
    | some blocks =>
      let x' := { x with queries := queries, types := x.types.filter (fun t => !t.hasId (M.W.mixId m)) }
      match ownSlot x.mixins (M.W.mixId m) m with
      | none => (.error (.err .unregForeign), ⟨M.W.setDom d x', blocks⟩)
      | some i =>
        (.ok (), ⟨{ M.W.setDom d { x' with mixins := x.mixins.set i none } with
          mixId := upd M.W.mixId m none, mixDom := upd M.W.mixDom m none }, blocks⟩)

/-- The loop of `garbage_collect_types` (domain.cpp 838-861): a type is deleted after the queries that lead to it. -/
def collectTypesM (num : TypeId → Nat) (d : DomId) : List TypeRec → List (List Mix × TypeId) → List (DomId × TypeId) →
    Option (List TypeRec × List (List Mix × TypeId) × List (DomId × TypeId))
  | [], queries, bs => some ([], queries, bs)
  | t :: ts, queries, bs =>
    if num t.tid > 0 then
      (collectTypesM num d ts queries bs).map (fun r => (t :: r.1, r.2))
    else
      match freeBlock d t.tid bs with
      | none => none
      | some bs' => collectTypesM num d ts (queries.filter (fun e => e.2 != t.tid)) bs'

/-- `garbage_collect_types` (domain.cpp 838-861). -/
def garbageCollectM (M : MWorld) (d : DomId) (num : TypeId → Nat) : Except MemErr Unit × MWorld :=
  let x := M.W.doms d
  match collectTypesM num d x.types x.queries M.blocks with
  | none => (.error .badFree, M)
  | some (types, queries, blocks) => (.ok (), ⟨M.W.setDom d { x with types := types, queries := queries }, blocks⟩)

/-- `reg->type_queries[key] = t` (domain.cpp 526, 834); `fail`: of the node for a new key. -/
def storeQueryM (fail : Bool) (key : List Mix) (t : TypeId) (queries : List (List Mix × TypeId)) : Option (List (List Mix × TypeId)) :=
  if fail && (findQuery key queries).isNone then none else some (storeQuery key t queries)

/-- The end of `get_type` for a type that is there (domain.cpp 525-527). -/
def storeFoundM (F : Faults) (M : MWorld) (d : DomId) (key : List Mix) (t : TypeId) : Except MemErr TypeId × MWorld :=
  match storeQueryM F.queryNode key t (M.W.doms d).queries with
  | none => (.error .badAlloc, M)
  | some queries => (.ok t, { M with W := M.W.setDom d { M.W.doms d with queries := queries } })

/-- A new type `t` (`new_type`, domain.cpp 750), whose block is allocated, is deleted. -/
def dropTypeM (M : MWorld) (d : DomId) (t : TypeId) (e : MemErr) : Except MemErr TypeId × MWorld :=
  match freeBlock d t M.blocks with
  | none => (.error .badFree, M)
  | some bs => (.error e, { M with blocks := bs })

/-- The final locked part of `create_type` (domain.cpp 818-835). -/
def emplaceM (F : Faults) (M : MWorld) (d : DomId) (key : List Mix) (t : TypeRec) : Except MemErr TypeId × MWorld :=
  if F.typeNode then dropTypeM M d t.tid .badAlloc
  else
    match findType t.mixins (M.W.doms d).types with
    | some old =>
      match freeBlock d t.tid M.blocks with
      | none => (.error .badFree, M)
      | some bs => storeFoundM F { W := { M.W with nextType := M.W.nextType + 1 }, blocks := bs } d key old.tid
    | none =>
      storeFoundM F { M with W := { M.W.setDom d { M.W.doms d with types := (M.W.doms d).types ++ [t] } with nextType := M.W.nextType + 1 } } d key t.tid

/-- `create_type` (domain.cpp 689-836): the mixins are checked, the block is allocated, then the table is filled, which
may throw. -/
def createTypeM (D : Decls) (F : Faults) (M : MWorld) (d : DomId) (key ms : List Mix) : Except MemErr TypeId × MWorld :=
  match checkMixins M.W.mixId M.W.mixDom d ms with
  | .error e => (.error (.err e), M)
  | .ok () =>
    if F.counts then (.error .badAlloc, M)
    else if F.block then (.error .badAlloc, M)
    else
      let M' : MWorld := { M with blocks := (d, M.W.nextType) :: M.blocks }
      match buildFtable D M.W.featId ms with
      | .error e => dropTypeM M' d M.W.nextType (.err e)
      | .ok ft => emplaceM F M' d key ⟨M.W.nextType, d, ms, layout (ms.map D.mix), sparseTable (ms.filterMap M.W.mixId), ft⟩

/-- The part of `get_type(type_mutation&)` after a stored query was not found (domain.cpp 503-530): the copy of the query
(459), the passes of the rules, each with a copy of the list (485). -/
def resolveM (D : Decls) (F : Faults) (M : MWorld) (d : DomId) (q : List Mix) : Except MemErr TypeId × MWorld :=
  let o := applyMutationRules D (rulesOf D (M.W.view D d) (M.W.doms d)) q
  if (List.range (o.passes + 1)).any F.lists then (.error .badAlloc, M)
  else
    match o.result with
    | .error e => (.error (.err e), M)
    | .ok (key, ms) =>
      match (if ms.isEmpty then some emptyTid else (findType ms (M.W.doms d).types).map (·.tid)) with
      | some t => storeFoundM F M d key t
      | none => createTypeM D F M d key ms

/-- `get_type(type_mutation&)` (domain.cpp 489-531). -/
def getTypeMutM (D : Decls) (F : Faults) (M : MWorld) (d md : DomId) (q : List Mix) : Except MemErr TypeId × MWorld :=
  if md ≠ d then (.error (.err .foreignMutation), M)
  else
    match findQuery q (M.W.doms d).queries with
    | some t => (.ok t, M)
    | none => resolveM D F M d q

/-- `get_type(span)` (domain.cpp 533-547): the copy of the list (545) is counted with those of the rules. -/
def getTypeM (D : Decls) (F : Faults) (M : MWorld) (d : DomId) (q : List Mix) : Except MemErr TypeId × MWorld :=
  match findQuery q (M.W.doms d).queries with
  | some t => (.ok t, M)
  | none => if F.lists 0 then (.error .badAlloc, M) else getTypeMutM D F M d d q

/-- A call that does not touch types. -/
def onElems (M : MWorld) (r : Except MemErr Unit × World) : Except MemErr Unit × MWorld := (r.1, { M with W := r.2 })

/-- A call without allocations. -/
def noAlloc (r : Except Err Unit × World) : Except MemErr Unit × World :=
  (match r.1 with | .ok _ => .ok () | .error e => .error (.err e), r.2)

/-- Forget a type. -/
def discardM (r : Except MemErr TypeId × MWorld) : Except MemErr Unit × MWorld :=
  (match r.1 with | .ok _ => .ok () | .error e => .error e, r.2)

/-- Execute one call. -/
def stepM (D : Decls) (F : Faults) (M : MWorld) : Op → Except MemErr Unit × MWorld
  | .regFeature d f => onElems M (registerFeatureM D (F.grow 0) M.W d f)
  | .unregFeature d f => onElems M (noAlloc (unregisterFeature M.W d f))
  | .regMixin d m => onElems M (registerMixinM D F.grow M.W d m)
  | .unregMixin d m => unregisterMixinM M d m
  | .regClass d c => onElems M (registerTypeClassM D (F.grow 0) M.W d c)
  | .unregClass d c => onElems M (noAlloc (unregisterTypeClass M.W d c))
  | .addRule d r => onElems M (addRuleM D (F.grow 0) M.W d r)
  | .removeRule d r => onElems M (noAlloc (removeRule D M.W d r))
  | .getTypeMut d md q => discardM (getTypeMutM D F M d md q)
  | .getType d q => discardM (getTypeM D F M d q)
  | .gc d num => garbageCollectM M d num

/-- Calls one after the other, each with its failures; exceptions are caught by the caller, who goes on. -/
def runM (D : Decls) : MWorld → List (Faults × Op) → MWorld
  | M, [] => M
  | M, (F, op) :: h => runM D (stepM D F M op).2 h

/-- New domains. -/
def initM (s : DomId → Settings) : MWorld := { W := initWorld s }

/-- What the destructor of a domain (domain.cpp 916-918) does with the types. -/
def destroyTypesM (M : MWorld) (d : DomId) : Option (List (DomId × TypeId)) :=
  freeBlocks d ((M.W.doms d).types.map (·.tid)) M.blocks

end Dnmx
