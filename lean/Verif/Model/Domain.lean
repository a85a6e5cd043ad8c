import Verif.Model.TypeMutation
import Verif.Model.TypeBuild

/-!
# Domains

Model of `domain::impl` (code/dynamix/domain.cpp 77-861): the element registry, the type registry, and the
operations on them. A `World` has all domains and the mutable fields of the infos (`id`, `dom`), which are shared
between domains. Each operation gives an outcome and the resulting world.

Simplifications:
* ids are unbounded (`uint32_t` in the code), as are the reference counts of rules;
* `std::set`/`std::map` keyed by mixin lists are lists looked up by equality: `mixin_span_less` (65-71) is a strict
  total order on lists of addresses;
* allocations succeed (failures: `Verif.Model.DomainMemory`);
* here every operation is one step; its decomposition into critical sections is in `Verif.Model.Concurrent`.
-/

namespace Dnmx

/-- Change of a function at one point (assignment to a field of one info, domain, ...). -/
def upd {β : Type} (f : Nat → β) (a : Nat) (b : β) : Nat → β := fun x => if x = a then b else f x

/-- `domain_settings` (code/dnmx/domain_settings.h). -/
structure Settings where
  canonicalize : Bool := false
  allowDupFeat : Bool := false
  allowDupMix : Bool := false
deriving DecidableEq, Repr

/-- Contents of a domain: `m_settings`, `element_registry` (85-98) and `type_registry` (148-168). In the sparse
vectors `none` is a free slot. A type in `queries` is given by its `tid`. -/
structure Dom where
  settings : Settings
  feats : List (Option Feat) := []
  mixins : List (Option Mix) := []
  classes : List (Option Cls) := []
  rules : List (Rule × Nat) := []
  types : List TypeRec := []
  queries : List (List Mix × TypeId) := []
deriving DecidableEq, Repr

/-- All domains, and the fields `id` (features, mixins) and `dom` (mixins) of the infos; `none` is the invalid id
(null pointer). `nextType` is an address not yet used for a type: model types are never placed where a destroyed
type was. -/
structure World where
  doms : DomId → Dom
  featId : Feat → Option Nat
  mixId : Mix → Option Nat
  mixDom : Mix → Option DomId
  nextType : TypeId

/-- Replace one domain. -/
def World.setDom (W : World) (d : DomId) (x : Dom) : World := { W with doms := upd W.doms d x }

/-! ## Elements -/

/-- Reverse scan of `basic_register_l` (domain.cpp 204-216): the tail of the list is visited first. -/
def scanRev (nameOf : Nat → List UInt8) (name : List UInt8) (i : Nat) : List (Option Nat) → Except Err (Option Nat)
  | [] => .ok none
  | x :: xs =>
    match scanRev nameOf name (i + 1) xs with
    | .error e => .error e
    | .ok free =>
      match x with
      | some reg => if nameOf reg = name then .error .duplicateName else .ok free
      | none => .ok (some i)

/-- Forward scan of `basic_register_l` (domain.cpp 218-225). -/
def scanFwd (i : Nat) : List (Option Nat) → Option Nat
  | [] => none
  | none :: _ => some i
  | some _ :: xs => scanFwd (i + 1) xs

/-- `basic_register_l` (domain.cpp 194-234): `id` is the current id of the element; gives the new id and the new
sparse vector. -/
def basicRegister (nameOf : Nat → List UInt8) (enforce : Bool) (id : Option Nat) (info : Nat) (sparse : List (Option Nat)) :
    Except Err (Nat × List (Option Nat)) :=
  if id ≠ none then .error .idRegistered
  else if enforce && (nameOf info).isEmpty then .error .emptyName
  else
    match (if enforce then scanRev nameOf (nameOf info) 0 sparse else .ok (scanFwd 0 sparse)) with
    | .error e => .error e
    | .ok none => .ok (sparse.length, sparse ++ [some info])
    | .ok (some i) => .ok (i, sparse.set i (some info))

/-- The test of `basic_unregister_l` (domain.cpp 239) and `unregister_mixin` (329): the slot with the element's id
holds the element. -/
def ownSlot (sparse : List (Option Nat)) (id : Option Nat) (info : Nat) : Option Nat :=
  match id with
  | none => none
  | some i => if sparse[i]? = some (some info) then some i else none

/-- `register_feature` (domain.cpp 245-247). -/
def registerFeature (D : Decls) (W : World) (d : DomId) (f : Feat) : Except Err Unit × World :=
  match basicRegister D.featName (!(W.doms d).settings.allowDupFeat) (W.featId f) f (W.doms d).feats with
  | .error e => (.error e, W)
  | .ok (id, sparse) =>
    (.ok (), { W.setDom d { W.doms d with feats := sparse } with featId := upd W.featId f (some id) })

/-- `unregister_feature` (domain.cpp 260-262) with `basic_unregister_l` (236-243). -/
def unregisterFeature (W : World) (d : DomId) (f : Feat) : Except Err Unit × World :=
  match ownSlot (W.doms d).feats (W.featId f) f with
  | none => (.error .unregForeign, W)
  | some i =>
    (.ok (), { W.setDom d { W.doms d with feats := (W.doms d).feats.set i none } with featId := upd W.featId f none })

/-- The feature loop of `register_mixin` (domain.cpp 269-280): features with a valid id are skipped. The `assert`
that they are registered in this domain is not executed in release builds and not modelled. -/
def registerFeatures (D : Decls) (W : World) (d : DomId) : List Feat → Except Err Unit × World
  | [] => (.ok (), W)
  | f :: fs =>
    if W.featId f ≠ none then registerFeatures D W d fs
    else
      match registerFeature D W d f with
      | (.error e, W') => (.error e, W')
      | (.ok (), W') => registerFeatures D W' d fs

/-- `register_mixin` (domain.cpp 264-285). -/
def registerMixin (D : Decls) (W : World) (d : DomId) (m : Mix) : Except Err Unit × World :=
  if W.mixDom m ≠ none ∧ W.mixDom m ≠ some d then (.error .infoHasDomain, W)
  else
    match registerFeatures D W d ((D.mix m).feats.map (·.feat)) with
    | (.error e, W') => (.error e, W')
    | (.ok (), W') =>
      match basicRegister D.mixName (!(W'.doms d).settings.allowDupMix) (W'.mixId m) m (W'.doms d).mixins with
      | .error e => (.error e, W')
      | .ok (id, sparse) =>
        (.ok (), { W'.setDom d { W'.doms d with mixins := sparse } with
          mixId := upd W'.mixId m (some id), mixDom := upd W'.mixDom m (some d) })

/-- The type with address `t` in a domain: the empty type (domain.cpp 172) or one in the type set. `none`: the
type is not there any more. -/
def Dom.typeAt (x : Dom) (d : DomId) (t : TypeId) : Option TypeRec :=
  if t = emptyTid then some (emptyType d) else x.types.find? (fun r => r.tid == t)

/-- `iq->second->has(info.id)` (domain.cpp 294): `none` if the type is dead. -/
def queryHas (x : Dom) (d : DomId) (id : Option Nat) (q : List Mix × TypeId) : Option Bool :=
  (x.typeAt d q.2).map (fun t => t.hasId id)

/-- The loop over the queries in `unregister_mixin` (domain.cpp 292-305): those that are kept. `none`: a dead type
is accessed. -/
def purgeQueries (x : Dom) (d : DomId) (id : Option Nat) (m : Mix) : List (List Mix × TypeId) → Option (List (List Mix × TypeId))
  | [] => some []
  | q :: qs =>
    match queryHas x d id q, purgeQueries x d id m qs with
    | some h, some rest => some (if h || q.1.contains m then rest else q :: rest)
    | _, _ => none

/-- `unregister_mixin` (domain.cpp 287-335): queries and types are purged first, then ownership is tested. The
`assert` that purged types have no objects is not executed in release builds and not modelled. -/
def unregisterMixin (W : World) (d : DomId) (m : Mix) : Except Err Unit × World :=
  let x := W.doms d
  match purgeQueries x d (W.mixId m) m x.queries with
  | none => (.error .ub, W)
  | some queries =>
    let x' := { x with queries := queries, types := x.types.filter (fun t => !t.hasId (W.mixId m)) }
    match ownSlot x.mixins (W.mixId m) m with
    | none => (.error .unregForeign, W.setDom d x')
    | some i =>
      (.ok (), { W.setDom d { x' with mixins := x.mixins.set i none } with
        mixId := upd W.mixId m none, mixDom := upd W.mixDom m none })

/-- Name clash search of `register_type_class` (domain.cpp 343-354). -/
def classNameTaken (D : Decls) (name : List UInt8) (classes : List (Option Cls)) : Bool :=
  classes.any (fun x => match x with | some c => D.clsName c == name | none => false)

/-- `register_type_class` (domain.cpp 337-360). When there is a free slot, `free_slot` points to the loop's local
variable `tc` (352) which is written to after its lifetime (359): undefined behaviour. (In practice a dead place on
the stack is overwritten and the domain is unchanged, as here.) -/
def registerTypeClass (D : Decls) (W : World) (d : DomId) (c : Cls) : Except Err Unit × World :=
  let x := W.doms d
  if (D.clsName c).isEmpty then (.error .emptyName, W)
  else if (D.cls c).isNull then (.error .noFunc, W)
  else if classNameTaken D (D.clsName c) x.classes then (.error .duplicateName, W)
  else if none ∈ x.classes then (.error .ub, W)
  else (.ok (), W.setDom d { x with classes := x.classes ++ [some c] })

/-- The loop of `unregister_type_class` (domain.cpp 365-370): the first slot with the class is emptied. -/
def clearFirst (c : Cls) : List (Option Cls) → List (Option Cls)
  | [] => []
  | x :: xs => if x = some c then none :: xs else x :: clearFirst c xs

/-- `unregister_type_class` (domain.cpp 362-371). -/
def unregisterTypeClass (W : World) (d : DomId) (c : Cls) : Except Err Unit × World :=
  (.ok (), W.setDom d { W.doms d with classes := clearFirst c (W.doms d).classes })

/-- `basic_get_by_id_l` (domain.cpp 373-377). -/
def getById (sparse : List (Option Nat)) : Option Nat → Option Nat
  | none => none
  | some i => match sparse[i]? with
    | none => none
    | some x => x

/-- `basic_get_by_name_l` (domain.cpp 379-385). -/
def getByName (nameOf : Nat → List UInt8) (name : List UInt8) : List (Option Nat) → Option Nat
  | [] => none
  | none :: xs => getByName nameOf name xs
  | some x :: xs => if nameOf x = name then some x else getByName nameOf name xs

/-- `get_mixin_info(id)` (domain.cpp 387-389). -/
def getMixinById (W : World) (d : DomId) (id : Option Nat) : Option Mix := getById (W.doms d).mixins id
/-- `get_mixin_info(name)` (domain.cpp 390-392). -/
def getMixinByName (D : Decls) (W : World) (d : DomId) (name : List UInt8) : Option Mix :=
  getByName D.mixName name (W.doms d).mixins
/-- `get_feature_info(id)` (domain.cpp 394-396). -/
def getFeatureById (W : World) (d : DomId) (id : Option Nat) : Option Feat := getById (W.doms d).feats id
/-- `get_feature_info(name)` (domain.cpp 397-399). -/
def getFeatureByName (D : Decls) (W : World) (d : DomId) (name : List UInt8) : Option Feat :=
  getByName D.featName name (W.doms d).feats
/-- `get_type_class(name)` (domain.cpp 401-403). -/
def getTypeClass (D : Decls) (W : World) (d : DomId) (name : List UInt8) : Option Cls :=
  getByName D.clsName name (W.doms d).classes

/-! ## Mutation rules -/

/-- `sort_by_canonical_order` (domain.cpp 54-58). -/
def sortByCanonicalOrder (D : Decls) : ElemView → List Mix → Except Err (List Mix) :=
  fun v ms => .ok (sortBy (canonicalOrder D v.ids) ms)

/-- All rules: rule 0 is `m_canonicalize_rule` (domain.cpp 174-179), the others are the user's. Simplification:
the (equal) canonicalize rules of all domains are identified, and their address is the smallest. -/
def ruleOf (D : Decls) (r : Rule) : RuleDecl :=
  if r = 0 then { name := D.canonName, apply := some (sortByCanonicalOrder D), orderPriority := 2147483647 }
  else D.userRule r

/-- Order of rules in a domain. -/
def ruleLt (D : Decls) (a b : Rule) : Bool := ruleCompare D.mem (ruleOf D) a b

/-- `reg->mutation_rules[&info]` and `++rc` (domain.cpp 410-411) on the sorted `flat_map`: the new map and count.
The binary search of `flat_map` is modelled by a linear one, which finds the same place in a sorted map. -/
def ruleIncr (D : Decls) (r : Rule) : List (Rule × Nat) → List (Rule × Nat) × Nat
  | [] => ([(r, 1)], 1)
  | (x, n) :: rest =>
    if ruleLt D x r then
      let (l, c) := ruleIncr D r rest
      ((x, n) :: l, c)
    else if ruleLt D r x then ((r, 1) :: (x, n) :: rest, 1)
    else ((x, n + 1) :: rest, n + 1)

/-- `find`, `--f->second` and `erase` (domain.cpp 421-428): `none` if not found, otherwise the new map and the
remaining count. -/
def ruleDecr (D : Decls) (r : Rule) : List (Rule × Nat) → Option (List (Rule × Nat) × Nat)
  | [] => none
  | (x, n) :: rest =>
    if ruleLt D x r then
      match ruleDecr D r rest with
      | none => none
      | some (l, c) => some ((x, n) :: l, c)
    else if ruleLt D r x then none
    else if n - 1 > 0 then some ((x, n - 1) :: rest, n - 1)
    else some (rest, 0)

/-- `add_mutation_rule` (domain.cpp 405-418). -/
def addRule (D : Decls) (W : World) (d : DomId) (r : Rule) : Except Err Unit × World :=
  if (ruleOf D r).apply.isNone then (.error .noFunc, W)
  else
    let x := W.doms d
    let (rules, rc) := ruleIncr D r x.rules
    if rc ≠ 1 then (.ok (), W.setDom d { x with rules := rules })
    else (.ok (), W.setDom d { x with rules := rules, queries := [] })

/-- `remove_mutation_rule` (domain.cpp 419-431). -/
def removeRule (D : Decls) (W : World) (d : DomId) (r : Rule) : Except Err Unit × World :=
  let x := W.doms d
  match ruleDecr D r x.rules with
  | none => (.ok (), W)
  | some (rules, rc) =>
    if rc > 0 then (.ok (), W.setDom d { x with rules := rules })
    else (.ok (), W.setDom d { x with rules := rules, queries := [] })

/-- What rules of a domain see of the elements. -/
def World.view (D : Decls) (W : World) (d : DomId) : ElemView := ⟨getMixinByName D W d, W.mixId⟩

/-- A rule's function. A null function cannot be in a domain; calling it would be undefined. -/
def ruleFn (D : Decls) (v : ElemView) (r : Rule) : RuleFn :=
  match (ruleOf D r).apply with
  | some f => f v
  | none => fun _ => .error .ub

/-- The rules in force in a domain, in order. -/
def rulesOf (D : Decls) (v : ElemView) (x : Dom) : List RuleFn := x.rules.map (fun e => ruleFn D v e.1)

/-! ## Types -/

/-- Search for a stored query (domain.cpp 498-501, 536-538). -/
def findQuery (q : List Mix) (queries : List (List Mix × TypeId)) : Option TypeId :=
  (queries.find? (fun e => e.1 == q)).map (·.2)

/-- Search for an existing type (domain.cpp 512). -/
def findType (ms : List Mix) (types : List TypeRec) : Option TypeRec := types.find? (fun t => t.mixins == ms)

/-- Outcome of the part of `get_type` under the shared lock (domain.cpp 495-515). -/
inductive Lookup
  /-- the query is stored -/
  | hit (t : TypeId)
  /-- rules failed -/
  | failed (e : Err)
  /-- resolved to `ms`, to be remembered under `key`; `found` is an existing type -/
  | resolved (key ms : List Mix) (found : Option TypeId)
deriving DecidableEq

/-- The part of `get_type(type_mutation&)` under the shared lock (domain.cpp 495-515). -/
def lookupSection (D : Decls) (v : ElemView) (x : Dom) (q : List Mix) : Lookup :=
  match findQuery q x.queries with
  | some t => .hit t
  | none =>
    match (applyMutationRules D (rulesOf D v x) q).result with
    | .error e => .failed e
    | .ok (key, ms) => .resolved key ms (if ms.isEmpty then some emptyTid else (findType ms x.types).map (·.tid))

/-- Validity check of `create_type` (domain.cpp 693-700). -/
def checkMixins (mixId : Mix → Option Nat) (mixDom : Mix → Option DomId) (d : DomId) : List Mix → Except Err Unit
  | [] => .ok ()
  | m :: ms =>
    if mixId m = none then .error .unregistered
    else if mixDom m ≠ some d then .error .foreignMixin
    else if ms.contains m then .error .duplicateMixin
    else checkMixins mixId mixDom d ms

/-- `create_type` up to the final lock (domain.cpp 689-815). The ids are all valid here. -/
def buildType (D : Decls) (W : World) (d : DomId) (tid : TypeId) (ms : List Mix) : Except Err TypeRec :=
  match checkMixins W.mixId W.mixDom d ms with
  | .error e => .error e
  | .ok () =>
    match buildFtable D W.featId ms with
    | .error e => .error e
    | .ok ft => .ok ⟨tid, d, ms, layout (ms.map D.mix), sparseTable (ms.filterMap W.mixId), ft⟩

/-- `reg->type_queries[key] = t` (domain.cpp 526, 834). -/
def storeQuery (key : List Mix) (t : TypeId) : List (List Mix × TypeId) → List (List Mix × TypeId)
  | [] => [(key, t)]
  | e :: es => if e.1 == key then (key, t) :: es else e :: storeQuery key t es

/-- The final locked part of `create_type` (domain.cpp 818-835): if an equal type is already there, the new one is
dropped. -/
def emplaceSection (x : Dom) (key : List Mix) (t : TypeRec) : TypeId × Dom :=
  match findType t.mixins x.types with
  | some old => (old.tid, { x with queries := storeQuery key old.tid x.queries })
  | none => (t.tid, { x with types := x.types ++ [t], queries := storeQuery key t.tid x.queries })

/-- `get_type(type_mutation&)` (domain.cpp 489-531) of domain `d` for a mutation of domain `md`. -/
def getTypeMut (D : Decls) (W : World) (d md : DomId) (q : List Mix) : Except Err TypeId × World :=
  if md ≠ d then (.error .foreignMutation, W)
  else
    let x := W.doms d
    match lookupSection D (W.view D d) x q with
    | .hit t => (.ok t, W)
    | .failed e => (.error e, W)
    | .resolved key _ (some t) => (.ok t, W.setDom d { x with queries := storeQuery key t x.queries })
    | .resolved key ms none =>
      match buildType D W d W.nextType ms with
      | .error e => (.error e, W)
      | .ok t =>
        let (r, x') := emplaceSection x key t
        (.ok r, { W.setDom d x' with nextType := W.nextType + 1 })

/-- `get_type(span)` (domain.cpp 533-547). -/
def getType (D : Decls) (W : World) (d : DomId) (q : List Mix) : Except Err TypeId × World :=
  match findQuery q (W.doms d).queries with
  | some t => (.ok t, W)
  | none => getTypeMut D W d d q

/-- `garbage_collect_types` (domain.cpp 838-861). `num` gives the number of objects of each type. The queries that
lead to an erased type are erased one by one in the code. -/
def collectTypes (num : TypeId → Nat) : List TypeRec → List (List Mix × TypeId) → List TypeRec × List (List Mix × TypeId)
  | [], queries => ([], queries)
  | t :: ts, queries =>
    if num t.tid > 0 then
      let (ts', q') := collectTypes num ts queries
      (t :: ts', q')
    else collectTypes num ts (queries.filter (fun e => e.2 != t.tid))

/-- `garbage_collect_types` (domain.cpp 838-861). -/
def garbageCollect (W : World) (d : DomId) (num : TypeId → Nat) : Except Err Unit × World :=
  let x := W.doms d
  let (types, queries) := collectTypes num x.types x.queries
  (.ok (), W.setDom d { x with types := types, queries := queries })

/-- `type::is_of(name)` (code/dynamix/type.cpp 83-87). -/
def typeIsOf (D : Decls) (W : World) (t : TypeRec) (name : List UInt8) : Except Err Bool :=
  match getTypeClass D W t.dom name with
  | none => .error .unknownTypeClass
  | some c => .ok ((D.cls c).matchesT t.mixins)

/-! ## Histories -/

/-- Calls on domains. -/
inductive Op
  | regFeature (d : DomId) (f : Feat)
  | unregFeature (d : DomId) (f : Feat)
  | regMixin (d : DomId) (m : Mix)
  | unregMixin (d : DomId) (m : Mix)
  | regClass (d : DomId) (c : Cls)
  | unregClass (d : DomId) (c : Cls)
  | addRule (d : DomId) (r : Rule)
  | removeRule (d : DomId) (r : Rule)
  | getTypeMut (d md : DomId) (q : List Mix)
  | getType (d : DomId) (q : List Mix)
  | gc (d : DomId) (num : TypeId → Nat)

/-- Forget a result. -/
def discard {α : Type} (r : Except Err α × World) : Except Err Unit × World :=
  (match r.1 with | .ok _ => .ok () | .error e => .error e, r.2)

/-- Execute one call. -/
def step (D : Decls) (W : World) : Op → Except Err Unit × World
  | .regFeature d f => registerFeature D W d f
  | .unregFeature d f => unregisterFeature W d f
  | .regMixin d m => registerMixin D W d m
  | .unregMixin d m => unregisterMixin W d m
  | .regClass d c => registerTypeClass D W d c
  | .unregClass d c => unregisterTypeClass W d c
  | .addRule d r => addRule D W d r
  | .removeRule d r => removeRule D W d r
  | .getTypeMut d md q => discard (getTypeMut D W d md q)
  | .getType d q => discard (getType D W d q)
  | .gc d num => garbageCollect W d num

/-- Execute calls one after the other; exceptions are caught by the caller, who goes on. -/
def run (D : Decls) : World → List Op → World
  | W, [] => W
  | W, op :: ops => run D (step D W op).2 ops

/-- A newly constructed domain (domain.cpp 181-192). -/
def newDom (s : Settings) : Dom := { settings := s, rules := if s.canonicalize then [(0, 1)] else [] }

/-- New domains with the given settings, and infos that are not registered. -/
def initWorld (s : DomId → Settings) : World where
  doms := fun d => newDom (s d)
  featId := fun _ => none
  mixId := fun _ => none
  mixDom := fun _ => none
  nextType := 1

end Dnmx
