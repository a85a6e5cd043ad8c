import Verif.Model.Domain

/-!
# Threads that use domains

The calls of `Verif.Model.Domain`, divided into the parts that are executed under one lock (domain.cpp). A thread
executes one call; at any moment it is between two such parts. A schedule says which thread executes its next part.

* `get_type(span)` (533-547): a search for the query under the shared lock of the type registry (535-540), then
  `get_type(type_mutation&)`;
* `get_type(type_mutation&)` (489-531): search and application of the rules under the shared lock (495-515); then either
  the query is stored under the unique lock (525-527), or `create_type` is called;
* `create_type` (689-836): the type is built without a lock (693-815), then the type and the query are stored under the
  unique lock (818-835);
* `unregister_mixin` (287-335): types and queries are purged under the unique lock of the type registry (289-324), then
  the mixin is removed under the unique lock of the element registry (326-334);
* each of the other calls locks once.

Simplifications: what is executed without a lock (building a type, reading `id` and `dom` of an info before or
after a locked part) is executed together in one step, as is a locked part together with such reads next to it. Rules
are called in the first locked part of `get_type(type_mutation&)` and see the element registry of one moment. Memory
reclamation within a part (a dead type that is dereferenced) is modelled as in `Verif.Model.Domain`.
-/

namespace Dnmx

/-- How far a thread is with its call. -/
inductive Stage
  /-- the call has not begun -/
  | todo
  /-- `get_type(span)` did not find the query (before domain.cpp 546) -/
  | mutating
  /-- a type was found, the query `key` is to be stored (before domain.cpp 525) -/
  | found (key : List Mix) (t : TypeId)
  /-- no type was found, `ms` is to be created (before domain.cpp 530) -/
  | missing (key : List Mix) (ms : List Mix)
  /-- the type is built (before domain.cpp 818) -/
  | built (key : List Mix) (t : TypeRec)
  /-- `unregister_mixin` has purged types and queries (before domain.cpp 326) -/
  | purged
  /-- the call returned (the type for `get_type`) or threw -/
  | done (r : Except Err (Option TypeId))

/-- The domain and the query of a `get_type` call. -/
def Op.asked : Op → Option (DomId × List Mix)
  | .getType d q => some (d, q)
  | .getTypeMut d _ q => some (d, q)
  | _ => none

/-- The first locked part of `get_type(type_mutation&)` (domain.cpp 495-515). -/
def lookupPart (D : Decls) (W : World) (d : DomId) (q : List Mix) : Stage :=
  match lookupSection D (W.view D d) (W.doms d) q with
  | .hit t => .done (.ok (some t))
  | .failed e => .done (.error e)
  | .resolved key _ (some t) => .found key t
  | .resolved key ms none => .missing key ms

/-- The first locked part of `unregister_mixin` (domain.cpp 289-324). -/
def purgePart (W : World) (d : DomId) (m : Mix) : Stage × World :=
  let x := W.doms d
  match purgeQueries x d (W.mixId m) m x.queries with
  | none => (.done (.error .ub), W)
  | some queries =>
    (.purged, W.setDom d { x with queries := queries, types := x.types.filter (fun t => !t.hasId (W.mixId m)) })

/-- The second locked part of `unregister_mixin` (domain.cpp 326-334). -/
def removePart (W : World) (d : DomId) (m : Mix) : Stage × World :=
  let x := W.doms d
  match ownSlot x.mixins (W.mixId m) m with
  | none => (.done (.error .unregForeign), W)
  | some i =>
    (.done (.ok none), { W.setDom d { x with mixins := x.mixins.set i none } with
      mixId := upd W.mixId m none, mixDom := upd W.mixDom m none })

/-- The result of a call that gives nothing back. -/
def noType : Except Err Unit → Except Err (Option TypeId)
  | .ok () => .ok none
  | .error e => .error e

/-- The first part of a call. -/
def beginPart (D : Decls) (W : World) : Op → Stage × World
  | .getType d q =>
    match findQuery q (W.doms d).queries with
    | some t => (.done (.ok (some t)), W)
    | none => (.mutating, W)
  | .getTypeMut d md q => if md ≠ d then (.done (.error .foreignMutation), W) else (lookupPart D W d q, W)
  | .unregMixin d m => purgePart W d m
  | op => (.done (noType (step D W op).1), (step D W op).2)

/-- The parts of `get_type` after the first one, for domain `d` and query `q`. -/
def getPart (D : Decls) (W : World) (d : DomId) (q : List Mix) : Stage → Stage × World
  | .mutating => (lookupPart D W d q, W)
  | .found key t => (.done (.ok (some t)), W.setDom d { W.doms d with queries := storeQuery key t (W.doms d).queries })
  | .missing key ms =>
    match buildType D W d W.nextType ms with
    | .error e => (.done (.error e), W)
    | .ok t => (.built key t, { W with nextType := W.nextType + 1 })
  | .built key t =>
    let (r, x') := emplaceSection (W.doms d) key t
    (.done (.ok (some r)), W.setDom d x')
  | st => (st, W)

/-- The next part of a call. -/
def nextPart (D : Decls) (W : World) (op : Op) : Stage → Stage × World
  | .todo => beginPart D W op
  | .done r => (.done r, W)
  | st =>
    match op with
    | .getType d q => getPart D W d q st
    | .getTypeMut d _ q => getPart D W d q st
    | .unregMixin d m => match st with
      | .purged => removePart W d m
      | st => (st, W)
    | _ => (st, W)

/-- A thread: its call and how far it is. -/
structure Thread where
  op : Op
  stage : Stage := .todo

/-- Threads with the domains they share. -/
structure Threads where
  W : World
  threads : List Thread

/-- Thread `i` executes the next part of its call. -/
def Threads.step (D : Decls) (C : Threads) (i : Nat) : Threads :=
  match C.threads[i]? with
  | none => C
  | some th =>
    let p := nextPart D C.W th.op th.stage
    { W := p.2, threads := C.threads.set i { th with stage := p.1 } }

/-- Execution according to a schedule. -/
def Threads.run (D : Decls) : Threads → List Nat → Threads
  | C, [] => C
  | C, i :: is => Threads.run D (C.step D i) is

/-- One thread for each call, all at the beginning. -/
def spawn (W : World) (ops : List Op) : Threads := { W := W, threads := ops.map (fun op => { op := op }) }

/-- The outcome of the call of thread `i`, if it is over. -/
def Threads.outcome (C : Threads) (i : Nat) : Option (Except Err (Option TypeId)) :=
  match C.threads[i]? with
  | some { stage := .done r, .. } => some r
  | _ => none

end Dnmx
