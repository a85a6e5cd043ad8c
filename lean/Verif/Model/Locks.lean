import Verif.Model.Concurrent

/-!
# Locks of domains

A domain has two mutexes (`std::shared_mutex`): one for the type registry (domain.cpp 168) and one for the element registry
(domain.cpp 96). For each function of a domain: in which order it locks and unlocks them. What happens under the locks
is in `Verif.Model.Domain` and `Verif.Model.Concurrent`.

Every lock is held by a local guard, or by a member of `domain_traverse::impl`, so that an exception unlocks as a return does.
-/

namespace Dnmx

/-- The mutexes of all domains. -/
inductive Mutex
  | types (d : DomId)
  | elems (d : DomId)
deriving DecidableEq, Repr

/-- What a thread does as far as locks are concerned. -/
inductive Act
  /-- `shared_lock()` -/
  | share (l : Mutex)
  /-- `unique_lock()` -/
  | own (l : Mutex)
  /-- the end of a lock's life -/
  | release (l : Mutex)
  /-- anything that does not lock or unlock -/
  | work
deriving DecidableEq, Repr

/-- A lookup in the element registry of a domain: `get_mixin_info`, `get_feature_info`, `get_type_class` (domain.cpp 387-403), also
called by the functions of `type_mutation` that take names and by `type::is_of`. -/
def lookupActs (d : DomId) : List Act := [.share (.elems d), .work, .release (.elems d)]

/-- `get_type(type_mutation&)` from the check of the domain on (domain.cpp 495-530). The rules look things up in the
domains `lookups`. `hit`: the query is stored; `stores`: no exception is thrown before the unique lock. -/
def getTypeActs (d : DomId) (lookups : List DomId) (hit stores : Bool) : List Act :=
  if hit then [.share (.types d), .work, .release (.types d)]
  else [.share (.types d), .work] ++ lookups.flatMap lookupActs ++ [.work, .release (.types d)] ++
    if stores then [.work, .own (.types d), .work, .release (.types d)] else []

/-- What a dump of a domain is to contain (dbg_dmp.hpp); only the parts that lock. -/
structure DumpFlags where
  rules : Bool := false
  types : Bool := false
  queries : Bool := false

/-- `num_types`, `num_type_queries`, `num_mutation_rules` (domain.cpp 988-1003). -/
def countActs (d : DomId) : List Act := [.share (.types d), .work, .release (.types d)]

/-- Calls with the way they take. -/
inductive LCall
  /-- `register_feature`, `unregister_feature` (domain.cpp 245-262), `register_mixin` (264-285), `register_type_class`,
  `unregister_type_class` (337-371) -/
  | element (d : DomId)
  /-- `unregister_mixin` (domain.cpp 287-335) -/
  | unregisterMixin (d : DomId)
  /-- a lookup in the element registry -/
  | lookup (d : DomId)
  /-- `add_mutation_rule`, `remove_mutation_rule` (domain.cpp 405-431) -/
  | rule (d : DomId)
  /-- `get_type(type_mutation&)` (domain.cpp 489-531); `foreign`: the mutation is of another domain -/
  | getTypeMut (d : DomId) (foreign : Bool) (lookups : List DomId) (hit stores : Bool)
  /-- `get_type(span)` (domain.cpp 533-547); `early`: its own search is successful -/
  | getType (d : DomId) (early : Bool) (lookups : List DomId) (hit stores : Bool)
  /-- `garbage_collect_types` (domain.cpp 838-861) -/
  | collect (d : DomId)
  /-- `num_types` etc. -/
  | count (d : DomId)
  /-- the life of a `domain_traverse` (domain.cpp 864-908) with callbacks that do not lock -/
  | traverse (d : DomId)
  /-- operations on objects and messages: no locks -/
  | other

/-- The locks of a call. -/
def lockActs : LCall → List Act
  | .element d => [.own (.elems d), .work, .release (.elems d)]
  | .unregisterMixin d => [.own (.types d), .work, .release (.types d), .own (.elems d), .work, .release (.elems d)]
  | .lookup d => lookupActs d
  | .rule d => [.own (.types d), .work, .release (.types d)]
  | .getTypeMut d foreign lookups hit stores => if foreign then [] else getTypeActs d lookups hit stores
  | .getType d early lookups hit stores =>
    [.share (.types d), .work, .release (.types d)] ++ if early then [] else .work :: getTypeActs d lookups hit stores
  | .collect d => [.own (.types d), .work, .release (.types d)]
  | .count d => countActs d
  | .traverse d => [.share (.types d), .share (.elems d), .work, .release (.elems d), .release (.types d)]
  | .other => [.work]

/-- `dbg_dmp` of a domain (dbg_dmp.cpp 116-215): it calls `num_mutation_rules`, `num_types` and `num_type_queries` while its
`domain_traverse` lives. -/
def dumpActs (d : DomId) (f : DumpFlags) : List Act :=
  [.share (.types d), .share (.elems d), .work] ++ (if f.rules then countActs d else []) ++ (if f.types then countActs d else []) ++
    (if f.queries then countActs d else []) ++ [.work, .release (.elems d), .release (.types d)]

/-- A thread: what is left to do, the locks it holds (`true`: a unique lock), the latest first, and whether it waits for a unique
lock. -/
structure LThread where
  todo : List Act
  held : List (Mutex × Bool) := []
  waits : Bool := false
deriving DecidableEq, Repr

def LThread.holds (t : LThread) (l : Mutex) : Bool := t.held.any (fun h => h.1 == l)
def LThread.owns (t : LThread) (l : Mutex) : Bool := t.held.any (fun h => h == (l, true))

/-- The thread waits for a unique lock of `l`. -/
def LThread.waitsFor (t : LThread) (l : Mutex) : Bool := t.waits && t.todo.head? == some (.own l)

/-- The end of the life of the latest lock of a mutex. -/
def dropHeld (l : Mutex) : List (Mutex × Bool) → List (Mutex × Bool)
  | [] => []
  | h :: hs => if h.1 = l then hs else h :: dropHeld l hs

/-- What one thread does next; `none` if it is over or must wait. A thread that cannot have a unique lock at once begins to wait.
`pref`: those who wait for a unique lock go before those who want to share (an implementation of `std::shared_mutex` may do it
either way). -/
def LThread.act (pref : Bool) (ts : List LThread) (t : LThread) : Option LThread :=
  match t.todo with
  | [] => none
  | .share l :: r =>
    if ts.any (fun t' => t'.owns l) || (pref && ts.any (fun t' => t'.waitsFor l)) then none else some ⟨r, (l, false) :: t.held, false⟩
  | .own l :: r =>
    if ts.any (fun t' => t'.holds l) then (if t.waits then none else some ⟨.own l :: r, t.held, true⟩)
    else some ⟨r, (l, true) :: t.held, false⟩
  | .release l :: r => some ⟨r, dropHeld l t.held, false⟩
  | .work :: r => some ⟨r, t.held, false⟩

/-- Thread `i` does its next action. -/
def lockStep (pref : Bool) (ts : List LThread) (i : Nat) : Option (List LThread) :=
  match ts[i]? with
  | none => none
  | some t => (t.act pref ts).map (fun t' => ts.set i t')

/-- Execution according to a schedule; `none` if a thread is to act that must wait. -/
def lockRun (pref : Bool) : List Nat → List LThread → Option (List LThread)
  | [], ts => some ts
  | i :: is, ts => (lockStep pref ts i).bind (lockRun pref is)

/-- Threads that are to make calls. -/
def lockThreads (progs : List (List LCall)) : List LThread := progs.map (fun p => { todo := p.flatMap lockActs })

/-- The lock under which a thread executes the next part of its call (`Verif.Model.Concurrent`), if any; `true`: a unique lock. -/
def partLock : Op → Stage → Option (Mutex × Bool)
  | .getType d _, .todo => some (.types d, false)
  | .getType d _, .mutating => some (.types d, false)
  | .getType d _, .found _ _ => some (.types d, true)
  | .getType d _, .built _ _ => some (.types d, true)
  | .getTypeMut d md _, .todo => if md ≠ d then none else some (.types d, false)
  | .getTypeMut d _ _, .mutating => some (.types d, false)
  | .getTypeMut d _ _, .found _ _ => some (.types d, true)
  | .getTypeMut d _ _, .built _ _ => some (.types d, true)
  | .unregMixin d _, .todo => some (.types d, true)
  | .unregMixin d _, .purged => some (.elems d, true)
  | .regFeature d _, .todo => some (.elems d, true)
  | .unregFeature d _, .todo => some (.elems d, true)
  | .regMixin d _, .todo => some (.elems d, true)
  | .regClass d _, .todo => some (.elems d, true)
  | .unregClass d _, .todo => some (.elems d, true)
  | .addRule d _, .todo => some (.types d, true)
  | .removeRule d _, .todo => some (.types d, true)
  | .gc d _, .todo => some (.types d, true)
  | _, _ => none

end Dnmx
