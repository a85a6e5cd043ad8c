import Verif.Model.Locks

/-!
# Specification: deadlocks and recursive locks
-/

namespace Spec
open Dnmx

/-- All threads have done everything. -/
def AllOver (ts : List LThread) : Prop := ∀ t ∈ ts, t.todo = []

/-- Some thread is not at its end and none can go on. -/
def Deadlock (pref : Bool) (ts : List LThread) : Prop := ¬ AllOver ts ∧ ∀ i, lockStep pref ts i = none

/-- Some thread is about to lock a mutex that it has locked already. This is undefined behaviour for `std::shared_mutex`. -/
def RecursiveLock (ts : List LThread) : Prop :=
  ∃ t ∈ ts, ∃ l, (t.todo.head? = some (.share l) ∨ t.todo.head? = some (.own l)) ∧ ∃ b, (l, b) ∈ t.held

/-- Some thread is about to unlock a mutex that it has not locked. -/
def StrayUnlock (ts : List LThread) : Prop := ∃ t ∈ ts, ∃ l, t.todo.head? = some (.release l) ∧ ∀ b, (l, b) ∉ t.held

/-- What threads can reach. -/
def LockReach (pref : Bool) (start ts : List LThread) : Prop := ∃ is, lockRun pref is start = some ts

/-- The number of actions left. -/
def actsLeft (ts : List LThread) : Nat := (ts.map (fun t => t.todo.length)).sum

/-! ## Parts of calls and locks -/

/-- The same type registry of domain `d`. -/
def SameTypeReg (d : DomId) (W W' : World) : Prop :=
  (W'.doms d).types = (W.doms d).types ∧ (W'.doms d).queries = (W.doms d).queries ∧ (W'.doms d).rules = (W.doms d).rules

/-- The same element registry of domain `d`. -/
def SameElemReg (d : DomId) (W W' : World) : Prop :=
  (W'.doms d).feats = (W.doms d).feats ∧ (W'.doms d).mixins = (W.doms d).mixins ∧ (W'.doms d).classes = (W.doms d).classes

/-- The infos are the same. -/
def SameInfos (W W' : World) : Prop := W'.featId = W.featId ∧ W'.mixId = W.mixId ∧ W'.mixDom = W.mixDom

/-- Only the element registry of domain `d'` (and infos) may have changed. -/
def OnlyElems (d' : DomId) (W W' : World) : Prop := ∀ d, SameTypeReg d W W' ∧ (d ≠ d' → SameElemReg d W W')

/-- Only the type registry of domain `d'` may have changed. -/
def OnlyTypes (d' : DomId) (W W' : World) : Prop := ∀ d, SameElemReg d W W' ∧ SameInfos W W' ∧ (d ≠ d' → SameTypeReg d W W')

/-- What the part may change. -/
def PartChanges (W W' : World) : Option (Mutex × Bool) → Prop
  | some (.types d, true) => OnlyTypes d W W'
  | some (.elems d, true) => OnlyElems d W W'
  | some (_, false) => W' = W
  | none => (∀ d, SameTypeReg d W W' ∧ SameElemReg d W W') ∧ SameInfos W W'

/-- The locks of the parts of a call that is at stage `st` and sees the worlds `Ws`. -/
def lockTrail (D : Decls) (op : Op) : Stage → List World → List (Mutex × Bool)
  | _, [] => []
  | st, W :: Ws => (partLock op st).toList ++ lockTrail D op (nextPart D W op st).1 Ws

/-- How far the call is. -/
def stageAfter (D : Decls) (op : Op) : Stage → List World → Stage
  | st, [] => st
  | st, W :: Ws => stageAfter D op (nextPart D W op st).1 Ws

/-- The locks that are taken. -/
def taken (as : List Act) : List (Mutex × Bool) :=
  as.filterMap (fun a => match a with
    | .share l => some (l, false)
    | .own l => some (l, true)
    | _ => none)

/-- A trail is that of a call (with certain choices): all of it if the call is over, otherwise the beginning. -/
def Follows (tr : List (Mutex × Bool)) (st : Stage) (locks : List (Mutex × Bool)) : Prop :=
  (∃ rest, locks = tr ++ rest) ∧ ∀ r, st = .done r → tr = locks

/-- Which locks a call takes: the call `c` has the name and the domain of `op`. -/
def IsCall : Op → LCall → Prop
  | .regFeature d _, c => c = .element d
  | .unregFeature d _, c => c = .element d
  | .regMixin d _, c => c = .element d
  | .unregMixin d _, c => c = .unregisterMixin d
  | .regClass d _, c => c = .element d
  | .unregClass d _, c => c = .element d
  | .addRule d _, c => c = .rule d
  | .removeRule d _, c => c = .rule d
  | .gc d _, c => c = .collect d
  | .getTypeMut d md _, c => ∃ hit stores, c = .getTypeMut d (md != d) [] hit stores
  | .getType d _, c => ∃ early hit stores, c = .getType d early [] hit stores

end Spec
