import Verif.Model.DomainMemory
import Verif.Spec.Answers

/-!
# Specification: domains that run out of memory

What may be left of a call that fails for want of memory.
-/

namespace Spec
open Dnmx

/-- The allocated blocks are those of the types in the domains, each one once: nothing has leaked, no type is without its memory. -/
structure BlocksExact (M : MWorld) : Prop where
  nodup : M.blocks.Nodup
  exact : ∀ d t, (d, t) ∈ M.blocks ↔ ∃ r ∈ (M.W.doms d).types, r.tid = t

/-- What `std::bad_alloc` from a call leaves behind: nothing; or some of the features of a mixin that was to be registered; or the type that was
asked for, without the query. -/
inductive LeftBehind (D : Decls) (W : World) : Op → World → Prop
  | nothing (op : Op) : LeftBehind D W op W
  | features (d : DomId) (m : Mix) (fs : List Feat) (W' : World) (mine : W.mixDom m = none ∨ W.mixDom m = some d) (first : fs <+: (D.mix m).feats.map (·.feat))
      (registered : registerFeatures D W d fs = (.ok (), W')) : LeftBehind D W (.regMixin d m) W'
  | type (op : Op) (d : DomId) (q : List Mix) (r : TypeRec) (asked : op = .getType d q ∨ op = .getTypeMut d d q)
      (missed : ∀ e ∈ (W.doms d).queries, e.1 ≠ q) (nonempty : r.mixins ≠ [])
      (resolved : (applyMutationRules D (rulesOf D (W.view D d) (W.doms d)) q).result = .ok (q, r.mixins))
      (new : ∀ t ∈ (W.doms d).types, t.mixins ≠ r.mixins) (built : buildType D W d W.nextType r.mixins = .ok r) :
      LeftBehind D W op { W.setDom d { W.doms d with types := (W.doms d).types ++ [r] } with nextType := W.nextType + 1 }

/-- The calls on domains that have the effects of a call that failed for want of memory: registrations of features. -/
def leftCalls (D : Decls) (W W' : World) : Op → List Op
  | .regMixin d m => (((D.mix m).feats.map (·.feat)).filter (fun f => (W.featId f).isNone && (W'.featId f).isSome)).map (fun f => .regFeature d f)
  | _ => []

/-- The history as it would be without the calls that fail for want of memory, where only features may be left. -/
def withoutFailed (D : Decls) : MWorld → List (Faults × Op) → List Op
  | _, [] => []
  | M, (F, op) :: h =>
    (match (stepM D F M op).1 with
      | .error .badAlloc => leftCalls D M.W (stepM D F M op).2.W op
      | _ => [op]) ++ withoutFailed D (stepM D F M op).2 h

/-- The outcome of a call as without failures of memory. -/
def sameOutcome : Except Err Unit → Except MemErr Unit
  | .ok _ => .ok ()
  | .error e => .error (.err e)

end Spec
