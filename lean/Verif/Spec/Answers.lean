import Verif.Spec.Registry
import Verif.Spec.Rules
import Verif.Spec.Types

/-!
# Specification: answers of domains

What calls on domains answer, and which parts of a state should matter for it.
-/

namespace Spec
open Dnmx

/-- What a call gives: for `get_type` the composition of the type. -/
inductive Answer
  | done
  | type (ms : List Mix)
  | fails (e : Err)
deriving DecidableEq, Repr

def answerOf (d : DomId) : Except Err TypeId × World → Answer
  | (.ok t, W) => match compositionOf W d t with
    | some ms => .type ms
    | none => .fails .ub
  | (.error e, _) => .fails e

/-- The answer of a call. -/
def answer (D : Decls) (W : World) (op : Op) : Answer :=
  match op with
  | .getType d q => answerOf d (getType D W d q)
  | .getTypeMut d md q => answerOf d (getTypeMut D W d md q)
  | op => match (step D W op).1 with
    | .ok _ => .done
    | .error e => .fails e

/-- The answers of calls that are made one after the other. -/
def answers (D : Decls) : World → List Op → List Answer
  | _, [] => []
  | W, op :: ops => answer D W op :: answers D (step D W op).2 ops

/-- Calls that do not register or unregister anything. -/
def asksForTypes : Op → Bool
  | .getType _ _ => true
  | .getTypeMut _ _ _ => true
  | .gc _ _ => true
  | _ => false

/-- The domain on which a call is made. -/
def domainOf : Op → DomId
  | .regFeature d _ => d
  | .unregFeature d _ => d
  | .regMixin d _ => d
  | .unregMixin d _ => d
  | .regClass d _ => d
  | .unregClass d _ => d
  | .addRule d _ => d
  | .removeRule d _ => d
  | .getTypeMut d _ _ => d
  | .getType d _ => d
  | .gc d _ => d

/-- The answers of the calls that register or unregister something. -/
def registrationAnswers (D : Decls) : World → List Op → List Answer
  | _, [] => []
  | W, op :: ops => (if asksForTypes op then [] else [answer D W op]) ++ registrationAnswers D (step D W op).2 ops

/-- The same elements are registered in the same domains, the same rules are in force (with the same counts), and a type class has been unregistered in both or in none
(see `C07` for what that means for new ones). Nothing is said about ids, types, stored queries, and the order in which things were done. -/
structure SameRegistered (W W' : World) : Prop where
  settings : ∀ d, (W'.doms d).settings = (W.doms d).settings
  feats : ∀ d f, f ∈ featuresOf W' d ↔ f ∈ featuresOf W d
  mixins : ∀ d m, m ∈ mixinsOf W' d ↔ m ∈ mixinsOf W d
  classes : ∀ d c, c ∈ classesOf W' d ↔ c ∈ classesOf W d
  gaps : ∀ d, none ∈ (W'.doms d).classes ↔ none ∈ (W.doms d).classes
  rules : ∀ d, (W'.doms d).rules = (W.doms d).rules

end Spec
