import Verif.Spec.Answers

/-!
# Specification: independent domains
-/

namespace Spec
open Dnmx

/-- Every mixin and every feature has a home domain, and is registered only there. -/
def AtHome (D : Decls) (homeM : Mix → DomId) (homeF : Feat → DomId) : Op → Prop
  | .regMixin d m => homeM m = d ∧ ∀ ff ∈ (D.mix m).feats, homeF ff.feat = d
  | .regFeature d f => homeF f = d
  | _ => True

/-- A history in which every mixin and every feature is registered in one domain only. -/
def OneHome (D : Decls) (ops : List Op) : Prop :=
  ∃ (homeM : Mix → DomId) (homeF : Feat → DomId), ∀ op ∈ ops, AtHome D homeM homeF op

/-- The calls on one domain. -/
def callsOn (d : DomId) (ops : List Op) : List Op := ops.filter (fun op => domainOf op == d)

/-- The answers of the calls on one domain, in a history of calls on many. -/
def answersOn (D : Decls) (d : DomId) : World → List Op → List Answer
  | _, [] => []
  | W, op :: ops => (if domainOf op = d then [answer D W op] else []) ++ answersOn D d (step D W op).2 ops

/-- The answers of the calls on one domain that register or unregister something. -/
def registrationAnswersOn (D : Decls) (d : DomId) : World → List Op → List Answer
  | _, [] => []
  | W, op :: ops => (if domainOf op = d ∧ asksForTypes op = false then [answer D W op] else []) ++ registrationAnswersOn D d (step D W op).2 ops

/-- `get_type` tells mixins of other domains from mixins that are not registered at all, by the kind of error. This forgets the difference. -/
def blur : Answer → Answer
  | .fails .foreignMixin => .fails .unregistered
  | a => a

end Spec
