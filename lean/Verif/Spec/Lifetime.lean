import Verif.Model.Lifetime
import Verif.Spec.Registry

/-!
# Specification: domains that are destroyed

A program that destroys domains is compared with the program that never destroys a domain and uses a new address for
every domain instead.
-/

namespace Spec
open Dnmx

/-- The outcomes of the calls of a program. -/
def lifeOutcomes (D : Decls) : World → List LifeOp → List (Except Err Unit)
  | _, [] => []
  | W, .call o :: ops => (step D W o).1 :: lifeOutcomes D (step D W o).2 ops
  | W, .renew d s :: ops => lifeOutcomes D (renew W d s) ops

/-- No domain is destroyed while there is a mixin registered in it. -/
def UnregistersMixins (D : Decls) : World → List LifeOp → Prop
  | _, [] => True
  | W, .call o :: ops => UnregistersMixins D (step D W o).2 ops
  | W, .renew d s :: ops => mixinsOf W d = [] ∧ UnregistersMixins D (renew W d s) ops

/-- A call with the domains at other addresses. -/
def opAt (ρ : DomId → DomId) : Op → Op
  | .regFeature d f => .regFeature (ρ d) f
  | .unregFeature d f => .unregFeature (ρ d) f
  | .regMixin d m => .regMixin (ρ d) m
  | .unregMixin d m => .unregMixin (ρ d) m
  | .regClass d c => .regClass (ρ d) c
  | .unregClass d c => .unregClass (ρ d) c
  | .addRule d r => .addRule (ρ d) r
  | .removeRule d r => .removeRule (ρ d) r
  | .getTypeMut d md q => .getTypeMut (ρ d) (ρ md) q
  | .getType d q => .getType (ρ d) q
  | .gc d num => .gc (ρ d) num

/-- The calls of a program, with every domain at an address of its own: `ρ` gives the present address of a domain, and
the next domain to be constructed is placed at the odd address `2 * k + 1`. -/
def apart (ρ : DomId → DomId) (k : Nat) : List LifeOp → List Op
  | [] => []
  | .call o :: ops => opAt ρ o :: apart ρ k ops
  | .renew d _ :: ops => apart (upd ρ d (2 * k + 1)) (k + 1) ops

/-- Where the domains are in the end. -/
def addresses (ρ : DomId → DomId) (k : Nat) : List LifeOp → DomId → DomId
  | [] => ρ
  | .call _ :: ops => addresses ρ k ops
  | .renew d _ :: ops => addresses (upd ρ d (2 * k + 1)) (k + 1) ops

/-- The settings of the domains constructed by a program. -/
def settingsOf : List LifeOp → List Settings
  | [] => []
  | .call _ :: ops => settingsOf ops
  | .renew _ s :: ops => s :: settingsOf ops

/-- The settings of domains with an address of their own: the initial domains are at even addresses. -/
def apartSettings (s : DomId → Settings) (l : List Settings) (d : DomId) : Settings :=
  if d % 2 = 0 then s (d / 2) else l.getD (d / 2) {}

/-- A type with its domain at another address. -/
def typeAtAddr (ρ : DomId → DomId) (t : TypeRec) : TypeRec := { t with dom := ρ t.dom }

/-- A domain with the same contents, where types refer to domains by other addresses. -/
def domAtAddr (ρ : DomId → DomId) (x : Dom) : Dom := { x with types := x.types.map (typeAtAddr ρ) }

/-- The same state of everything, but with the domains at other addresses. (`V` may have further domains.) -/
structure SameUpTo (ρ : DomId → DomId) (W V : World) : Prop where
  doms : ∀ d, V.doms (ρ d) = domAtAddr ρ (W.doms d)
  featId : V.featId = W.featId
  mixId : V.mixId = W.mixId
  mixDom : ∀ m, V.mixDom m = (W.mixDom m).map ρ
  nextType : V.nextType = W.nextType

/-- A feature info that says it is registered, but is in no domain. -/
def OrphanFeature (W : World) (f : Feat) : Prop := W.featId f ≠ none ∧ ∀ d, f ∉ featuresOf W d

/-- A mixin info that says it is registered in the domain at `d`, but is in no domain. -/
def OrphanMixin (W : World) (d : DomId) (m : Mix) : Prop :=
  W.mixId m ≠ none ∧ W.mixDom m = some d ∧ ∀ d', m ∉ mixinsOf W d'

end Spec
