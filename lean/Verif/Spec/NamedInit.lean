import Verif.Model.NamedInit
import Verif.Spec.System

/-!
# Vocabulary for initializers by name (C76)
-/

namespace Spec
open Dnmx

/-- The mixin that an initializer is for: the one of the info, or the one that the domain of the object gives for the name. -/
def IsFor (D : Decls) (W : World) (d : DomId) (k : InitKey) (m : Mix) : Prop :=
  match k with
  | .info m' => m' = m
  | .name n => getMixinByName D W d n = some m

instance (D : Decls) (W : World) (d : DomId) (k : InitKey) (m : Mix) : Decidable (IsFor D W d k m) := by
  unfold IsFor; cases k <;> infer_instance

/-- What a user has to see to: names are those of mixins of the domain, infos are not of mixins of other domains, and no two initializers are for the same
mixin. -/
structure ProperInits (D : Decls) (W : World) (d : DomId) (ops : List (InitKey × Nat)) : Prop where
  known : ∀ x ∈ ops, ∃ m, IsFor D W d x.1 m ∧ (W.mixDom m = some d ∨ W.mixId m = none)
  one : ops.Pairwise (fun a b => ∀ m, IsFor D W d a.1 m → ¬ IsFor D W d b.1 m)

/-- A new mixin is made with the initializer that is for it, or by default if there is none. -/
def MadeAsAsked (D : Decls) (W : World) (d : DomId) (ops : List (InitKey × Nat)) (m : Mix) (k : Kind) : Prop :=
  (∀ x ∈ ops, IsFor D W d x.1 m → k = .custom x.2) ∧ ((∀ x ∈ ops, ¬ IsFor D W d x.1 m) → k = .dflt)

/-- The override that counts for a mixin in `dnmx_mutate_to`: the first with its info or with its name. -/
def overrideFor (D : Decls) (ovs : List CNamed) (m : Mix) : Option CNamed := ovs.find? (fun ov => ov.key = .info m ∨ ov.key = .name (D.mixName m))

end Spec
