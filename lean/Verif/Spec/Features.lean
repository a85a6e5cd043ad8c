import Verif.Model.Decl

/-!
# Specification: implementations of a feature in a composition

Uses only the declarations of mixins.
-/

namespace Spec
open Dnmx

/-- All implementations of the feature `f` in the composition `ms`: position of the mixin and what it provides. -/
def allImpls (D : Decls) (ms : List Nat) (f : Nat) : List (Nat × FeatFor) :=
  ms.zipIdx.flatMap (fun (m, i) => ((D.mix m).feats.filter (fun ff => ff.feat = f)).map (fun ff => (i, ff)))

/-- The documented rank (code/dnmx/feature_for_mixin.h): `a` wins against `b` with a greater bid; with equal bids
the smaller priority; if these are equal, too, the later mixin. -/
def WinsOrSame (a b : Nat × FeatFor) : Prop :=
  a.2.bid > b.2.bid ∨ (a.2.bid = b.2.bid ∧
    (a.2.priority < b.2.priority ∨ (a.2.priority = b.2.priority ∧ a.1 ≥ b.1)))

/-- `l` lists exactly the implementations of `f`, each once, best first. -/
structure RanksImpls (D : Decls) (ms : List Nat) (f : Nat) (l : List (Nat × FeatFor)) : Prop where
  complete : l.Perm (allImpls D ms f)
  ordered : l.Pairwise WinsOrSame

/-- Two different implementations of `f` that have the same bid and the same priority. -/
def ClashesOn (D : Decls) (ms : List Nat) (f : Nat) : Prop :=
  ∃ (k l : Nat) (a b : Nat × FeatFor), k ≠ l ∧ (allImpls D ms f)[k]? = some a ∧ (allImpls D ms f)[l]? = some b ∧
    a.2.bid = b.2.bid ∧ a.2.priority = b.2.priority

/-- Every feature provided by the composition has an id, and different features have different ids. -/
structure FeatIdsOk (D : Decls) (fid : Nat → Option Nat) (ms : List Nat) : Prop where
  registered : ∀ m ∈ ms, ∀ ff ∈ (D.mix m).feats, ∃ i, fid ff.feat = some i
  distinct : ∀ f g i, fid f = some i → fid g = some i → f = g

end Spec
