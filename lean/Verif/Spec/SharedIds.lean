import Verif.Spec.Dispatch
import Verif.Model.Domain

/-!
# Specification: features that share an id

Ids of features are given by domains, and tables of types are indexed by ids alone. What tables contain if features of several domains meet in one type, or if ids are given anew.
-/

namespace Spec
open Dnmx

/-- The implementations, by the mixins `ms`, of all features with the id `i`. -/
def implsWithId (D : Decls) (fid : Nat → Option Nat) (ms : List Nat) (i : Nat) : List (Nat × FeatFor) :=
  ms.zipIdx.flatMap (fun (m, k) => ((D.mix m).feats.filter (fun ff => fid ff.feat = some i)).map (fun ff => (k, ff)))

/-- An entry with exactly the implementations `xs`, best first, and the top bidders in front. -/
structure EntryOf (xs : List (Nat × FeatFor)) (e : FEntry) : Prop where
  nonempty : e.pls ≠ []
  complete : (e.pls.map (fun p => (p.mixinIndex, p.data))).Perm xs
  ordered : (e.pls.map (fun p => (p.mixinIndex, p.data))).Pairwise WinsOrSame
  top : ∀ (k : Nat) (p : Payload), e.pls[k]? = some p → (k ≤ e.topBack ↔ ∀ x ∈ xs, x.2.bid ≤ p.data.bid)
  within : e.topBack < e.pls.length

/-- What there is in a table for implementations `xs`. -/
def EntryFor (xs : List (Nat × FeatFor)) : Option FEntry → Prop
  | none => xs = []
  | some e => EntryOf xs e

/-- The entry is right for the feature `f`: it has the implementations of `f` that the mixins provide. -/
def RightFor (D : Decls) (ms : List Nat) (f : Nat) : Option FEntry → Prop
  | none => allImpls D ms f = []
  | some e => e.pls ≠ [] ∧ RanksImpls D ms f (e.pls.map (fun p => (p.mixinIndex, p.data)))

/-- The type `r` of domain `d` was made by the call after the calls `pre`. -/
def MadeAfter (D : Decls) (s : DomId → Settings) (d : DomId) (ops pre : List Op) (r : TypeRec) : Prop :=
  ∃ op, pre ++ [op] <+: ops ∧ ((run D (initWorld s) pre).doms d).typeAt d r.tid = none ∧ ((run D (initWorld s) (pre ++ [op])).doms d).typeAt d r.tid = some r

/-- Two different implementations of `xs` have the same bid and the same priority. -/
def SameRank (xs : List (Nat × FeatFor)) : Prop :=
  ∃ (k l : Nat) (a b : Nat × FeatFor), k ≠ l ∧ xs[k]? = some a ∧ xs[l]? = some b ∧ a.2.bid = b.2.bid ∧ a.2.priority = b.2.priority

/-- An implementation that no other one beats. -/
def BestOf (xs : List (Nat × FeatFor)) (w : Nat × FeatFor) : Prop := w ∈ xs ∧ ∀ x ∈ xs, WinsOrSame w x

/-- The implementations with the greatest bid. -/
def topOf (xs : List (Nat × FeatFor)) : List (Nat × FeatFor) := xs.filter (fun x => xs.all (fun y => y.2.bid ≤ x.2.bid))

end Spec
