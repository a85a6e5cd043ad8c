import Verif.Model.TypeBuild

/-! # Feature tables that differ in what the order does not distinguish -/

namespace Spec
open Dnmx

/-- What decides about the place of a payload in its entry: bid, priority and mixin. -/
def rankOf (p : Payload) : Int × Int × Nat := (p.data.bid, p.data.priority, p.mixinIndex)

/-- Entries with the same payloads, in the same order of bids, priorities and mixins, and with the same last top bidder: what differs is at most the order of payloads of one mixin
with equal bid and priority. -/
def SameEntry : Option FEntry → Option FEntry → Prop
  | none, none => True
  | some e, some e' => e.pls.map rankOf = e'.pls.map rankOf ∧ e.pls.Perm e'.pls ∧ e.topBack = e'.topBack
  | _, _ => False

/-- Tables with such entries. -/
def SameTable (t t' : List (Option FEntry)) : Prop := t.length = t'.length ∧ ∀ i : Nat, SameEntry ((t[i]?).getD none) ((t'[i]?).getD none)

/-- No mixin lists a feature twice with the same bid and priority. -/
def NoDoubles (D : Decls) : Prop :=
  ∀ m, (D.mix m).feats.Pairwise (fun a b => a.feat = b.feat → a.bid = b.bid → a.priority ≠ b.priority)

end Spec
