import Verif.Model.Object
import Verif.Model.Dispatch

/-!
# Objects of version 1

Model of v1compat/code/dynamix/v1compat/object.cpp 10-31 and next_bidder.hpp 8-22.

Simplification: the object that `copy` returns is the local one (it is not moved).
-/

namespace Dnmx

section
variable (D : Decls) (E : TyEnv) (orc : Orc)

/-- `object()` (object.cpp 10-12): an object of the empty type `t0` of the domain of version 1, with the default allocator `al`. -/
def v1New (t0 : TypeId) (al : Nat) (h : Heap) : Heap := { h with objs := h.objs ++ [some ⟨some t0, none, false, al⟩] }

/-- `copyable` (object.cpp 18-20; type.hpp 154). -/
def v1Copyable (ms : List Mix) : Bool := ms.all (fun m => (D.mix m).hasCopyInit) && ms.all (fun m => (D.mix m).hasCopyAsgn)

/-- `copy` (object.cpp 22-26). -/
def v1Copy (t0 : TypeId) (al : Nat) (u : Bool) (h : Heap) (src : Nat) : Res Heap :=
  (copyFrom D E orc u (v1New t0 al h) h.objs.length src).bind .ok (unwindObject D E h.objs.length)

end

section
variable {σ R : Type}

/-- `has_next_bidder` (next_bidder.hpp 8-11, with next_impl.hpp 34-37). -/
def v1HasNextBidder (t : TypeRec) (fid mid : Option Nat) : Bool := !(t.findNextBidderSet fid mid).isEmpty

/-- `call_next_bidder` (next_bidder.hpp 13-21). -/
def v1CallNextBidder (multicast : Bool) (I : Impls σ R) (t : TypeRec) (fid mid : Option Nat) (s : σ) : Except CallErr R × σ :=
  if multicast then callNextBidderSet I t fid mid s else callNextBidderTop I t fid mid s

end

end Dnmx
