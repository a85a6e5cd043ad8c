import Verif.Model.Dispatch

/-!
# Is there a next implementation?

Model of `has_next_impl_msg` and `has_next_bidder_set` (code/dynamix/msg/next_impl.hpp 13-17, 33-37).
-/

namespace Dnmx

/-- `has_next_impl_msg` (next_impl.hpp 13-17). -/
def hasNextImpl (t : TypeRec) (fid mid : Option Nat) : Bool := (t.findNextImplementer fid mid).isSome

/-- `has_next_bidder_set` (next_impl.hpp 33-37). -/
def hasNextBidderSet (t : TypeRec) (fid mid : Option Nat) : Bool := !(t.findNextBidderSet fid mid).isEmpty

end Dnmx
