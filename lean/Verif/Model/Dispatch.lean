import Verif.Model.TypeBuild

/-!
# Calling messages

Model of `msg_caller` (code/dynamix/msg/msg_caller.hpp), the search for the next implementation (code/dynamix/type.cpp
45-81), the calls of next implementations (code/dynamix/msg/next_impl.hpp) and the combinators of
v1compat/code/dynamix/v1compat/combinators.hpp.

Implementations are arbitrary functions on an arbitrary program state `σ` that may throw. Simplifications: arguments are
part of the state (see Model/MsgArgs.lean for how they are given on); the type of the object at the start
of the call is used throughout (as in the code, which takes a reference to it), but the mixin data are looked up at the
time of each call.
-/

namespace Dnmx

/-- Error outcomes of a call: thrown by the library or by an implementation. -/
inductive CallErr
  | notImplemented
  | noNext
  | user (n : Nat)
deriving DecidableEq, Repr

/-- What a program provides: the mixin data of the object in a state (`unchecked_get_at`), and the functions behind the
payloads; those of default payloads get the object instead of mixin data. -/
structure Impls (σ R : Type) where
  dataAt : σ → Nat → Nat
  fn : (payload data : Nat) → σ → Except CallErr R × σ
  dflt : (payload : Nat) → σ → Except CallErr R × σ

variable {σ R : Type}

/-- `msg_caller::call` (msg_caller.hpp 43-50). -/
def callPayload (I : Impls σ R) (p : Payload) (s : σ) : Except CallErr R × σ := I.fn p.data.payload (I.dataAt s p.mixinIndex) s

/-- `try_default_payload` (msg_caller.hpp 16-25). -/
def tryDefault (D : Decls) (I : Impls σ R) (f : Feat) (s : σ) : Except CallErr R × σ :=
  match (D.feat f).defaultPayload with
  | none => (.error .notImplemented, s)
  | some p => I.dflt p s

/-- `call_unicast` (msg_caller.hpp 52-62); `fid` is the id of the feature `f`. An entry always has a first payload. -/
def callUnicast (D : Decls) (I : Impls σ R) (t : TypeRec) (f : Feat) (fid : Option Nat) (s : σ) : Except CallErr R × σ :=
  match t.ftableAt fid with
  | some e =>
    match e.pls with
    | p :: _ => callPayload I p s
    | [] => tryDefault D I f s
  | none => tryDefault D I f s

/-- The loop of `call_multicast` (msg_caller.hpp 72-74) over the payloads from `top_bid_back` down to, but without, the
first: `ps` lists them in this order. Results are ignored, exceptions end the loop. -/
def multicastLoop (I : Impls σ R) : List Payload → σ → Except CallErr Unit × σ
  | [], s => (.ok (), s)
  | p :: ps, s =>
    match callPayload I p s with
    | (.error e, s') => (.error e, s')
    | (.ok _, s') => multicastLoop I ps s'

/-- `call_multicast` (msg_caller.hpp 64-80). -/
def callMulticast (D : Decls) (I : Impls σ R) (t : TypeRec) (f : Feat) (fid : Option Nat) (s : σ) : Except CallErr R × σ :=
  match t.ftableAt fid with
  | some e =>
    match e.pls with
    | p :: ps =>
      match multicastLoop I (ps.take e.topBack).reverse s with
      | (.error err, s') => (.error err, s')
      | (.ok (), s') => callPayload I p s'
    | [] => tryDefault D I f s
  | none => tryDefault D I f s

/-! ## Next implementations -/

/-- `find_implementer` (type.cpp 46-52): position of the first payload of a mixin, counted from `k`. -/
def findImplementer (i : Nat) (k : Nat) : List Payload → Option Nat
  | [] => none
  | p :: ps => if p.mixinIndex = i then some k else findImplementer i (k + 1) ps

/-- `type::find_next_implementer` (type.cpp 54-64), given the ids of feature and mixin. -/
def TypeRec.findNextImplementer (t : TypeRec) (fid mid : Option Nat) : Option Payload :=
  match t.ftableAt fid with
  | none => none
  | some e =>
    match t.indexOf mid with
    | none => none -- no payload has the invalid index
    | some i =>
      match findImplementer i 0 e.pls with
      | none => none
      | some k => e.pls[k + 1]?

/-- The first loop of `find_next_bidder_set` (type.cpp 74). -/
def skipBid (bid : Int) : List Payload → List Payload
  | [] => []
  | p :: ps => if p.data.bid = bid then skipBid bid ps else p :: ps

/-- The second loop of `find_next_bidder_set` (type.cpp 77-79). -/
def takeBid (bid : Int) : List Payload → List Payload
  | [] => []
  | p :: ps => if p.data.bid = bid then p :: takeBid bid ps else []

/-- `type::find_next_bidder_set` (type.cpp 66-81). -/
def TypeRec.findNextBidderSet (t : TypeRec) (fid mid : Option Nat) : List Payload :=
  match t.ftableAt fid with
  | none => []
  | some e =>
    match t.indexOf mid with
    | none => []
    | some i =>
      match findImplementer i 0 e.pls with
      | none => []
      | some k =>
        match e.pls.drop k with
        | [] => []
        | f :: rest =>
          match skipBid f.data.bid (f :: rest) with
          | [] => []
          | b :: bs => b :: takeBid b.data.bid bs

/-- `call_next_impl_msg` (next_impl.hpp 20-31). -/
def callNextImpl (I : Impls σ R) (t : TypeRec) (fid mid : Option Nat) (s : σ) : Except CallErr R × σ :=
  match t.findNextImplementer fid mid with
  | none => (.error .noNext, s)
  | some p => callPayload I p s

/-- `call_next_bidder_set` (next_impl.hpp 40-58). -/
def callNextBidderSet (I : Impls σ R) (t : TypeRec) (fid mid : Option Nat) (s : σ) : Except CallErr R × σ :=
  match t.findNextBidderSet fid mid with
  | [] => (.error .noNext, s)
  | p :: ps =>
    match multicastLoop I ps.reverse s with
    | (.error err, s') => (.error err, s')
    | (.ok (), s') => callPayload I p s'

/-- `call_next_bidder_top` (next_impl.hpp 61-72). -/
def callNextBidderTop (I : Impls σ R) (t : TypeRec) (fid mid : Option Nat) (s : σ) : Except CallErr R × σ :=
  match t.findNextBidderSet fid mid with
  | [] => (.error .noNext, s)
  | p :: _ => callPayload I p s

/-! ## Combinators of version 1 -/

/-- A combinator with its state. -/
structure Combinator (R C : Type) where
  setNum : Nat → C → C
  /-- the new state, and whether to go on -/
  add : R → C → C × Bool

/-- The loop of `call_with_v1_combinator` (msg_caller.hpp 91-95); the flag tells whether it ran to its end. -/
def combineLoop {C : Type} (I : Impls σ R) (K : Combinator R C) : List Payload → C → σ → Except CallErr Bool × C × σ
  | [], c, s => (.ok true, c, s)
  | p :: ps, c, s =>
    match callPayload I p s with
    | (.error e, s') => (.error e, c, s')
    | (.ok r, s') => if (K.add r c).2 then combineLoop I K ps (K.add r c).1 s' else (.ok false, (K.add r c).1, s')

/-- `call_with_v1_combinator` (msg_caller.hpp 82-102). -/
def callCombined {C : Type} (D : Decls) (I : Impls σ R) (K : Combinator R C) (t : TypeRec) (f : Feat) (fid : Option Nat) (c : C) (s : σ) :
    Except CallErr Unit × C × σ :=
  let dflt (_ : Unit) : Except CallErr Unit × C × σ :=
    let c := K.setNum 1 c
    match tryDefault D I f s with
    | (.error e, s') => (.error e, c, s')
    | (.ok r, s') => (.ok (), (K.add r c).1, s')
  match t.ftableAt fid with
  | some e =>
    match e.pls with
    | p :: ps =>
      let c := K.setNum (e.topBack + 1) c
      match combineLoop I K (ps.take e.topBack).reverse c s with
      | (.error err, c', s') => (.error err, c', s')
      | (.ok false, c', s') => (.ok (), c', s')
      | (.ok true, c', s') =>
        match callPayload I p s' with
        | (.error err, s'') => (.error err, c', s'')
        | (.ok r, s'') => (.ok (), (K.add r c').1, s'')
    | [] => dflt ()
  | none => dflt ()

/-- `boolean_and` (combinators.hpp 23-54). -/
def boolAnd : Combinator Bool Bool := ⟨fun _ c => c, fun r c => (c && r, c && r)⟩
/-- `boolean_or` (combinators.hpp 65-96). -/
def boolOr : Combinator Bool Bool := ⟨fun _ c => c, fun r c => (c || r, !(c || r))⟩
/-- `sum` (combinators.hpp 105-134). Simplification: unbounded integers. -/
def sumC : Combinator Int Int := ⟨fun _ c => c, fun r c => (c + r, true)⟩
/-- `mean` (combinators.hpp 143-177): sum and number of results. -/
def meanC : Combinator Int (Int × Nat) := ⟨fun n c => (c.1, n), fun r c => ((c.1 + r, c.2), true)⟩
/-- `mean::result` (combinators.hpp 164-166), for an integer result type: division truncates. -/
def meanResult (c : Int × Nat) : Int := c.1.tdiv c.2

end Dnmx
