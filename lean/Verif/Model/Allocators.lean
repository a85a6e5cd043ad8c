import Verif.Model.Domain

/-!
# Vectors and the memory resources they use

`get_type` once more, now with the memory of the lists of mixins. A `compat::pmr::vector` (code/dynamix/compat/pmr/
vector.hpp) has an allocator, which is a memory resource (compat/pmr/allocator.hpp), and its block is from that resource
and goes back to it. The user may make a `type_mutation` with any allocator ("optionally provide an allocator for the
type template", code/dynamix/type_mutation.hpp 28, 32) and may destroy the resource as soon as the mutation is gone. The domain has
an allocator too, and makes the queries that it stores with it.

The functions of `std::vector` with an allocator that does not propagate are those of the C++ standard ([container.reqmts],
[container.alloc.reqmts], `std::allocator_traits` with no `propagate_*` members: compat/pmr/allocator.hpp 19-61,
and the same for `std::pmr::polymorphic_allocator`).

Simplifications:
* any allocation of a block may fail with `std::bad_alloc`; those for a new type (two blocks and a node) are one that may fail,
  and the node for a new stored query is one (`Verif.Model.DomainMemory` has them all);
* the nodes of the map of queries, the set of types, the registered elements and the blocks of types are only made with the domain's
  allocator and are not tracked here;
* a rule that changes the mutation is one assignment to its list of mixins; a rule that fails leaves it as it was.
-/

namespace Dnmx

/-- Memory resources. -/
abbrev MemRes := Nat

/-- `get_default_resource` (compat/pmr/memory_resource.cpp 44-47). -/
def defaultRes : MemRes := 0

/-- The blocks in use with the resource that they are from, and the resources that were destroyed. `extra` says how much
more than needed is allocated and `fails` which allocations fail, which is left open; `next` counts the allocations and gives new addresses. -/
structure VHeap where
  live : List (Nat × MemRes) := []
  next : Nat := 0
  dead : List MemRes := []
  extra : Nat → Nat := fun _ => 0
  fails : Nat → Bool := fun _ => false

/-- `compat::pmr::vector<const mixin_info*>`. -/
structure Vec where
  res : MemRes
  buf : Option Nat := none
  cap : Nat := 0
  elems : List Mix := []
deriving DecidableEq, Repr

/-- Exceptions. -/
inductive AFail
  /-- `std::bad_alloc` -/
  | badAlloc
  /-- others -/
  | err (e : Err)
deriving DecidableEq, Repr

/-- An allocation that takes place, or fails. -/
def VHeap.tick (H : VHeap) : VHeap := { H with next := H.next + 1 }

/-- `allocate` (allocator.hpp 37-39); with a resource that is gone it is undefined (`none`); no address: it throws. -/
def hAlloc (H : VHeap) (r : MemRes) : Option (VHeap × Option Nat) :=
  if r ∈ H.dead then none
  else if H.fails H.next then some (H.tick, none)
  else some ({ H.tick with live := (H.next, r) :: H.live }, some H.next)

/-- `deallocate` (allocator.hpp 40-42); it is undefined for a block that is not in use or from another resource. -/
def hFree (H : VHeap) (r : MemRes) (a : Nat) : Option VHeap :=
  if r ∈ H.dead then none
  else if (a, r) ∈ H.live then some { H with live := H.live.erase (a, r) }
  else none

/-- The destructor of a vector. -/
def vDestroy (H : VHeap) (v : Vec) : Option VHeap :=
  match v.buf with
  | none => some H
  | some a => hFree H v.res a

/-- Assignment of elements (`vector::operator=(const vector&)`, `assign`, `push_back`, `erase`): the allocator stays. If there is no memory,
the vector is unchanged (`true`: `std::bad_alloc` is thrown). -/
def vAssign (H : VHeap) (v : Vec) (es : List Mix) : Option (VHeap × Vec × Bool) :=
  if es.length ≤ v.cap then some (H, { v with elems := es }, false)
  else
    match hAlloc H v.res with
    | none => none
    | some (H1, none) => some (H1, v, true)
    | some (H1, some a) =>
      match vDestroy H1 v with
      | none => none
      | some H2 => some (H2, ⟨v.res, some a, es.length + H.extra H.next, es⟩, false)

/-- The move constructor: the new vector has the allocator of the old one, which is left empty. -/
def vMoved (v : Vec) : Vec × Vec := (v, { res := v.res })

/-- Move assignment: with equal allocators the block is taken over, otherwise the elements are assigned. Gives the
target and what is left of the source, and whether there was no memory. -/
def vMoveAssign (H : VHeap) (dst src : Vec) : Option (VHeap × Vec × Vec × Bool) :=
  if dst.res = src.res then
    match vDestroy H dst with
    | none => none
    | some H1 => some (H1, (vMoved src).1, (vMoved src).2, false)
  else
    match vAssign H dst src.elems with
    | none => none
    | some (H1, d, thrown) => some (H1, d, src, thrown)

/-- `swap`: undefined if the allocators differ. -/
def vSwap (a b : Vec) : Option (Vec × Vec) := if a.res = b.res then some (b, a) else none

/-- The copy constructor: the allocator is what `select_on_container_copy_construction` (allocator.hpp 44) gives. -/
def vCopy (H : VHeap) (v : Vec) : Option (VHeap × Vec × Bool) := vAssign H { res := defaultRes } v.elems

/-- One application of all rules (domain.cpp 466-471) to the list of a mutation. -/
def passA : List RuleFn → VHeap → Vec → Option (VHeap × Vec × Except AFail Unit)
  | [], H, m => some (H, m, .ok ())
  | r :: rs, H, m =>
    match r m.elems with
    | .error e => some (H, m, .error (.err e))
    | .ok ms =>
      match vAssign H m ms with
      | none => none
      | some (H1, m1, true) => some (H1, m1, .error .badAlloc)
      | some (H1, m1, false) => passA rs H1 m1

/-- Two local vectors go out of scope, in reverse order. -/
def destroy2 (H : VHeap) (last original : Vec) : Option VHeap :=
  match vDestroy H last with
  | none => none
  | some H1 => vDestroy H1 original

/-- The loop of `apply_mutation_rules_l` (domain.cpp 464-486); `left` as in `rulesLoop`. Gives what is returned, which
is moved from a local vector or is that vector itself. -/
def rulesLoopA (rules : List RuleFn) : (left : Nat) → VHeap → (original last m : Vec) → Option (VHeap × Vec × Except AFail Vec)
  | left, H, original, last, m =>
    let i := maxDependencyDepth - left
    match passA rules H m with
    | none => none
    | some (H1, m1, .error e) => (destroy2 H1 last original).map (fun H2 => (H2, m1, .error e))
    | some (H1, m1, .ok ()) =>
      if last.elems = m1.elems then
        if i = 0 then (destroy2 H1 (vMoved last).2 original).map (fun H2 => (H2, m1, .ok (vMoved last).1))
        else (destroy2 H1 last (vMoved original).2).map (fun H2 => (H2, m1, .ok (vMoved original).1))
      else
        match left with
        | 0 => (destroy2 H1 last original).map (fun H2 => (H2, m1, .error (.err .cyclicRuleDeps)))
        | left' + 1 =>
          if i = rules.length then (destroy2 H1 last original).map (fun H2 => (H2, m1, .error (.err .cyclicRuleDeps)))
          else
            match (if i = 0 then vSwap original last else some (original, last)) with
            | none => none
            | some (original1, last1) =>
              match vAssign H1 last1 m1.elems with
              | none => none
              | some (H2, last2, true) => (destroy2 H2 last2 original1).map (fun H3 => (H3, m1, .error .badAlloc))
              | some (H2, last2, false) => rulesLoopA rules left' H2 original1 last2 m1

/-- `apply_mutation_rules_l` (domain.cpp 438-487) in a domain with the allocator `own`. -/
def applyRulesA (D : Decls) (own : MemRes) (rules : List RuleFn) (H : VHeap) (m : Vec) : Option (VHeap × Vec × Except AFail Vec) :=
  match vAssign H { res := own } m.elems with
  | none => none
  | some (H1, last, true) => (destroy2 H1 last { res := own }).map (fun H2 => (H2, m, .error .badAlloc))
  | some (H1, last, false) =>
    rulesLoopA rules maxDependencyDepth H1 { res := own } last
      { m with elems := m.elems.filter (fun x => !(D.mix x).dependency) }

/-- A stored query. -/
structure Key where
  dom : DomId
  vec : Vec
  tid : TypeId
deriving DecidableEq, Repr

/-- `reg->type_queries[std::move(key)] = t` (domain.cpp 526, 834): if the key is there, the given one is not moved. Gives
what is left of the given one. -/
def storeKey (d : DomId) (q : Vec) (t : TypeId) : List Key → List Key × Vec
  | [] => ([⟨d, (vMoved q).1, t⟩], (vMoved q).2)
  | k :: ks =>
    if k.dom = d ∧ k.vec.elems = q.elems then ({ k with tid := t } :: ks, q)
    else (k :: (storeKey d q t ks).1, (storeKey d q t ks).2)

/-- A mutation of the user. -/
structure Mut where
  name : Nat
  dom : DomId
  vec : Vec
deriving DecidableEq, Repr

/-- Domains, their allocators and stored queries, the mutations of the user, and the memory. -/
structure AWorld where
  W : World
  own : DomId → MemRes
  keys : List Key := []
  muts : List Mut := []
  H : VHeap := {}

/-- Is a new type made (domain.cpp 693-815)? Then memory is needed for it. -/
def needsType (W : World) (d : DomId) (ms : List Mix) : Bool :=
  !ms.isEmpty && (findType ms (W.doms d).types).isNone && (match checkMixins W.mixId W.mixDom d ms with | .ok () => true | .error _ => false)

/-- The world after a call, but the query was not stored. -/
def unstored (W W1 : World) (d : DomId) : World := W1.setDom d { W1.doms d with queries := (W.doms d).queries }

/-- The end of `get_type`: the query is stored (or not, if the call failed), and the local vector goes out of scope. `r` is what the rest of the call does
if there is memory. A new type may lack memory, and the node for a query that is not yet stored. -/
def finishA (A : AWorld) (H : VHeap) (d : DomId) (q : Vec) (needs : Bool) (r : Except Err TypeId × World) : Option (AWorld × Except AFail TypeId) :=
  if needs && H.fails H.next then (vDestroy H.tick q).map (fun H1 => ({ A with H := H1 }, .error .badAlloc))
  else
    match r.1 with
    | .error e => (vDestroy H.tick q).map (fun H1 => ({ A with W := r.2, H := H1 }, .error (.err e)))
    | .ok t =>
      if H.fails H.tick.next && (A.keys.find? (fun k => k.dom == d && k.vec.elems == q.elems)).isNone then
        (vDestroy H.tick.tick q).map (fun H1 => ({ A with W := unstored A.W r.2 d, H := H1 }, .error .badAlloc))
      else
        (vDestroy H.tick.tick (storeKey d q t A.keys).2).map (fun H1 => ({ A with W := r.2, keys := (storeKey d q t A.keys).1, H := H1 }, .ok t))

/-- After the rules (domain.cpp 507-531), with the query that was returned by `apply_mutation_rules_l`. -/
def resolvedA (D : Decls) (W : World) (d : DomId) (key ms : List Mix) : Except Err TypeId × World :=
  let x := W.doms d
  match (if ms.isEmpty then some emptyTid else (findType ms x.types).map (·.tid)) with
  | some t => (.ok t, W.setDom d { x with queries := storeQuery key t x.queries })
  | none =>
    match buildType D W d W.nextType ms with
    | .error e => (.error e, W)
    | .ok t =>
      let (r, x') := emplaceSection x key t
      (.ok r, { W.setDom d x' with nextType := W.nextType + 1 })

/-- `get_type(type_mutation&)` (domain.cpp 489-531) for a mutation of domain `md` with the list `m`. Gives the list that the mutation
has after the call. -/
def getTypeMutA (D : Decls) (A : AWorld) (d md : DomId) (m : Vec) : Option (AWorld × Vec × Except AFail TypeId) :=
  if md ≠ d then some (A, m, .error (.err .foreignMutation))
  else
    match A.keys.find? (fun k => k.dom == d && k.vec.elems == m.elems) with
    | some k => some (A, m, .ok k.tid)
    | none =>
      match applyRulesA D (A.own d) (rulesOf D (A.W.view D d) (A.W.doms d)) A.H m with
      | none => none
      | some (H1, m1, .error e) =>
        (vDestroy H1 { res := A.own d }).map (fun H2 => ({ A with H := H2 }, m1, .error e))
      | some (H1, m1, .ok ret) =>
        match vMoveAssign H1 { res := A.own d } ret with
        | none => none
        | some (H2, original, left, thrown) =>
          match vDestroy H2 left with
          | none => none
          | some H3 =>
            if thrown then (vDestroy H3 original).map (fun H4 => ({ A with H := H4 }, m1, .error .badAlloc))
            else
              (finishA A H3 d original (needsType A.W d m1.elems) (resolvedA D A.W d original.elems m1.elems)).map (fun r => (r.1, m1, r.2))

/-- `get_type(span)` (domain.cpp 533-547). -/
def getTypeA (D : Decls) (A : AWorld) (d : DomId) (q : List Mix) : Option (AWorld × Except AFail TypeId) :=
  match A.keys.find? (fun k => k.dom == d && k.vec.elems == q) with
  | some k => some (A, .ok k.tid)
  | none =>
    match vAssign A.H { res := A.own d } q with
    | none => none
    | some (H1, m, true) => (vDestroy H1 m).map (fun H2 => ({ A with H := H2 }, .error .badAlloc))
    | some (H1, m, false) =>
      match getTypeMutA D { A with H := H1 } d d m with
      | none => none
      | some (A1, m1, r) => (vDestroy A1.H m1).map (fun H2 => ({ A1 with H := H2 }, r))

/-- Stored queries are destroyed. -/
def destroyKeys : VHeap → List Key → Option VHeap
  | H, [] => some H
  | H, k :: ks =>
    match vDestroy H k.vec with
    | none => none
    | some H1 => destroyKeys H1 ks

/-- Is the query still stored? -/
def Key.kept (W : World) (k : Key) : Bool := (W.doms k.dom).queries.contains (k.vec.elems, k.tid)

/-- Another call on the domain (`Verif.Model.Domain`): the queries that it erases are destroyed. -/
def otherA (D : Decls) (A : AWorld) (op : Op) : Option AWorld :=
  let W' := (step D A.W op).2
  match destroyKeys A.H (A.keys.filter (fun k => !k.kept W')) with
  | none => none
  | some H1 => some { A with W := W', keys := A.keys.filter (fun k => k.kept W'), H := H1 }

/-- What a program does. -/
inductive AOp
  /-- `type_mutation(domain&, const allocator&)` (type_mutation.cpp 20-23) -/
  | new (v : Nat) (d : DomId) (r : MemRes)
  /-- the mutation is edited; its list becomes `ms` -/
  | edit (v : Nat) (ms : List Mix)
  /-- a copy `w` of the mutation `v` -/
  | copy (v w : Nat)
  /-- a new mutation `w` is move-constructed from `v` -/
  | move (v w : Nat)
  /-- the mutation is destroyed -/
  | drop (v : Nat)
  /-- `d.get_type(v)` -/
  | getMut (d : DomId) (v : Nat)
  /-- `d.get_type(span)` -/
  | get (d : DomId) (q : List Mix)
  /-- any other call on a domain -/
  | other (op : Op)
  /-- a memory resource is destroyed -/
  | dropRes (r : MemRes)

/-- The mutation of this name. -/
def AWorld.mutOf (A : AWorld) (v : Nat) : Option Mut := A.muts.find? (fun m => m.name == v)

/-- The mutation gets another list. -/
def AWorld.setVec (A : AWorld) (m : Mut) (x : Vec) : List Mut := { m with vec := x } :: A.muts.erase m

/-- One step of a program; `none` is undefined behaviour. A mutation that does not exist is not used. -/
def stepA (D : Decls) (A : AWorld) : AOp → Option AWorld
  | .new v d r => some { A with muts := ⟨v, d, { res := r }⟩ :: A.muts }
  | .edit v ms =>
    match A.mutOf v with
    | none => some A
    | some m =>
      match vAssign A.H m.vec ms with
      | none => none
      | some (H1, x, _) => some { A with H := H1, muts := A.setVec m x }
  | .copy v w =>
    match A.mutOf v with
    | none => some A
    | some m =>
      match vCopy A.H m.vec with
      | none => none
      | some (H1, x, true) =>
        match vDestroy H1 x with
        | none => none
        | some H2 => some { A with H := H2 }
      | some (H1, x, false) => some { A with H := H1, muts := ⟨w, m.dom, x⟩ :: A.muts }
  | .move v w =>
    match A.mutOf v with
    | none => some A
    | some m => some { A with muts := ⟨w, m.dom, (vMoved m.vec).1⟩ :: A.setVec m (vMoved m.vec).2 }
  | .drop v =>
    match A.mutOf v with
    | none => some A
    | some m =>
      match vDestroy A.H m.vec with
      | none => none
      | some H1 => some { A with H := H1, muts := A.muts.erase m }
  | .getMut d v =>
    match A.mutOf v with
    | none => some A
    | some m =>
      match getTypeMutA D { A with muts := A.muts.erase m } d m.dom m.vec with
      | none => none
      | some (A1, x, _) => some { A1 with muts := { m with vec := x } :: A1.muts }
  | .get d q => (getTypeA D A d q).map (·.1)
  | .other op => otherA D A op
  | .dropRes r => some { A with H := { A.H with dead := r :: A.H.dead } }

/-- A program. -/
def runA (D : Decls) : AWorld → List AOp → Option AWorld
  | A, [] => some A
  | A, op :: ops =>
    match stepA D A op with
    | none => none
    | some A1 => runA D A1 ops

/-- New domains with these settings and allocators. -/
def initA (s : DomId → Settings) (own : DomId → MemRes) (extra : Nat → Nat) (fails : Nat → Bool) : AWorld where
  W := initWorld s
  own := own
  H := { extra := extra, fails := fails }

/-- The domains and the mutations are destroyed. -/
def destroyMuts : VHeap → List Mut → Option VHeap
  | H, [] => some H
  | H, m :: ms =>
    match vDestroy H m.vec with
    | none => none
    | some H1 => destroyMuts H1 ms

/-- The end of a program. -/
def endA (A : AWorld) : Option VHeap :=
  match destroyKeys A.H A.keys with
  | none => none
  | some H1 => destroyMuts H1 A.muts

end Dnmx
