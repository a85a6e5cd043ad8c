import Verif.Model.Decl
import Verif.Model.Sort

/-!
# Building a type from a list of mixins

Model of the parts of `create_type` (code/dynamix/domain.cpp 688-836) that compute a type: object buffer layout,
sparse index table and ftable (549-686); and of the queries of `type` (code/dynamix/type.{hpp,cpp}).
Simplification: the single memory buffer in which the parts of a type are placed (718-764) is not modelled here, only
the payload array of the ftable is; it is in `Model/TypeBuffer.lean`.
-/

namespace Dnmx

/-! ## Object buffer layout -/

/-- `byte_size_t` is `uint32_t` (code/dnmx/size.h 9): arithmetic is modulo 2^32. -/
def u32 (n : Nat) : Nat := n % 4294967296

/-- `sizeof_ptr` (code/dnmx/size.h 10) on a 64-bit platform. -/
def sizeofPtr : Nat := 8

/-- `sizeof(object_mixin_data)`: two pointers (code/dnmx/object_mixin_data.h). -/
def sizeofMixinData : Nat := 16

/-- `util::next_multiple` (code/dynamix/alloc_util.hpp 10-13) in 32-bit arithmetic. Only called with `n ≥ 8`. -/
def nextMultiple (s n : Nat) : Nat := u32 (u32 (s + n - 1) / n * n)

/-- Result of the layout loop. -/
structure Layout where
  offsets : List Nat
  size : Nat
  align : Nat
deriving DecidableEq, Repr

/-- Effective alignment and new buffer alignment for an internal mixin (domain.cpp 792-794). -/
def layoutAlign (m : MixDecl) (bufAlign : Nat) : Nat × Nat :=
  if m.align > bufAlign then (m.align, m.align)
  else if m.align < sizeofPtr then (sizeofPtr, bufAlign)
  else (m.align, bufAlign)

/-- Padding in front of an internal mixin (domain.cpp 796-797). -/
def layoutPadding (size ma : Nat) : Nat :=
  let padding := u32 (nextMultiple size ma + 4294967296 - size)
  if padding < sizeofPtr then u32 (padding + ma) else padding

/-- The layout loop (domain.cpp 784-804). -/
def layoutLoop : List MixDecl → (size align : Nat) → Layout
  | [], size, align => ⟨[], size, align⟩
  | m :: ms, size, align =>
    if m.external then
      let r := layoutLoop ms size align
      ⟨0 :: r.offsets, r.size, r.align⟩
    else
      let (ma, align') := layoutAlign m align
      let off := u32 (size + layoutPadding size ma)
      let r := layoutLoop ms (u32 (off + m.size)) align'
      ⟨off :: r.offsets, r.size, r.align⟩

/-- Object buffer layout of a type (domain.cpp 781-806). -/
def layout (ms : List MixDecl) : Layout := layoutLoop ms (u32 (ms.length * sizeofMixinData)) sizeofPtr

/-- `dnmx_set_mixin_info_size_and_alignment` (code/dnmx/mixin_info.h 176-190): size of the buffer of an external
mixin and offset of the mixin in it. -/
def setSizeAndAlignment (m : MixDecl) (s a : Nat) : MixDecl :=
  if a < sizeofPtr then { m with size := s, align := a, objBufSize := u32 (s + sizeofPtr), objBufOffset := sizeofPtr }
  else { m with size := s, align := a, objBufSize := u32 (s + a), objBufOffset := a }

/-! ## Sparse index table -/

/-- Table size (domain.cpp 731-737): greatest id plus one. Only called with at least one mixin.
Simplification: ids are unbounded, so `+ 1` does not wrap. -/
def numSparse (ids : List Nat) : Nat := ids.foldl max 0 + 1

/-- Filling the table (domain.cpp 812-814); `i` is the position of the first id of the list. -/
def sparseFill : List Nat → (i : Nat) → List (Option Nat) → List (Option Nat)
  | [], _, tbl => tbl
  | id :: ids, i, tbl => sparseFill ids (i + 1) (tbl.set id (some i))

/-- The sparse index table (domain.cpp 808-815); `none` is `invalid_mixin_index`. -/
def sparseTable (ids : List Nat) : List (Option Nat) :=
  sparseFill ids 0 (List.replicate (numSparse ids) none)

/-! ## Feature table -/

/-- `dnmx_ftable_payload` (code/dnmx/basic_type.h 18-27); `data` is the pointed-to `feature_for_mixin`. -/
structure Payload where
  mixinIndex : Nat
  data : FeatFor
deriving DecidableEq, Repr

/-- `dnmx_ftable_entry` (code/dnmx/basic_type.h 29-53) of an implemented feature: the payloads from `begin` to
`end`, and `top_bid_back` as an index into them. -/
structure FEntry where
  pls : List Payload
  topBack : Nat
deriving DecidableEq, Repr

/-- Iteration order of `for (mixin : mixins) for (feature : mixin->features_span())`, with the mixin's index. -/
def featStream (D : Decls) (i : Nat) : List Mix → List Payload
  | [] => []
  | m :: ms => (D.mix m).feats.map (fun ff => ⟨i, ff⟩) ++ featStream D (i + 1) ms

/-- First pass (domain.cpp 562-571): table size. For an unregistered feature `iid() + 1` wraps to 0. -/
def ftableSize (fid : Feat → Option Nat) : List Payload → Nat
  | [] => 0
  | p :: ps =>
    -- the running maximum of the code is the maximum of the whole
    max (match fid p.data.feat with | some i => i + 1 | none => 0) (ftableSize fid ps)

/-- Second pass (domain.cpp 573-582): number of payloads per feature id. `none` is an access out of bounds. -/
def ftableCounts (fid : Feat → Option Nat) : List Payload → List Nat → Option (List Nat)
  | [], counts => some counts
  | p :: ps, counts =>
    match fid p.data.feat with
    | none => none
    | some i =>
      match counts[i]? with
      | none => none
      | some c => ftableCounts fid ps (counts.set i (c + 1))

/-- State of the third pass: entries with the positions of `begin` and `end` in the payload array, the next
free position, and the payload array (`none` is zero-filled memory). -/
structure FBuild where
  entries : List (Option (Nat × Nat))
  ptr : Nat
  buf : List (Option Payload)

/-- Body of the third pass (domain.cpp 619-639). `none` is an access out of bounds. -/
def ftableWrite (fid : Feat → Option Nat) (counts : List Nat) (s : FBuild) (p : Payload) : Option FBuild :=
  match fid p.data.feat with
  | none => none
  | some i =>
    match s.entries[i]?, counts[i]? with
    | some e, some c =>
      let (b, en, ptr) := match e with
        | none => (s.ptr, s.ptr, s.ptr + c)
        | some (b, en) => (b, en, s.ptr)
      if en < s.buf.length then
        some ⟨s.entries.set i (some (b, en + 1)), ptr, s.buf.set en (some p)⟩
      else none
    | _, _ => none

/-- Third pass (domain.cpp 615-641). -/
def ftableFill (fid : Feat → Option Nat) (counts : List Nat) : FBuild → List Payload → Option FBuild
  | s, [] => some s
  | s, p :: ps =>
    match ftableWrite fid counts s p with
    | none => none
    | some s' => ftableFill fid counts s' ps

/-- Comparator of the fourth pass (domain.cpp 649-660). -/
def payloadLt (a b : Payload) : Bool :=
  if a.data.bid ≠ b.data.bid then decide (a.data.bid > b.data.bid)
  else if a.data.priority ≠ b.data.priority then decide (a.data.priority < b.data.priority)
  else decide (a.mixinIndex > b.mixinIndex)

/-- `std::sort` with that comparator. Simplification: payloads which the comparator does not distinguish (the
same mixin providing a feature twice with equal bid and priority) are kept in order; `std::sort` leaves their
order open. -/
def sortPayloads (ps : List Payload) : List Payload := sortBy payloadLt ps

/-- Clash check loop (domain.cpp 664-671): neighbours with equal bid and priority. -/
def hasClash : List Payload → Bool
  | a :: b :: rest => (a.data.bid == b.data.bid && a.data.priority == b.data.priority) || hasClash (b :: rest)
  | _ => false

/-- `top_bid_back` loop (domain.cpp 674-681): `cur` is the payload at the current position `i`. -/
def topBackLoop (cur : Payload) (i : Nat) : List Payload → Nat
  | [] => i
  | p :: ps => if p.data.bid ≠ cur.data.bid then i else topBackLoop p (i + 1) ps

/-- Fourth pass for one entry (domain.cpp 647-682). -/
def finishEntry (D : Decls) (pls : List Payload) : Except Err (Option FEntry) :=
  match sortPayloads pls with
  | [] => .ok none
  | p :: ps =>
    if !(D.feat p.data.feat).allowClashes && hasClash (p :: ps) then .error .featureClash
    else .ok (some ⟨p :: ps, topBackLoop p 0 ps⟩)

/-- The payloads of an entry in the payload array. -/
def entryPayloads (buf : List (Option Payload)) : Option (Nat × Nat) → List Payload
  | none => []
  | some (b, e) => ((buf.drop b).take (e - b)).filterMap id

/-- Fourth pass over all entries (domain.cpp 643-683). The ranges of the entries are disjoint, so sorting one in
place does not affect another. -/
def finishAll (D : Decls) (buf : List (Option Payload)) : List (Option (Nat × Nat)) → Except Err (List (Option FEntry))
  | [] => .ok []
  | e :: es =>
    match finishEntry D (entryPayloads buf e) with
    | .error err => .error err
    | .ok fe =>
      match finishAll D buf es with
      | .error err => .error err
      | .ok fes => .ok (fe :: fes)

/-- `ftable_build_helper` (domain.cpp 549-686). -/
def buildFtable (D : Decls) (fid : Feat → Option Nat) (ms : List Mix) : Except Err (List (Option FEntry)) :=
  let stream := featStream D 0 ms
  let size := ftableSize fid stream
  match ftableCounts fid stream (List.replicate size 0) with
  | none => .error .ub
  | some counts =>
    match ftableFill fid counts ⟨List.replicate size none, 0, List.replicate stream.length none⟩ stream with
    | none => .error .ub
    | some s => finishAll D s.buf s.entries

/-! ## Types -/

/-- `type` (code/dynamix/type.hpp 30-180) without the object counter. `tid` is its address, `dom` its domain. -/
structure TypeRec where
  tid : TypeId
  dom : DomId
  mixins : List Mix
  layout : Layout
  sparse : List (Option Nat)
  ftable : List (Option FEntry)
deriving DecidableEq, Repr

/-- Identity of a domain's empty type within the domain. -/
def emptyTid : TypeId := 0

/-- `m_empty_type` (domain.cpp 172, 188; default member values type.hpp 47-61). -/
def emptyType (d : DomId) : TypeRec := ⟨emptyTid, d, [], ⟨[], 0, 0⟩, [], []⟩

/-- `type::index_of(mixin_id)` (type.hpp 71-74); an invalid id is out of range. -/
def TypeRec.indexOf (t : TypeRec) : Option Nat → Option Nat
  | none => none
  | some id =>
    match t.sparse[id]? with
    | none => none
    | some r => r

/-- `type::has(mixin_id)` (type.hpp 78-80). -/
def TypeRec.hasId (t : TypeRec) (id : Option Nat) : Bool := (t.indexOf id).isSome

/-- The loop of `type::index_of(name)` (type.cpp 16-21). -/
def indexOfNameFrom (D : Decls) (name : List UInt8) (i : Nat) : List Mix → Option Nat
  | [] => none
  | m :: ms => if D.mixName m = name then some i else indexOfNameFrom D name (i + 1) ms

/-- `type::index_of(name)` (type.cpp 16-21). -/
def TypeRec.indexOfName (D : Decls) (t : TypeRec) (name : List UInt8) : Option Nat :=
  indexOfNameFrom D name 0 t.mixins

/-- `ftable_at` (code/dnmx/basic_type.h 63-66); an invalid id is out of range. -/
def TypeRec.ftableAt (t : TypeRec) : Option Nat → Option FEntry
  | none => none
  | some id =>
    match t.ftable[id]? with
    | none => none
    | some e => e

/-- `type::implements_strong(feature_id)` (type.cpp 29-31). -/
def TypeRec.implementsStrong (t : TypeRec) (id : Option Nat) : Bool := (t.ftableAt id).isSome

/-- `type::implements_strong(name)` (type.cpp 32-39). -/
def TypeRec.implementsStrongName (D : Decls) (t : TypeRec) (name : List UInt8) : Bool :=
  t.ftable.any (fun e => match e with
    | none => false
    | some fe => match fe.pls with
      | [] => false
      | p :: _ => D.featName p.data.feat == name)

/-- `type::implements(info)` (type.cpp 40-43). -/
def TypeRec.implements (D : Decls) (t : TypeRec) (f : Feat) (id : Option Nat) : Bool :=
  (D.feat f).defaultPayload.isSome || t.implementsStrong id

/-- `type::default_constructible` (type.cpp 116-118). -/
def TypeRec.defaultConstructible (D : Decls) (t : TypeRec) : Bool := t.mixins.all (fun m => (D.mix m).hasInit)
/-- `type::copy_constructible` (type.cpp 120-122). -/
def TypeRec.copyConstructible (D : Decls) (t : TypeRec) : Bool := t.mixins.all (fun m => (D.mix m).hasCopyInit)
/-- `type::copy_assignable` (type.cpp 124-126). -/
def TypeRec.copyAssignable (D : Decls) (t : TypeRec) : Bool := t.mixins.all (fun m => (D.mix m).hasCopyAsgn)
/-- `type::equality_comparable` (type.cpp 128-130). -/
def TypeRec.equalityComparable (D : Decls) (t : TypeRec) : Bool :=
  t.mixins.all (fun m => (D.mix m).hasEquals || (D.mix m).hasCompare)
/-- `type::comparable` (type.cpp 132-134). -/
def TypeRec.comparable (D : Decls) (t : TypeRec) : Bool := t.mixins.all (fun m => (D.mix m).hasCompare)

end Dnmx
