import Verif.Model.Domain

/-!
# The memory of a type

Model of the single block in which `create_type` places a type and its tables (code/dynamix/domain.cpp 549-686, 702-815),
byte by byte, with addresses relative to the start of the block, and of the accesses of `type` to it
(code/dnmx/basic_type.h 55-75, code/dynamix/type.hpp 45-80). Sizes are those of a 64-bit platform. `none` and `Err.ub` are
accesses outside of the block, misaligned accesses and reads of bytes which were not written as a value of that width.

Simplifications: `std::sort` and the loops of the fourth pass read the range of an entry once, `std::sort` writes it back
in full; the offsets of mixins are computed first and written afterwards; a span is a pointer and a length; the counter
`m_num_total_pls` and ids are unbounded (each counts things which take at least 4 bytes of the block).
-/

namespace Dnmx

/-- A value of a scalar type in the block. -/
inductive Scalar
  | null
  /-- a pointer into the block -/
  | ptr (off : Nat)
  /-- a pointer to a `mixin_info` -/
  | mixin (m : Mix)
  /-- a feature payload -/
  | payload (p : Nat)
  /-- a pointer to a `feature_for_mixin`; it is represented by what it points to -/
  | data (ff : FeatFor)
  /-- a reference to a domain -/
  | dom (d : DomId)
  | num (n : Nat)
deriving DecidableEq, Repr

/-- A byte of the block: not written, zero, or byte `k` of a scalar with `w` bytes. -/
inductive BlockByte
  | raw
  | zero
  | part (v : Scalar) (w k : Nat)
deriving DecidableEq, Repr

/-- A block of `size` bytes; `byte` matters below `size` only. -/
structure Block where
  size : Nat
  byte : Nat → BlockByte

/-- A fresh block (`allocate_bytes`, domain.cpp 746-749). -/
def Block.fresh (n : Nat) : Block := ⟨n, fun _ => .raw⟩

/-- `std::fill(ptr, ptr + n, 0)` (domain.cpp 610). -/
def Block.zero (b : Block) (off n : Nat) : Option Block :=
  if off + n ≤ b.size then some { b with byte := fun a => if off ≤ a ∧ a < off + n then .zero else b.byte a } else none

/-- A write of a scalar with `w` bytes. -/
def Block.store (b : Block) (off w : Nat) (v : Scalar) : Option Block :=
  if off % w = 0 ∧ off + w ≤ b.size then
    some { b with byte := fun a => if off ≤ a ∧ a < off + w then .part v w (a - off) else b.byte a }
  else none

/-- What zero bytes mean: a null pointer if there are 8, a number if there are 4. -/
def zeroScalar (w : Nat) : Scalar := if w = 8 then .null else .num 0

/-- A read of a scalar with `w` bytes. -/
def Block.load (b : Block) (off w : Nat) : Option Scalar :=
  if off % w = 0 ∧ off + w ≤ b.size then
    match b.byte off with
    | .raw => none
    | .zero => if (List.range w).all (fun k => b.byte (off + k) == .zero) then some (zeroScalar w) else none
    | .part v _ _ => if (List.range w).all (fun k => b.byte (off + k) == .part v w k) then some v else none
  else none

/-- A pointer into the block. -/
def Scalar.off? : Scalar → Option Nat
  | .ptr o => some o
  | _ => none

def Scalar.num? : Scalar → Option Nat
  | .num n => some n
  | _ => none

def Scalar.mixin? : Scalar → Option Mix
  | .mixin m => some m
  | _ => none

def Scalar.data? : Scalar → Option FeatFor
  | .data ff => some ff
  | _ => none

/-! ## Sizes -/

/-- `sizeof(type)` (type.hpp 30-180, basic_type.h 55-62). -/
def sizeofType : Nat := 96
/-- `sizeof(ftable_entry)`: three pointers (basic_type.h 29-46). -/
def sizeofEntry : Nat := 24
/-- `sizeof(ftable_payload)`: a 32-bit index with padding and two pointers (basic_type.h 18-22). -/
def sizeofPayload : Nat := 24

/-- The sizes of the parts of the block (domain.cpp 718-744), in 32-bit arithmetic. -/
structure TypeSizes where
  ftable : Nat
  mixins : Nat
  offsets : Nat
  sparse : Nat
deriving DecidableEq, Repr

/-- `entries`: length of the ftable; `pls`: number of its payloads; `n`: number of mixins; `sp`: length of the sparse table. -/
def typeSizes (entries pls n sp : Nat) : TypeSizes :=
  ⟨u32 (entries * sizeofEntry + pls * sizeofPayload), u32 (n * 8), u32 (n * 4), u32 (sp * 4)⟩

/-- `total_obj_type_buf_size` (domain.cpp 739-744). -/
def TypeSizes.total (s : TypeSizes) : Nat := u32 (u32 (u32 (u32 (sizeofType + s.ftable) + s.mixins) + s.offsets) + s.sparse)

/-! ## The fields of `type`, by their offsets (basic_type.h 59-60, type.hpp 43-62, 174-178) -/

def atFtable : Nat := 0
def atFtableLength : Nat := 8
def atDom : Nat := 16
def atMixins : Nat := 24
def atMixinsLength : Nat := 32
def atObjSize : Nat := 40
def atObjAlign : Nat := 44
def atOffsets : Nat := 48
def atOffsetsLength : Nat := 56
def atSparse : Nat := 64
def atSparseLength : Nat := 72
def atBufSize : Nat := 80
def atNumObjects : Nat := 88

/-- The constructor (type.hpp 33-37 with the member values of 47-61, 178; basic_type.h 59). -/
def Block.construct (b : Block) (d : DomId) (bufSize : Nat) : Option Block := do
  let b ← b.store atFtable 8 .null
  let b ← b.store atFtableLength 4 (.num 0)
  let b ← b.store atDom 8 (.dom d)
  let b ← b.store atMixins 8 .null
  let b ← b.store atMixinsLength 8 (.num 0)
  let b ← b.store atObjSize 4 (.num 0)
  let b ← b.store atObjAlign 4 (.num 0)
  let b ← b.store atOffsets 8 .null
  let b ← b.store atOffsetsLength 8 (.num 0)
  let b ← b.store atSparse 8 .null
  let b ← b.store atSparseLength 8 (.num 0)
  let b ← b.store atBufSize 4 (.num bufSize)
  b.store atNumObjects 8 (.num 0)

/-! ## Building the ftable -/

/-- A payload (basic_type.h 18-22). -/
def Block.storePayload (b : Block) (off : Nat) (p : Payload) : Option Block := do
  let b ← b.store off 4 (.num p.mixinIndex)
  let b ← b.store (off + 8) 8 (.payload p.data.payload)
  b.store (off + 16) 8 (.data p.data)

/-- A payload is only taken as such if its copy of the feature payload is that of its `feature_for_mixin`. -/
def Block.loadPayload (b : Block) (off : Nat) : Option Payload := do
  let i ← (← b.load off 4).num?
  let pl ← b.load (off + 8) 8
  let ff ← (← b.load (off + 16) 8).data?
  if pl = .payload ff.payload then pure ⟨i, ff⟩ else none

/-- `n` payloads from `off` on. -/
def Block.loadPayloads (b : Block) (off : Nat) : Nat → Option (List Payload)
  | 0 => some []
  | n + 1 => do
    let p ← b.loadPayload off
    let ps ← b.loadPayloads (off + sizeofPayload) n
    pure (p :: ps)

def Block.storePayloads (b : Block) (off : Nat) : List Payload → Option Block
  | [] => some b
  | p :: ps => do
    let b ← b.storePayload off p
    b.storePayloads (off + sizeofPayload) ps

/-- `if (!entry) …` (domain.cpp 626-631): new value of `ftable_pl_ptr`. -/
def Block.openEntry (b : Block) (ea : Nat) (ptr c : Nat) : Option (Block × Nat) := do
  match ← b.load ea 8 with
  | .null =>
    let b ← b.store ea 8 (.ptr ptr)
    let b ← b.store (ea + 8) 8 (.ptr ptr)
    let b ← b.store (ea + 16) 8 (.ptr ptr)
    pure (b, ptr + c * sizeofPayload)
  | _ => pure (b, ptr)

/-- Body of the third pass (domain.cpp 617-639); `tab` is the address of the ftable. -/
def Block.ftableWrite (fid : Feat → Option Nat) (counts : List Nat) (tab : Nat) (s : Block × Nat) (p : Payload) :
    Option (Block × Nat) := do
  let i ← fid p.data.feat
  let c ← counts[i]?
  let ea := tab + i * sizeofEntry
  let (b, ptr) ← s.1.openEntry ea s.2 c
  let e ← (← b.load (ea + 16) 8).off?
  let b ← b.storePayload e p
  let b ← b.store (ea + 16) 8 (.ptr (e + sizeofPayload))
  pure (b, ptr)

/-- Third pass (domain.cpp 615-641). -/
def Block.ftableFill (fid : Feat → Option Nat) (counts : List Nat) (tab : Nat) : Block × Nat → List Payload → Option (Block × Nat)
  | s, [] => some s
  | s, p :: ps => do
    let s ← Block.ftableWrite fid counts tab s p
    Block.ftableFill fid counts tab s ps

/-- An access which may be undefined. -/
def orUb {α : Type} : Option α → Except Err α
  | none => .error .ub
  | some a => .ok a

/-- Fourth pass for one entry (domain.cpp 647-682). -/
def Block.finishEntry (D : Decls) (b : Block) (ea : Nat) : Except Err Block := do
  match ← orUb (b.load ea 8) with
  | .null => .ok b
  | v =>
    let bg ← orUb v.off?
    let en ← orUb ((b.load (ea + 16) 8).bind Scalar.off?)
    let pls ← orUb (b.loadPayloads bg ((en - bg) / sizeofPayload))
    match sortPayloads pls with
    | [] => .error .ub
    | p :: ps =>
      let b ← orUb (b.storePayloads bg (p :: ps))
      if !(D.feat p.data.feat).allowClashes && hasClash (p :: ps) then .error .featureClash
      else orUb (b.store (ea + 8) 8 (.ptr (bg + topBackLoop p 0 ps * sizeofPayload)))

/-- Fourth pass (domain.cpp 643-683) over `n` entries. -/
def Block.finishAll (D : Decls) (b : Block) (ea : Nat) : Nat → Except Err Block
  | 0 => .ok b
  | n + 1 => do
    let b ← Block.finishEntry D b ea
    Block.finishAll D b (ea + sizeofEntry) n

/-- `build_ftable` (domain.cpp 609-686). -/
def Block.buildFtable (D : Decls) (fid : Feat → Option Nat) (ms : List Mix) (b : Block) (tab : Nat) (bytes : Nat) : Except Err Block := do
  let stream := featStream D 0 ms
  let size := ftableSize fid stream
  let counts ← orUb (ftableCounts fid stream (List.replicate size 0))
  let b ← orUb (b.zero tab bytes)
  let s ← orUb (Block.ftableFill fid counts tab (b, tab + size * sizeofEntry) stream)
  Block.finishAll D s.1 tab size

/-! ## The other tables -/

/-- Copying the mixins (domain.cpp 762). -/
def Block.storeMixins (b : Block) (off : Nat) : List Mix → Option Block
  | [] => some b
  | m :: ms => do
    let b ← b.store off 8 (.mixin m)
    b.storeMixins (off + 8) ms

/-- Writing 32-bit numbers one after the other (domain.cpp 787, 801, 811). -/
def Block.storeNums (b : Block) (off : Nat) : List Nat → Option Block
  | [] => some b
  | n :: ns => do
    let b ← b.store off 4 (.num n)
    b.storeNums (off + 4) ns

/-- `invalid_mixin_index` (code/dnmx/mixin_index.h 9). -/
def invalidIndex : Nat := 4294967295

/-- Filling the sparse table (domain.cpp 812-814). -/
def Block.sparseFill (b : Block) (off : Nat) : List Nat → (i : Nat) → Option Block
  | [], _ => some b
  | id :: ids, i => do
    let b ← b.store (off + id * 4) 4 (.num i)
    b.sparseFill off ids (i + 1)

/-! ## Everything -/

/-- The parts after the ftable (domain.cpp 755-815); `at₁` is where the mixins go. -/
def Block.finishType (D : Decls) (ids : List Nat) (ms : List Mix) (ftLen : Nat) (s : TypeSizes) (b : Block) : Option Block := do
  let tab := sizeofType
  let b ← b.store atFtable 8 (.ptr tab)
  let b ← b.store atFtableLength 4 (.num ftLen)
  let p := tab + s.ftable
  let b ← b.storeMixins p ms
  let b ← b.store atMixins 8 (.ptr p)
  let b ← b.store atMixinsLength 8 (.num ms.length)
  let p := p + s.mixins
  let b ← b.store atOffsets 8 (.ptr p)
  let b ← b.store atOffsetsLength 8 (.num ms.length)
  let b ← b.storeNums p (layout (ms.map D.mix)).offsets
  let b ← b.store atObjSize 4 (.num (layout (ms.map D.mix)).size)
  let b ← b.store atObjAlign 4 (.num (layout (ms.map D.mix)).align)
  let p := p + s.offsets
  let b ← b.storeNums p (List.replicate (numSparse ids) invalidIndex)
  let b ← b.sparseFill p ids 0
  let b ← b.store atSparse 8 (.ptr p)
  b.store atSparseLength 8 (.num (numSparse ids))

/-- `create_type` between the checks and the final lock (domain.cpp 702-815): the block of the new type. -/
def typeBlock (D : Decls) (W : World) (d : DomId) (ms : List Mix) : Except Err Block := do
  let stream := featStream D 0 ms
  let ids := ms.filterMap W.mixId
  let s := typeSizes (ftableSize W.featId stream) stream.length ms.length (numSparse ids)
  let b ← orUb ((Block.fresh s.total).construct d s.total)
  let b ← Block.buildFtable D W.featId ms b sizeofType s.ftable
  orUb (b.finishType D ids ms (ftableSize W.featId stream) s)

/-! ## Using a type in memory -/

/-- `type::index_of(mixin_id)` (type.hpp 71-74). The outer `none` is undefined behaviour. -/
def Block.indexOf (b : Block) (id : Nat) : Option (Option Nat) := do
  let n ← (← b.load atSparseLength 8).num?
  if n ≤ id then pure none
  else
    let p ← (← b.load atSparse 8).off?
    let i ← (← b.load (p + id * 4) 4).num?
    pure (if i = invalidIndex then none else some i)

/-- `mixins[i]` with the check of the callers that `i` is below the length (type.hpp 45). -/
def Block.mixinAt (b : Block) (i : Nat) : Option (Option Mix) := do
  let n ← (← b.load atMixinsLength 8).num?
  if n ≤ i then pure none
  else
    let p ← (← b.load atMixins 8).off?
    let m ← (← b.load (p + i * 8) 8).mixin?
    pure (some m)

/-- `mixin_offsets[i]` with that check (type.hpp 55). -/
def Block.offsetAt (b : Block) (i : Nat) : Option (Option Nat) := do
  let n ← (← b.load atOffsetsLength 8).num?
  if n ≤ i then pure none
  else
    let p ← (← b.load atOffsets 8).off?
    let o ← (← b.load (p + i * 4) 4).num?
    pure (some o)

/-- `ftable_at(id)` (basic_type.h 63-66) and the payloads of the entry from `begin` to `end`, with the position of
`top_bid_back` among them. -/
def Block.ftableAt (b : Block) (id : Nat) : Option (Option FEntry) := do
  let n ← (← b.load atFtableLength 4).num?
  if n ≤ id then pure none
  else
    let tab ← (← b.load atFtable 8).off?
    let ea := tab + id * sizeofEntry
    match ← b.load ea 8 with
    | .null => pure none
    | v =>
      let bg ← v.off?
      let tb ← (← b.load (ea + 8) 8).off?
      let en ← (← b.load (ea + 16) 8).off?
      let pls ← b.loadPayloads bg ((en - bg) / sizeofPayload)
      pure (some ⟨pls, (tb - bg) / sizeofPayload⟩)

/-- `object_buffer_size`, `object_buffer_alignment` and `buf_size` (type.hpp 48, 51, 174). -/
def Block.sizes (b : Block) : Option (Nat × Nat × Nat) := do
  let s ← (← b.load atObjSize 4).num?
  let a ← (← b.load atObjAlign 4).num?
  let n ← (← b.load atBufSize 4).num?
  pure (s, a, n)

/-- `dom` (type.hpp 41). -/
def Block.domain (b : Block) : Option DomId := do
  match ← b.load atDom 8 with
  | .dom d => pure d
  | _ => none

/-- `num_objects` (type.hpp 62, 178). -/
def Block.numObjects (b : Block) : Option Nat := do (← b.load atNumObjects 8).num?

end Dnmx
