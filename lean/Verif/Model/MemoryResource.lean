import Verif.Model.TypeBuild

/-!
# Model: the default memory resource (code/dynamix/compat/pmr/memory_resource.cpp)

The library has its own memory resource where the standard library has none (`!DYNAMIX_HAS_PMR`). Domains, builders and
type mutations get it if they are given no other allocator, and object buffers are allocated from the allocator of the
domain. What `aligned_alloc` and `_aligned_malloc` do is not modelled, only which block they are asked for: if they
return one, it has the asked size and alignment (C11 7.22.3.1). `std::size_t` has 64 bits and `byte_size_t` (code/dnmx/
size.h 9) has 32, so numbers are truncated when they are passed to `util::next_multiple`.
-/

namespace Dnmx

/-- The three branches of the preprocessor in `do_allocate` (memory_resource.cpp 16-27). -/
inductive Platform where
  | windows
  | apple
  | other
deriving DecidableEq, Repr

/-- What the memory resource asks the C library for. -/
inductive Asked where
  /-- a block of this size at a multiple of this alignment -/
  | block (alignment size : Nat)
  /-- division by zero before the C library is called -/
  | divByZero
deriving DecidableEq, Repr

/-- `next_multiple(bytes, alignment)` (memory_resource.cpp 25) with both truncated to 32 bits, and
`aligned_alloc(alignment, size)` (26) with the alignment not truncated. -/
def askAligned (bytes alignment : Nat) : Asked :=
  if u32 alignment = 0 then .divByZero
  else .block alignment (nextMultiple (u32 bytes) (u32 alignment))

/-- `default_resource::do_allocate` up to the call of the C library (memory_resource.cpp 15-27). -/
def defaultAllocate (p : Platform) (bytes alignment : Nat) : Asked :=
  match p with
  | .windows => .block alignment bytes
  | .apple => askAligned bytes (if alignment < sizeofPtr then sizeofPtr else alignment)
  | .other => askAligned bytes alignment

/-- `do_allocate` after the call of the C library (memory_resource.cpp 28-29), and the same in
`c_mixin_allocator::alloc_mixin_buf` (code/dynamix/mixin_allocator-c.cpp 22-26): null is thrown as `std::bad_alloc`. -/
def orBadAlloc (ret : Option Nat) : Except Unit Nat :=
  match ret with
  | none => .error ()
  | some p => .ok p

/-- `type::allocate_object_buffer` (code/dynamix/type.cpp 136-140) of a type with these mixins, from the default
resource. -/
def askObjectBuffer (p : Platform) (ms : List MixDecl) : Asked :=
  defaultAllocate p (layout ms).size (layout ms).align

/-- `allocator<T>::allocate(n)` (code/dynamix/compat/pmr/allocator.hpp 37-39) with the default resource, for a `T` of this
size and alignment: the product is one of `std::size_t`, without a check. -/
def askElements (p : Platform) (n size alignment : Nat) : Asked := defaultAllocate p (n * size % 2 ^ 64) alignment

/-- `allocator_traits::max_size`, which containers do not exceed (the allocator has no `max_size` of its own). -/
def maxElements (size : Nat) : Nat := (2 ^ 64 - 1) / size

end Dnmx
