import Verif.Model.Decl

/-!
# Specification: layout of object buffers

Uses only the declarations of mixins. Pointers have 8 bytes, the descriptor of a mixin at the start of the object
buffer (`object_mixin_data`) has 16.
-/

namespace Spec
open Dnmx

/-- A legal alignment: zero or a power of two (code/dnmx/mixin_info.h 50-53). -/
def LegalAlign (a : Nat) : Prop := a = 0 ∨ ∃ k, a = 2 ^ k

/-- Upper bound for the memory need of internal mixins: size plus twice the alignment (at least a pointer's). -/
def memoryNeed : List MixDecl → Nat
  | [] => 0
  | m :: ms => (if m.external then 0 else m.size + 2 * max m.align 8) + memoryNeed ms

/-- First place behind `used` bytes with room for a pointer in front, at a multiple of the alignment, without limits. -/
def placeAfter (used align : Nat) : Nat := (used + 8 + align - 1) / align * align

/-- Memory up to the end of the last of the mixins, if they are placed behind `used` bytes one by one, each at the
first possible place, and numbers have no limits. -/
def exactEnd : List MixDecl → Nat → Nat
  | [], used => used
  | m :: ms, used => if m.external then exactEnd ms used else exactEnd ms (placeAfter used (max m.align 8) + m.size)

/-- Memory of an object of a type of these mixins, if numbers have no limits. -/
def exactSize (ms : List MixDecl) : Nat := exactEnd ms (16 * ms.length)

/-- The object buffer has `total` bytes and is allocated at an address divisible by `align`. -/
structure LayoutSound (ms : List MixDecl) (offsets : List Nat) (total align : Nat) : Prop where
  /-- one offset per mixin -/
  length : offsets.length = ms.length
  /-- the alignment asked from the allocator is a power of two fit for the pointers in the buffer -/
  alignment : 8 ≤ align ∧ ∃ k, align = 2 ^ k
  /-- the descriptors fit -/
  header : 16 * ms.length ≤ total
  /-- offset zero marks external mixins, and only those -/
  externals : ∀ i (h : i < ms.length), (ms[i]'h).external = true ↔ offsets[i]? = some 0
  /-- an internal mixin and the object pointer before it are behind the descriptors and inside the buffer -/
  inside : ∀ i (h : i < ms.length) off, (ms[i]'h).external = false → offsets[i]? = some off →
    16 * ms.length ≤ off - 8 ∧ 8 ≤ off ∧ off + (ms[i]'h).size ≤ total
  /-- both are aligned, wherever an aligned buffer is -/
  aligned : ∀ i (h : i < ms.length) off base, (ms[i]'h).external = false → offsets[i]? = some off → align ∣ base →
    ((ms[i]'h).align ≠ 0 → (ms[i]'h).align ∣ base + off) ∧ 8 ∣ base + off - 8
  /-- a mixin and its object pointer do not overlap another mixin or its object pointer -/
  disjoint : ∀ i j (hi : i < ms.length) (hj : j < ms.length) oi oj, i ≠ j →
    (ms[i]'hi).external = false → (ms[j]'hj).external = false → offsets[i]? = some oi → offsets[j]? = some oj →
    oi + (ms[i]'hi).size ≤ oj - 8 ∨ oj + (ms[j]'hj).size ≤ oi - 8

end Spec
