import Verif.Model.Sv

/-!
# Mixin functions on bytes

Model of code/dnmx/mixin_common_funcs.c: the functions for mixins that are plain bytes. The memory is a function from addresses to
bytes; `size` is `info->size`.
-/

namespace Dnmx

/-- `memset` of the C library, byte after byte. -/
def memset (mem : Mem) (p : Nat) (c : UInt8) : Nat → Mem
  | 0 => mem
  | n + 1 => memset (fun a => if a = p then c else mem a) (p + 1) c n

/-- `memcpy` of the C library, byte after byte (undefined for ranges that overlap). -/
def memcpy (mem : Mem) (dst src : Nat) : Nat → Mem
  | 0 => mem
  | n + 1 => memcpy (fun a => if a = dst then mem src else mem a) (dst + 1) (src + 1) n

/-- `dnmx_mixin_common_init_func` (mixin_common_funcs.c 9-12). -/
def bytesInit (mem : Mem) (size ptr : Nat) : Mem := memset mem ptr 0 size

/-- `dnmx_mixin_common_copy_func` (mixin_common_funcs.c 14-17). -/
def bytesCopy (mem : Mem) (size ptr src : Nat) : Mem := memcpy mem ptr src size

/-- `dnmx_mixin_common_move_func` (mixin_common_funcs.c 19-22). -/
def bytesMove (mem : Mem) (size ptr src : Nat) : Mem := memset (memcpy mem ptr src size) src 0 size

/-- `dnmx_mixin_common_destroy_func` (mixin_common_funcs.c 24-26). -/
def bytesDestroy (mem : Mem) (size ptr : Nat) : Mem := memset mem ptr 254 size

/-- `dnmx_mixin_common_cmp_func` (mixin_common_funcs.c 28-30). -/
def bytesCmp (mem : Mem) (size a b : Nat) : Int := memcmp mem a b size

/-- `dnmx_mixin_common_eq_func` (mixin_common_funcs.c 32-34). -/
def bytesEq (mem : Mem) (size a b : Nat) : Bool := memcmp mem a b size == 0

end Dnmx
