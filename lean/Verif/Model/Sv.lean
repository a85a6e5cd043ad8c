/-!
# String views

Model of `/repo/code/dnmx/bits/sv.h`. A string view is a pair of addresses into a memory. The memory is a
parameter: all statements hold for every memory contents.
-/

namespace Dnmx

/-- The bytes of the process, by address (address 0 is the null pointer).
Simplification: every address is readable; `memcmp` is only called on ranges inside the views. -/
abbrev Mem := Nat → UInt8

/-- `dnmx_sv` (code/dnmx/bits/sv.h 16-53): begin and end pointers. -/
structure Sv where
  first : Nat
  last : Nat
deriving DecidableEq, Repr

/-- `dnmx_sv_len` (code/dnmx/bits/sv.h 80). -/
def Sv.len (s : Sv) : Nat := s.last - s.first

/-- `memcmp` of the C library as used in code/dnmx/bits/sv.h 90-99: first difference of unsigned bytes.
Simplification: the C standard fixes only the sign of the result, the model returns the sign itself. -/
def memcmp (mem : Mem) (a b : Nat) : Nat → Int
  | 0 => 0
  | n + 1 =>
    if mem a < mem b then -1
    else if mem b < mem a then 1
    else memcmp mem (a + 1) (b + 1) n

/-- `dnmx_sv_cmp` (code/dnmx/bits/sv.h 82-101). -/
def svCmp (mem : Mem) (a b : Sv) : Int :=
  if a.first = b.first then 0
  else
    let alen := a.len
    if b.first = 0 then (if alen = 0 then 0 else 1)
    else
      let blen := b.len
      if a.first = 0 then (if blen = 0 then 0 else -1)
      else if alen = blen then memcmp mem a.first b.first alen
      else if alen < blen then
        let cmp := memcmp mem a.first b.first alen
        if cmp = 0 then -1 else cmp
      else
        let cmp := memcmp mem a.first b.first blen
        if cmp = 0 then 1 else cmp

/-- `dnmx_sv_eq` (code/dnmx/bits/sv.h 103-105). -/
def svEq (mem : Mem) (a b : Sv) : Bool := svCmp mem a b == 0

/-- `dnmx_sv::to_std` (code/dnmx/bits/sv.h 21-23): the characters of the view. `operator==` of views
(31-48) compares these. -/
def Sv.chars (mem : Mem) (s : Sv) : List UInt8 :=
  (List.range s.len).map (fun i => mem (s.first + i))

/-- What makes a pair of pointers a view: the range is not reversed and a null view is empty. -/
def Sv.Valid (s : Sv) : Prop := s.first ≤ s.last ∧ (s.first = 0 → s.last = 0)

instance (s : Sv) : Decidable s.Valid := inferInstanceAs (Decidable (_ ∧ _))

/-- `dnmx_sv_starts_with` (code/dnmx/bits/sv.h 107-113); `prefix` is the list of characters of the
zero-terminated string. Simplification: the prefix is given by its characters, not its address. -/
def svStartsWith (mem : Mem) (s : Sv) (pre : List UInt8) : Bool :=
  if s.len < pre.length then false
  else if s.len = 0 ∧ pre.length = 0 then true
  else go s.first pre
where
  /-- the `memcmp` of line 112, against the characters of the prefix -/
  go (a : Nat) : List UInt8 → Bool
    | [] => true
    | c :: cs => if mem a = c then go (a + 1) cs else false

/-- `memchr` as used in `dnmx_sv_find_first` (code/dnmx/bits/sv.h 115-119). -/
def memchr (mem : Mem) (q : UInt8) (a : Nat) : Nat → Option Nat
  | 0 => none
  | n + 1 => if mem a = q then some a else memchr mem q (a + 1) n

/-- `dnmx_sv_find_first` (code/dnmx/bits/sv.h 115-119); `none` is the null pointer. -/
def svFindFirst (mem : Mem) (s : Sv) (q : UInt8) : Option Nat :=
  if s.len = 0 then none else memchr mem q s.first s.len

/-- `dnmx_sv_find_last` (code/dnmx/bits/sv.h 121-131), loop `while (len--)`. -/
def svFindLast (mem : Mem) (s : Sv) (q : UInt8) : Option Nat := go s.len
where
  /-- the loop with `len` as counter -/
  go : Nat → Option Nat
    | 0 => none
    | n + 1 => if mem (s.first + n) = q then some (s.first + n) else go n

end Dnmx
