import Verif.Model.Allocators

/-!
# Specification: who has which memory

What the user has to take care of, and what "every block has an owner" means.
-/

namespace Spec
open Dnmx

/-- The block of a vector, with the resource that it will be given back to. -/
def blockOf (v : Vec) : List (Nat × MemRes) :=
  match v.buf with
  | none => []
  | some a => [(a, v.res)]

/-- The blocks of stored queries. -/
def blocksOfKeys (ks : List Key) : List (Nat × MemRes) := ks.flatMap (fun k => blockOf k.vec)

/-- The blocks of the mutations of the user. -/
def blocksOfMuts (ms : List Mut) : List (Nat × MemRes) := ms.flatMap (fun m => blockOf m.vec)

/-- Other calls than `get_type`. -/
def notGetType : Op → Prop
  | .getTypeMut _ _ _ => False
  | .getType _ _ => False
  | _ => True

/-- What the user must do: mutations get resources that exist; a resource is destroyed only if it is not the default one, no
domain has it and no mutation has it any more. -/
def CarefulA (A : AWorld) : AOp → Prop
  | .new _ _ r => r ∉ A.H.dead
  | .dropRes r => r ≠ defaultRes ∧ (∀ d, A.own d ≠ r) ∧ ∀ m ∈ A.muts, m.vec.res ≠ r
  | .other op => notGetType op
  | _ => True

/-- A program all of whose steps are careful. -/
def CarefulRun (D : Decls) : AWorld → List AOp → Prop
  | _, [] => True
  | A, op :: ops => CarefulA A op ∧ ∀ A1, stepA D A op = some A1 → CarefulRun D A1 ops

/-- The stored queries of a domain without their memory. -/
def plainKeys (d : DomId) (ks : List Key) : List (List Mix × TypeId) :=
  (ks.filter (fun k => k.dom == d)).map (fun k => (k.vec.elems, k.tid))

/-- A program without what concerns allocators. -/
def withoutAllocators (ops : List AOp) : List AOp :=
  ops.filterMap fun op =>
    match op with
    | .new v d _ => some (.new v d defaultRes)
    | .dropRes _ => none
    | op => some op

/-- Programs that differ only in allocators. -/
def SameCalls (ops ops' : List AOp) : Prop := withoutAllocators ops = withoutAllocators ops'

/-- An answer of the calls that know no memory. -/
def asFail {α : Type} : Except Err α → Except AFail α
  | .error e => .error (.err e)
  | .ok a => .ok a

/-- No allocation fails. -/
def Enough (H : VHeap) : Prop := ∀ n, H.fails n = false

/-- What can be seen of the mutations. -/
def seenMuts (A : AWorld) : List (Nat × DomId × List Mix) := A.muts.map (fun m => (m.name, m.dom, m.vec.elems))

end Spec
