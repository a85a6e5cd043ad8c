import Verif.Spec.Programs
import Verif.Model.Acting

/-!
# Specification: implementations of messages that act on objects

Rules for implementations, after the section "Mutating an object within a message" of doc/advanced/danger.md.
-/

namespace Spec
open Dnmx

/-- Each entry of a table has an implementation, these are of mixins of the type, and those up to `topBack` have the greatest bid. -/
def EntriesOk (E : TyEnv) (M : MsgEnv) : Prop :=
  ∀ t f e, M.table t f = some e → (∃ p ps, e.pls = p :: ps ∧ ∀ q ∈ ps.take e.topBack, q.data.bid = p.data.bid) ∧
    ∀ p ∈ e.pls, ∃ m, (E.mixins t)[p.mixinIndex]? = some m

/-- What a program promises: objects that it does not destroy (`known`), messages whose implementations leave all objects as they are (`quiet`), and
messages that are called as multicasts (`multi`). -/
structure Agreed where
  known : Nat → Prop
  quiet : Feat → Prop
  multi : Feat → Prop

/-- The operation is properly used for every living object, given that those in `known` live, and destroys no object. -/
def ProperFor (E : TyEnv) (P : Agreed) (f : Nat → OOp) : Prop :=
  (∀ h o, Alive h o → (∀ k, P.known k → Alive h k) → Proper E h (f o)) ∧ ∀ o x, f o ≠ .destroy x

/-- The receiver is the own object or a known one; only messages that may be multicasts are called as such. -/
def ReceiverOk (P : Agreed) (to : Nat → Nat) (f : Feat) (multi : Bool) : Prop :=
  (∀ o, to o = o ∨ P.known (to o)) ∧ (multi = true → P.multi f)

/-- What any implementation may do. -/
def MayDo (E : TyEnv) (P : Agreed) : Action → Prop
  | .op f => ProperFor E P f
  | .send to f multi => ReceiverOk P to f multi
  | .nextSet f => P.multi f
  | _ => True

/-- Actions that change no object that exists, apart from values of mixins: objects may only be made. -/
def QuietAct (E : TyEnv) (P : Agreed) : Action → Prop
  | .use => True
  | .raise _ => True
  | .op f => ProperFor E P f ∧ ∀ o, affected (f o) = []
  | .send to f multi => ReceiverOk P to f multi ∧ P.quiet f
  | .next f => P.quiet f
  | .nextSet f => P.multi f ∧ P.quiet f
  | .nextTop f => P.quiet f

/-- A mutation of object `o` to a type with the mixin `m`. -/
def MutatesKeeping (E : TyEnv) (m : Mix) (o : Nat) : OOp → Prop
  | .reset o' t => o' = o ∧ m ∈ E.mixins t
  | .mutation o' t _ => o' = o ∧ m ∈ E.mixins t
  | .mutateTo o' t _ => o' = o ∧ m ∈ E.mixins t
  | _ => False

/-- What an implementation of mixin `m` may do before it does something else: quiet actions, operations that leave the own object alone, and, if the
mixin is external, mutations that do not remove it. -/
def MayGoOn (D : Decls) (E : TyEnv) (P : Agreed) (m : Mix) (a : Action) : Prop :=
  QuietAct E P a ∨ ∃ f, a = .op f ∧ ∀ o, o ∉ affected (f o) ∨ ((D.mix m).external = true ∧ MutatesKeeping E m o (f o))

/-- Calls of next implementations are made in mixins only. -/
def isNext : Action → Bool
  | .next _ => true
  | .nextSet _ => true
  | .nextTop _ => true
  | _ => false

/-- The rules for a whole program. -/
structure KeepsRules (D : Decls) (E : TyEnv) (M : MsgEnv) (P : Agreed) : Prop where
  /-- In a mixin, what may change the object comes last. -/
  mixins : ∀ m p pre a c post, M.body m p = pre ++ (a, c) :: post → MayDo E P a ∧ (post ≠ [] → MayGoOn D E P m a)
  /-- Default implementations may mutate their object wherever they like. -/
  defaults : ∀ p, ∀ a ∈ M.dflt p, MayDo E P a.1 ∧ isNext a.1 = false
  /-- Quiet messages are quiet. -/
  quiet : ∀ f, P.quiet f → (∀ t e p m, M.table t f = some e → p ∈ e.pls → (E.mixins t)[p.mixinIndex]? = some m → ∀ a ∈ M.body m p.data.payload, QuietAct E P a.1) ∧
    ∀ p, (D.feat f).defaultPayload = some p → ∀ a ∈ M.dflt p, QuietAct E P a.1
  /-- In a multicast, only the implementation that is called last may change the object: others with the same bid are quiet. -/
  multicasts : ∀ f, P.multi f → ∀ t e (i j : Nat) p q m, M.table t f = some e → i < j → e.pls[i]? = some p → e.pls[j]? = some q → p.data.bid = q.data.bid →
    (E.mixins t)[q.mixinIndex]? = some m → ∀ a ∈ M.body m q.data.payload, QuietAct E P a.1

/-- The outcome is not undefined, and whatever it is, all objects are well and those that lived live. -/
def SafeOut (D : Decls) (E : TyEnv) (h : Heap) : Out → Prop
  | .done h' => HeapOk D E h' ∧ AllTyped h' ∧ ∀ o, Alive h o → Alive h' o
  | .thrown h' _ => HeapOk D E h' ∧ AllTyped h' ∧ ∀ o, Alive h o → Alive h' o
  | .ub => False
  | .more => True

/-- All objects are what they were, with mixins at the same addresses. -/
def StillThere (E : TyEnv) (h h' : Heap) : Prop :=
  ∀ o ob, h.obj? o = some ob → h'.obj? o = some ob ∧ ∀ m l v, Holds E h o m l v → ∃ v', Holds E h' o m l v'

end Spec
