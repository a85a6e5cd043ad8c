import Verif.Model.Living
import Verif.Spec.Acting
import Verif.Spec.System
import Verif.Spec.Features

/-!
# Specification: messages in programs that use domains and objects

Rules for programs whose messages use the domain, after the section "Mutating an object within a message" of doc/advanced/danger.md.
-/

namespace Spec
open Dnmx

/-- What a program promises: objects that it does not destroy (`known`), messages whose implementations leave all objects as they are (`quiet`),
messages that are called as multicasts (`multi`), the domain of each feature (`home`), and features that are not unregistered since mixins have them (`used`). -/
structure Pledge where
  known : Nat → Prop
  quiet : Feat → Prop
  multi : Feat → Prop
  home : Feat → DomId
  used : Feat → Prop

/-- Features are used in their own domain, and not unregistered if mixins use them (as in C56). -/
def FeatureUse (D : Decls) (P : Pledge) : Op → Prop
  | .regMixin d m => ∀ ff ∈ (D.mix m).feats, P.home ff.feat = d ∧ P.used ff.feat
  | .regFeature d f => P.home f = d
  | .unregFeature _ f => ¬ P.used f
  | _ => True

/-- All is well with domains and objects: objects have what their types say, the types of all objects exist and are not too big, what was constructed and allocated is destroyed and
freed in turn, the known objects live. -/
structure WellS (D : Decls) (d : DomId) (P : Pledge) (S : Sys) : Prop where
  ok : SysOk D d S
  log : LogOk D S.h
  past : ∃ s ops, (∀ op ∈ ops, FeatureUse D P op) ∧ S.W = run D (initWorld s) ops
  fits : TypesFit D S.W d
  known : ∀ k, P.known k → Alive S.h k

/-- The features are used as promised by an operation. -/
def KeepsFeatures (D : Decls) (P : Pledge) : SOp → Prop
  | .dom op => FeatureUse D P op
  | _ => True

/-- Operations outside of stack unwinding. -/
def calm : SOp → Bool
  | .obj u _ => !u
  | .mutate u _ _ => !u
  | .gradual u _ _ => !u
  | .cMutate u _ _ => !u
  | _ => true

/-- Does it destroy object `o`? -/
def destroys (o : Nat) : SOp → Prop
  | .obj _ op => op = .destroy o
  | _ => False

/-- Operations that a message may do: properly used ones that destroy no object, and that make no types that are too big. -/
def Allowed (D : Decls) (orc : Orc) (d : DomId) (P : Pledge) (S : Sys) (op : SOp) : Prop :=
  ProperS D d S op ∧ calm op = true ∧ KeepsFeatures D P op ∧ (∀ o, ¬ destroys o op) ∧
  ∀ S', (sstep D orc d S op = .ok S' ∨ ∃ e, sstep D orc d S op = .throw S' e) → TypesFit D S'.W d

/-- The objects that an operation may change. -/
def changed : SOp → List Nat
  | .obj _ op => affected op
  | .mutate _ o _ => [o]
  | .gradual _ o _ => [o]
  | .cMutate _ o _ => [o]
  | _ => []

/-- A mutation of object `o` to a type with the mixin `m`. -/
def KeepsMixin (D : Decls) (d : DomId) (S : Sys) (m : Mix) (o : Nat) : SOp → Prop
  | .obj _ op => MutatesKeeping (TyEnv.ofWorld S.W d) m o op
  | .mutate _ o' ops => o' = o ∧ ResultFits D d S o (ops.map (·.1)) (fun W t => m ∈ (compositionOf W d t).getD [])
  | .gradual _ o' ops => o' = o ∧ ResultFits D d S o ops (fun W t => m ∈ (compositionOf W d t).getD [])
  | .cMutate _ o' ops => o' = o ∧ ResultFits D d S o (ops.map (·.1)) (fun W t => m ∈ (compositionOf W d t).getD [])
  | _ => False

section
variable (D : Decls) (orc : Orc) (d : DomId) (P : Pledge)

/-- What any implementation may do. -/
def MayDoL (S : Sys) : Deed → Prop
  | .sys op => Allowed D orc d P S op
  | .send o f multi => Alive S.h o ∧ P.home f = d ∧ (multi = true → P.multi f)
  | .next f => P.home f = d
  | .nextSet f => P.home f = d ∧ P.multi f
  | .nextTop f => P.home f = d
  | _ => True

/-- Deeds that change no object that exists, apart from values of mixins. They may change the domain: ask for types, register elements, collect garbage. -/
def QuietDeed (S : Sys) : Deed → Prop
  | .sys op => Allowed D orc d P S op ∧ changed op = []
  | .send o f multi => (Alive S.h o ∧ P.home f = d ∧ (multi = true → P.multi f)) ∧ P.quiet f
  | .next f => P.home f = d ∧ P.quiet f
  | .nextSet f => P.home f = d ∧ P.multi f ∧ P.quiet f
  | .nextTop f => P.home f = d ∧ P.quiet f
  | _ => True

/-- What an implementation of mixin `m` of object `o` may do before it does something else: quiet deeds, operations that leave the own object alone, and, if the
mixin is external, mutations that do not remove it. -/
def GoesOn (m : Mix) (S : Sys) (o : Nat) (a : Deed) : Prop :=
  QuietDeed D orc d P S a ∨ ∃ op, a = .sys op ∧ (o ∉ changed op ∨ ((D.mix m).external = true ∧ KeepsMixin D d S m o op))

/-- Calls of next implementations are made in mixins only. -/
def isNextL : Deed → Bool
  | .next _ => true
  | .nextSet _ => true
  | .nextTop _ => true
  | _ => false

/-- Object `o` has the mixin `m`, and all is well. -/
def Seen (S : Sys) (m : Mix) (o : Nat) : Prop := WellS D d P S ∧ ∃ l v, Holds (TyEnv.ofWorld S.W d) S.h o m l v

/-- The rules for the implementations of a program. They are about what an implementation does in any state in which it can find itself. -/
structure KeepsRulesL (B : Bodies) : Prop where
  /-- In a mixin, what may change the object comes last. -/
  mixins : ∀ m p pre a c post, B.body m p = pre ++ (a, c) :: post → ∀ S o, Seen D d P S m o → MayDoL D orc d P S (a S o) ∧ (post ≠ [] → GoesOn D orc d P m S o (a S o))
  /-- Default implementations may mutate their object wherever they like. -/
  defaults : ∀ p, ∀ a ∈ B.dflt p, ∀ S o, WellS D d P S → Alive S.h o → MayDoL D orc d P S (a.1 S o) ∧ isNextL (a.1 S o) = false
  /-- Quiet messages are quiet. -/
  quiet : ∀ f, P.quiet f → (∀ m, ∀ ff ∈ (D.mix m).feats, ff.feat = f → ∀ a ∈ B.body m ff.payload, ∀ S o, Seen D d P S m o → QuietDeed D orc d P S (a.1 S o)) ∧
    ∀ p, (D.feat f).defaultPayload = some p → ∀ a ∈ B.dflt p, ∀ S o, WellS D d P S → Alive S.h o → QuietDeed D orc d P S (a.1 S o)
  /-- In a multicast, only the implementation that is called last may change the object: of those with the same bid, all but the best one are quiet. -/
  multicasts : ∀ f, P.multi f → ∀ ms l (i j : Nat) x y m, ms.Nodup → RanksImpls D ms f l → i < j → l[i]? = some x → l[j]? = some y → x.2.bid = y.2.bid → ms[y.1]? = some m →
    ∀ a ∈ B.body m y.2.payload, ∀ S o, Seen D d P S m o → QuietDeed D orc d P S (a.1 S o)

/-- What the program itself may do: the same, and it may destroy objects that it did not promise to keep. -/
def Permitted (S : Sys) : LOp → Prop
  | .sys op => ProperS D d S op ∧ KeepsFeatures D P op ∧ (∀ o, P.known o → ¬ destroys o op ∧ (o ∈ changed op → calm op = true)) ∧
    ∀ S', (sstep D orc d S op = .ok S' ∨ ∃ e, sstep D orc d S op = .throw S' e) → TypesFit D S'.W d
  | .call o f multi => Alive S.h o ∧ P.home f = d ∧ (multi = true → P.multi f)

/-- The outcome is not undefined, and all is well. -/
def SafeL (ok : Sys → Prop) : LOut → Prop
  | .done S => ok S
  | .thrown S _ => ok S
  | .ub => False
  | .more => True

/-- Programs that keep to this. -/
def PermittedRun (B : Bodies) (n : Nat) : List LOp → Sys → Prop
  | [], _ => True
  | op :: ops, S => Permitted D orc d P S op ∧ ∀ S', (lstep D orc d B n S op = .done S' ∨ ∃ e, lstep D orc d B n S op = .thrown S' e) → PermittedRun B n ops S'

end

/-- All objects are what they were, with the same types, which are what they were, and mixins at the same addresses. -/
def StillThereS (d : DomId) (S S' : Sys) : Prop :=
  ∀ o ob, S.h.obj? o = some ob → S'.h.obj? o = some ob ∧ (∀ t, ob.ty = some t → (S'.W.doms d).typeAt d t = (S.W.doms d).typeAt d t) ∧
    ∀ m l v, Holds (TyEnv.ofWorld S.W d) S.h o m l v → ∃ v', Holds (TyEnv.ofWorld S'.W d) S'.h o m l v'

/-- The actions of `Model.Acting` as deeds: they do not look at the domain, and do not use it. -/
def asDoing : Action → Doing
  | .use => fun _ _ => .use
  | .op f => fun _ o => .sys (.obj false (f o))
  | .send to f multi => fun _ o => .send (to o) f multi
  | .next f => fun _ _ => .next f
  | .nextSet f => fun _ _ => .nextSet f
  | .nextTop f => fun _ _ => .nextTop f
  | .raise n => fun _ _ => .raise n

def asDoings (as : List (Action × Bool)) : List (Doing × Bool) := as.map (fun a => (asDoing a.1, a.2))

def asBodies (M : MsgEnv) : Bodies := ⟨fun m p => asDoings (M.body m p), fun p => asDoings (M.dflt p)⟩

end Spec
