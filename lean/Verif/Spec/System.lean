import Verif.Model.System
import Verif.Spec.Programs
import Verif.Spec.Types
import Verif.Spec.Layout

/-!
# Specification: domains together with objects
-/

namespace Spec
open Dnmx

/-- The types of a domain are not too big: buffers have less than 4 GB, and alignments are powers of two. -/
def TypesFit (D : Decls) (W : World) (d : DomId) : Prop :=
  ∀ r ∈ typesOf W d, (∀ m ∈ r.mixins, (D.mix m).external = false → LegalAlign (D.mix m).align) ∧
    exactSize (r.mixins.map D.mix) < 2 ^ 32

instance (a : Nat) : Decidable (LegalAlign a) :=
  if h : a = 0 ∨ a = 2 ^ a.log2 then isTrue (h.imp id (fun h => ⟨_, h⟩))
  else isFalse (by
    rintro (h1 | ⟨k, h1⟩)
    · exact h (.inl h1)
    · refine h (.inr ?_)
      rw [h1, Nat.log2_two_pow])

instance (D : Decls) (W : World) (d : DomId) : Decidable (TypesFit D W d) := by unfold TypesFit; infer_instance

/-- The types of all objects are in the domain. -/
def TypesThere (W : World) (d : DomId) (h : Heap) : Prop :=
  ∀ o ob t, h.obj? o = some ob → ob.ty = some t → compositionOf W d t ≠ none

/-- All is well: the objects are (see `HeapOk`), each has a type, and these types are in the domain. -/
structure SysOk (D : Decls) (d : DomId) (S : Sys) : Prop where
  heap : HeapOk D (TyEnv.ofWorld S.W d) S.h
  typed : AllTyped S.h
  there : TypesThere S.W d S.h

/-- The mixins of all living objects. -/
def mixinsInUse (W : World) (d : DomId) (h : Heap) : List Mix :=
  h.objs.flatMap (fun x => x.elim [] (ownMixins (TyEnv.ofWorld W d)))

/-- Proper use of domains while there are objects of domain `d`: mixins of living objects are not unregistered, mixins of other domains are not
unregistered from `d` (see `C06`), and the operation has no undefined behaviour by itself (see `C07`, `C28`). -/
def ProperDom (D : Decls) (d : DomId) (S : Sys) (op : Op) : Prop :=
  (step D S.W op).1 ≠ .error .ub ∧
  match op with
  | .gc d' _ => d' ≠ d
  | .unregMixin d' m => d' = d → (S.W.mixDom m = none ∨ S.W.mixDom m = some d) ∧ m ∉ mixinsInUse S.W d S.h
  | _ => True

/-- If operations on the type of object `o` give a type, `p` holds for it. -/
def ResultFits (D : Decls) (d : DomId) (S : Sys) (o : Nat) (ops : List TmOp) (p : World → TypeId → Prop) : Prop :=
  match mutatedList D d S.W S.h o ops with
  | some (.ok q) =>
    match getTypeMut D S.W d d q with
    | (.error e, _) => e ≠ .ub
    | (.ok t, W) => TypesFit D W d ∧ p W t
  | _ => True

/-- Proper use of domains and objects. Mutations that give the empty type are excluded (see `C45`), except gradual ones. -/
def ProperS (D : Decls) (d : DomId) (S : Sys) : SOp → Prop
  | .dom op => ProperDom D d S op
  | .gc => True
  | .obj u op => Proper (TyEnv.ofWorld S.W d) S.h op ∧ (u && makesObject op) = false ∧ ∀ t ∈ typesIn op, compositionOf S.W d t ≠ none
  | .mutate _ o ops => Alive S.h o ∧ ResultFits D d S o (ops.map (·.1)) (fun W t => compositionOf W d t ≠ some [] ∨ (S.h.obj? o).bind (·.ty) = some t)
  | .gradual _ o ops => Alive S.h o ∧ ResultFits D d S o ops (fun _ _ => True)
  | .cMutate _ o ops => Alive S.h o ∧ ResultFits D d S o (ops.map (·.1)) (fun W t => compositionOf W d t ≠ some [])

/-- Programs that use domains and objects properly. -/
def ProperSRun (D : Decls) (orc : Orc) (d : DomId) : List SOp → Sys → Prop
  | [], _ => True
  | op :: ops, S => (TypesFit D S.W d ∧ ProperS D d S op) ∧
    ∀ S', (sstep D orc d S op = .ok S' ∨ ∃ e, sstep D orc d S op = .throw S' e) → ProperSRun D orc d ops S'

/-- What programs that use domains and objects properly can reach. -/
def Reachable (D : Decls) (orc : Orc) (d : DomId) (S : Sys) : Prop :=
  ∃ s prog, ProperSRun D orc d prog ⟨initWorld s, {}⟩ ∧ srun D orc d prog ⟨initWorld s, {}⟩ = some S

/-- The list of mixins that an operation asks for. `byName`: the mixins of the domain. -/
def wanted (D : Decls) (byName : List UInt8 → Option Mix) (ms : List Mix) : TmOp → Except Err (List Mix)
  | .add m => .ok (ms ++ [m])
  | .addName n => (byName n).elim (.error .missingMixin) (fun m => .ok (ms ++ [m]))
  | .addIfLacking m => .ok (if m ∈ ms then ms else ms ++ [m])
  | .addIfLackingName n => if ∃ m ∈ ms, D.mixName m = n then .ok ms else (byName n).elim (.error .missingMixin) (fun m => .ok (ms ++ [m]))
  | .remove m => .ok (ms.erase m)
  | .removeName n => .ok ((ms.find? (fun m => D.mixName m == n)).elim ms (fun m => ms.erase m))
  | .toBack m => if m ∈ ms then .ok (ms.erase m ++ [m]) else .error .missingMixin
  | .toBackName n => (ms.find? (fun m => D.mixName m == n)).elim (.error .missingMixin) (fun m => .ok (ms.erase m ++ [m]))

/-- The list that operations ask for, one after the other. -/
def wantedAll (D : Decls) (byName : List UInt8 → Option Mix) (ops : List TmOp) (ms : List Mix) : Except Err (List Mix) := ops.foldlM (wanted D byName) ms

/-- Mutations by operations on the type of an object `o`, which was `ob` with mixins `ms`. If an operation fails, or there is no type for the wanted mixins, nothing happens to the
object. Otherwise the change to the type is as in `change`. -/
def MutationBy (D : Decls) (d : DomId) (S : Sys) (ms : List Mix) (ops : List TmOp) (change : World → TypeId → SRes → Prop) (res : SRes) : Prop :=
  match wantedAll D (getMixinByName D S.W d) ops ms with
  | .error e => res = .throw S (.dom e)
  | .ok q =>
    match getTypeMut D S.W d d q with
    | (.error e, W) => res = .throw ⟨W, S.h⟩ (.dom e)
    | (.ok t, W) => change W t res

/-- The object keeps its type if this is the wanted one. Otherwise it gets the new type with all that belongs to it, or it stays as it is. -/
def Changed (D : Decls) (d : DomId) (h : Heap) (o : Nat) (ob : Obj) (kind : Mix → Kind → Prop) (keeps : Mix → Prop) (W : World) (t : TypeId) (res : SRes) : Prop :=
  (ob.ty = some t ∧ res = .ok ⟨W, h⟩) ∨
  (ob.ty ≠ some t ∧ ∃ h', res = .ok ⟨W, h'⟩ ∧ Mutated D (TyEnv.ofWorld W d) h o ob t kind keeps h') ∨
  (∃ h' e, res = .throw ⟨W, h'⟩ (.obj e) ∧ Untouched D (TyEnv.ofWorld W d) h h')

/-- The same if a mutation to the type that the object has is not a special case: it does nothing, but a sealed object throws. -/
def ChangedC (D : Decls) (d : DomId) (h : Heap) (o : Nat) (ob : Obj) (kind : Mix → Kind → Prop) (W : World) (t : TypeId) (res : SRes) : Prop :=
  (ob.ty = some t ∧ ∃ h', res = .ok ⟨W, h'⟩ ∧ Untouched D (TyEnv.ofWorld W d) h h') ∨
  (ob.ty ≠ some t ∧ ∃ h', res = .ok ⟨W, h'⟩ ∧ Mutated D (TyEnv.ofWorld W d) h o ob t kind (fun _ => True) h') ∨
  (∃ h' e, res = .throw ⟨W, h'⟩ (.obj e) ∧ Untouched D (TyEnv.ofWorld W d) h h')

/-- The initializers in a list of operations. -/
def initializers (ops : List MutOp) : List (Mix × Nat) := ops.flatMap (fun op =>
  match op.1, op.2 with
  | .add m, some k => [(m, k)]
  | _, _ => [])

/-- Is this an operation that adds mixin `m`, with an initializer? -/
def addsWithInit (D : Decls) (m : Mix) (op : MutOp) : Bool := op.2.isSome && decide (op.1 = .add m ∨ op.1 = .addName (D.mixName m))

/-- The same, and if the wanted type is the empty one: all mixins are destroyed. -/
def ChangedOrEmptied (D : Decls) (d : DomId) (h : Heap) (o : Nat) (ob : Obj) (W : World) (t : TypeId) (res : SRes) : Prop :=
  Changed D d h o ob (fun _ k => k = .dflt) (fun _ => True) W t res ∨
  (compositionOf W d t = some [] ∧ ∃ h', res = .ok ⟨W, h'⟩ ∧ AllDestroyed D (TyEnv.ofWorld W d) h o ob h' ∧ h'.obj? o = some { ob with ty := some t, data := none } ∧
    (∀ m l v, ¬ Holds (TyEnv.ofWorld W d) h' o m l v) ∧ HeapOk D (TyEnv.ofWorld W d) h')

instance (D : Decls) (d : DomId) (S : Sys) : (op : Op) → Decidable (ProperDom D d S op) := by
  intro op
  cases op <;> (unfold ProperDom; infer_instance)

instance (D : Decls) (d : DomId) (S : Sys) (o : Nat) (ops : List TmOp) (p : World → TypeId → Prop) [∀ W t, Decidable (p W t)] : Decidable (ResultFits D d S o ops p) := by
  unfold ResultFits
  split
  · split <;> infer_instance
  · infer_instance

instance (D : Decls) (d : DomId) (S : Sys) : (op : SOp) → Decidable (ProperS D d S op) := by
  intro op
  cases op <;> (unfold ProperS; infer_instance)

instance instDecidableProperSRun (D : Decls) (orc : Orc) (d : DomId) : (ops : List SOp) → (S : Sys) → Decidable (ProperSRun D orc d ops S)
  | [], _ => isTrue trivial
  | op :: ops, S =>
    if hp : TypesFit D S.W d ∧ ProperS D d S op then
      match hr : sstep D orc d S op with
      | .ub => isTrue ⟨hp, by rintro h' (h1 | ⟨e, h1⟩) <;> rw [hr] at h1 <;> simp at h1⟩
      | .ok S1 =>
        match instDecidableProperSRun D orc d ops S1 with
        | isTrue hq => isTrue ⟨hp, by rintro h' (h2 | ⟨e, h2⟩) <;> rw [hr] at h2 <;> simp at h2; subst h2; exact hq⟩
        | isFalse hq => isFalse (fun hx => hq (hx.2 S1 (.inl hr)))
      | .throw S1 e =>
        match instDecidableProperSRun D orc d ops S1 with
        | isTrue hq => isTrue ⟨hp, by rintro h' (h2 | ⟨e', h2⟩) <;> rw [hr] at h2 <;> simp at h2; obtain ⟨rfl, -⟩ := h2; exact hq⟩
        | isFalse hq => isFalse (fun hx => hq (hx.2 S1 (.inr ⟨e, hr⟩)))
    else isFalse (fun hx => hp hx.1)

end Spec
