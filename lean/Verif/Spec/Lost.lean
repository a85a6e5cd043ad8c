import Verif.Spec.Programs

/-!
# Programs that mutate objects to types without mixins

Such mutations lose the buffer that they allocate (`C35_empty_type_refuted`). Here is what programs with them need, and what they lose.
-/

namespace Spec
open Dnmx

/-- Steps of a mutation that can be done for a type without mixins: there is no next mixin. -/
def emptyStep : MStep → Bool
  | .next _ _ => false
  | .at i _ _ => decide (i ≠ 0)
  | _ => true

/-- Use of objects as in `Proper`, and also mutations to types without mixins. -/
def Decent (E : TyEnv) (h : Heap) : OOp → Prop
  | .mutation o t steps => Alive h o ∧ if E.mixins t = [] then ∀ st ∈ steps, emptyStep st.1 = true else ∀ st ∈ steps, properStep st.1 = true
  | .mutateTo o t ops => Alive h o ∧ (E.mixins t = [] → ∀ x ∈ ops, E.indexOf t x.1 = none)
  | op => Proper E h op

def DecentRun (D : Decls) (E : TyEnv) (orc : Orc) : List (Bool × OOp) → Heap → Prop
  | [], _ => True
  | (u, op) :: ops, h => (Decent E h op ∧ (u && makesObject op) = false) ∧
    ∀ h', (ostep D E orc u h op = .ok h' ∨ ∃ e, ostep D E orc u h op = .throw h' e) → DecentRun D E orc ops h'

/-- What an operation that succeeds loses: the type and the allocator of a buffer. Only mutations to types without mixins that are not done during unwinding and not rolled
back lose something. -/
def lostBy (E : TyEnv) (u : Bool) (h : Heap) (op : OOp) : List (TypeId × Nat) :=
  let lost (o : Nat) (t : TypeId) (back : Bool) : List (TypeId × Nat) :=
    match h.obj? o with
    | some ob => if u = false ∧ E.mixins t = [] ∧ ob.ty ≠ some t ∧ back = false then [(t, ob.alloc)] else []
    | none => []
  match op with
  | .mutation o t steps => lost o t (steps.any (fun st => decide (st.1 = .rollback)))
  | .mutateTo o t _ => lost o t false
  | _ => []

/-- What a program loses, the latest first. -/
def losses (D : Decls) (E : TyEnv) (orc : Orc) : List (Bool × OOp) → Heap → List (TypeId × Nat) → List (TypeId × Nat)
  | [], _, acc => acc
  | (u, op) :: ops, h, acc =>
    match ostep D E orc u h op with
    | .ok h' => losses D E orc ops h' (lostBy E u h op ++ acc)
    | .throw h' _ => losses D E orc ops h' acc
    | .ub => acc

/-- A heap in which all objects are well and exactly the buffers `lost` (address, type, allocator) are lost: they are of types without mixins, they belong
to no object, and they count as objects of their types. -/
structure LeakOk (D : Decls) (E : TyEnv) (h : Heap) (lost : List (Nat × TypeId × Nat)) : Prop where
  objs : ∀ o ob, h.obj? o = some ob → ObjOk D E h o ob
  blocks : ∀ a b, h.blk a = some b →
    (∃ o, (∃ ob, h.obj? o = some ob ∧ ob.data = some a) ∨ ∃ i m sl, SlotOf E h o i m sl ∧ sl.buf = some a) ∨ ∃ t al, (a, t, al) ∈ lost ∧ b = .unified t al
  lives : ∀ l x, h.live l = some x → ∃ o i m sl, SlotOf E h o i m sl ∧ sl.loc = l
  fresh : ∀ a b, h.blk a = some b → a < h.next
  counts : ∀ t, h.count t = usersOf h t + (lost.countP (fun x => x.2.1 == t) : Nat)
  there : ∀ x ∈ lost, h.blk x.1 = some (.unified x.2.1 x.2.2) ∧ E.mixins x.2.1 = []
  unused : ∀ x ∈ lost, (∀ o ob, h.obj? o = some ob → ob.data ≠ some x.1) ∧ ∀ o i m sl, SlotOf E h o i m sl → sl.buf ≠ some x.1 ∧ sl.loc.1 ≠ x.1
  once : (lost.map Prod.fst).Nodup

instance (E : TyEnv) (h : Heap) : (op : OOp) → Decidable (Decent E h op)
  | .mutation o t steps => inferInstanceAs (Decidable (Alive h o ∧ if E.mixins t = [] then ∀ st ∈ steps, emptyStep st.1 = true else ∀ st ∈ steps, properStep st.1 = true))
  | .mutateTo o t ops => inferInstanceAs (Decidable (Alive h o ∧ (E.mixins t = [] → ∀ x ∈ ops, E.indexOf t x.1 = none)))
  | .newEmpty t al => inferInstanceAs (Decidable (Proper E h (.newEmpty t al)))
  | .newOfType t al b => inferInstanceAs (Decidable (Proper E h (.newOfType t al b)))
  | .moveNew s => inferInstanceAs (Decidable (Proper E h (.moveNew s)))
  | .destroy o => inferInstanceAs (Decidable (Proper E h (.destroy o)))
  | .moveAssign o s => inferInstanceAs (Decidable (Proper E h (.moveAssign o s)))
  | .copy s al => inferInstanceAs (Decidable (Proper E h (.copy s al)))
  | .copyFrom o s => inferInstanceAs (Decidable (Proper E h (.copyFrom o s)))
  | .copyMatching o s => inferInstanceAs (Decidable (Proper E h (.copyMatching o s)))
  | .moveMatching o s b => inferInstanceAs (Decidable (Proper E h (.moveMatching o s b)))
  | .clear o => inferInstanceAs (Decidable (Proper E h (.clear o)))
  | .reset o t => inferInstanceAs (Decidable (Proper E h (.reset o t)))
  | .seal o => inferInstanceAs (Decidable (Proper E h (.seal o)))

instance instDecidableDecentRun (D : Decls) (E : TyEnv) (orc : Orc) : (ops : List (Bool × OOp)) → (h : Heap) → Decidable (DecentRun D E orc ops h)
  | [], _ => isTrue trivial
  | (u, op) :: ops, h =>
    if hp : Decent E h op ∧ (u && makesObject op) = false then
      match hr : ostep D E orc u h op with
      | .ub => isTrue ⟨hp, by rintro h' (h1 | ⟨e, h1⟩) <;> rw [hr] at h1 <;> simp at h1⟩
      | .ok h1 =>
        match instDecidableDecentRun D E orc ops h1 with
        | isTrue hq => isTrue ⟨hp, by rintro h' (h2 | ⟨e, h2⟩) <;> rw [hr] at h2 <;> simp at h2; subst h2; exact hq⟩
        | isFalse hq => isFalse (fun hx => hq (hx.2 h1 (.inl hr)))
      | .throw h1 e =>
        match instDecidableDecentRun D E orc ops h1 with
        | isTrue hq => isTrue ⟨hp, by rintro h' (h2 | ⟨e', h2⟩) <;> rw [hr] at h2 <;> simp at h2; obtain ⟨rfl, -⟩ := h2; exact hq⟩
        | isFalse hq => isFalse (fun hx => hq (hx.2 h1 (.inr ⟨e, hr⟩)))
    else isFalse (fun hx => hp hx.1)

end Spec
