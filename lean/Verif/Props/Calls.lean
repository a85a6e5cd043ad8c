import Verif.Proofs.CallOpLemmas
import Verif.Proofs.CallLogLemmas
import Verif.Props.Objects

/-!
# What constructors and destructors of mixins see of their object (C70)

The full property, which the code does not have (see the refutations): from constructors and destructors of mixins the object is valid; its
type is the one before the mutation; in a mutation all external mixins of the object can be used; in a copy or a new object the type of
the object and the mixins made so far can be used; in a destruction the type and the mixins before the current one.
-/

namespace Dnmx.Props
open Spec

/-! ## An example

Mixins 3 and 7 are separate, others are in the buffer of the object. -/

def callDecls : Decls where
  mem := fun a => UInt8.ofNat a
  mix := fun m => { name := ⟨m, m + 1⟩, size := 8, align := 8, forceExternal := m = 3 ∨ m = 7, hasMoveAsgn := m ≠ 6 }
  feat := fun f => { name := ⟨f, f + 1⟩ }
  userRule := fun _ => ⟨⟨0, 0⟩, none, 0⟩
  cls := fun _ => ⟨⟨0, 0⟩, false, fun _ => true⟩

def callTypes (t : TypeId) : List Mix :=
  if t = 1 then [3, 7, 1] else if t = 2 then [2, 1, 7] else if t = 3 then [1, 2] else if t = 4 then [1, 6] else []

def callEnv : TyEnv := envOf callDecls callTypes

theorem callEnv_ok : EnvOk callDecls callEnv := by
  refine envOf_ok ?_ rfl
  intro t
  unfold callTypes
  split
  · decide
  · split
    · decide
    · split
      · decide
      · split <;> decide

def callOps : List (Bool × OOp) := [(false, .newOfType 1 0 false), (false, .newOfType 2 0 false), (false, .newOfType 4 0 false), (false, .newOfType 4 0 false)]

/-- An object of type 1, one of type 2, two of type 4. -/
def callHeap : Heap := (orun callDecls callEnv objOrc callOps {}).getD {}

theorem callHeap_good : Good callDecls callEnv callHeap := by
  obtain ⟨h', h1, h2⟩ := good_run (orc := objOrc) callEnv_ok callOps {} good_start (by decide +kernel)
  unfold callHeap; rw [h1]; exact h2

/-- The calls in an operation on `callHeap`, with the numbers of the mixins of object `o` that can be used. -/
def viewOf (o : Nat) (h : Heap) : List Nat :=
  match h.obj? o with
  | none => []
  | some ob =>
    match ob.ty, ob.data with
    | some t, some a => (List.range (callEnv.mixins t).length).filter (fun i => match h.slot a i with
      | some sl => (h.blk a).isSome && (h.blk sl.loc.1).isSome && (h.live sl.loc).isSome
      | none => false)
    | _, _ => []

def viewsIn (o : Nat) (op : OOp) : List (MixinCall × Option (Option TypeId) × List Nat) :=
  (callsOp callDecls callEnv objOrc false callHeap op).map (fun x => (x.1, (x.2.obj? o).map (·.ty), viewOf o x.2))

/-- The calls that are in the log after an operation on `callHeap`. -/
def calledIn (op : OOp) : List MixinCall := ((after (ostep callDecls callEnv objOrc false callHeap op)).log.drop callHeap.log.length).filterMap callOf

/-! ## C70 -/

/-- C70: from each call of a constructor or destructor of a mixin, the mixin's object is the one that is handled by the operation, and of
all objects exactly the mixins listed in `InOp` can be used. -/
theorem C70_view (D : Decls) (E : TyEnv) (orc : Orc) (hE : EnvOk D E) (h : Heap) (hk : HeapOk D E h) (ht : AllTyped h) (u : Bool) (op : OOp) (hp : Proper E h op) :
    ∀ x ∈ callsOp D E orc u h op, x.2.owner x.1.this = some (handled h op) ∧ InOp D E h op x.1 x.2 :=
  calls_op hE ⟨hk, ht⟩ hp

/-- C70: these are all calls that happen: each call in the log is one of them, with the heap as it is at that time. -/
theorem C70_all_calls (D : Decls) (E : TyEnv) (orc : Orc) (h : Heap) (u : Bool) (op : OOp) (h' : Heap)
    (hr : ostep D E orc u h op = .ok h' ∨ ∃ e, ostep D E orc u h op = .throw h' e) : Explains (callsOp D E orc u h op) h h' := by
  have := op_log (D := D) (E := E) (orc := orc) u h op
  rcases hr with hr | ⟨e, hr⟩ <;> (rw [hr] at this; exact this)

theorem inop_sees {D : Decls} {E : TyEnv} {h h' : Heap} {op : OOp} {c : MixinCall} (hi : InOp D E h op c h') : ∃ st, Sees E (begun h op) h' (handled h op) st := by
  have hmut : ∀ {h0 : Heap} {o : Nat} {t : TypeId}, InMutation D E h0 o t c h' → ∃ st, Sees E h0 h' o st := by
    rintro h0 o t (⟨m, l, -, -, hs⟩ | ⟨k, m, l, -, -, hs⟩) <;> exact ⟨_, hs⟩
  have hclr : ∀ {h0 : Heap} {o : Nat}, InClear E h0 o c h' → ∃ st, Sees E h0 h' o st := by
    rintro h0 o ⟨k, m, l, -, -, hs⟩; exact ⟨_, hs⟩
  cases op with
  | newEmpty t al => exact hi.elim
  | newOfType t al sd => exact hmut hi
  | moveNew src => exact hi.elim
  | destroy o => exact hclr hi
  | moveAssign o src => exact hclr hi
  | copy src al => obtain ⟨sb, t, -, -, hi⟩ := hi; exact hmut hi
  | copyFrom o src =>
    obtain ⟨sb, t, -, -, hi⟩ := hi
    by_cases he : E.mixins t = []
    · rw [if_pos he] at hi; exact hclr hi
    · rw [if_neg he] at hi; exact hmut hi
  | copyMatching o src => exact hi.elim
  | moveMatching o src fb =>
    obtain ⟨k, m, l, -, ⟨-, hs⟩ | ⟨src, -, hs⟩⟩ := hi <;> exact ⟨_, hs⟩
  | clear o => exact hclr hi
  | reset o t =>
    by_cases he : E.mixins t = []
    · simp only [InOp] at hi; rw [if_pos he] at hi; exact hclr hi
    · simp only [InOp] at hi; rw [if_neg he] at hi; exact hmut hi
  | «seal» o => exact hi.elim
  | mutation o t steps => exact hmut hi
  | mutateTo o t ops => exact hmut hi

/-- C70: the object is valid in each call, and it is as it was before the operation: the type is the one that the object is mutated from, and
a new object has none. -/
theorem C70_object (D : Decls) (E : TyEnv) (orc : Orc) (hE : EnvOk D E) (h : Heap) (hk : HeapOk D E h) (ht : AllTyped h) (u : Bool) (op : OOp) (hp : Proper E h op) :
    ∀ x ∈ callsOp D E orc u h op, ∃ ob, x.2.owner x.1.this = some (handled h op) ∧ x.2.obj? (handled h op) = some ob ∧
      (makesObject op = false → h.obj? (handled h op) = some ob) ∧ (makesObject op = true → ob.ty = none ∧ ob.data = none) := by
  intro x hx
  obtain ⟨h1, h2⟩ := calls_op (orc := orc) hE ⟨hk, ht⟩ hp x hx
  obtain ⟨st, hs⟩ := inop_sees h2
  have hobj := hs.objs (handled h op)
  have alive : ∀ {o}, Alive h o → ∃ ob, h.obj? o = some ob := fun {o} ha => by
    cases ho : h.obj? o with
    | none => exact (ha ho).elim
    | some ob => exact ⟨ob, rfl⟩
  have fin : ∀ {o}, handled h op = o → begun h op = h → Alive h o → makesObject op = false → ∃ ob, x.2.owner x.1.this = some (handled h op) ∧ x.2.obj? (handled h op) = some ob ∧
      (makesObject op = false → h.obj? (handled h op) = some ob) ∧ (makesObject op = true → ob.ty = none ∧ ob.data = none) := by
    intro o e1 e2 ha hm
    obtain ⟨ob, ho⟩ := alive ha
    refine ⟨ob, h1, by rw [hobj, e1, e2, ho], fun _ => by rw [e1, ho], fun hc => by rw [hm] at hc; simp at hc⟩
  cases op with
  | newEmpty t al => exact h2.elim
  | newOfType t al sd =>
    have hn : (newNull h al).obj? h.objs.length = some ⟨none, none, false, al⟩ := by simp only [newNull_addObj, addObj_obj, if_true]
    exact ⟨_, h1, hobj.trans hn, fun hc => by simp [makesObject] at hc, fun _ => ⟨rfl, rfl⟩⟩
  | moveNew src => exact h2.elim
  | destroy o => exact fin rfl rfl hp rfl
  | moveAssign o src => exact fin rfl rfl hp.1 rfl
  | copy src al =>
    have hn : (newNull h al).obj? h.objs.length = some ⟨none, none, false, al⟩ := by simp only [newNull_addObj, addObj_obj, if_true]
    exact ⟨_, h1, hobj.trans hn, fun hc => by simp [makesObject] at hc, fun _ => ⟨rfl, rfl⟩⟩
  | copyFrom o src => exact fin rfl rfl hp.1 rfl
  | copyMatching o src => exact h2.elim
  | moveMatching o src fb => exact fin rfl rfl hp.1 rfl
  | clear o => exact fin rfl rfl hp rfl
  | reset o t => exact fin rfl rfl hp rfl
  | «seal» o => exact h2.elim
  | mutation o t steps => exact fin rfl rfl hp.1 rfl
  | mutateTo o t ops =>
    obtain ⟨ob, ho, -⟩ := hp
    exact fin (o := o) rfl rfl (by unfold Alive; rw [ho]; simp) rfl

/-- C70: when constructors run that make new mixins, all objects are as before the operation, and all mixins of all objects can be used. -/
theorem C70_constructors (D : Decls) (E : TyEnv) (orc : Orc) (hE : EnvOk D E) (h : Heap) (hk : HeapOk D E h) (ht : AllTyped h) (u : Bool) (op : OOp) (hp : Proper E h op)
    (m : Mix) (l : Loc) (h' : Heap) (hx : (MixinCall.init m l, h') ∈ callsOp D E orc u h op) :
    ∀ o i m' l', ReachedAt E h' o i m' l' ↔ ReachedAt E (begun h op) o i m' l' := by
  obtain ⟨h1, h2⟩ := calls_op (orc := orc) hE ⟨hk, ht⟩ hp _ hx
  have hmut : ∀ {h0 : Heap} {o : Nat} {t : TypeId}, InMutation D E h0 o t (.init m l) h' → ∀ o i m' l', ReachedAt E h' o i m' l' ↔ ReachedAt E h0 o i m' l' := by
    rintro h0 o t (⟨m1, l1, -, -, hs⟩ | ⟨k, m1, l1, -, hc, -⟩)
    · intro o i m' l'; exact (hs.mixins o i m' l').trans ⟨And.left, fun h => ⟨h, fun _ => trivial⟩⟩
    · rcases hc with hc | ⟨l', -, hc⟩ <;> simp at hc
  have hclr : ∀ {h0 : Heap} {o : Nat}, InClear E h0 o (.init m l) h' → False := by
    rintro h0 o ⟨k, m, l, -, hc, -⟩; simp at hc
  cases op with
  | newEmpty t al => exact h2.elim
  | newOfType t al sd => exact hmut h2
  | moveNew src => exact h2.elim
  | destroy o => exact (hclr h2).elim
  | moveAssign o src => exact (hclr h2).elim
  | copy src al => obtain ⟨sb, t, -, -, hi⟩ := h2; exact hmut hi
  | copyFrom o src =>
    obtain ⟨sb, t, -, -, hi⟩ := h2
    by_cases he : E.mixins t = []
    · rw [if_pos he] at hi; exact (hclr hi).elim
    · rw [if_neg he] at hi; exact hmut hi
  | copyMatching o src => exact h2.elim
  | moveMatching o src fb =>
    obtain ⟨k, m, l, -, ⟨hc, hs⟩ | ⟨src, hc, hs⟩⟩ := h2 <;> simp at hc
  | clear o => exact (hclr h2).elim
  | reset o t =>
    by_cases he : E.mixins t = []
    · simp only [InOp] at h2; rw [if_pos he] at h2; exact (hclr h2).elim
    · simp only [InOp] at h2; rw [if_neg he] at h2; exact hmut h2
  | «seal» o => exact h2.elim
  | mutation o t steps => exact hmut h2
  | mutateTo o t ops => exact hmut h2

-- object 0 with mixins 3, 7 and 1 becomes one with 2, 1 and 7: the constructor of 2 sees all old mixins, the move constructor of 1 (and the destructor) all but 3
example : Proper callEnv callHeap (.reset 0 2) ∧ viewsIn 0 (.reset 0 2) =
    [(.init 2 (7, 0), some (some 1), [0, 1, 2]), (.destroy 3 (1, 0), some (some 1), [0, 1, 2]), (.move 1 (7, 1) (0, 2), some (some 1), [1, 2]),
      (.destroy 1 (0, 2), some (some 1), [1, 2])] := ⟨by decide +kernel, by decide +kernel⟩

/-- C70: when the mixins of an object are destroyed with it, or because the object is cleared or assigned to, the type is that of the object, and a destructor
can use exactly the mixin itself and the mixins before it, and all mixins of other objects. -/
theorem C70_destruction (D : Decls) (E : TyEnv) (orc : Orc) (hE : EnvOk D E) (h : Heap) (hk : HeapOk D E h) (ht : AllTyped h) (u : Bool) (o : Nat) (op : OOp) (hp : Proper E h op)
    (hop : op = .destroy o ∨ op = .clear o ∨ ∃ src, op = .moveAssign o src) :
    ∀ x ∈ callsOp D E orc u h op, ∃ k m l, x.1 = .destroy m l ∧ ReachedAt E h o k m l ∧ x.2.obj? o = h.obj? o ∧
      (∀ i m' l', ReachedAt E x.2 o i m' l' ↔ ReachedAt E h o i m' l' ∧ i ≤ k) ∧
      (∀ o', o' ≠ o → ∀ i m' l', ReachedAt E x.2 o' i m' l' ↔ ReachedAt E h o' i m' l') := by
  intro x hx
  obtain ⟨h1, h2⟩ := calls_op (orc := orc) hE ⟨hk, ht⟩ hp x hx
  have hclr : InClear E h o x.1 x.2 := by
    rcases hop with rfl | rfl | ⟨src, rfl⟩ <;> exact h2
  obtain ⟨k, m, l, k1, k2, hs⟩ := hclr
  refine ⟨k, m, l, k2, k1, hs.objs o, ?_, ?_⟩
  · intro i m' l'; exact (hs.mixins o i m' l').trans ⟨fun ⟨a, b⟩ => ⟨a, b rfl⟩, fun ⟨a, b⟩ => ⟨a, fun _ => b⟩⟩
  · intro o' hne i m' l'; exact (hs.mixins o' i m' l').trans ⟨And.left, fun a => ⟨a, fun e => (hne e).elim⟩⟩

-- object 1 with mixins 2, 1 and 7
example : Proper callEnv callHeap (.destroy 1) ∧ viewsIn 1 (.destroy 1) =
    [(.destroy 7 (4, 0), some (some 2), [0, 1, 2]), (.destroy 1 (3, 1), some (some 2), [0, 1]), (.destroy 2 (3, 0), some (some 2), [0])] :=
  ⟨by decide +kernel, by decide +kernel⟩

/-- C70, partial: while an object is mutated to type `t`, its external mixins can be used in each call if they stay. Missing: those that are
removed; see `C70_external_refuted`. -/
theorem C70_external_partial (D : Decls) (E : TyEnv) (orc : Orc) (hE : EnvOk D E) (h : Heap) (hk : HeapOk D E h) (ht : AllTyped h) (u : Bool) (o : Nat) (t : TypeId) (op : OOp)
    (hp : Proper E h op) (hne : E.mixins t ≠ []) (hop : op = .reset o t ∨ (∃ steps, op = .mutation o t steps) ∨ ∃ ops, op = .mutateTo o t ops)
    (i : Nat) (m : Mix) (l : Loc) (hm : ReachedAt E h o i m l) (hext : (D.mix m).external = true) (hmem : m ∈ E.mixins t) :
    ∀ x ∈ callsOp D E orc u h op, ReachedAt E x.2 o i m l := by
  intro x hx
  obtain ⟨h1, h2⟩ := calls_op (orc := orc) hE ⟨hk, ht⟩ hp x hx
  have hmut : InMutation D E h o t x.1 x.2 := by
    rcases hop with rfl | ⟨steps, rfl⟩ | ⟨ops, rfl⟩
    · simp only [InOp] at h2; rw [if_neg hne] at h2; exact h2
    · exact h2
    · exact h2
  rcases hmut with ⟨m1, l1, -, -, hs⟩ | ⟨k, m1, l1, -, -, hs⟩
  · exact (hs.mixins o i m l).2 ⟨hm, fun _ => trivial⟩
  · exact (hs.mixins o i m l).2 ⟨hm, fun _ => .inr ⟨hext, hmem⟩⟩

/-- C70: while an object is mutated, the calls for an old mixin (a destructor or a move constructor) can use the mixin itself and all
mixins after it. -/
theorem C70_old_mixins (D : Decls) (E : TyEnv) (orc : Orc) (hE : EnvOk D E) (h : Heap) (hk : HeapOk D E h) (ht : AllTyped h) (u : Bool) (o : Nat) (t : TypeId) (op : OOp)
    (hp : Proper E h op) (hne : E.mixins t ≠ []) (hop : op = .reset o t ∨ (∃ steps, op = .mutation o t steps) ∨ ∃ ops, op = .mutateTo o t ops)
    (k : Nat) (m : Mix) (l : Loc) (hm : ReachedAt E h o k m l) :
    ∀ x ∈ callsOp D E orc u h op, (x.1 = .destroy m l ∨ ∃ l', x.1 = .move m l' l) →
      ∀ i m' l', k ≤ i → ReachedAt E h o i m' l' → ReachedAt E x.2 o i m' l' := by
  intro x hx hc i m' l' hi hr
  obtain ⟨h1, h2⟩ := calls_op (orc := orc) hE ⟨hk, ht⟩ hp x hx
  have hmut : InMutation D E h o t x.1 x.2 := by
    rcases hop with rfl | ⟨steps, rfl⟩ | ⟨ops, rfl⟩
    · simp only [InOp] at h2; rw [if_neg hne] at h2; exact h2
    · exact h2
    · exact h2
  rcases hmut with ⟨m1, l1, -, -, hs⟩ | ⟨k', m1, l1, hm1, hc1, hs⟩
  · exact (hs.mixins o i m' l').2 ⟨hr, fun _ => trivial⟩
  · have el : m = m1 ∧ l = l1 := by
      rcases hc with hc | ⟨l2, hc⟩ <;> rcases hc1 with hc1 | ⟨l3, -, hc1⟩ <;> rw [hc] at hc1 <;> simp at hc1
      · exact hc1
      · exact ⟨hc1.1, hc1.2.2⟩
    obtain ⟨rfl, rfl⟩ := el
    obtain ⟨ob, ty, a, sl, v, a1, a2, a3, a4, -⟩ := hm
    obtain ⟨ob', ty', a', sl', v', b1, b2, b3, b4, -⟩ := hm1
    rw [a1] at b1; simp at b1; subst b1
    rw [a2] at b2; simp at b2; subst b2
    have : k = k' := nodup_index (hE.nodup ty) a4 b4
    subst this
    exact (hs.mixins o i m' l').2 ⟨hr, fun _ => .inl hi⟩

-- the mutation of the example above: mixin 7 is external and stays
example : (callEnv.mixins 1)[1]? = some 7 ∧ (callDecls.mix 7).external = true ∧ 7 ∈ callEnv.mixins 2 ∧ viewOf 0 callHeap = [0, 1, 2] ∧
    (viewsIn 0 (.reset 0 2)).length = 4 ∧ (∀ x ∈ viewsIn 0 (.reset 0 2), 1 ∈ x.2.2) := ⟨by decide +kernel, by decide +kernel, by decide +kernel, by decide +kernel, by decide +kernel, by decide +kernel⟩

/-- C70 refuted, external mixins: when object 0 (mixins 3, 7 and 1) becomes one with mixins 1 and 2, the destructor of 7 runs when the external mixin 3 is
already destroyed and its memory freed; the object still leads to it. (The calls are those in the log.) -/
theorem C70_external_refuted :
    Proper callEnv callHeap (.reset 0 3) ∧ (callDecls.mix 3).external = true ∧ (callDecls.mix 7).external = true ∧
    calledIn (.reset 0 3) = (callsOp callDecls callEnv objOrc false callHeap (.reset 0 3)).map (·.1) ∧
    ∃ x ∈ callsOp callDecls callEnv objOrc false callHeap (.reset 0 3), ∃ l ∈ [((1, 0) : Loc)], x.1 = .destroy 7 (2, 0) ∧ (callHeap.slot 0 0).map (·.loc) = some l ∧
      (callHeap.live l).map (·.1) = some 3 ∧ (x.2.obj? 0) = callHeap.obj? 0 ∧ (x.2.slot 0 0).map (·.loc) = some l ∧ x.2.live l = none ∧ x.2.blk l.1 = none :=
  ⟨by decide +kernel, by decide +kernel, by decide +kernel, by decide +kernel, by decide +kernel⟩

/-- C70, partial: in new objects (also copies), the object has no type in all constructors and destructors, so no mixins can be used through it; the
documented access to mixins made before is missing (see `C70_copy_refuted`). -/
theorem C70_new_objects_partial (D : Decls) (E : TyEnv) (orc : Orc) (hE : EnvOk D E) (h : Heap) (hk : HeapOk D E h) (ht : AllTyped h) (u : Bool) (op : OOp) (hp : Proper E h op)
    (hm : makesObject op = true) : ∀ x ∈ callsOp D E orc u h op, ∃ o ob, x.2.owner x.1.this = some o ∧ h.obj? o = none ∧ x.2.obj? o = some ob ∧ ob.ty = none ∧
      ∀ i m l, ¬ ReachedAt E x.2 o i m l := by
  intro x hx
  obtain ⟨ob, h1, h2, -, h3⟩ := C70_object D E orc hE h hk ht u op hp x hx
  obtain ⟨h3, -⟩ := h3 hm
  refine ⟨_, ob, h1, ?_, h2, h3, ?_⟩
  · have : handled h op = h.objs.length := by cases op <;> simp [makesObject] at hm <;> rfl
    rw [this]
    simp [Heap.obj?]
  · rintro i m l ⟨ob', t, a, sl, v, b1, b2, -⟩
    rw [h2] at b1; simp at b1; subst b1
    rw [h3] at b2; simp at b2

/-- C70 refuted, copies: in the copy of object 1 (mixins 2, 1 and 7) the type cannot be used by the constructor of mixin 7, nor can mixins 2 and 1, which have been
made. -/
theorem C70_copy_refuted :
    Proper callEnv callHeap (.copy 1 0) ∧ calledIn (.copy 1 0) = (callsOp callDecls callEnv objOrc false callHeap (.copy 1 0)).map (·.1) ∧ viewsIn 4 (.copy 1 0) = [(.init 2 (7, 0), some none, []), (.init 1 (7, 1), some none, []), (.init 7 (8, 0), some none, [])] :=
  ⟨by decide +kernel, by decide +kernel, by decide +kernel⟩

/-- C70: when mixins are replaced because they cannot be assigned, all others can be used. -/
theorem C70_matching (D : Decls) (E : TyEnv) (orc : Orc) (hE : EnvOk D E) (h : Heap) (hk : HeapOk D E h) (ht : AllTyped h) (u : Bool) (o src : Nat) (fb : Bool)
    (hp : Proper E h (.moveMatching o src fb)) :
    ∀ x ∈ callsOp D E orc u h (.moveMatching o src fb), ∃ k m l, ReachedAt E h o k m l ∧ (x.1 = .destroy m l ∨ ∃ src', x.1 = .move m l src') ∧
      (∀ o' i m' l', (o' ≠ o ∨ i ≠ k) → (ReachedAt E x.2 o' i m' l' ↔ ReachedAt E h o' i m' l')) := by
  intro x hx
  obtain ⟨h1, k, m, l, h2, h3⟩ := calls_op (orc := orc) hE ⟨hk, ht⟩ hp x hx
  refine ⟨k, m, l, h2, ?_, ?_⟩
  · rcases h3 with ⟨h3, -⟩ | ⟨s, h3, -⟩
    · exact .inl h3
    · exact .inr ⟨s, h3⟩
  · intro o' i m' l' hne
    rcases h3 with ⟨-, hs⟩ | ⟨s, -, hs⟩
    · exact (hs.mixins o' i m' l').trans ⟨And.left, fun a => ⟨a, fun _ => trivial⟩⟩
    · exact (hs.mixins o' i m' l').trans ⟨And.left, fun a => ⟨a, fun e => hne.resolve_left (fun h => h e)⟩⟩

example : Proper callEnv callHeap (.moveMatching 2 3 true) ∧ viewsIn 2 (.moveMatching 2 3 true) =
    [(.destroy 6 (5, 1), some (some 4), [0, 1]), (.move 6 (5, 1) (6, 1), some (some 4), [0])] := ⟨by decide +kernel, by decide +kernel⟩

end Dnmx.Props
