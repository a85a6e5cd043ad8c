import Verif.Proofs.OutcomeLemmas
import Verif.Proofs.EnvLemmas
import Verif.Proofs.LogLemmas

/-!
# Mutations of objects (C33, C34), memory and lives (C35), object counts (C36), back pointers (C39)

The theorems are about every heap in which all objects are well (`HeapOk`) and have a type (`AllTyped`); `C35_programs_are_safe` says that
these are all heaps that programs can reach. `EnvOk` is what objects need of types; `C35_domains_have_proper_types` says that
the types of each domain are like this.
-/

namespace Dnmx.Props
open Spec

/-! ## An example

Mixins 1 and 2 are in the buffer of the object, 3 is separate, 4 cannot be made by default. -/

def objDecls : Decls where
  mem := fun a => UInt8.ofNat a
  mix := fun m => { name := ⟨m, m + 1⟩, size := 8, align := 8, forceExternal := m = 3, hasInit := m ≠ 4, hasCopyInit := m ≠ 5, hasCopyAsgn := m ≠ 5 ∧ m ≠ 6, hasMoveAsgn := m ≠ 6 }
  feat := fun f => { name := ⟨f, f + 1⟩ }
  userRule := fun _ => ⟨⟨0, 0⟩, none, 0⟩
  cls := fun _ => ⟨⟨0, 0⟩, false, fun _ => true⟩

def objTypes (t : TypeId) : List Mix :=
  if t = 1 then [1, 3] else if t = 2 then [2, 1, 3] else if t = 3 then [2, 4] else if t = 4 then [3, 5] else if t = 5 then [1, 6] else []

def objEnv : TyEnv := envOf objDecls objTypes

theorem objEnv_ok : EnvOk objDecls objEnv := by
  refine envOf_ok ?_ rfl
  intro t
  unfold objTypes
  split
  · decide
  · split
    · decide
    · split
      · decide
      · split
        · decide
        · split <;> decide

/-- Nothing fails; the n-th value is n. -/
def objOrc : Orc := ⟨fun _ => false, fun n => n⟩

/-- The n-th call fails. -/
def failAt (n : Nat) : Orc := ⟨fun k => k == n, fun n => n⟩

/-- Two objects of type 1, one of type 2. -/
def objOps : List OOp := [.newOfType 1 0 false, .newOfType 1 0 false, .newOfType 2 0 false]

def runOf (ops : List OOp) : Heap := (orun objDecls objEnv objOrc (ops.map (fun op => (false, op))) {}).getD {}

def objHeap : Heap := runOf objOps

theorem runOf_good (ops : List OOp) (hp : ProperRun objDecls objEnv objOrc (ops.map (fun op => (false, op))) {}) : HeapOk objDecls objEnv (runOf ops) ∧ AllTyped (runOf ops) := by
  obtain ⟨h', h1, h2⟩ := good_run (orc := objOrc) objEnv_ok _ {} good_start hp
  unfold runOf; rw [h1]; exact h2

theorem objHeap_good : HeapOk objDecls objEnv objHeap ∧ AllTyped objHeap := runOf_good objOps (by decide +kernel)

/-- How an operation ended. -/
def threw : Res Heap → Option XErr
  | .throw _ e => some e
  | _ => none

def finished : Res Heap → Bool
  | .ok _ => true
  | _ => false

def after : Res Heap → Heap
  | .ok h => h
  | .throw h _ => h
  | .ub => {}

/-! ## C33 -/

/-- C33: an operation that fails — construction of an object, copy, change of type by `reset_type`, `mutate_to` or a mutation, move
assignment, `clear`, wherever the failure comes from — changes nothing: all objects keep their types, mixins, addresses and
values, everything constructed so far is destroyed, once and in reverse order, all memory is released, and counts are as before.
`Careful` leaves out what changes values of common mixins, for which see below. -/
theorem C33_failure_changes_nothing (D : Decls) (E : TyEnv) (orc : Orc) (hE : EnvOk D E) (h : Heap) (hk : HeapOk D E h) (ht : AllTyped h)
    (u : Bool) (op : OOp) (hp : Proper E h op) (hc : Careful op) (h' : Heap) (e : XErr) (hr : ostep D E orc u h op = .throw h' e) : Untouched D E h h' :=
  careful_throw hE ⟨hk, ht⟩ u hp hc hr

-- the second initialization fails, after two allocations: mixin 2 is gone again
example : Proper objEnv objHeap (.reset 0 2) ∧ Careful (.reset 0 2) ∧ threw (ostep objDecls objEnv (failAt 14) false objHeap (.reset 0 3)) = some (.user 14) ∧
    threw (ostep objDecls objEnv objOrc false objHeap (.reset 0 3)) = some (.missingFunc 4) ∧
    (after (ostep objDecls objEnv objOrc false objHeap (.reset 0 3))).log.drop objHeap.log.length =
      [.alloc 6 (.unified 3 0), .init 2 (6, 0) .dflt, .destroy 2 (6, 0), .dealloc 6] :=
  ⟨by decide +kernel, trivial, by decide +kernel, by decide +kernel, by decide +kernel⟩

/-- C33: mutations with functions that update common mixins (also those of the C API, `cMutateTo`): the same, apart from the values of
the object's mixins, which these functions may have changed. -/
theorem C33_failed_updates (D : Decls) (E : TyEnv) (orc : Orc) (hE : EnvOk D E) (h : Heap) (hk : HeapOk D E h) (u : Bool) (o : Nat) (t : TypeId)
    (steps : List (MStep × Bool)) (hp : Proper E h (.mutation o t steps)) (h' : Heap) (e : XErr) (hr : withMutation D E orc u h o t steps = .throw h' e) :
    UntouchedBut D E o h h' := by
  obtain ⟨ob, ho⟩ := alive_obj hE hp.1
  have := mutation_throw (orc := orc) hE hk u ho hp.2.1 hp.2.2 true (fun h => by simp at h)
  rw [hr] at this
  exact untouchedBut_failed hE hk ho this

-- the update of common mixin 1 fails
example : Proper objEnv objHeap (.mutation 0 2 (cMutateSteps [⟨1, none, some 7⟩] 0 (objEnv.mixins 2))) ∧
    threw (cMutateTo objDecls objEnv (failAt 15) false objHeap 0 2 [⟨1, none, some 7⟩]) = some (.user 15) ∧
    ((after (cMutateTo objDecls objEnv (failAt 15) false objHeap 0 2 [⟨1, none, some 7⟩])).live (0, 0)) = some (1, 15) ∧ objHeap.live (0, 0) = some (1, 2) :=
  ⟨by decide +kernel, by decide +kernel, by decide +kernel, by decide +kernel⟩

/-! ## C34 -/

/-- C34: a mutation to another type that succeeds, whatever functions are given for the mixins and however they are called
(`update_next`, `update_each`, `update_at`). Values of common mixins are kept unless there are update functions. -/
theorem C34_mutation (D : Decls) (E : TyEnv) (orc : Orc) (hE : EnvOk D E) (h : Heap) (hk : HeapOk D E h) (o : Nat) (ob : Obj) (ho : h.obj? o = some ob)
    (t : TypeId) (steps : List (MStep × Bool)) (hp : Proper E h (.mutation o t steps)) (hty : ob.ty ≠ some t)
    (h' : Heap) (hr : withMutation D E orc false h o t steps = .ok h') :
    Mutated D E h o ob t (fun _ _ => True) (fun _ => ∀ st ∈ steps, noUpdate st.1 = true) h' := by
  cases hsl : ob.isSealed with
  | true => rw [withMutation_sealed ho hsl] at hr; simp at hr
  | false =>
    by_cases hu : ∀ st ∈ steps, noUpdate st.1 = true
    · have := withMutation_ok (orc := orc) hE hk ho hsl hty hp.2.1 false steps false (fits_of_proper hp.2.2 (fun _ => hu))
      rw [hr] at this
      obtain ⟨F, G, hc⟩ := this
      exact completed_mutated hE hk ho hp.2.1 hc (fun _ _ _ => trivial) (fun _ _ _ _ => rfl)
    · have := withMutation_ok (orc := orc) hE hk ho hsl hty hp.2.1 false steps true (fits_of_proper hp.2.2 (fun h => by simp at h))
      rw [hr] at this
      obtain ⟨F, G, hc⟩ := this
      exact completed_mutated hE hk ho hp.2.1 hc (fun _ _ _ => trivial) (fun _ _ _ h => absurd h hu)

-- mixin 1 moves to the new buffer, mixin 3 stays where it is, mixin 2 is new
example : Proper objEnv objHeap (.mutation 0 2 [(.at 1 (.custom 5) .noop, false)]) ∧ (objHeap.obj? 0).map (·.ty) = some (some 1) ∧
    finished (withMutation objDecls objEnv objOrc false objHeap 0 2 [(.at 1 (.custom 5) .noop, false)]) = true ∧
    (after (withMutation objDecls objEnv objOrc false objHeap 0 2 [(.at 1 (.custom 5) .noop, false)])).log.drop objHeap.log.length =
      [.alloc 6 (.unified 2 0), .init 2 (6, 0) .dflt, .init 1 (6, 1) (.moved (0, 0)), .destroy 1 (0, 0), .dealloc 0] :=
  ⟨by decide +kernel, by decide +kernel, by decide +kernel, by decide +kernel⟩

/-- C34: a mutation to the type that the object has. Nothing is constructed, destroyed or moved. -/
theorem C34_same_type (D : Decls) (E : TyEnv) (orc : Orc) (hE : EnvOk D E) (h : Heap) (hk : HeapOk D E h) (o : Nat) (ob : Obj) (ho : h.obj? o = some ob)
    (t : TypeId) (steps : List (MStep × Bool)) (hp : Proper E h (.mutation o t steps)) (hty : ob.ty = some t)
    (u : Bool) (h' : Heap) (hr : withMutation D E orc u h o t steps = .ok h') :
    UntouchedBut D E o h h' ∧ ((∀ st ∈ steps, noUpdate st.1 = true) → Untouched D E h h') ∧ initsOf h'.log = initsOf h.log ∧ destroysOf h'.log = destroysOf h.log := by
  cases hsl : ob.isSealed with
  | true => rw [withMutation_sealed ho hsl] at hr; simp at hr
  | false =>
    have := withMutation_same_ok (orc := orc) hE hk ho hsl hty hp.2.1 u steps true (fitsSame_of_proper hp.2.2 (fun h => by simp at h))
    rw [hr] at this
    refine ⟨untouchedBut_failed hE hk ho (kept_failed this), fun hu => ?_, this.2.1, this.2.2⟩
    have := withMutation_same_ok (orc := orc) hE hk ho hsl hty hp.2.1 u steps false (fitsSame_of_proper hp.2.2 (fun _ => hu))
    rw [hr] at this
    exact untouched_failed hE hk ho (fun _ => rfl) (kept_failed this)

example : Proper objEnv objHeap (.mutation 0 1 [(.at 1 (.custom 5) (.custom 6), false)]) ∧ (objHeap.obj? 0).map (·.ty) = some (some 1) ∧
    finished (withMutation objDecls objEnv objOrc false objHeap 0 1 [(.at 1 (.custom 5) (.custom 6), false)]) = true :=
  ⟨by decide +kernel, by decide +kernel, by decide +kernel⟩

/-- C34: `reset_type` to a type with mixins; all new mixins are made by default. -/
theorem C34_reset_type (D : Decls) (E : TyEnv) (orc : Orc) (hE : EnvOk D E) (h : Heap) (hk : HeapOk D E h) (o : Nat) (ob : Obj) (ho : h.obj? o = some ob)
    (t : TypeId) (hty : ob.ty ≠ some t) (hne : E.mixins t ≠ []) (h' : Heap) (hr : resetType D E orc false h o t = .ok h') :
    Mutated D E h o ob t (fun _ k => k = .dflt) (fun _ => True) h' := by
  cases hsl : ob.isSealed with
  | true => rw [resetType_sealed ho hsl] at hr; simp at hr
  | false =>
    have := resetType_ok (orc := orc) hE hk ho hsl false t
    rw [hr] at this
    rcases this with (⟨h1, -⟩ | ⟨-, h1, -⟩ | ⟨-, -, -, F, G, hc, hF⟩ | ⟨-, -, h1, -⟩)
    · exact absurd h1 hty
    · exact absurd h1 hne
    · refine completed_mutated hE hk ho hne hc ?_ (fun _ _ _ _ => rfl)
      intro i m hm; simp [hF i, kindOf]
    · simp at h1

example : (objHeap.obj? 2).map (·.ty) = some (some 2) ∧ finished (resetType objDecls objEnv objOrc false objHeap 2 1) = true ∧
    (after (resetType objDecls objEnv objOrc false objHeap 2 1)).log.drop objHeap.log.length =
      [.alloc 6 (.unified 1 0), .destroy 2 (4, 0), .init 1 (6, 0) (.moved (4, 1)), .destroy 1 (4, 1), .dealloc 4] :=
  ⟨by decide +kernel, by decide +kernel, by decide +kernel⟩

/-! ## C35 -/

/-- The types of each domain are as objects need them. -/
theorem C35_domains_have_proper_types (D : Decls) (s : DomId → Settings) (ops : List Op) (d : DomId) (hf : TypesFit D (run D (initWorld s) ops) d) :
    EnvOk D (TyEnv.ofWorld (run D (initWorld s) ops) d) :=
  ofWorld_ok (reachable_reg D s ops) (reachable_types D s ops d) hf

/-- The example's type 2 in a domain. -/
def objWorld : World := run objDecls (initWorld fun _ => {}) [.regMixin 0 1, .regMixin 0 2, .regMixin 0 3, .getType 0 [1, 3], .getType 0 [2, 1, 3]]

example : TypesFit objDecls objWorld 0 ∧ (TyEnv.ofWorld objWorld 0).mixins 1 = [1, 3] ∧ (TyEnv.ofWorld objWorld 0).mixins 2 = [2, 1, 3] ∧
    (TyEnv.ofWorld objWorld 0).internal 2 0 = true ∧ (TyEnv.ofWorld objWorld 0).internal 2 2 = false := by
  refine ⟨?_, by decide +kernel, by decide +kernel, by decide +kernel, by decide +kernel⟩
  have h : (typesOf objWorld 0).map (·.mixins) = [[1, 3], [2, 1, 3]] := by decide +kernel
  intro r hr
  have ha : ∀ m, (objDecls.mix m).external = false → LegalAlign (objDecls.mix m).align := fun m _ => .inr ⟨3, rfl⟩
  have hm : r.mixins ∈ [[1, 3], [2, 1, 3]] := by rw [← h]; exact List.mem_map_of_mem hr
  refine ⟨fun m _ => ha m, ?_⟩
  simp only [List.mem_cons, List.not_mem_nil, or_false] at hm
  rcases hm with hm | hm <;> (rw [hm]; decide +kernel)

/-- C35: programs never have undefined behaviour (use of dead mixins or released memory, construction over living mixins,
destruction of what does not live, release of memory in the wrong way or twice), whichever user functions and allocations fail. At the end all
objects are well: each has all its mixins, alive, in memory that is still there; all memory and all living mixins belong to
an object. Missing: mutations to empty types (`C35_empty_type_refuted`), construction during unwinding (`C47`), manual `finalize` and
`rollback`, and matching moves to oneself (`C42`); all of these are excluded by `ProperRun`. -/
theorem C35_programs_are_safe_partial (D : Decls) (E : TyEnv) (orc : Orc) (hE : EnvOk D E) (ops : List (Bool × OOp)) (hp : ProperRun D E orc ops {}) :
    ∃ h, orun D E orc ops {} = some h ∧ HeapOk D E h ∧ AllTyped h ∧ LogOk D h := by
  obtain ⟨h, h1, h2⟩ := good_run (orc := orc) hE ops {} good_start hp
  exact ⟨h, h1, h2.1, h2.2, log_orun ops {} h log_start h1⟩

/-- C35: in every program without undefined behaviour (proper or not), mixins are destroyed exactly as often as they are constructed
at a place, except that those that live were constructed once more; memory is released at most once, and it is unless it is still there. -/
theorem C35_balance (D : Decls) (E : TyEnv) (orc : Orc) (ops : List (Bool × OOp)) (h : Heap) (hr : orun D E orc ops {} = some h) :
    (∀ m l, (D.mix m).hasDestroy = true → births m l h.log = deaths m l h.log + (if (h.live l).map Prod.fst = some m then 1 else 0)) ∧
    (∀ a, allocs a h.log ≤ 1 ∧ deallocs a h.log ≤ 1 ∧ ((h.blk a).isSome = false → allocs a h.log = deallocs a h.log)) := by
  have := log_orun (D := D) ops {} h log_start hr
  refine ⟨this.lives, fun a => ⟨this.once a, ?_, ?_⟩⟩
  · have h1 := this.blocks a
    have h2 := this.once a
    omega
  · intro hb
    have h1 := this.blocks a
    rw [hb] at h1
    simpa using h1

/-- C35: a living mixin is in existing memory, and belongs to exactly one object. -/
theorem C35_one_holder (D : Decls) (E : TyEnv) (hE : EnvOk D E) (h : Heap) (hk : HeapOk D E h) (l : Loc) (m : Mix) (v : Nat) (hl : h.live l = some (m, v)) :
    (h.blk l.1).isSome = true ∧ (∃ o, Holds E h o m l v) ∧
    ∀ o o' m1 m2 v1 v2, Holds E h o m1 l v1 → Holds E h o' m2 l v2 → o = o' ∧ m1 = m2 ∧ v1 = v2 := by
  obtain ⟨o, i, m', sl, hs, rfl⟩ := hk.lives l (m, v) hl
  obtain ⟨_, _, _, v0, -, -, -, -, -, -, f7, -⟩ := hs.facts hk
  obtain ⟨b, hb⟩ := hs.allocated hk
  rw [hl] at f7; simp at f7; obtain ⟨rfl, rfl⟩ := f7
  refine ⟨by rw [hb]; rfl, ⟨o, i, sl, hs, rfl, hl⟩, ?_⟩
  rintro o1 o2 m1 m2 v1 v2 ⟨i1, sl1, hs1, k1, k2⟩ ⟨i2, sl2, hs2, k3, k4⟩
  obtain ⟨h1, -, h2⟩ := hs1.same hE hk hs2 (k1.trans k3.symm)
  rw [k2] at k4; simp at k4
  exact ⟨h1, h2, k4.2⟩

/-- C35: where memory comes from. The buffer of an object is allocated by the object's allocator. An external mixin has a buffer of its own, which comes from the allocator of the mixin
if it has one, and otherwise from the allocator of the object. The other mixins are in the buffer of the object. -/
theorem C35_memory_origin (D : Decls) (E : TyEnv) (hE : EnvOk D E) (h : Heap) (hk : HeapOk D E h) (o : Nat) (ob : Obj) (ho : h.obj? o = some ob) (t : TypeId) (ht : ob.ty = some t)
    (i : Nat) (m : Mix) (hm : (E.mixins t)[i]? = some m) :
    ∃ a sl v, ob.data = some a ∧ h.blk a = some (.unified t ob.alloc) ∧ h.slot a i = some sl ∧ h.live sl.loc = some (m, v) ∧
      ((D.mix m).external = false → sl.loc = (a, i) ∧ sl.buf = none) ∧
      ((D.mix m).external = true → ∃ e, sl.loc = (e, 0) ∧ sl.buf = some e ∧
        ((D.mix m).hasAllocator = true → h.blk e = some (.ext m none)) ∧ ((D.mix m).hasAllocator = false → h.blk e = some (.ext m (some ob.alloc)))) := by
  have h1 := hk.objs o ob ho
  unfold ObjOk at h1
  cases hd : ob.data with
  | none => rw [hd] at h1; rw [h1 t ht] at hm; simp at hm
  | some a =>
    rw [hd] at h1
    obtain ⟨t', h2, -, h3, h4⟩ := h1
    rw [ht] at h2; simp at h2; subst h2
    obtain ⟨sl, v, h5, h6, h7, -⟩ := h4 i m hm
    refine ⟨a, sl, v, rfl, h3, h5, h7, ?_, ?_⟩
    · intro he
      unfold PlaceOk at h6
      rw [hE.internal t i m hm, he] at h6
      simp at h6; subst h6; exact ⟨rfl, rfl⟩
    · intro he
      unfold PlaceOk at h6
      rw [hE.internal t i m hm, he] at h6
      simp only [Bool.not_true, Bool.false_eq_true, if_false] at h6
      obtain ⟨e, rfl, h8⟩ := h6
      exact ⟨e, rfl, rfl, fun ha => by rw [h8]; unfold provenance; rw [if_pos ha], fun ha => by rw [h8]; unfold provenance; rw [if_neg (by rw [ha]; simp)]⟩

-- mixin 3 is external
example : (objHeap.obj? 2).map (fun ob => (ob.ty, ob.data)) = some (some 2, some 4) ∧ (objEnv.mixins 2)[2]? = some 3 ∧ (objDecls.mix 3).external = true ∧
    (objHeap.slot 4 2).map (·.loc) = some (5, 0) ∧ objHeap.blk 5 = some (.ext 3 (some 0)) ∧ objHeap.blk 4 = some (.unified 2 0) :=
  ⟨by decide +kernel, by decide +kernel, by decide +kernel, by decide +kernel, by decide +kernel, by decide +kernel⟩

/-- C35: when all objects are gone, nothing remains. -/
theorem C35_nothing_remains (D : Decls) (E : TyEnv) (h : Heap) (hk : HeapOk D E h) (hl : LogOk D h) (hd : ∀ o, h.obj? o = none) :
    (∀ a, h.blk a = none ∧ allocs a h.log = deallocs a h.log) ∧ (∀ l, h.live l = none) ∧ (∀ t, h.count t = 0) ∧
    ∀ m l, (D.mix m).hasDestroy = true → births m l h.log = deaths m l h.log := by
  have hb : ∀ a, h.blk a = none := by
    intro a
    cases hx : h.blk a with
    | none => rfl
    | some b =>
      obtain ⟨o, ⟨ob, h1, -⟩ | ⟨i, m, sl, ⟨ob, t, a', h1, -⟩, -⟩⟩ := hk.blocks a b hx <;> (rw [hd] at h1; simp at h1)
  have hv : ∀ l, h.live l = none := by
    intro l
    cases hx : h.live l with
    | none => rfl
    | some x =>
      obtain ⟨o, i, m, sl, ⟨ob, t, a', h1, -⟩, -⟩ := hk.lives l x hx
      rw [hd] at h1; simp at h1
  refine ⟨fun a => ⟨hb a, ?_⟩, hv, ?_, ?_⟩
  · have := hl.blocks a; rw [hb] at this; simpa using this
  · intro t
    rw [hk.counts t]
    unfold usersOf
    rw [Int.natCast_eq_zero, List.countP_eq_zero]
    intro x hx
    obtain ⟨o, ho⟩ := List.getElem?_of_mem hx
    have := hd o
    unfold Heap.obj? at this
    rw [ho] at this
    simp at this
    subst this
    simp
  · intro m l hm
    have := hl.lives m l hm
    rw [hv] at this
    simpa using this

/-- Two objects, one is mutated (the first attempt fails), the other is moved; then all are destroyed, one during unwinding. -/
def wholeProgram : List (Bool × OOp) :=
  [(false, .newOfType 1 0 false), (false, .newOfType 2 0 true), (false, .reset 0 3), (false, .mutation 0 3 [(.at 1 (.custom 1) .noop, false)]),
   (false, .moveNew 1), (true, .copyFrom 0 2), (true, .destroy 2), (false, .destroy 0), (true, .destroy 1)]

def wholeHeap : Heap := (orun objDecls objEnv objOrc wholeProgram {}).getD {}

example : ProperRun objDecls objEnv objOrc wholeProgram {} ∧ wholeHeap.objs = [none, none, none] ∧ (births 2 (2, 0) wholeHeap.log, deaths 2 (2, 0) wholeHeap.log) = (1, 1) :=
  ⟨by decide +kernel, by decide +kernel, by decide +kernel⟩

/-- C35 is not true for mutations to an empty type (`mutate(obj, remove<LastMixin>())`): the object stays as it is, but a buffer is
lost. The object can be destroyed without releasing it. -/
theorem C35_empty_type_refuted :
    ∃ (ops : List (Bool × OOp)) (h : Heap), orun objDecls objEnv objOrc ops {} = some h ∧ (∀ o, h.obj? o = none) ∧ h.blk 2 = some (.unified 0 0) ∧ deallocs 2 h.log = 0 := by
  let ops : List (Bool × OOp) := [(false, .newOfType 1 0 false), (false, .mutateTo 0 0 []), (false, .destroy 0)]
  let h := (orun objDecls objEnv objOrc ops {}).getD {}
  have h1 : (orun objDecls objEnv objOrc ops {}).isSome = true := by decide +kernel
  have h2 : h.objs = [none] := by decide +kernel
  refine ⟨ops, h, ?_, ?_, by decide +kernel, by decide +kernel⟩
  · obtain ⟨x, hx⟩ := Option.isSome_iff_exists.1 h1
    rw [hx]; simp only [h, hx]; rfl
  · intro o
    unfold Heap.obj?
    rw [h2]
    cases o with
    | zero => rfl
    | succ n => rfl

/-! ## C36 -/

/-- C36: `num_objects` of each type is the number of living objects that have a buffer of it, after each program. For missing cases
see `C35_programs_are_safe_partial`. -/
theorem C36_counts_partial (D : Decls) (E : TyEnv) (orc : Orc) (hE : EnvOk D E) (ops : List (Bool × OOp)) (hp : ProperRun D E orc ops {}) :
    ∃ h, orun D E orc ops {} = some h ∧ ∀ t, h.count t = h.objs.countP (fun x => match x with
      | some ob => ob.ty == some t && ob.data.isSome
      | none => false) := by
  obtain ⟨h, h1, h2⟩ := good_run (orc := orc) hE ops {} good_start hp
  exact ⟨h, h1, h2.1.counts⟩

example : ProperRun objDecls objEnv objOrc (wholeProgram.take 5) {} ∧ ((orun objDecls objEnv objOrc (wholeProgram.take 5) {}).map (fun h => (h.count 1, h.count 2, h.count 3))) = some (0, 1, 1) :=
  ⟨by decide +kernel, by decide +kernel⟩

/-- C36 is not true for mutations to an empty type: its count goes up, and stays. -/
theorem C36_empty_type_refuted :
    ∃ (ops : List (Bool × OOp)), ((orun objDecls objEnv objOrc ops {}).map (fun h => (h.count 0, h.objs))) = some (1, [none]) :=
  ⟨[(false, .newOfType 1 0 false), (false, .mutateTo 0 0 []), (false, .destroy 0)], by decide +kernel⟩

/-! ## C39 -/

/-- C39: `object_of(mixin)` (object_of.hpp 15-20: the pointer stored before the mixin) is the object that has the mixin. -/
theorem C39_mixins_know_their_object (D : Decls) (E : TyEnv) (orc : Orc) (hE : EnvOk D E) (ops : List (Bool × OOp)) (hp : ProperRun D E orc ops {}) :
    ∃ h, orun D E orc ops {} = some h ∧ ∀ o m l v, Holds E h o m l v → h.owner l = some o := by
  obtain ⟨h, h1, h2⟩ := good_run (orc := orc) hE ops {} good_start hp
  refine ⟨h, h1, ?_⟩
  rintro o m l v ⟨i, sl, hs, rfl, -⟩
  obtain ⟨_, _, _, v0, -, -, -, -, -, -, -, f8, -⟩ := hs.facts h2.1
  exact f8

-- object 1 was moved to object 2, with mixins in the buffer and elsewhere
example : ((orun objDecls objEnv objOrc (wholeProgram.take 4) {}).map (fun h => (h.owner (2, 0), h.owner (2, 1), h.owner (3, 0)))) = some (some 1, some 1, some 1) ∧
    ((orun objDecls objEnv objOrc (wholeProgram.take 5) {}).map (fun h => (h.owner (2, 0), h.owner (2, 1), h.owner (3, 0)))) = some (some 2, some 2, some 2) :=
  ⟨by decide +kernel, by decide +kernel⟩

end Dnmx.Props
