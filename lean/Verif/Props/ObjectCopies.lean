import Verif.Props.ObjectMoves
import Verif.Proofs.CommonLemmas

/-!
# Copies of objects (C40, C41), copies and moves of common mixins (C42), other objects (C57)

Outside stack unwinding, for which see C47.
-/

namespace Dnmx.Props
open Spec

/-! ## C57 -/

/-- C57: an operation, successful or not, does not change an object that it is not given: neither type, sealed status and allocator, nor mixins,
their addresses and values. -/
theorem C57_other_objects (D : Decls) (E : TyEnv) (orc : Orc) (hE : EnvOk D E) (h : Heap) (hk : HeapOk D E h) (ht : AllTyped h) (u : Bool) (op : OOp) (hp : Proper E h op)
    (o : Nat) (ob : Obj) (ho : h.obj? o = some ob) (hn : o ∉ affected op) (h' : Heap)
    (hr : ostep D E orc u h op = .ok h' ∨ ∃ e, ostep D E orc u h op = .throw h' e) :
    h'.obj? o = some ob ∧ ∀ m l v, Holds E h' o m l v ↔ Holds E h o m l v := by
  have ha : Alive h o := by unfold Alive; rw [ho]; simp
  have h1 := bystander (orc := orc) hE ⟨hk, ht⟩ u hp ha (affected_subjects hn)
  have h2 := frame (orc := orc) hE ⟨hk, ht⟩ u hp ha hn
  rcases hr with h3 | ⟨e, h3⟩ <;> (rw [h3] at h1 h2; exact ⟨h1.trans ho, h2⟩)

/-- C57 for programs: as long as no operation is given the object, it stays as it is. -/
theorem C57_programs (D : Decls) (E : TyEnv) (orc : Orc) (hE : EnvOk D E) (o : Nat) (ob : Obj) : ∀ (ops : List (Bool × OOp)) (h : Heap), HeapOk D E h → AllTyped h →
    ProperRun D E orc ops h → h.obj? o = some ob → (∀ x ∈ ops, o ∉ affected x.2) →
    ∃ h', orun D E orc ops h = some h' ∧ h'.obj? o = some ob ∧ ∀ m l v, Holds E h' o m l v ↔ Holds E h o m l v
  | [], h, _, _, _, ho, _ => ⟨h, rfl, ho, fun _ _ _ => Iff.rfl⟩
  | (u, op) :: ops, h, hk, ht, hp, ho, hn => by
    obtain ⟨⟨hp1, hu⟩, hp2⟩ := hp
    have hstep := good_step (orc := orc) hE ⟨hk, ht⟩ hp1 hu
    have hother := fun h' => C57_other_objects D E orc hE h hk ht u op hp1 o ob ho (hn (u, op) (by simp)) h'
    unfold orun
    cases hr : ostep D E orc u h op with
    | ub => rw [hr] at hstep; exact hstep.elim
    | ok h1 =>
      rw [hr] at hstep
      obtain ⟨k1, k2⟩ := hother h1 (.inl hr)
      obtain ⟨h', j1, j2, j3⟩ := C57_programs D E orc hE o ob ops h1 hstep.1 hstep.2 (hp2 h1 (.inl hr)) k1 (fun x hx => hn x (by simp [hx]))
      exact ⟨h', j1, j2, fun m l v => (j3 m l v).trans (k2 m l v)⟩
    | throw h1 e =>
      rw [hr] at hstep
      obtain ⟨k1, k2⟩ := hother h1 (.inr ⟨e, hr⟩)
      obtain ⟨h', j1, j2, j3⟩ := C57_programs D E orc hE o ob ops h1 hstep.1 hstep.2 (hp2 h1 (.inr ⟨e, hr⟩)) k1 (fun x hx => hn x (by simp [hx]))
      exact ⟨h', j1, j2, fun m l v => (j3 m l v).trans (k2 m l v)⟩

-- object 1, while object 0 becomes a copy of 2, then loses its mixins, and 2 is destroyed
example : let ops : List (Bool × OOp) := [(false, .copyFrom 0 2), (true, .clear 0), (false, .destroy 2), (false, .copy 1 0)]
    ProperRun objDecls objEnv objOrc ops objHeap ∧ (objHeap.obj? 1).map (·.ty) = some (some 1) ∧ ∀ x ∈ ops, 1 ∉ affected x.2 :=
  ⟨by decide +kernel, by decide +kernel, by decide +kernel⟩

/-! ## C40 -/

/-- C40: a copy has the type and the values of the source, in memory that was free before; the source and all other objects are as they were. -/
theorem C40_copy (D : Decls) (E : TyEnv) (orc : Orc) (hE : EnvOk D E) (h : Heap) (hk : HeapOk D E h) (ht : AllTyped h) (src : Nat) (sb : Obj)
    (hs : h.obj? src = some sb) (al : Nat) (h' : Heap) (hr : copyObject D E orc false h src al = .ok h') : Copied D E h src sb al h' :=
  copyObject_copied hE ⟨hk, ht⟩ hs al hr

/-- C40: a copy that fails changes nothing and leaves nothing behind. -/
theorem C40_failed_copy (D : Decls) (E : TyEnv) (orc : Orc) (hE : EnvOk D E) (h : Heap) (hk : HeapOk D E h) (ht : AllTyped h) (src : Nat) (sb : Obj)
    (hs : h.obj? src = some sb) (al : Nat) (h' : Heap) (e : XErr) (hr : copyObject D E orc false h src al = .throw h' e) : Untouched D E h h' :=
  careful_throw (op := .copy src al) (u := false) hE ⟨hk, ht⟩ (by show Alive h src; unfold Alive; rw [hs]; simp) trivial hr

/-- C40: a copy of an object fails only if a copy function is missing or something fails. -/
theorem C40_copy_is_defined (D : Decls) (E : TyEnv) (orc : Orc) (hE : EnvOk D E) (h : Heap) (hk : HeapOk D E h) (ht : AllTyped h) (src : Nat) (sb : Obj)
    (hs : h.obj? src = some sb) (al : Nat) : copyObject D E orc false h src al ≠ .ub := by
  intro hc
  have := good_copy (orc := orc) hE ⟨hk, ht⟩ (src := src) (by unfold Alive; rw [hs]; simp) al
  rw [hc] at this; exact this

/-- C40: the copy and the source are independent: what programs do with one of them does not change the other. -/
theorem C40_independent (D : Decls) (E : TyEnv) (orc : Orc) (hE : EnvOk D E) (h : Heap) (hk : HeapOk D E h) (ht : AllTyped h) (src : Nat) (sb : Obj)
    (hs : h.obj? src = some sb) (al : Nat) (h1 : Heap) (hr : copyObject D E orc false h src al = .ok h1) (ops : List (Bool × OOp)) (hp : ProperRun D E orc ops h1)
    (h2 : Heap) (hrun : orun D E orc ops h1 = some h2) :
    ((∀ x ∈ ops, src ∉ affected x.2) → h2.obj? src = some sb ∧ ∀ m l v, Holds E h2 src m l v ↔ Holds E h src m l v) ∧
    ((∀ x ∈ ops, h.objs.length ∉ affected x.2) → ∀ m v, (∃ l, Holds E h2 h.objs.length m l v) ↔ ∃ l, Holds E h src m l v) := by
  have hc := C40_copy D E orc hE h hk ht src sb hs al h1 hr
  have hne : src ≠ h.objs.length := length_not_obj hs
  have hg1 : HeapOk D E h1 ∧ AllTyped h1 := by
    have := good_copy (orc := orc) hE ⟨hk, ht⟩ (src := src) (by unfold Alive; rw [hs]; simp) al
    rw [hr] at this; exact this
  constructor
  · intro hn
    obtain ⟨h', j1, j2, j3⟩ := C57_programs D E orc hE src sb ops h1 hg1.1 hg1.2 hp ((hc.otherObjs src hne).trans hs) hn
    rw [hrun] at j1; simp at j1; subst j1
    exact ⟨j2, fun m l v => (j3 m l v).trans (hc.others src m l v hne)⟩
  · intro hn m v
    obtain ⟨a, ha⟩ := hc.target
    obtain ⟨h', j1, j2, j3⟩ := C57_programs D E orc hE h.objs.length _ ops h1 hg1.1 hg1.2 hp ha hn
    rw [hrun] at j1; simp at j1; subst j1
    rw [← hc.values m v]
    exact ⟨fun ⟨l, hl⟩ => ⟨l, (j3 m l v).1 hl⟩, fun ⟨l, hl⟩ => ⟨l, (j3 m l v).2 hl⟩⟩

-- copies of object 2, successful, failing at the third copy, and impossible
example : finished (copyObject objDecls objEnv objOrc false objHeap 2 0) = true ∧
    (after (copyObject objDecls objEnv objOrc false objHeap 2 0)).log.drop objHeap.log.length =
      [.alloc 6 (.unified 2 0), .alloc 7 (.ext 3 (some 0)), .init 2 (6, 0) (.copied (4, 0)), .init 1 (6, 1) (.copied (4, 1)), .init 3 (7, 0) (.copied (5, 0))] ∧
    threw (copyObject objDecls objEnv (failAt 17) false objHeap 2 0) = some (.user 17) ∧
    threw (copyObject objDecls objEnv objOrc false (runOf [.newOfType 4 0 false]) 0 0) = some (.missingFunc 5) :=
  ⟨by decide +kernel, by decide +kernel, by decide +kernel, by decide +kernel⟩

/-! ## C41 -/

/-- C41: `copy_from` that succeeds. -/
theorem C41_copy_from (D : Decls) (E : TyEnv) (orc : Orc) (hE : EnvOk D E) (h : Heap) (hk : HeapOk D E h) (ht : AllTyped h) (o src : Nat) (ob sb : Obj)
    (ho : h.obj? o = some ob) (hs : h.obj? src = some sb) (h' : Heap) (hr : copyFrom D E orc false h o src = .ok h') : CopiedOver D E h o ob src sb h' :=
  copyFrom_copied hE ⟨hk, ht⟩ ho hs hr

/-- C41: `copy_from` that fails, for whatever reason: all objects have the same types and mixins, at the same addresses; only values of the target's
mixins may have changed, to those of the source (apart from the one whose copy assignment failed). -/
theorem C41_failed_copy_from (D : Decls) (E : TyEnv) (orc : Orc) (hE : EnvOk D E) (h : Heap) (hk : HeapOk D E h) (ht : AllTyped h) (u : Bool) (o src : Nat) (ob sb : Obj)
    (ho : h.obj? o = some ob) (hs : h.obj? src = some sb) (t : TypeId) (hsty : sb.ty = some t) (h' : Heap) (e : XErr) (hr : copyFrom D E orc u h o src = .throw h' e) :
    UntouchedBut D E o h h' ∧ ∃ k, CopyStopped E h o src t k h' :=
  copyFrom_throw hE ⟨hk, ht⟩ ho hs u hsty hr

/-- C41: missing copy functions (assignment for common mixins, construction for new ones) are found before anything else happens. -/
theorem C41_missing_functions (D : Decls) (E : TyEnv) (orc : Orc) (hE : EnvOk D E) (h : Heap) (hk : HeapOk D E h) (ht : AllTyped h) (u : Bool) (o src : Nat) (ob sb : Obj)
    (ho : h.obj? o = some ob) (hs : h.obj? src = some sb) (own t : TypeId) (hty : ob.ty = some own) (hsty : sb.ty = some t)
    (hex : ∃ m ∈ E.mixins t, (m ∈ E.mixins own ∧ (D.mix m).hasCopyAsgn = false) ∨ (m ∉ E.mixins own ∧ (D.mix m).hasCopyInit = false)) :
    ∃ m ∈ E.mixins t, ((m ∈ E.mixins own ∧ (D.mix m).hasCopyAsgn = false) ∨ (m ∉ E.mixins own ∧ (D.mix m).hasCopyInit = false)) ∧
      copyFrom D E orc u h o src = .throw h (.missingFunc m) :=
  copyFrom_missing hE ⟨hk, ht⟩ ho hs u hty hsty hex

/-- C41: `copy_from` is defined for all pairs of objects. -/
theorem C41_copy_from_is_defined (D : Decls) (E : TyEnv) (orc : Orc) (hE : EnvOk D E) (h : Heap) (hk : HeapOk D E h) (ht : AllTyped h) (u : Bool) (o src : Nat) (ob sb : Obj)
    (ho : h.obj? o = some ob) (hs : h.obj? src = some sb) : copyFrom D E orc u h o src ≠ .ub := by
  intro hc
  have := good_copyFrom (orc := orc) hE ⟨hk, ht⟩ u (o := o) (src := src) (by unfold Alive; rw [ho]; simp) (by unfold Alive; rw [hs]; simp)
  rw [hc] at this; exact this

-- object 0 becomes like object 2: mixin 2 is copied, 1 moved and assigned, 3 assigned; the assignment of 3 may fail
example : finished (copyFrom objDecls objEnv objOrc false objHeap 0 2) = true ∧
    threw (copyFrom objDecls objEnv (failAt 16) false objHeap 0 2) = some (.user 16) ∧
    ((after (copyFrom objDecls objEnv (failAt 16) false objHeap 0 2)).obj? 0) = objHeap.obj? 0 ∧
    ((after (copyFrom objDecls objEnv (failAt 16) false objHeap 0 2)).live (0, 0)) = objHeap.live (4, 1) ∧ objHeap.live (0, 0) ≠ objHeap.live (4, 1) :=
  ⟨by decide +kernel, by decide +kernel, by decide +kernel, by decide +kernel, by decide +kernel⟩

-- objects of types 1 and 4: mixin 5 cannot be copied
example : (∃ m ∈ objEnv.mixins 4, (m ∈ objEnv.mixins 1 ∧ (objDecls.mix m).hasCopyAsgn = false) ∨ (m ∉ objEnv.mixins 1 ∧ (objDecls.mix m).hasCopyInit = false)) ∧
    threw (copyFrom objDecls objEnv objOrc false (runOf [.newOfType 1 0 false, .newOfType 4 0 false]) 0 1) = some (.missingFunc 5) :=
  ⟨by decide +kernel, by decide +kernel⟩

/-! ## C42 -/

/-- C42: `copy_matching_from` that succeeds. -/
theorem C42_copy_matching_partial (D : Decls) (E : TyEnv) (orc : Orc) (hE : EnvOk D E) (h : Heap) (hk : HeapOk D E h) (ht : AllTyped h) (o src : Nat) (ob sb : Obj)
    (ho : h.obj? o = some ob) (hs : h.obj? src = some sb) (own t : TypeId) (hty : ob.ty = some own) (hsty : sb.ty = some t) (h' : Heap)
    (hr : copyMatchingFrom D E orc h o src = .ok h') : CommonCopied E h o src h' :=
  copyMatching_common hE ⟨hk, ht⟩ ho hs hty hsty hr

/-- C42: `copy_matching_from` that fails. -/
theorem C42_failed_copy_matching_partial (D : Decls) (E : TyEnv) (orc : Orc) (hE : EnvOk D E) (h : Heap) (hk : HeapOk D E h) (ht : AllTyped h) (o src : Nat) (ob sb : Obj)
    (ho : h.obj? o = some ob) (hs : h.obj? src = some sb) (own t : TypeId) (hty : ob.ty = some own) (hsty : sb.ty = some t) (h' : Heap) (e : XErr)
    (hr : copyMatchingFrom D E orc h o src = .throw h' e) : UntouchedBut D E o h h' ∧ ∃ k, CopyStopped E h o src t k h' :=
  copyMatching_throw hE ⟨hk, ht⟩ ho hs hty hsty hr

/-- C42: `move_matching_from` of another object that succeeds. Missing: `move_matching_from` of the object itself with fallback
(`C42_self_move_refuted`). -/
theorem C42_move_matching_partial (D : Decls) (E : TyEnv) (orc : Orc) (hE : EnvOk D E) (h : Heap) (hk : HeapOk D E h) (ht : AllTyped h) (o src : Nat) (ob sb : Obj)
    (ho : h.obj? o = some ob) (hs : h.obj? src = some sb) (own t : TypeId) (hty : ob.ty = some own) (hsty : sb.ty = some t) (fb : Bool) (hne : src ≠ o) (h' : Heap)
    (hr : moveMatchingFrom D E orc h o src fb = .ok h') : CommonMoved E h o src h' :=
  moveMatching_common hE ⟨hk, ht⟩ ho hs hty hsty fb hne hr

/-- C42: missing functions are found before anything else happens. -/
theorem C42_missing_functions_partial (D : Decls) (E : TyEnv) (orc : Orc) (hE : EnvOk D E) (h : Heap) (hk : HeapOk D E h) (ht : AllTyped h) (o src : Nat) (ob sb : Obj)
    (ho : h.obj? o = some ob) (hs : h.obj? src = some sb) (own t : TypeId) (hty : ob.ty = some own) (hsty : sb.ty = some t) :
    ((∃ m ∈ E.mixins t, m ∈ E.mixins own ∧ (D.mix m).hasCopyAsgn = false) → ∃ m, copyMatchingFrom D E orc h o src = .throw h (.missingFunc m)) ∧
    ∀ fb : Bool, (∃ m ∈ E.mixins t, m ∈ E.mixins own ∧ (D.mix m).hasMoveAsgn = false ∧ (fb = true → (D.mix m).hasMoveInit = false)) →
      ∃ m, moveMatchingFrom D E orc h o src fb = .throw h (.missingFunc m) := by
  constructor
  · intro hex
    obtain ⟨m, -, -, h1⟩ := copyMatching_missing (orc := orc) hE ⟨hk, ht⟩ ho hs hty hsty hex
    exact ⟨m, h1⟩
  · intro fb hex
    obtain ⟨m, -, -, h1⟩ := moveMatching_missing (orc := orc) hE ⟨hk, ht⟩ ho hs hty hsty fb hex
    exact ⟨m, h1⟩

/-- Objects of types 1 = [1, 3], 2 = [2, 1, 3] and two of type 5 = [1, 6]; mixin 6 can be move constructed, but not assigned. -/
def matchHeap : Heap := runOf [.newOfType 1 0 false, .newOfType 2 0 false, .newOfType 5 0 false, .newOfType 5 0 false]

theorem matchHeap_good : HeapOk objDecls objEnv matchHeap ∧ AllTyped matchHeap := runOf_good _ (by decide +kernel)

-- mixins 1 and 3 of object 1 take the values of object 0
example : finished (copyMatchingFrom objDecls objEnv objOrc matchHeap 1 0) = true ∧
    (after (copyMatchingFrom objDecls objEnv objOrc matchHeap 1 0)).log.drop matchHeap.log.length = [.copyAsgn 1 (2, 1) (0, 0), .copyAsgn 3 (3, 0) (1, 0)] ∧
    threw (copyMatchingFrom objDecls objEnv (failAt (matchHeap.tick + 1)) matchHeap 1 0) = some (.user (matchHeap.tick + 1)) ∧
    threw (copyMatchingFrom objDecls objEnv objOrc matchHeap 2 3) = some (.missingFunc 6) ∧
    threw (moveMatchingFrom objDecls objEnv objOrc matchHeap 2 3 false) = some (.missingFunc 6) ∧
    finished (moveMatchingFrom objDecls objEnv objOrc matchHeap 2 3 true) = true ∧
    (after (moveMatchingFrom objDecls objEnv objOrc matchHeap 2 3 true)).log.drop matchHeap.log.length =
      [.moveAsgn 1 (4, 0) (5, 0), .destroy 6 (4, 1), .init 6 (4, 1) (.moved (5, 1))] :=
  ⟨by decide +kernel, by decide +kernel, by decide +kernel, by decide +kernel, by decide +kernel, by decide +kernel, by decide +kernel⟩

/-- C42 is not true for `o.move_matching_from(o, true)`: a mixin without move assignment is destroyed and then move-constructed from itself
(object.cpp 177-186). -/
theorem C42_self_move_refuted : (matchHeap.obj? 2).map (·.ty) = some (some 5) ∧ moveMatchingFrom objDecls objEnv objOrc matchHeap 2 2 true = .ub ∧
    finished (moveMatchingFrom objDecls objEnv objOrc matchHeap 0 0 true) = true :=
  ⟨by decide +kernel, by
    have h1 : (match moveMatchingFrom objDecls objEnv objOrc matchHeap 2 2 true with | .ub => true | _ => false) = true := by decide +kernel
    cases hr : moveMatchingFrom objDecls objEnv objOrc matchHeap 2 2 true with
    | ub => rfl
    | ok _ => rw [hr] at h1; simp at h1
    | throw _ _ => rw [hr] at h1; simp at h1, by decide +kernel⟩

end Dnmx.Props
