import Verif.Props.Mutations
import Verif.Proofs.SystemLemmas

/-!
# Domains together with objects: `mutate` (C45), whole programs (C59)
-/

set_option linter.unusedVariables false

namespace Dnmx.Props
open Spec

/-! ## C59 -/

/-- C59: programs that register and unregister elements, change rules, ask for types, collect garbage, and make, mutate, copy, move and destroy objects.
They have no undefined behaviour, and at the end all is well: objects have all the mixins of their types, in memory that is allocated for
them, the types of all living objects are there, and everything is constructed and destroyed in turn. Missing: what `ProperSRun` excludes,
that is, unregistering mixins that are in use or that belong to another domain (`C59_foreign_mixin_refuted`), mutations to the empty type (`C45_last_mixin_refuted`) and types that do not fit (`C24`). -/
theorem C59_programs_are_safe_partial (D : Decls) (orc : Orc) (d : DomId) (s : DomId → Settings) (prog : List SOp) (hp : ProperSRun D orc d prog ⟨initWorld s, {}⟩) :
    ∃ S, srun D orc d prog ⟨initWorld s, {}⟩ = some S ∧ SysOk D d S ∧ LogOk D S.h ∧ ∃ ops, S.W = run D (initWorld s) ops := by
  obtain ⟨S, h1, h2⟩ := srun_ok prog _ (sys_start D d s) hp
  exact ⟨S, h1, h2.ok, h2.log, srun_world prog _ S h1⟩

/-- A program: make types and objects, mutate them, collect garbage, unregister a mixin that is not in use any more. -/
def sysProg : List SOp :=
  [.dom (.regMixin 0 1), .dom (.regMixin 0 2), .dom (.regMixin 0 3), .dom (.getType 0 [1, 3]), .dom (.getType 0 [2, 1, 3]), .obj false (.newOfType 1 0 false), .obj false (.newEmpty 0 5),
   .mutate false 0 [(.add 2, some 7), (.removeName [3], none)], .gradual false 1 [.add 3, .addIfLackingName [1], .toBack 3], .gc, .cMutate false 1 [(.addName [2], some 9)], .obj false (.copy 0 2),
   .gradual false 1 [.remove 1, .removeName [2], .remove 3], .obj false (.clear 0), .obj false (.destroy 2), .gc, .dom (.unregMixin 0 2)]

def sysAfter (n : Nat) : Sys := (srun objDecls objOrc 0 (sysProg.take n) ⟨initWorld fun _ => {}, {}⟩).getD ⟨initWorld fun _ => {}, {}⟩

example : ProperSRun objDecls objOrc 0 sysProg ⟨initWorld fun _ => {}, {}⟩ ∧ (srun objDecls objOrc 0 sysProg ⟨initWorld fun _ => {}, {}⟩).isSome = true ∧
    (sysAfter 12).h.objs.map (fun x => x.bind (fun x => x.ty.map (TyEnv.ofWorld (sysAfter 12).W 0).mixins)) = [some [1, 2], some [1, 3, 2], some [1, 2]] ∧
    (typesOf (sysAfter 12).W 0).map (·.mixins) = [[1, 3], [1, 2], [1, 3, 2]] ∧ (typesOf (sysAfter 17).W 0) = [] :=
  ⟨by decide +kernel, by decide +kernel, by decide +kernel, by decide +kernel, by decide +kernel⟩

/-- C59: operations on domains (used properly) do nothing to objects: each keeps its type, this has the same mixins as before, and the objects hold the same mixins. -/
theorem C59_domain_operations_keep_objects_partial (D : Decls) (orc : Orc) (d : DomId) (S : Sys) (hS : Reachable D orc d S) (op : Op) (hp : ProperS D d S (.dom op)) :
    ∃ W, (sstep D orc d S (.dom op) = .ok ⟨W, S.h⟩ ∨ ∃ e, sstep D orc d S (.dom op) = .throw ⟨W, S.h⟩ (.dom e)) ∧
      (∀ o ob t, S.h.obj? o = some ob → ob.ty = some t → compositionOf W d t = compositionOf S.W d t ∧ compositionOf S.W d t ≠ none) ∧
      ∀ o m l v, Holds (TyEnv.ofWorld W d) S.h o m l v ↔ Holds (TyEnv.ofWorld S.W d) S.h o m l v := by
  have hi := reachable_inv hS
  have hs := dom_stays hi hp
  refine ⟨(step D S.W op).2, ?_, ?_, fun o m l v => holds_congr (fun o ob t h1 h2 => (hs o ob t h1 h2).env)⟩
  · show (SRes.ofDom S.h (step D S.W op) = _ ∨ ∃ e, SRes.ofDom S.h (step D S.W op) = _)
    unfold SRes.ofDom
    have hu := hp.1
    cases hr : (step D S.W op).1 with
    | ok u => left; simp
    | error e =>
      right
      rw [hr] at hu
      cases e <;> first | exact ⟨_, rfl⟩ | exact absurd rfl hu | simp
  · intro o ob t h1 h2
    obtain ⟨r, h3, h4⟩ := hs o ob t h1 h2
    unfold compositionOf
    rw [h3, h4]; simp

example : ProperS objDecls 0 (sysAfter 12) (.dom (.addRule 0 0)) ∧ (sysAfter 12).h.objs.length = 3 ∧ ProperS objDecls 0 (sysAfter 15) (.dom (.unregMixin 0 3)) ∧
    ¬ ProperS objDecls 0 (sysAfter 12) (.dom (.unregMixin 0 3)) :=
  ⟨by decide +kernel, by decide +kernel, by decide +kernel, by decide +kernel⟩

/-- C59: garbage collection during a program removes exactly the types that no living object has, and does nothing to objects. -/
theorem C59_garbage_collection (D : Decls) (orc : Orc) (d : DomId) (S : Sys) (hS : Reachable D orc d S) :
    ∃ W, sstep D orc d S .gc = .ok ⟨W, S.h⟩ ∧ (∀ r, r ∈ typesOf W d ↔ r ∈ typesOf S.W d ∧ ∃ o ob, S.h.obj? o = some ob ∧ ob.ty = some r.tid) ∧
      (∀ o ob t, S.h.obj? o = some ob → ob.ty = some t → compositionOf W d t = compositionOf S.W d t ∧ compositionOf S.W d t ≠ none) ∧
      ∀ o m l v, Holds (TyEnv.ofWorld W d) S.h o m l v ↔ Holds (TyEnv.ofWorld S.W d) S.h o m l v := by
  have hi := reachable_inv hS
  have hs := gc_stays hi
  refine ⟨(garbageCollect S.W d (fun t => (S.h.count t).toNat)).2, rfl, ?_, ?_, fun o m l v => holds_congr (fun o ob t h1 h2 => (hs o ob t h1 h2).env)⟩
  · intro r
    unfold typesOf
    rw [gc_types, List.mem_filter]
    refine and_congr_right (fun hr => ?_)
    simp only [decide_eq_true_eq]
    have hc := hi.good.1.counts r.tid
    constructor
    · intro h1
      have : 0 < usersOf S.h r.tid := by omega
      unfold usersOf at this
      rw [List.countP_pos_iff] at this
      obtain ⟨x, h2, h3⟩ := this
      obtain ⟨o, ho, h4⟩ := List.getElem_of_mem h2
      cases x with
      | none => simp at h3
      | some ob =>
        refine ⟨o, ob, ?_, ?_⟩
        · unfold Heap.obj?; rw [List.getElem?_eq_getElem ho, h4]; rfl
        · simp at h3; exact h3.1
    · rintro ⟨o, ob, h1, h2⟩
      refine hi.counted h1 h2 ?_
      have hne := (hi.types.ok r hr)
      rw [show (TyEnv.ofWorld S.W d).mixins r.tid = r.mixins by
        have h3 := find?_tid hi.types.tids r hr
        have h4 : ¬ r.tid = emptyTid := by have := (hi.types.tidPos r hr).1; unfold emptyTid; omega
        simp [TyEnv.ofWorld, Dom.typeAt, h4, h3]]
      exact hne.nonempty
  · intro o ob t h1 h2
    obtain ⟨r, h3, h4⟩ := hs o ob t h1 h2
    unfold compositionOf
    rw [h3, h4]; simp

theorem sysAfter_reachable (n : Nat) (h1 : ProperSRun objDecls objOrc 0 (sysProg.take n) ⟨initWorld fun _ => {}, {}⟩) (h2 : (srun objDecls objOrc 0 (sysProg.take n) ⟨initWorld fun _ => {}, {}⟩).isSome = true) :
    Reachable objDecls objOrc 0 (sysAfter n) := by
  refine ⟨fun _ => {}, sysProg.take n, h1, ?_⟩
  obtain ⟨S, hS⟩ := Option.isSome_iff_exists.1 h2
  unfold sysAfter; rw [hS]; rfl

example : Reachable objDecls objOrc 0 (sysAfter 9) ∧ (typesOf (sysAfter 9).W 0).map (·.mixins) = [[1, 3], [2, 1, 3], [1, 2]] ∧ (typesOf (sysAfter 10).W 0).map (·.mixins) = [[1, 3], [1, 2]] :=
  ⟨sysAfter_reachable 9 (by decide +kernel) (by decide +kernel), by decide +kernel, by decide +kernel⟩

/-- C59 without conditions is false: the attempt to unregister a mixin from a domain to which it does not belong throws, but it removes the types of living
objects before. Afterwards all that is done with these objects is undefined. Without this call the program is fine. -/
theorem C59_foreign_mixin_refuted :
    ∃ (before : List SOp) (bad after : SOp), ProperSRun objDecls objOrc 0 (before ++ [after]) ⟨initWorld fun _ => {}, {}⟩ ∧
      (∃ S, srun objDecls objOrc 0 before ⟨initWorld fun _ => {}, {}⟩ = some S ∧ ∃ S', sstep objDecls objOrc 0 S bad = .throw S' (.dom .unregForeign)) ∧
      srun objDecls objOrc 0 (before ++ [bad, after]) ⟨initWorld fun _ => {}, {}⟩ = none := by
  let before : List SOp := [.dom (.regMixin 0 1), .dom (.regMixin 1 2), .dom (.getType 0 [1]), .obj false (.newOfType 1 0 false)]
  let bad : SOp := .dom (.unregMixin 0 2)
  let S := (srun objDecls objOrc 0 before ⟨initWorld fun _ => {}, {}⟩).getD ⟨initWorld fun _ => {}, {}⟩
  have h1 : (srun objDecls objOrc 0 before ⟨initWorld fun _ => {}, {}⟩).isSome = true := by decide +kernel
  have h2 : (match sstep objDecls objOrc 0 S bad with | .throw _ e => some e | _ => none) = some (.dom .unregForeign) := by decide +kernel
  refine ⟨before, bad, .obj false (.clear 0), by decide +kernel, ⟨S, ?_, ?_⟩, ?_⟩
  · obtain ⟨x, hx⟩ := Option.isSome_iff_exists.1 h1
    rw [hx]; simp only [S, hx]; rfl
  · cases hr : sstep objDecls objOrc 0 S bad with
    | throw S' e => rw [hr] at h2; simp at h2; subst h2; exact ⟨S', rfl⟩
    | ok S' => rw [hr] at h2; simp at h2
    | ub => rw [hr] at h2; simp at h2
  · have h3 : (srun objDecls objOrc 0 (before ++ [bad, .obj false (.clear 0)]) ⟨initWorld fun _ => {}, {}⟩).isNone = true := by decide +kernel
    exact Option.isNone_iff_eq_none.1 h3

/-- Operations on objects in the course of which the type of object `o` is read (as opposed to being handed on). -/
inductive ReadsType : OOp → Nat → Prop
  | destroy (o : Nat) : ReadsType (.destroy o) o
  | moveAssign (o src : Nat) : ReadsType (.moveAssign o src) o
  | copy (src al : Nat) : ReadsType (.copy src al) src
  | copyFromTo (o src : Nat) : ReadsType (.copyFrom o src) o
  | copyFrom (o src : Nat) : ReadsType (.copyFrom o src) src
  | copyMatchingTo (o src : Nat) : ReadsType (.copyMatching o src) o
  | copyMatching (o src : Nat) : ReadsType (.copyMatching o src) src
  | moveMatchingTo (o src : Nat) (b : Bool) : ReadsType (.moveMatching o src b) o
  | moveMatching (o src : Nat) (b : Bool) : ReadsType (.moveMatching o src b) src
  | clear (o : Nat) : ReadsType (.clear o) o
  | reset (o : Nat) (t : TypeId) : ReadsType (.reset o t) o
  | mutation (o : Nat) (t : TypeId) (steps : List (MStep × Bool)) : ReadsType (.mutation o t steps) o
  | mutateTo (o : Nat) (t : TypeId) (inits : List InitOp) : ReadsType (.mutateTo o t inits) o

/-- C59 (why `ProperSRun` keeps the types of living objects): once the type of an object is gone, everything that reads the type of this object is
undefined, be it the object that is changed or the one that is copied. -/
theorem C59_lost_type_is_undefined (D : Decls) (orc : Orc) (d : DomId) (S : Sys) (u : Bool) (op : OOp) (o : Nat) (ob : Obj) (t : TypeId)
    (h : ReadsType op o) (ho : S.h.obj? o = some ob) (ht : ob.ty = some t) (hl : (S.W.doms d).typeAt d t = none) :
    sstep D orc d S (.obj u op) = .ub := by
  have hn : typeThere d S.W S.h o = false := by simp [typeThere, ho, ht, hl]
  cases h <;> simp [sstep, usedObjs, hn]

-- a type that was unregistered together with its mixin while an object had it
example : (srun objDecls objOrc 0 [.dom (.regMixin 0 1), .dom (.getType 0 [1]), .obj false (.newOfType 1 0 false), .dom (.unregMixin 0 1)] ⟨initWorld fun _ => {}, {}⟩).map
    (fun S => ((S.h.obj? 0).bind (·.ty), ((S.W.doms 0).typeAt 0 1).isNone)) = some (some 1, true) := by decide +kernel

/-! ## C45 -/

/-- C45: `mutate(obj, ops...)`. The wanted mixins are those of the object's type after the operations, one after the other. If an operation or getting the type fails, the object
stays as it is. If the type is the one that the object has, too. Otherwise it gets this type, with all that belongs to it (`Mutated`), or it stays as it is
(`Untouched`). If there is at most one initializer for each mixin, new mixins are made with the initializers that are given for them.
Missing: the empty type (`C45_last_mixin_refuted`). -/
theorem C45_mutate_partial (D : Decls) (orc : Orc) (d : DomId) (S : Sys) (hS : Reachable D orc d S) (o : Nat) (ob : Obj) (ho : S.h.obj? o = some ob) (t : TypeId) (ht : ob.ty = some t)
    (ops : List MutOp) (hp : ProperS D d S (.mutate false o ops)) :
    ∃ ms, compositionOf S.W d t = some ms ∧
      MutationBy D d S ms (ops.map (·.1)) (Changed D d S.h o ob (fun _ _ => True) (fun _ => True)) (sstep D orc d S (.mutate false o ops)) ∧
      (((initializers ops).map Prod.fst).Nodup → (∀ x ∈ initializers ops, S.W.mixDom x.1 = some d) →
        MutationBy D d S ms (ops.map (·.1)) (Changed D d S.h o ob (fun m k => (∀ c, (m, c) ∈ initializers ops → k = .custom c) ∧ ((∀ c, (m, c) ∉ initializers ops) → k = .dflt)) (fun _ => True))
          (sstep D orc d S (.mutate false o ops))) := by
  have hi := reachable_inv hS
  obtain ⟨r, hr⟩ := hi.there o ob t ho ht
  have hc := composition_env hr
  exact ⟨_, hc, mutate_by hi ho ht hc hp, fun hd hm => mutate_inits_by hi ho ht hc hp hd hm⟩

example : Reachable objDecls objOrc 0 (sysAfter 7) ∧ ProperS objDecls 0 (sysAfter 7) (.mutate false 0 [(.add 2, some 7), (.removeName [3], none)]) ∧
    wantedAll objDecls (getMixinByName objDecls (sysAfter 7).W 0) [.add 2, .removeName [3]] [1, 3] = .ok [1, 2] ∧
    (getTypeMut objDecls (sysAfter 7).W 0 0 [1, 2]).1 = .ok 3 ∧ ((sysAfter 8).h.obj? 0).map (·.ty) = some (some 3) :=
  ⟨sysAfter_reachable 7 (by decide +kernel) (by decide +kernel), by decide +kernel, by decide +kernel, by decide +kernel, by decide +kernel⟩

/-- C45: `mutate(obj).op()...` (gradual mutations), also with the empty type. New mixins are made by default. -/
theorem C45_gradual (D : Decls) (orc : Orc) (d : DomId) (S : Sys) (hS : Reachable D orc d S) (o : Nat) (ob : Obj) (ho : S.h.obj? o = some ob) (t : TypeId) (ht : ob.ty = some t)
    (ops : List TmOp) (hp : ProperS D d S (.gradual false o ops)) :
    ∃ ms, compositionOf S.W d t = some ms ∧ MutationBy D d S ms ops (ChangedOrEmptied D d S.h o ob) (sstep D orc d S (.gradual false o ops)) := by
  have hi := reachable_inv hS
  obtain ⟨r, hr⟩ := hi.there o ob t ho ht
  have hc := composition_env hr
  exact ⟨_, hc, gradual_by hi ho ht hc hp⟩

example : Reachable objDecls objOrc 0 (sysAfter 12) ∧ ProperS objDecls 0 (sysAfter 12) (.gradual false 1 [.remove 1, .removeName [2], .remove 3]) ∧
    ((sysAfter 13).h.obj? 1).map (·.ty) = some (some emptyTid) ∧ ProperS objDecls 0 (sysAfter 8) (.gradual false 1 [.add 3, .addIfLackingName [1], .toBack 3]) ∧
    wantedAll objDecls (getMixinByName objDecls (sysAfter 8).W 0) [.add 3, .addIfLackingName [1], .toBack 3] [] = .ok [1, 3] :=
  ⟨sysAfter_reachable 12 (by decide +kernel) (by decide +kernel), by decide +kernel, by decide +kernel, by decide +kernel, by decide +kernel⟩

/-- C45: `dnmx_mutate`. For each mixin, the first `add` that has an initializer and names it (by info or by name) makes the mixin, if it is new.
Missing: the empty type. -/
theorem C45_c_mutate_partial (D : Decls) (orc : Orc) (d : DomId) (S : Sys) (hS : Reachable D orc d S) (o : Nat) (ob : Obj) (ho : S.h.obj? o = some ob) (t : TypeId) (ht : ob.ty = some t)
    (ops : List MutOp) (hp : ProperS D d S (.cMutate false o ops)) :
    ∃ ms, compositionOf S.W d t = some ms ∧
      MutationBy D d S ms (ops.map (·.1)) (ChangedC D d S.h o ob (fun m k => k = ((ops.find? (addsWithInit D m)).bind (·.2)).elim .dflt .custom)) (sstep D orc d S (.cMutate false o ops)) := by
  have hi := reachable_inv hS
  obtain ⟨r, hr⟩ := hi.there o ob t ho ht
  have hc := composition_env hr
  exact ⟨_, hc, cMutate_by hi ho ht hc hp⟩

example : Reachable objDecls objOrc 0 (sysAfter 10) ∧ ProperS objDecls 0 (sysAfter 10) (.cMutate false 1 [(.addName [2], some 9)]) ∧
    ((initsOf (sysAfter 11).h.log).drop (initsOf (sysAfter 10).h.log).length).map (fun x => (x.1, x.2.2)) = [(2, .custom 9)] :=
  ⟨sysAfter_reachable 10 (by decide +kernel) (by decide +kernel), by decide +kernel, by decide +kernel⟩

/-- C45 is false for the empty type: `mutate(obj, remove<M>())` on an object whose only mixin is `M`, and the same with `dnmx_mutate`. The wanted list is empty and the domain gives the
empty type for it, but the object keeps its type and its mixin. (With assertions on, the program ends.) -/
theorem C45_last_mixin_refuted :
    ∃ (S : Sys), Reachable objDecls objOrc 0 S ∧ ((S.h.obj? 0).bind (·.ty)).map (TyEnv.ofWorld S.W 0).mixins = some [1] ∧
      wantedAll objDecls (getMixinByName objDecls S.W 0) [.remove 1] [1] = .ok [] ∧ (getTypeMut objDecls S.W 0 0 []).1 = .ok emptyTid ∧
      ∀ op ∈ [SOp.mutate false 0 [(.remove 1, none)], SOp.cMutate false 0 [(.remove 1, none)]],
        ∃ S', sstep objDecls objOrc 0 S op = .ok S' ∧ S'.h.obj? 0 = S.h.obj? 0 ∧ ∃ v, S'.h.live (0, 0) = some (1, v) := by
  let prog : List SOp := [.dom (.regMixin 0 1), .dom (.getType 0 [1]), .obj false (.newOfType 1 0 false)]
  let S := (srun objDecls objOrc 0 prog ⟨initWorld fun _ => {}, {}⟩).getD ⟨initWorld fun _ => {}, {}⟩
  have h1 : (srun objDecls objOrc 0 prog ⟨initWorld fun _ => {}, {}⟩).isSome = true := by decide +kernel
  refine ⟨S, ⟨fun _ => {}, prog, by decide +kernel, ?_⟩, by decide +kernel, by decide +kernel, by decide +kernel, ?_⟩
  · obtain ⟨x, hx⟩ := Option.isSome_iff_exists.1 h1
    rw [hx]; simp only [S, hx]; rfl
  · have h2 : ∀ op ∈ [SOp.mutate false 0 [(.remove 1, none)], SOp.cMutate false 0 [(.remove 1, none)]],
        (match sstep objDecls objOrc 0 S op with | .ok S' => some (S'.h.obj? 0, S'.h.live (0, 0)) | _ => none) = some (S.h.obj? 0, some (1, 1)) := by
      intro op hop
      simp only [List.mem_cons, List.not_mem_nil, or_false] at hop
      rcases hop with rfl | rfl <;> decide +kernel
    intro op hop
    have h2 := h2 op hop
    cases hr : sstep objDecls objOrc 0 S op with
    | ok S' => rw [hr] at h2; simp at h2; exact ⟨S', rfl, h2.1, _, h2.2⟩
    | throw S' e => rw [hr] at h2; simp at h2
    | ub => rw [hr] at h2; simp at h2

end Dnmx.Props
