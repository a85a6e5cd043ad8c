import Verif.Props.Objects
import Verif.Proofs.LostLemmas

/-!
# What mutations to types without mixins lose, exactly (C35, C36, C45)

`C35_empty_type_refuted` and `C36_empty_type_refuted` show that a mutation to a type without mixins loses a buffer. Here programs may have such mutations anywhere among
others (`DecentRun`). They never have undefined behaviour, all objects stay well, and exactly the buffers that `losses` counts are lost.
-/

set_option linter.unusedVariables false

namespace Dnmx.Props
open Spec

/-- C35: the exact form. Programs with mutations to types without mixins have no undefined behaviour; all memory belongs to an object or was lost by such a mutation, and each of
these that succeeds (not during unwinding, not rolled back, of an object of another type) loses exactly one buffer, of the type and from the allocator that are listed. -/
theorem C35_programs_exactly (D : Decls) (E : TyEnv) (orc : Orc) (hE : EnvOk D E) (ops : List (Bool × OOp)) (hd : DecentRun D E orc ops {}) :
    ∃ h lost, orun D E orc ops {} = some h ∧ LeakOk D E h lost ∧ lost.map Prod.snd = losses D E orc ops {} [] := by
  obtain ⟨h', h0, new, h1, h2, h3⟩ := leaks_run (orc := orc) hE ops {} {} [] leaks_start hd
  exact ⟨h', new ++ [], h1, leaks_ok h2, h3⟩

/-- A mutation to the type without mixins among others: one is rolled back, one is done during unwinding, one is of an object that has the type, one fails. -/
def lossyProgram : List (Bool × OOp) :=
  [(false, .newOfType 1 0 false), (false, .newOfType 2 7 false), (false, .mutation 0 0 [(.rollback, false)]), (true, .mutateTo 0 0 []), (false, .mutateTo 1 0 []), (false, .clear 0),
   (false, .mutation 1 0 [(.each .dflt .noop none, false), (.at 3 .dflt .noop, true), (.finalize, true)]), (false, .mutateTo 1 3 []), (false, .mutateTo 0 0 []), (false, .destroy 0), (false, .mutateTo 1 0 [])]

example : DecentRun objDecls objEnv objOrc lossyProgram {} ∧ losses objDecls objEnv objOrc lossyProgram {} [] = [(0, 7), (0, 7), (0, 7)] :=
  ⟨by decide +kernel, by decide +kernel⟩

/-- C35: when all objects are destroyed, no mixin lives, and exactly the listed memory remains: nothing remains if and only if no mutation lost something. -/
theorem C35_nothing_remains_exactly (D : Decls) (E : TyEnv) (orc : Orc) (hE : EnvOk D E) (ops : List (Bool × OOp)) (hd : DecentRun D E orc ops {}) :
    ∃ h, orun D E orc ops {} = some h ∧ ((∀ o, h.obj? o = none) →
      (∀ l, h.live l = none) ∧ ((∀ a, h.blk a = none) ↔ losses D E orc ops {} [] = []) ∧
      ∃ places : List Nat, places.Nodup ∧ places.length = (losses D E orc ops {} []).length ∧ ∀ a, (h.blk a).isSome ↔ a ∈ places) := by
  obtain ⟨h, lost, h1, h2, h3⟩ := C35_programs_exactly D E orc hE ops hd
  refine ⟨h, h1, fun hn => ?_⟩
  have hslot : ∀ o i m sl, ¬ SlotOf E h o i m sl := by
    rintro o i m sl ⟨ob, t, a, h4, -⟩
    rw [hn o] at h4; simp at h4
  have hblk : ∀ a, (h.blk a).isSome ↔ a ∈ lost.map Prod.fst := by
    intro a
    constructor
    · intro ha
      obtain ⟨b, hb⟩ := Option.isSome_iff_exists.1 ha
      rcases h2.blocks a b hb with ⟨o, ⟨ob, h4, -⟩ | ⟨i, m, sl, h4, -⟩⟩ | ⟨t, al, h4, -⟩
      · rw [hn o] at h4; simp at h4
      · exact absurd h4 (hslot o i m sl)
      · exact List.mem_map.2 ⟨_, h4, rfl⟩
    · intro ha
      obtain ⟨x, hx, rfl⟩ := List.mem_map.1 ha
      rw [(h2.there x hx).1]; rfl
  refine ⟨?_, ?_, lost.map Prod.fst, h2.once, ?_, hblk⟩
  · intro l
    cases hl : h.live l with
    | none => rfl
    | some x =>
      obtain ⟨o, i, m, sl, h4, -⟩ := h2.lives l x hl
      exact absurd h4 (hslot o i m sl)
  · rw [← h3]
    constructor
    · intro ha
      cases hlost : lost with
      | nil => rfl
      | cons x xs =>
        have := (hblk x.1).2 (by rw [hlost]; simp)
        rw [ha] at this; simp at this
    · intro hz
      have hl : lost = [] := by cases lost with
        | nil => rfl
        | cons x xs => simp at hz
      intro a
      have := hblk a
      rw [hl] at this
      simp only [List.map_nil, List.not_mem_nil, iff_false] at this
      cases hx : h.blk a with
      | none => rfl
      | some b => rw [hx] at this; simp at this
  · rw [← h3]; simp

example : ((orun objDecls objEnv objOrc (lossyProgram ++ [(false, .destroy 1)]) {}).map (fun h => (h.objs, (List.range 20).filter (fun a => (h.blk a).isSome)))) =
    some ([none, none], [6, 7, 9]) := by decide +kernel

/-- C36: the exact form. `num_objects` of a type is the number of living objects that have a buffer of it and of the buffers of it that were lost. -/
theorem C36_counts_exactly (D : Decls) (E : TyEnv) (orc : Orc) (hE : EnvOk D E) (ops : List (Bool × OOp)) (hd : DecentRun D E orc ops {}) :
    ∃ h, orun D E orc ops {} = some h ∧ ∀ t, h.count t = (h.objs.countP (fun x => match x with
      | some ob => ob.ty == some t && ob.data.isSome
      | none => false) : Nat) + ((losses D E orc ops {} []).countP (fun x => x.1 == t) : Nat) := by
  obtain ⟨h, lost, h1, h2, h3⟩ := C35_programs_exactly D E orc hE ops hd
  refine ⟨h, h1, fun t => ?_⟩
  rw [h2.counts t, ← h3, List.countP_map]
  rfl

/-- C36: so counts of types that have mixins are right in all these programs. -/
theorem C36_types_with_mixins (D : Decls) (E : TyEnv) (orc : Orc) (hE : EnvOk D E) (ops : List (Bool × OOp)) (hd : DecentRun D E orc ops {}) (t : TypeId) (ht : E.mixins t ≠ []) :
    ∃ h, orun D E orc ops {} = some h ∧ h.count t = h.objs.countP (fun x => match x with
      | some ob => ob.ty == some t && ob.data.isSome
      | none => false) := by
  obtain ⟨h, lost, h1, h2, h3⟩ := C35_programs_exactly D E orc hE ops hd
  refine ⟨h, h1, ?_⟩
  rw [h2.counts t]
  have : lost.countP (fun x => x.2.1 == t) = 0 := by
    rw [List.countP_eq_zero]
    intro x hx hxt
    simp only [beq_iff_eq] at hxt
    exact ht (hxt ▸ (h2.there x hx).2)
  rw [this]
  simp only [Int.natCast_zero, Int.add_zero]
  rfl

example : ((orun objDecls objEnv objOrc lossyProgram {}).map (fun h => (h.count 0, h.count 1, h.count 2, h.count 3))) = some (3, 0, 1, 0) ∧
    ((orun objDecls objEnv objOrc (lossyProgram.take 8) {}).map (fun h => (h.count 0, h.count 1, h.count 2, h.count 3))) = some (2, 0, 1, 0) :=
  ⟨by decide +kernel, by decide +kernel⟩

/-- What is left out of `DecentRun` is needed: a step that makes the next mixin of a type without mixins is undefined behaviour. -/
theorem C35_next_on_empty_needed :
    ∃ h : Heap, HeapOk objDecls objEnv h ∧ Alive h 0 ∧ objEnv.mixins 0 = [] ∧
      (ostep objDecls objEnv objOrc false h (.mutation 0 0 [(.next .dflt .noop, false)])) matches .ub ∧
      (ostep objDecls objEnv objOrc false h (.mutation 0 0 [(.at 0 .dflt .noop, false)])) matches .ub :=
  ⟨objHeap, (runOf_good objOps (by decide +kernel)).1, by decide +kernel, by decide +kernel, by decide +kernel, by decide +kernel⟩

/-- C45: what removing the last mixin does, exactly: `mutate_to` with a type without mixins never changes an object, its mixins or their values, and never has undefined behaviour; it throws
only if the object is sealed or the allocation fails; otherwise it gives back an object that still has its old type. -/
theorem C45_last_mixin_exactly (D : Decls) (E : TyEnv) (orc : Orc) (hE : EnvOk D E) (h : Heap) (hk : HeapOk D E h) (o : Nat) (ob : Obj) (ho : h.obj? o = some ob) (u : Bool)
    (t : TypeId) (ht : E.mixins t = []) (ops : List InitOp) (hops : ∀ x ∈ ops, E.indexOf t x.1 = none) :
    match ostep D E orc u h (.mutateTo o t ops) with
    | .ub => False
    | .throw h' e => h'.objs = h.objs ∧ h'.live = h.live ∧ h'.blk = h.blk ∧ ob.ty ≠ some t
    | .ok h' => h'.objs = h.objs ∧ h'.live = h.live ∧ h'.slot = h.slot ∧ (h'.blk = h.blk ↔ (u = true ∨ ob.ty = some t)) := by
  have hs : sortedOps E t ops = [] := by
    unfold sortedOps
    have : ops.filterMap (fun (m, k) => (E.indexOf t m).map (fun i => (i, k))) = [] := by
      apply List.filterMap_eq_nil_iff.2
      rintro ⟨m, k⟩ hm
      have := hops (m, k) hm
      simp only at this ⊢
      rw [this]; rfl
    rw [this]; rfl
  have hr := withMutation_empty (orc := orc) hk ht ho u [] (by simp)
  show match mutateTo D E orc u h o t ops with
    | .ub => False
    | .throw h' e => h'.objs = h.objs ∧ h'.live = h.live ∧ h'.blk = h.blk ∧ ob.ty ≠ some t
    | .ok h' => h'.objs = h.objs ∧ h'.live = h.live ∧ h'.slot = h.slot ∧ (h'.blk = h.blk ↔ (u = true ∨ ob.ty = some t))
  unfold mutateTo
  rw [ho]
  simp only
  by_cases hty : ob.ty = some t
  · rw [if_pos hty]
    exact ⟨rfl, rfl, rfl, by simp [hty]⟩
  · rw [if_neg hty, hs]
    have hm : mutateToSteps [] = [] := rfl
    rw [hm]
    cases hx : withMutation D E orc u h o t [] with
    | ub => rw [hx] at hr; exact hr
    | throw h' e => rw [hx] at hr; exact ⟨hr.objs, hr.live, hr.blk, hty⟩
    | ok h' =>
      rw [hx] at hr
      rcases hr with ⟨h1, h2⟩ | ⟨⟨h2, -, -⟩, h0, a, h3, h4, h5, h6⟩
      · refine ⟨h1.objs, h1.live, h1.slot, fun _ => ?_, fun _ => h1.blk⟩
        cases u with
        | true => exact .inl rfl
        | false => exact absurd ⟨rfl, hty, rfl⟩ h2
      · rw [h4]
        refine ⟨h3.objs, h3.live, h3.slot, ?_, ?_⟩
        · intro hb
          have h7 := congrFun hb a
          have h8 : (h0.leak (oneL a t ob.alloc) (oneC t)).blk a = some (.unified t ob.alloc) := by
            show (oneL a t ob.alloc a).or (h0.blk a) = _
            unfold oneL; rw [if_pos rfl]; rfl
          rw [h8] at h7
          have := hk.fresh a _ h7.symm
          omega
        · rintro (h7 | h7)
          · rw [h2] at h7; simp at h7
          · exact absurd h7 hty

example : HeapOk objDecls objEnv objHeap ∧ (objHeap.obj? 0).isSome = true ∧ objEnv.mixins 0 = [] ∧ (∀ x ∈ ([(1, 3)] : List InitOp), objEnv.indexOf 0 x.1 = none) ∧
    (ostep objDecls objEnv objOrc false objHeap (.mutateTo 0 0 [(1, 3)])) matches .ok _ :=
  ⟨(runOf_good objOps (by decide +kernel)).1, by decide +kernel, by decide +kernel, by decide +kernel, by decide +kernel⟩

end Dnmx.Props
