import Verif.Props.Objects
import Verif.Proofs.HandLemmas

/-!
# Initializers given to mutations (C44), piecewise mutations (C46), mutations during stack unwinding (C47), mutations ended by hand (C58)
-/

namespace Dnmx.Props
open Spec

/-! ## C44 -/

/-- C44: `mutate_to` (and so `mutate`) with at most one initializer for each mixin. New mixins are made once each, with the
initializer that is given for them, or by default. Values of common mixins do not change.
Missing: lists with several initializers for the same mixin (`C44_two_initializers_refuted`). -/
theorem C44_initializers_partial (D : Decls) (E : TyEnv) (orc : Orc) (hE : EnvOk D E) (h : Heap) (hk : HeapOk D E h) (o : Nat) (ob : Obj) (ho : h.obj? o = some ob)
    (t : TypeId) (hty : ob.ty ≠ some t) (hne : E.mixins t ≠ []) (ops : List InitOp) (hm : ∀ x ∈ ops, ∃ u, x.1 ∈ E.mixins u) (hd : (ops.map Prod.fst).Nodup)
    (h' : Heap) (hr : mutateTo D E orc false h o t ops = .ok h') :
    Mutated D E h o ob t (fun m k => (∀ c, (m, c) ∈ ops → k = .custom c) ∧ ((∀ c, (m, c) ∉ ops) → k = .dflt)) (fun _ => True) h' := by
  cases hsl : ob.isSealed with
  | true =>
    unfold mutateTo at hr
    rw [ho] at hr
    simp only [if_neg hty] at hr
    rw [withMutation_sealed ho hsl] at hr; simp at hr
  | false =>
    have := mutateTo_inits (orc := orc) hE hk ho hsl hty hne ops hd (fun x hx i hi => by obtain ⟨u, hu⟩ := hm x hx; exact (hE.index t u x.1 i hu).1 hi)
    rw [hr] at this
    exact this

/-- C44 for `dnmx_mutate_to` and `dnmx_mutate`: the first override for a mixin counts; update functions are called for common mixins only. -/
theorem C44_overrides (D : Decls) (E : TyEnv) (orc : Orc) (hE : EnvOk D E) (h : Heap) (hk : HeapOk D E h) (o : Nat) (ob : Obj) (ho : h.obj? o = some ob)
    (t : TypeId) (hty : ob.ty ≠ some t) (hne : E.mixins t ≠ []) (ovs : List COverride) (h' : Heap) (hr : cMutateTo D E orc false h o t ovs = .ok h') :
    Mutated D E h o ob t (fun m k => k = (((ovs.find? (fun ov => ov.mixin = m)).bind (·.initNew)).elim .dflt .custom))
      (fun m => ((ovs.find? (fun ov => ov.mixin = m)).bind (·.updateCommon)) = none) h' := by
  cases hsl : ob.isSealed with
  | true => unfold cMutateTo at hr; rw [withMutation_sealed ho hsl] at hr; simp at hr
  | false =>
    have := cMutateTo_ok (orc := orc) hE hk ho hsl hty hne ovs
    rw [hr] at this
    obtain ⟨F, G, T, h1, h2⟩ := this
    refine completed_mutated hE hk ho hne h1 ?_ ?_
    · intro i m hi
      obtain ⟨h3, -, -⟩ := h2 i m hi
      rw [show (⟨F, G, T⟩ : Ghost).F i = F i from rfl, h3]
      unfold cNew
      cases hf : ovs.find? (fun ov => ov.mixin = m) with
      | none => rfl
      | some ov => simp only [Option.bind_some]; cases ov.initNew <;> rfl
    · intro i m hi hn
      obtain ⟨-, -, h3⟩ := h2 i m hi
      cases hT : T i with
      | false => exact hT
      | true =>
        exfalso
        apply h3 hT
        unfold cUpd
        cases hf : ovs.find? (fun ov => ov.mixin = m) with
        | none => rfl
        | some ov => rw [hf] at hn; simp only [Option.bind_some] at hn; simp [hn]

/-- An empty object and one of type 3 = [2, 4]. -/
def initHeap : Heap := runOf [.newEmpty 1 0, .newOfType 1 0 false]

theorem initHeap_good : HeapOk objDecls objEnv initHeap ∧ AllTyped initHeap := runOf_good _ (by decide +kernel)

-- type 2 = [2, 1, 3]; initializers for 3 and 2, in this order
example : finished (mutateTo objDecls objEnv objOrc false initHeap 0 2 [(3, 30), (2, 20)]) = true ∧
    (after (mutateTo objDecls objEnv objOrc false initHeap 0 2 [(3, 30), (2, 20)])).log.drop initHeap.log.length =
      [.alloc 2 (.unified 2 0), .alloc 3 (.ext 3 (some 0)), .init 2 (2, 0) (.custom 20), .init 1 (2, 1) .dflt, .init 3 (3, 0) (.custom 30)] ∧
    (∀ x ∈ [((3 : Nat), (30 : Nat)), (2, 20)], x.1 ∈ objEnv.mixins 2) :=
  ⟨by decide +kernel, by decide +kernel, by decide +kernel⟩

example : finished (cMutateTo objDecls objEnv objOrc false initHeap 1 2 [⟨1, some 10, some 11⟩, ⟨2, some 20, some 21⟩, ⟨1, some 12, none⟩]) = true ∧
    (after (cMutateTo objDecls objEnv objOrc false initHeap 1 2 [⟨1, some 10, some 11⟩, ⟨2, some 20, some 21⟩, ⟨1, some 12, none⟩])).log.drop initHeap.log.length =
      [.alloc 2 (.unified 2 0), .init 2 (2, 0) (.custom 20), .update 1 (0, 0) 11, .init 1 (2, 1) (.moved (0, 0)), .destroy 1 (0, 0), .dealloc 0] :=
  ⟨by decide +kernel, by decide +kernel⟩

/-- C44 is not true for two initializers for the same mixin: the second one is called for the next mixin, on memory of
that mixin (mutate_to.hpp 49-55: `default_construct_each_new_mixin(index)` does nothing as the index is passed, and `update_next_mixin` takes the next
mixin). Here the initializer for mixin 2 makes mixin 1. If there is no next mixin, it is ignored. -/
theorem C44_two_initializers_refuted :
    (after (mutateTo objDecls objEnv objOrc false initHeap 0 2 [(2, 20), (2, 21)])).log.drop initHeap.log.length =
      [.alloc 2 (.unified 2 0), .alloc 3 (.ext 3 (some 0)), .init 2 (2, 0) (.custom 20), .init 1 (2, 1) (.custom 21), .init 3 (3, 0) .dflt] ∧
    (after (mutateTo objDecls objEnv objOrc false initHeap 0 1 [(3, 30), (3, 31)])).log.drop initHeap.log.length =
      [.alloc 2 (.unified 1 0), .alloc 3 (.ext 3 (some 0)), .init 1 (2, 0) .dflt, .init 3 (3, 0) (.custom 30)] :=
  ⟨by decide +kernel, by decide +kernel⟩

/-! ## C46 -/

/-- C46: calls of `update_at` with increasing indices: each mixin with an index in the list is made (or updated) with the functions that were given
for it, all other new ones by default. -/
theorem C46_update_at_partial (D : Decls) (E : TyEnv) (orc : Orc) (hE : EnvOk D E) (h : Heap) (hk : HeapOk D E h) (o : Nat) (ob : Obj) (ho : h.obj? o = some ob)
    (t : TypeId) (hty : ob.ty ≠ some t) (hne : E.mixins t ≠ []) (l : List (Nat × NewFn × UpdFn)) (hp : l.Pairwise (fun a b => a.1 < b.1))
    (hlt : ∀ x ∈ l, x.1 < (E.mixins t).length ∧ ownNew x.2.1 = true ∧ ownUpd x.2.2 = true) (h' : Heap)
    (hr : withMutation D E orc false h o t (l.map (fun x => (.at x.1 x.2.1 x.2.2, false))) = .ok h') :
    Mutated D E h o ob t
      (fun m k => (∀ x ∈ l, (E.mixins t)[x.1]? = some m → k = kindOf x.2.1) ∧ ((∀ x ∈ l, (E.mixins t)[x.1]? ≠ some m) → k = .dflt))
      (fun m => ∀ x ∈ l, (E.mixins t)[x.1]? = some m → x.2.2 = .noop) h' := by
  cases hsl : ob.isSealed with
  | true => rw [withMutation_sealed ho hsl] at hr; simp at hr
  | false =>
    have := ats_ok (orc := orc) hE hk ho hne hsl hty l hp hlt
    unfold ats at this
    rw [hr] at this
    refine completed_mutated hE hk ho hne this ?_ ?_
    · intro i m hi
      constructor
      · intro x hx hxm
        have := nodup_index (hE.nodup t) hxm hi
        subst this
        rw [show (⟨newAt l, updAt l, fun i => decide (updAt l i ≠ .noop)⟩ : Ghost).F x.1 = newAt l x.1 from rfl, (at_some hp hx).1]
      · intro hn
        rw [show (⟨newAt l, updAt l, fun i => decide (updAt l i ≠ .noop)⟩ : Ghost).F i = newAt l i from rfl, (at_none ?_).1]
        · rfl
        · rintro x hx rfl
          exact hn x hx hi
    · intro i m hi hk
      show decide (updAt l i ≠ .noop) = false
      by_cases hex : ∃ x ∈ l, x.1 = i
      · obtain ⟨x, hx, rfl⟩ := hex
        rw [(at_some hp hx).2, hk x hx hi]; rfl
      · rw [(at_none (fun x hx h => hex ⟨x, hx, h⟩)).2]; rfl

/-- C46: if an index is passed already or is too large, the mutation throws and is undone. Missing: the index that equals the number of mixins
(`C46_end_index_refuted`). -/
theorem C46_wrong_index_partial (D : Decls) (E : TyEnv) (orc : Orc) (hE : EnvOk D E) (h : Heap) (hk : HeapOk D E h) (o : Nat) (ob : Obj) (ho : h.obj? o = some ob)
    (u : Bool) (t : TypeId) (hne : E.mixins t ≠ []) (l : List (Nat × NewFn × UpdFn)) (hown : ∀ x ∈ l, ownNew x.2.1 = true ∧ ownUpd x.2.2 = true)
    (hend : ∀ x ∈ l, x.1 ≠ (E.mixins t).length) (hbad : (∃ x ∈ l, (E.mixins t).length < x.1) ∨ ¬ l.Pairwise (fun a b => a.1 < b.1)) :
    ∃ h' e, withMutation D E orc u h o t (l.map (fun x => (.at x.1 x.2.1 x.2.2, false))) = .throw h' e ∧ UntouchedBut D E o h h' := by
  have hst : ∀ st ∈ ats l, properStep st.1 = true := by
    intro st hst
    unfold ats at hst
    obtain ⟨x, hx, rfl⟩ := List.mem_map.1 hst
    obtain ⟨h1, h2⟩ := hown x hx
    simp [properStep, h1, h2]
  have hth := mutation_throw (orc := orc) hE hk u ho hne hst true (fun h => by simp at h)
  show ∃ h' e, withMutation D E orc u h o t (ats l) = .throw h' e ∧ _
  cases hr : withMutation D E orc u h o t (ats l) with
  | ub => rw [hr] at hth; exact hth.elim
  | throw h' e => rw [hr] at hth; exact ⟨h', e, rfl, untouchedBut_failed hE hk ho hth⟩
  | ok h' =>
    exfalso
    obtain ⟨h1, h2⟩ := withMutation_ats hr
    rcases hbad with ⟨x, hx, h3⟩ | h3
    · have := h1 x hx; omega
    · apply h3
      refine (List.pairwise_iff_forall_sublist.2 ?_)
      intro a b hab
      rcases List.pairwise_iff_forall_sublist.1 h2 hab with h4 | h4
      · exact h4
      · exact absurd h4 (hend a (hab.subset (by simp)))

-- type 2 = [2, 1, 3]; only mixin 2 is new
example : finished (withMutation objDecls objEnv objOrc false objHeap 0 2 [(.at 0 (.custom 5) .noop, false), (.at 2 .dflt (.custom 6), false)]) = true ∧
    (after (withMutation objDecls objEnv objOrc false objHeap 0 2 [(.at 0 (.custom 5) .noop, false), (.at 2 .dflt (.custom 6), false)])).log.drop objHeap.log.length =
      [.alloc 6 (.unified 2 0), .init 2 (6, 0) (.custom 5), .update 3 (1, 0) 6, .init 1 (6, 1) (.moved (0, 0)), .destroy 1 (0, 0), .dealloc 0] ∧
    threw (withMutation objDecls objEnv objOrc false objHeap 0 2 [(.at 1 .dflt .noop, false), (.at 0 (.custom 5) .noop, false)]) = some .outOfOrder ∧
    threw (withMutation objDecls objEnv objOrc false objHeap 0 2 [(.at 4 .dflt .noop, false)]) = some .outOfOrder :=
  ⟨by decide +kernel, by decide +kernel, by decide +kernel, by decide +kernel⟩

/-- C46 is not true for the index just behind the last mixin: `update_at(num_mixins, f, g)` does not throw (object_mutation.hpp 87 checks for `>`), the functions are
not called, and all mixins before are made by default. If the type has no mixins at all, there is an access out of range. -/
theorem C46_end_index_refuted :
    (objEnv.mixins 2).length = 3 ∧
    (after (withMutation objDecls objEnv objOrc false objHeap 0 2 [(.at 3 (.custom 5) (.custom 6), false)])).log.drop objHeap.log.length =
      [.alloc 6 (.unified 2 0), .init 2 (6, 0) .dflt, .init 1 (6, 1) (.moved (0, 0)), .destroy 1 (0, 0), .dealloc 0] ∧
    (match withMutation objDecls objEnv objOrc false objHeap 0 0 [(.at 0 (.custom 5) (.custom 6), false)] with | .ub => true | _ => false) = true :=
  ⟨by decide +kernel, by decide +kernel, by decide +kernel⟩

/-! ## C47 -/

/-- Operations that are, or contain, an object mutation. -/
def mutates : OOp → Bool
  | .newOfType _ _ _ => true
  | .copy _ _ => true
  | .copyFrom _ _ => true
  | .reset _ _ => true
  | .mutation _ _ _ => true
  | .mutateTo _ _ _ => true
  | _ => false

/-- C47: all other operations (`clear`, moves, destruction, `copy_matching_from`, …) do the same during stack unwinding as otherwise. -/
theorem C47_other_operations_partial (D : Decls) (E : TyEnv) (orc : Orc) (h : Heap) (op : OOp) (hm : mutates op = false) :
    ostep D E orc true h op = ostep D E orc false h op := by
  cases op <;> first | rfl | simp [mutates] at hm

/-- C47: a mutation during unwinding (also in `mutate_to`) is undone, though it reports success: the object keeps type, mixins and addresses, and nothing leaks.
The full statement would be the one for `u = false`, `C34_mutation`; it is refuted below. -/
theorem C47_mutation_undone_partial (D : Decls) (E : TyEnv) (orc : Orc) (hE : EnvOk D E) (h : Heap) (hk : HeapOk D E h) (o : Nat) (t : TypeId)
    (steps : List (MStep × Bool)) (hp : Proper E h (.mutation o t steps)) (h' : Heap) (hr : withMutation D E orc true h o t steps = .ok h') :
    UntouchedBut D E o h h' := by
  obtain ⟨ob, ho⟩ := alive_obj hE hp.1
  cases hsl : ob.isSealed with
  | true => rw [withMutation_sealed ho hsl] at hr; simp at hr
  | false =>
    by_cases hty : ob.ty = some t
    · have := withMutation_same_ok (orc := orc) hE hk ho hsl hty hp.2.1 true steps true (fitsSame_of_proper hp.2.2 (by simp))
      rw [hr] at this
      exact untouchedBut_failed hE hk ho (kept_failed (D := D) this)
    · have := withMutation_ok (orc := orc) hE hk ho hsl hty hp.2.1 true steps true (fits_of_proper hp.2.2 (by simp))
      rw [hr] at this
      exact untouchedBut_failed hE hk ho this

/-- C47 is not true: `~object_mutation` rolls back whenever there are uncaught exceptions (object_mutation.cpp 51), also those that have nothing to do with the
mutation. In a destructor that runs during unwinding, `reset_type` and `mutate_to` succeed without effect, `copy_from` keeps the type of the object,
and `object(type)` and `copy()` make objects without a type, which cannot be cleared without undefined behaviour. -/
theorem C47_unwinding_refuted :
    finished (resetType objDecls objEnv objOrc true objHeap 0 2) = true ∧ ((after (resetType objDecls objEnv objOrc true objHeap 0 2)).obj? 0).map (·.ty) = some (some 1) ∧
    finished (mutateTo objDecls objEnv objOrc true objHeap 0 2 []) = true ∧ ((after (mutateTo objDecls objEnv objOrc true objHeap 0 2 [])).obj? 0).map (·.ty) = some (some 1) ∧
    finished (copyFrom objDecls objEnv objOrc true objHeap 0 2) = true ∧ ((after (copyFrom objDecls objEnv objOrc true objHeap 0 2)).obj? 0).map (·.ty) = some (some 1) ∧
    finished (newOfType objDecls objEnv objOrc true objHeap 2 0 false) = true ∧ ((after (newOfType objDecls objEnv objOrc true objHeap 2 0 false)).obj? 3).map (·.ty) = some none ∧
    finished (copyObject objDecls objEnv objOrc true objHeap 2 0) = true ∧ ((after (copyObject objDecls objEnv objOrc true objHeap 2 0)).obj? 3).map (·.ty) = some none ∧
    (match clearObject objDecls objEnv (after (copyObject objDecls objEnv objOrc true objHeap 2 0)) 3 with | .ub => true | _ => false) = true :=
  ⟨by decide +kernel, by decide +kernel, by decide +kernel, by decide +kernel, by decide +kernel, by decide +kernel, by decide +kernel, by decide +kernel,
    by decide +kernel, by decide +kernel, by decide +kernel⟩

example : Proper objEnv objHeap (.mutation 0 2 [(.each .dflt (.custom 5) none, false)]) ∧
    finished (withMutation objDecls objEnv objOrc true objHeap 0 2 [(.each .dflt (.custom 5) none, false)]) = true ∧
    (after (withMutation objDecls objEnv objOrc true objHeap 0 2 [(.each .dflt (.custom 5) none, false)])).log.drop objHeap.log.length =
      [.alloc 6 (.unified 2 0), .init 2 (6, 0) .dflt, .update 1 (0, 0) 5, .update 3 (1, 0) 5, .destroy 2 (6, 0), .dealloc 6] :=
  ⟨by decide +kernel, by decide +kernel, by decide +kernel⟩

/-! ## C58 -/

/-- C58: a mutation that ends with a call of `rollback` leaves the object as it was (but for values that an update function has changed), and nothing leaks. It does so with and
without an exception. -/
theorem C58_rollback (D : Decls) (E : TyEnv) (orc : Orc) (hE : EnvOk D E) (h : Heap) (hk : HeapOk D E h) (u : Bool) (o : Nat) (t : TypeId)
    (steps : List (MStep × Bool)) (hp : Proper E h (.mutation o t steps)) (h' : Heap)
    (hr : withMutation D E orc u h o t (steps ++ [(.rollback, false)]) = .ok h' ∨ ∃ e, withMutation D E orc u h o t (steps ++ [(.rollback, false)]) = .throw h' e) :
    UntouchedBut D E o h h' := by
  rw [rollback_last u false hp.2.2] at hr
  rcases hr with hr | ⟨e, hr⟩
  · exact C47_mutation_undone_partial D E orc hE h hk o t steps hp h' hr
  · obtain ⟨ob, ho⟩ := alive_obj hE hp.1
    have hth := mutation_throw (orc := orc) hE hk true ho hp.2.1 hp.2.2 true (fun h => by simp at h)
    rw [hr] at hth
    exact untouchedBut_failed hE hk ho hth

/-- C58: a call of `finalize` at the end of a mutation changes nothing about its outcome. Missing: exceptions between the call and the end of the scope
(`C58_exception_after_finalize_refuted`). -/
theorem C58_finalize_partial (D : Decls) (E : TyEnv) (orc : Orc) (h : Heap) (o : Nat) (t : TypeId)
    (steps : List (MStep × Bool)) (hp : Proper E h (.mutation o t steps)) :
    withMutation D E orc false h o t (steps ++ [(.finalize, false)]) = withMutation D E orc false h o t steps :=
  finalize_last false hp.2.2

example : Proper objEnv objHeap (.mutation 0 2 [(.each .dflt (.custom 5) none, false)]) ∧
    finished (withMutation objDecls objEnv objOrc false objHeap 0 2 ([(.each .dflt (.custom 5) none, false)] ++ [(.rollback, false)])) = true ∧
    ((after (withMutation objDecls objEnv objOrc false objHeap 0 2 ([(.each .dflt (.custom 5) none, false)] ++ [(.rollback, false)]))).obj? 0).map (·.ty) = some (some 1) ∧
    ((after (withMutation objDecls objEnv objOrc false objHeap 0 2 ([(.each .dflt (.custom 5) none, false)] ++ [(.finalize, false)]))).obj? 0).map (·.ty) = some (some 2) :=
  ⟨by decide +kernel, by decide +kernel, by decide +kernel, by decide +kernel⟩

/-- C58 is not true if there is an exception after `finalize`: the destructor of the mutation still rolls back (object_mutation.cpp 48-53; `finalize` leaves nothing that tells it is
done), that is it destroys the mixins of the new type and releases their buffer (`log`), while the object refers to them. Destroying the object then is undefined behaviour. This is also so
if the type of the object was the target type before: its old mixins are destroyed. -/
theorem C58_exception_after_finalize_refuted :
    threw (withMutation objDecls objEnv objOrc false objHeap 0 2 [(.each .dflt .noop none, false), (.finalize, false), (.throw, false)]) = some .outside ∧
    ((after (withMutation objDecls objEnv objOrc false objHeap 0 2 [(.each .dflt .noop none, false), (.finalize, false), (.throw, false)])).obj? 0).map (fun ob => (ob.ty, ob.data)) = some (some 2, some 6) ∧
    (after (withMutation objDecls objEnv objOrc false objHeap 0 2 [(.each .dflt .noop none, false), (.finalize, false), (.throw, false)])).blk 6 = none ∧
    (match ostep objDecls objEnv objOrc false (after (withMutation objDecls objEnv objOrc false objHeap 0 2 [(.each .dflt .noop none, false), (.finalize, false), (.throw, false)]))
      (.destroy 0) with | .ub => true | _ => false) = true ∧
    ((after (withMutation objDecls objEnv objOrc false objHeap 0 1 [(.each .dflt .noop none, false), (.finalize, false), (.throw, false)])).obj? 0).map (fun ob => (ob.ty, ob.data)) = some (some 1, some 0) ∧
    (after (withMutation objDecls objEnv objOrc false objHeap 0 1 [(.each .dflt .noop none, false), (.finalize, false), (.throw, false)])).blk 0 = none :=
  ⟨by decide +kernel, by decide +kernel, by decide +kernel, by decide +kernel, by decide +kernel, by decide +kernel⟩

end Dnmx.Props
