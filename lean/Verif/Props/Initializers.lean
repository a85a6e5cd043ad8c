import Verif.Proofs.InitializerLemmas
import Verif.Props.Mutations

/-!
# C44: exactly which initializer makes which mixin

For all lists of initializers, also with several for one mixin (`C44_two_initializers_refuted`). `std::sort` (mutate_to.hpp 43-45) leaves those in any
order; the theorem is for every order.
-/

namespace Dnmx.Props
open Spec

/-- C44: for every list of initializers and every order in which those for one mixin can be left by the sort: an initializer makes the mixin it is for, or,
if that is made already, the next one which is not, or none if there is none. All other new mixins are made by default. -/
theorem C44_initializers_exactly (D : Decls) (E : TyEnv) (orc : Orc) (hE : EnvOk D E) (h : Heap) (hk : HeapOk D E h) (o : Nat) (ob : Obj) (ho : h.obj? o = some ob)
    (t : TypeId) (hty : ob.ty ≠ some t) (hne : E.mixins t ≠ []) (l : List (Nat × Nat)) (hp : l.Pairwise (fun a b => a.1 ≤ b.1))
    (hlt : ∀ x ∈ l, x.1 < (E.mixins t).length) (h' : Heap) (hr : withMutation D E orc false h o t (mutateToSteps l) = .ok h') :
    Mutated D E h o ob t (fun m k => ∀ (i : Nat), (E.mixins t)[i]? = some m →
      (∀ c, (i, c) ∈ places 0 l → k = .custom c) ∧ ((∀ c, (i, c) ∉ places 0 l) → k = .dflt)) (fun _ => True) h' := by
  cases hsl : ob.isSealed with
  | true => rw [withMutation_sealed ho hsl] at hr; simp at hr
  | false =>
    have := mutateTo_every (orc := orc) hE hk ho hsl hty hne l hp hlt
    rw [hr] at this
    obtain ⟨F, h1, h2⟩ := this
    refine completed_mutated hE hk ho hne h1 ?_ (fun _ _ _ _ => rfl)
    intro i m hi j hj
    have hij := nodup_index (hE.nodup t) hj hi
    subst hij
    show (∀ c, _ → kindOf (F j) = _) ∧ (_ → kindOf (F j) = _)
    rw [h2 j (List.getElem?_eq_some_iff.1 hi).1]
    constructor
    · intro c hc
      rw [planOf_some (places_increase 0 l) hc]; rfl
    · intro hn
      rw [planOf_none]
      · rfl
      · rintro ⟨j', c⟩ hx rfl
        exact hn c hx

/-- C44: `mutate_to` does this, with its initializers sorted by the index of their mixins in the type. -/
theorem C44_mutate_to_sorts (D : Decls) (E : TyEnv) (orc : Orc) (hE : EnvOk D E) (h : Heap) (o : Nat) (ob : Obj) (ho : h.obj? o = some ob) (t : TypeId)
    (hty : ob.ty ≠ some t) (ops : List InitOp) (hm : ∀ x ∈ ops, ∃ u, x.1 ∈ E.mixins u) :
    ∃ l : List (Nat × Nat), mutateTo D E orc false h o t ops = withMutation D E orc false h o t (mutateToSteps l) ∧
      l.Pairwise (fun a b => a.1 ≤ b.1) ∧ (∀ x ∈ l, x.1 < (E.mixins t).length) ∧
      (∀ i c, (i, c) ∈ l ↔ ∃ m, (E.mixins t)[i]? = some m ∧ (m, c) ∈ ops) ∧
      l.length = (ops.filter (fun x => decide (x.1 ∈ E.mixins t))).length := by
  have hidx : ∀ x ∈ ops, ∀ i, E.indexOf t x.1 = some i ↔ (E.mixins t)[i]? = some x.1 := by
    intro x hx i
    obtain ⟨u, hu⟩ := hm x hx
    exact hE.index t u x.1 i hu
  refine ⟨sortedOps E t ops, ?_, ?_, ?_, ?_, ?_⟩
  · unfold mutateTo; rw [ho]; simp only [if_neg hty]
  · have hs := sortBy_sorted (fun a b : Nat × Nat => decide (a.1 < b.1)) (fun _ => True) (by simp; omega) (by simp; omega)
      (ops.filterMap (fun (m, k) => (E.indexOf t m).map (fun i => (i, k)))) (fun _ _ => trivial)
    exact hs.imp (fun {a b} h => by simp at h; exact h)
  · rintro ⟨i, c⟩ hx
    obtain ⟨m, h1, h2⟩ := (sortedOps_mem hE).1 hx
    exact (List.getElem?_eq_some_iff.1 ((hidx _ h1 i).1 h2)).1
  · intro i c
    rw [sortedOps_mem hE]
    constructor
    · rintro ⟨m, h1, h2⟩; exact ⟨m, (hidx _ h1 i).1 h2, h1⟩
    · rintro ⟨m, h1, h2⟩; exact ⟨m, h2, (hidx _ h2 i).2 h1⟩
  · unfold sortedOps
    rw [(sortBy_perm _ _).length_eq]
    clear ho hty
    induction ops with
    | nil => rfl
    | cons x ops ih =>
      have ih := ih (fun y hy => hm y (by simp [hy])) (fun y hy => hidx y (by simp [hy]))
      rw [List.filterMap_cons, List.filter_cons]
      by_cases hx : x.1 ∈ E.mixins t
      · obtain ⟨i, hi⟩ := List.getElem?_of_mem hx
        have := (hidx x (by simp) i).2 hi
        simp only [this, Option.map_some, hx, decide_true, if_true, List.length_cons, ih]
      · have hn : E.indexOf t x.1 = none := by
          cases hc : E.indexOf t x.1 with
          | none => rfl
          | some i => exact absurd (mem_of_at ((hidx x (by simp) i).1 hc)) hx
        simp only [hn, Option.map_none, hx, decide_false, Bool.false_eq_true, if_false, ih]

-- type 2 = [2, 1, 3]: three initializers for mixin 2 (the third makes 3, the second 1); one for 1 that has to give way to the second for 2; two for the last mixin
example : places 0 [(0, 20), (0, 21), (0, 22)] = [(0, 20), (1, 21), (2, 22)] ∧
    (after (mutateTo objDecls objEnv objOrc false initHeap 0 2 [(2, 20), (2, 21), (2, 22)])).log.drop initHeap.log.length =
      [.alloc 2 (.unified 2 0), .alloc 3 (.ext 3 (some 0)), .init 2 (2, 0) (.custom 20), .init 1 (2, 1) (.custom 21), .init 3 (3, 0) (.custom 22)] ∧
    places 0 [(0, 20), (0, 21), (1, 10)] = [(0, 20), (1, 21), (2, 10)] ∧
    (after (mutateTo objDecls objEnv objOrc false initHeap 0 2 [(1, 10), (2, 20), (2, 21)])).log.drop initHeap.log.length =
      [.alloc 2 (.unified 2 0), .alloc 3 (.ext 3 (some 0)), .init 2 (2, 0) (.custom 20), .init 1 (2, 1) (.custom 21), .init 3 (3, 0) (.custom 10)] ∧
    places 0 [(2, 30), (2, 31)] = [(2, 30), (3, 31)] :=
  ⟨by decide +kernel, by decide +kernel, by decide +kernel, by decide +kernel, by decide +kernel⟩

end Dnmx.Props
