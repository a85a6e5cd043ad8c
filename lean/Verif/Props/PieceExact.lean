import Verif.Proofs.PieceExact
import Verif.Props.Mutations

/-!
# C46: exactly what calls of `update_at` do
-/

namespace Dnmx.Props
open Spec

/-- C46: for *all* calls of `update_at` that together succeed: each mixin with an index in the list is made (or updated) with the functions that were
given for it, all other new ones by default. (Functions given for the index behind the last mixin are for no mixin.) -/
theorem C46_update_at_exactly (D : Decls) (E : TyEnv) (orc : Orc) (hE : EnvOk D E) (h : Heap) (hk : HeapOk D E h) (o : Nat) (ob : Obj) (ho : h.obj? o = some ob)
    (t : TypeId) (hty : ob.ty ≠ some t) (hne : E.mixins t ≠ []) (l : List (Nat × NewFn × UpdFn)) (hown : ∀ x ∈ l, ownNew x.2.1 = true ∧ ownUpd x.2.2 = true) (h' : Heap)
    (hr : withMutation D E orc false h o t (l.map (fun x => (.at x.1 x.2.1 x.2.2, false))) = .ok h') :
    Mutated D E h o ob t
      (fun m k => (∀ x ∈ l, (E.mixins t)[x.1]? = some m → k = kindOf x.2.1) ∧ ((∀ x ∈ l, (E.mixins t)[x.1]? ≠ some m) → k = .dflt))
      (fun m => ∀ x ∈ l, (E.mixins t)[x.1]? = some m → x.2.2 = .noop) h' := by
  have hin : AtsInOrder (E.mixins t).length l := withMutation_in_order hr
  cases hsl : ob.isSealed with
  | true => rw [withMutation_sealed ho hsl] at hr; simp at hr
  | false =>
    have := ats_exactly (orc := orc) hE hk ho hne hsl hty l hin hown
    unfold ats at this
    rw [hr] at this
    refine completed_mutated hE hk ho hne this ?_ ?_
    · intro i m hi
      have hlt := (List.getElem?_eq_some_iff.1 hi).1
      constructor
      · intro x hx hxm
        have := nodup_index (hE.nodup t) hxm hi
        subst this
        rw [show (⟨newAt l, updAt l, fun i => decide (updAt l i ≠ .noop)⟩ : Ghost).F x.1 = newAt l x.1 from rfl, (at_some' hin.2 hx hlt).1]
      · intro hn
        rw [show (⟨newAt l, updAt l, fun i => decide (updAt l i ≠ .noop)⟩ : Ghost).F i = newAt l i from rfl, (at_none ?_).1]
        · rfl
        · rintro x hx rfl
          exact hn x hx hi
    · intro i m hi hk
      have hlt := (List.getElem?_eq_some_iff.1 hi).1
      show decide (updAt l i ≠ .noop) = false
      by_cases hex : ∃ x ∈ l, x.1 = i
      · obtain ⟨x, hx, rfl⟩ := hex
        rw [(at_some' hin.2 hx hlt).2, hk x hx hi]; rfl
      · rw [(at_none (fun x hx h => hex ⟨x, hx, h⟩)).2]; rfl

/-- C46: which calls cannot succeed: those where an index is larger than the number of mixins, or not larger than one before it - unless both are the number of
mixins. They throw, and the mutation is undone. -/
theorem C46_out_of_order_exactly (D : Decls) (E : TyEnv) (orc : Orc) (hE : EnvOk D E) (h : Heap) (hk : HeapOk D E h) (o : Nat) (ob : Obj) (ho : h.obj? o = some ob)
    (u : Bool) (t : TypeId) (hne : E.mixins t ≠ []) (l : List (Nat × NewFn × UpdFn)) (hown : ∀ x ∈ l, ownNew x.2.1 = true ∧ ownUpd x.2.2 = true)
    (hbad : (∃ x ∈ l, (E.mixins t).length < x.1) ∨
      ¬ l.Pairwise (fun a b => a.1 < b.1 ∨ (a.1 = (E.mixins t).length ∧ b.1 = (E.mixins t).length))) :
    ∃ h' e, withMutation D E orc u h o t (l.map (fun x => (.at x.1 x.2.1 x.2.2, false))) = .throw h' e ∧ UntouchedBut D E o h h' := by
  have hst : ∀ st ∈ ats l, properStep st.1 = true := by
    intro st hst
    unfold ats at hst
    obtain ⟨x, hx, rfl⟩ := List.mem_map.1 hst
    obtain ⟨h1, h2⟩ := hown x hx
    simp [properStep, h1, h2]
  have hth := mutation_throw (orc := orc) hE hk u ho hne hst true (fun h => by simp at h)
  show ∃ h' e, withMutation D E orc u h o t (ats l) = .throw h' e ∧ _
  cases hr : withMutation D E orc u h o t (ats l) with
  | ub => rw [hr] at hth; exact hth.elim
  | throw h' e => rw [hr] at hth; exact ⟨h', e, rfl, untouchedBut_failed hE hk ho hth⟩
  | ok h' =>
    exfalso
    obtain ⟨h1, h2⟩ := withMutation_in_order hr
    rcases hbad with ⟨x, hx, h3⟩ | h3
    · have := h1 x hx; omega
    · exact h3 h2

-- type 2 = [2, 1, 3]; only mixin 2 is new; twice the index behind the last mixin, then an index before it
example : finished (withMutation objDecls objEnv objOrc false objHeap 0 2 [(.at 0 (.custom 5) .noop, false), (.at 3 .dflt (.custom 6), false), (.at 3 .dflt (.custom 7), false)]) = true ∧
    (after (withMutation objDecls objEnv objOrc false objHeap 0 2 [(.at 0 (.custom 5) .noop, false), (.at 3 .dflt (.custom 6), false), (.at 3 .dflt (.custom 7), false)])).log.drop
      objHeap.log.length = [.alloc 6 (.unified 2 0), .init 2 (6, 0) (.custom 5), .init 1 (6, 1) (.moved (0, 0)), .destroy 1 (0, 0), .dealloc 0] ∧
    threw (withMutation objDecls objEnv objOrc false objHeap 0 2 [(.at 3 .dflt .noop, false), (.at 2 (.custom 5) .noop, false)]) = some .outOfOrder :=
  ⟨by decide +kernel, by decide +kernel, by decide +kernel⟩

end Dnmx.Props
