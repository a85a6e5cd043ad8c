import Verif.Props.Calls

/-!
# C70, exactly: which mixins can be used in calls during a mutation

`C70_external_partial` is about external mixins that stay, and `C70_external_refuted` has one that is removed. Here is for each call of a mutation which mixins of
the object can be used in it.
-/

namespace Dnmx.Props
open Spec

/-- C70: while an object is mutated to type `t`, in the call for its old mixin number `k` (a destructor or a move constructor) exactly those mixins can be used that are not before it, and the
external ones that stay. -/
theorem C70_old_mixins_exactly (D : Decls) (E : TyEnv) (orc : Orc) (hE : EnvOk D E) (h : Heap) (hk : HeapOk D E h) (ht : AllTyped h) (u : Bool) (o : Nat) (t : TypeId) (op : OOp)
    (hp : Proper E h op) (hne : E.mixins t ≠ []) (hop : op = .reset o t ∨ (∃ steps, op = .mutation o t steps) ∨ ∃ ops, op = .mutateTo o t ops)
    (k : Nat) (m : Mix) (l : Loc) (hm : ReachedAt E h o k m l) :
    ∀ x ∈ callsOp D E orc u h op, (x.1 = .destroy m l ∨ ∃ l', x.1 = .move m l' l) →
      ∀ i m' l', ReachedAt E x.2 o i m' l' ↔ ReachedAt E h o i m' l' ∧ (k ≤ i ∨ ((D.mix m').external = true ∧ m' ∈ E.mixins t)) := by
  intro x hx hc i m' l'
  obtain ⟨h1, h2⟩ := calls_op (orc := orc) hE ⟨hk, ht⟩ hp x hx
  have hmut : InMutation D E h o t x.1 x.2 := by
    rcases hop with rfl | ⟨steps, rfl⟩ | ⟨ops, rfl⟩
    · simp only [InOp] at h2; rw [if_neg hne] at h2; exact h2
    · exact h2
    · exact h2
  rcases hmut with ⟨m1, l1, hc1, hb, -⟩ | ⟨k', m1, l1, hm1, hc1, hs⟩
  · exfalso
    obtain ⟨-, -, -, -, -, -, -, -, -, -, -, -, a8, -⟩ := hm
    have : l = l1 := by
      rcases hc with hc | ⟨l2, hc⟩ <;> rcases hc1 with hc1 | hc1 <;> rw [hc] at hc1 <;> simp at hc1
      exact hc1.2
    rw [this, hb] at a8
    cases a8
  · have el : m = m1 ∧ l = l1 := by
      rcases hc with hc | ⟨l2, hc⟩ <;> rcases hc1 with hc1 | ⟨l3, -, hc1⟩ <;> rw [hc] at hc1 <;> simp at hc1
      · exact hc1
      · exact ⟨hc1.1, hc1.2.2⟩
    obtain ⟨rfl, rfl⟩ := el
    obtain ⟨ob, ty, a, sl, v, a1, a2, a3, a4, -⟩ := hm
    obtain ⟨ob', ty', a', sl', v', b1, b2, b3, b4, -⟩ := hm1
    rw [a1] at b1; simp at b1; subst b1
    rw [a2] at b2; simp at b2; subst b2
    have : k = k' := nodup_index (hE.nodup ty) a4 b4
    subst this
    rw [hs.mixins o i m' l']
    exact ⟨fun h => ⟨h.1, h.2 rfl⟩, fun h => ⟨h.1, fun _ => h.2⟩⟩

/-- C70: in the calls for new mixins (constructors, and destructors when the mutation fails) exactly the mixins that the object had can be used, all of them. -/
theorem C70_new_mixins_exactly (D : Decls) (E : TyEnv) (orc : Orc) (hE : EnvOk D E) (h : Heap) (hk : HeapOk D E h) (ht : AllTyped h) (u : Bool) (o : Nat) (t : TypeId) (op : OOp)
    (hp : Proper E h op) (hne : E.mixins t ≠ []) (hop : op = .reset o t ∨ (∃ steps, op = .mutation o t steps) ∨ ∃ ops, op = .mutateTo o t ops) :
    ∀ x ∈ callsOp D E orc u h op, (∀ k m l, ReachedAt E h o k m l → x.1 ≠ .destroy m l ∧ ∀ l', x.1 ≠ .move m l' l) →
      ∀ o' i m' l', ReachedAt E x.2 o' i m' l' ↔ ReachedAt E h o' i m' l' := by
  intro x hx hc o' i m' l'
  obtain ⟨h1, h2⟩ := calls_op (orc := orc) hE ⟨hk, ht⟩ hp x hx
  have hmut : InMutation D E h o t x.1 x.2 := by
    rcases hop with rfl | ⟨steps, rfl⟩ | ⟨ops, rfl⟩
    · simp only [InOp] at h2; rw [if_neg hne] at h2; exact h2
    · exact h2
    · exact h2
  rcases hmut with ⟨m1, l1, -, -, hs⟩ | ⟨k', m1, l1, hm1, hc1, -⟩
  · rw [hs.mixins o' i m' l']
    exact ⟨fun h => h.1, fun h => ⟨h, fun _ => trivial⟩⟩
  · exfalso
    rcases hc1 with hc1 | ⟨l2, -, hc1⟩
    · exact (hc k' m1 l1 hm1).1 hc1
    · exact (hc k' m1 l1 hm1).2 l2 hc1

/-- C70: so an external mixin cannot be used in some call of the mutation exactly if it does not stay and is before an old mixin for which there is a call. -/
theorem C70_external_exactly (D : Decls) (E : TyEnv) (orc : Orc) (hE : EnvOk D E) (h : Heap) (hk : HeapOk D E h) (ht : AllTyped h) (u : Bool) (o : Nat) (t : TypeId) (op : OOp)
    (hp : Proper E h op) (hne : E.mixins t ≠ []) (hop : op = .reset o t ∨ (∃ steps, op = .mutation o t steps) ∨ ∃ ops, op = .mutateTo o t ops)
    (i : Nat) (m : Mix) (l : Loc) (hm : ReachedAt E h o i m l) (hext : (D.mix m).external = true) :
    (∃ x ∈ callsOp D E orc u h op, ¬ ReachedAt E x.2 o i m l) ↔
      m ∉ E.mixins t ∧ ∃ k m' l', i < k ∧ ReachedAt E h o k m' l' ∧ ∃ x ∈ callsOp D E orc u h op, x.1 = .destroy m' l' ∨ ∃ l2, x.1 = .move m' l2 l' := by
  constructor
  · rintro ⟨x, hx, hn⟩
    by_cases ho : ∃ k m' l', ReachedAt E h o k m' l' ∧ (x.1 = .destroy m' l' ∨ ∃ l2, x.1 = .move m' l2 l')
    · obtain ⟨k, m', l', hr, hc⟩ := ho
      have hx' := C70_old_mixins_exactly D E orc hE h hk ht u o t op hp hne hop k m' l' hr x hx hc i m l
      refine ⟨fun hs => hn (hx'.2 ⟨hm, .inr ⟨hext, hs⟩⟩), k, m', l', Nat.lt_of_not_le fun hki => hn (hx'.2 ⟨hm, .inl hki⟩), hr, x, hx, hc⟩
    · exfalso
      refine hn ((C70_new_mixins_exactly D E orc hE h hk ht u o t op hp hne hop x hx (fun k m' l' hr => ⟨fun hc => ho ⟨k, m', l', hr, .inl hc⟩, fun l2 hc => ho ⟨k, m', l', hr, .inr ⟨l2, hc⟩⟩⟩) o i m l).2 hm)
  · rintro ⟨hs, k, m', l', hik, hr, x, hx, hc⟩
    refine ⟨x, hx, fun hn => ?_⟩
    rcases ((C70_old_mixins_exactly D E orc hE h hk ht u o t op hp hne hop k m' l' hr x hx hc i m l).1 hn).2 with h1 | h1
    · omega
    · exact hs h1.2

-- object 0 (mixins 3, 7 and 1) becomes one with mixins 1 and 2: in the destructor of 7, number 1, numbers 1 and 2 can be used, and not number 0, which is external and does not stay
example : Proper callEnv callHeap (.reset 0 3) ∧ callEnv.mixins 3 ≠ [] ∧ (callDecls.mix 3).external = true ∧ 3 ∉ callEnv.mixins 3 ∧
    (viewsIn 0 (.reset 0 3)).filter (fun x => x.1 == .destroy 7 (2, 0)) = [(.destroy 7 (2, 0), some (some 1), [1, 2])] :=
  ⟨by decide +kernel, by decide +kernel, by decide +kernel, by decide +kernel, by decide +kernel⟩

end Dnmx.Props
