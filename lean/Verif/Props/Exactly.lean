import Verif.Proofs.HandExact
import Verif.Props.Order
import Verif.Props.Mutations
import Verif.Props.ObjectCopies
import Verif.Props.MixinData
import Verif.Props.RulesV1
import Verif.Props.Compare
import Verif.Props.NamedInit

/-!
# What happens outside of the hypotheses (C22, C38, C42, C47, C54, C55, C58, C60, C76)
-/

set_option linter.unusedVariables false
set_option linter.unusedSimpArgs false

namespace Spec
open Dnmx

/-- The last two keys of the canonical order: ids, where no id comes last, and addresses. -/
def IdBefore (ids : Mix → Option Nat) (a b : Mix) : Prop :=
  (∃ i, ids a = some i ∧ ∀ j, ids b = some j → i < j) ∨ (ids a = ids b ∧ a < b)

end Spec

namespace Dnmx
open Spec

theorem idBefore_iff (ids : Mix → Option Nat) (a b : Mix) :
    (if ids a ≠ ids b then (match ids a, ids b with | some i, some j => decide (i < j) | some _, none => true | none, _ => false) else decide (a < b)) = true ↔ IdBefore ids a b := by
  unfold IdBefore
  cases ha : ids a with
  | none =>
    cases hb : ids b with
    | none => simp
    | some j => simp
  | some i =>
    cases hb : ids b with
    | none => simp
    | some j =>
      by_cases hij : i = j
      · subst hij; simp
      · simp [hij]

/-- Keys with other infos. -/
def InitKey.renamed (φ : Mix → Mix) : InitKey → InitKey
  | .info m => .info (φ m)
  | .name n => .name n

theorem affectedAll_renamed (D : Decls) (d : DomId) (W : World) (φ : Mix → Mix) (hφ : ∀ m, W.mixId (φ m) = W.mixId m) (t : TypeId) : ∀ ops : List (InitKey × Nat),
    (affectedAll D d W (ops.map (fun x => (x.1.renamed φ, x.2)))).map (fun l => l.filterMap (fun (m, k) => ((TyEnv.ofWorld W d).indexOf t m).map (fun i => (i, k)))) =
      (affectedAll D d W ops).map (fun l => l.filterMap (fun (m, k) => ((TyEnv.ofWorld W d).indexOf t m).map (fun i => (i, k))))
  | [] => rfl
  | (k, c) :: l => by
    have ih := affectedAll_renamed D d W φ hφ t l
    have hix : ∀ m, (TyEnv.ofWorld W d).indexOf t (φ m) = (TyEnv.ofWorld W d).indexOf t m := by
      intro m
      simp only [TyEnv.ofWorld, hφ]
    rw [List.map_cons]
    generalize hl : l.map (fun x => (x.1.renamed φ, x.2)) = lr at ih ⊢
    unfold affectedAll
    have hnone : affectedAll D d W lr = none ↔ affectedAll D d W l = none := by
      cases h1 : affectedAll D d W lr <;> cases h2 : affectedAll D d W l <;> rw [h1, h2] at ih <;> simp at ih ⊢
    cases k with
    | info m =>
      show Option.map _ (match (some (φ m)), affectedAll D d W lr with | some m, some l' => some ((m, c) :: l') | _, _ => none) = Option.map _ (match (some m), affectedAll D d W l with | some m, some l' => some ((m, c) :: l') | _, _ => none)
      cases h2 : affectedAll D d W l with
      | none => rw [hnone.2 h2]
      | some l2 =>
        cases h1 : affectedAll D d W lr with
        | none => rw [hnone.1 h1] at h2; simp at h2
        | some l1 =>
          rw [h1, h2] at ih
          simp only [Option.map_some, Option.some.injEq] at ih ⊢
          simp only [List.filterMap_cons, hix, ih]
    | name n =>
      show Option.map _ (match (getMixinByName D W d n), affectedAll D d W lr with | some m, some l' => some ((m, c) :: l') | _, _ => none) = Option.map _ (match (getMixinByName D W d n), affectedAll D d W l with | some m, some l' => some ((m, c) :: l') | _, _ => none)
      cases getMixinByName D W d n with
      | none => rfl
      | some m =>
        cases h2 : affectedAll D d W l with
        | none => rw [hnone.2 h2]
        | some l2 =>
          cases h1 : affectedAll D d W lr with
          | none => rw [hnone.1 h1] at h2; simp at h2
          | some l1 =>
            rw [h1, h2] at ih
            simp only [Option.map_some, Option.some.injEq] at ih ⊢
            simp only [List.filterMap_cons, ih]

theorem addRules_exact (D : Decls) (d : DomId) : ∀ (rules : List Rule) (W : World),
    (addRules D W d rules).2 = run D W ((rules.takeWhile (fun r => (ruleOf D r).apply.isSome)).map (.addRule d ·)) ∧
    ((addRules D W d rules).1 = .ok () ↔ rules.all (fun r => (ruleOf D r).apply.isSome) = true)
  | [], W => ⟨rfl, by simp [addRules]⟩
  | r :: rs, W => by
    unfold addRules
    rcases addRule_rules D W d r with ⟨h1, h2⟩ | ⟨h1, h2, -⟩
    · rw [h2]
      have h3 : (ruleOf D r).apply.isSome = false := by simpa using h1
      simp [List.takeWhile_cons, h3, run]
    · have h3 : (ruleOf D r).apply.isSome = true := by simpa using h1
      cases hx : addRule D W d r with
      | mk a W' =>
        rw [hx] at h2
        simp only at h2; subst h2
        simp only
        obtain ⟨i1, i2⟩ := addRules_exact D d rs W'
        refine ⟨?_, by rw [i2]; simp [h3]⟩
        rw [i1, List.takeWhile_cons, h3]
        simp only [if_true, List.map_cons]
        show _ = run D (step D W (.addRule d r)).2 _
        have : (step D W (.addRule d r)).2 = W' := by unfold step; simp [hx]
        rw [this]

end Dnmx

namespace Dnmx.Props
open Spec

/-- C22: what the canonical order compares, for all mixins with proper names: priorities, then names, then ids and addresses. Names that begin at the same address are taken to be equal. -/
theorem C22_order_exactly (D : Decls) (ids : Mix → Option Nat) (a b : Mix) (ha : (D.mix a).name.Valid) (hb : (D.mix b).name.Valid) :
    canonicalOrder D ids a b = true ↔ (D.mix a).orderPriority < (D.mix b).orderPriority ∨ (D.mix a).orderPriority = (D.mix b).orderPriority ∧
      (((D.mix a).name.first ≠ (D.mix b).name.first ∧ LexBefore (D.mixName a) (D.mixName b)) ∨
       (((D.mix a).name.first = (D.mix b).name.first ∨ D.mixName a = D.mixName b) ∧ IdBefore ids a b)) := by
  unfold canonicalOrder
  by_cases hp : (D.mix a).orderPriority = (D.mix b).orderPriority
  · rw [if_neg (by simpa using hp)]
    simp only
    rw [show (D.mix a).orderPriority < (D.mix b).orderPriority ↔ False from by simp [hp], false_or]
    simp only [hp, true_and]
    by_cases hf : (D.mix a).name.first = (D.mix b).name.first
    · have h0 : svCmp D.mem (D.mix a).name (D.mix b).name = 0 := by unfold svCmp; rw [if_pos hf]
      rw [if_neg (by simpa using h0)]
      refine Iff.trans (idBefore_iff ids a b) ?_
      simp [hf]
    · have hc := svCmp_lex D.mem _ _ ha hb (fun h => absurd h hf)
      by_cases h0 : svCmp D.mem (D.mix a).name (D.mix b).name = 0
      · have he : D.mixName a = D.mixName b := hc.zero.1 h0
        have hl : ¬ LexBefore (D.mixName a) (D.mixName b) := by
          intro hl
          have := hc.neg.2 hl
          omega
        rw [if_neg (by simpa using h0)]
        refine Iff.trans (idBefore_iff ids a b) ?_
        simp [hf, he]
        intro h; exact absurd (by rw [he]; exact h) hl
      · rw [if_pos (by simpa using h0)]
        have he : D.mixName a ≠ D.mixName b := fun he => h0 (hc.zero.2 he)
        simp only [hf, he, or_self, false_and, or_false, ne_eq, not_false_eq_true, true_and, decide_eq_true_eq]
        exact hc.neg
  · rw [if_pos (by simpa using hp)]
    simp [hp]

/-- In `C22_canonical_order_refuted`: the id decides between the names "a" and "ac" at the same address. -/
example : (exDecls.mix 0).name.first = (exDecls.mix 1).name.first ∧ exDecls.mixName 0 ≠ exDecls.mixName 1 ∧ IdBefore exIds 1 0 ∧ ¬ IdBefore exIds 0 1 := by
  refine ⟨by decide, by decide, ?_, ?_⟩
  · exact .inl ⟨0, rfl, fun j hj => by simp [exIds] at hj; omega⟩
  · rintro (⟨i, h1, h2⟩ | ⟨h1, -⟩)
    · simp [exIds] at h1; subst h1
      have := h2 0 rfl
      omega
    · simp [exIds] at h1

/-- C38: the source of a move is what `object(domain)` makes exactly if it was not sealed. -/
theorem C38_source_exactly (D : Decls) (E : TyEnv) (orc : Orc) (hE : EnvOk D E) (h : Heap) (hk : HeapOk D E h) (ht : AllTyped h) (src : Nat) (sb : Obj)
    (hs : h.obj? src = some sb) : ∃ h', moveConstruct E h src = .ok h' ∧
    ((∃ t h1, ostep D E orc false h (.newEmpty t sb.alloc) = .ok h1 ∧ h'.obj? src = h1.obj? h.objs.length) ↔ sb.isSealed = false) := by
  obtain ⟨h', h1, h2, -⟩ := C38_move_construct_partial D E hE h hk ht src sb hs
  refine ⟨h', h1, ?_, ?_⟩
  · rintro ⟨t, h3, h4, h5⟩
    obtain ⟨e, -, h6⟩ := h2.source
    rw [h6] at h5
    have h4 : h.addObj (some ⟨some (E.emptyOf t), none, false, sb.alloc⟩) = h3 := by injection h4
    rw [← h4, addObj_obj, if_pos rfl] at h5
    simp at h5
    exact h5.2
  · intro hsl
    cases hty : sb.ty with
    | none => exact absurd hty (ht src sb hs)
    | some t =>
      obtain ⟨h3, h4, h5⟩ := C38_source_like_new_partial D E orc hE h hk ht src sb hs hsl t hty h' h1
      exact ⟨t, h3, h4, h5⟩

/-- C42: `move_matching_from` of the object itself, with fallback: undefined behaviour exactly if a mixin has no move assignment and all such mixins can be move-constructed. (If one cannot, this is
found before; if all mixins have move assignment, each is assigned to itself.) -/
theorem C42_self_move_exactly (D : Decls) (E : TyEnv) (orc : Orc) (hE : EnvOk D E) (h : Heap) (hk : HeapOk D E h) (ht : AllTyped h) (o : Nat) (ob : Obj)
    (ho : h.obj? o = some ob) (t : TypeId) (hty : ob.ty = some t) :
    moveMatchingFrom D E orc h o o true = .ub ↔ (∃ m ∈ E.mixins t, (D.mix m).hasMoveAsgn = false) ∧ ∀ m ∈ E.mixins t, (D.mix m).hasMoveAsgn = false → (D.mix m).hasMoveInit = true := by
  have hidx : ∀ i m, (E.mixins t)[i]? = some m → E.indexOf t m = some i := fun i m hm => (hE.index t t m i (List.mem_of_getElem? hm)).2 hm
  have hsome : ∀ m ∈ E.mixins t, (E.indexOf t m).isSome = true := by
    intro m hm
    obtain ⟨i, hi⟩ := List.mem_iff_getElem?.1 hm
    rw [hidx i m hi]; rfl
  have hcheck : ∀ (fb : Bool) (ms : List Mix), (∀ m ∈ ms, m ∈ E.mixins t) → (moveMatchingCheck D E t fb ms = none ↔ ∀ m ∈ ms, (D.mix m).hasMoveAsgn = false → (fb && (D.mix m).hasMoveInit) = true) := by
    intro fb ms
    induction ms with
    | nil => simp [moveMatchingCheck]
    | cons m ms ih =>
      intro hsub
      unfold moveMatchingCheck
      have ih := ih (fun x hx => hsub x (by simp [hx]))
      by_cases hm : (E.indexOf t m).isSome = true ∧ (D.mix m).hasMoveAsgn = false ∧ (fb && (D.mix m).hasMoveInit) = false
      · rw [if_pos hm]
        simp only [reduceCtorEq, false_iff]
        intro hh
        have := hh m (by simp) hm.2.1
        rw [hm.2.2] at this; simp at this
      · rw [if_neg hm, ih]
        constructor
        · intro h1 x hx hx2
          rcases List.mem_cons.1 hx with rfl | hx
          · cases hfb : (fb && (D.mix x).hasMoveInit) with
            | true => rfl
            | false => exact absurd ⟨hsome x (hsub x (by simp)), hx2, hfb⟩ hm
          · exact h1 x hx hx2
        · intro h1 x hx hx2
          exact h1 x (by simp [hx]) hx2
  have hch := hcheck true (E.mixins t) (fun m hm => hm)
  simp only [Bool.true_and] at hch
  constructor
  · intro hub
    have h2 : ∀ m ∈ E.mixins t, (D.mix m).hasMoveAsgn = false → (D.mix m).hasMoveInit = true := by
      rw [← hch]
      cases hx : moveMatchingCheck D E t true (E.mixins t) with
      | none => rfl
      | some m =>
        exfalso
        unfold moveMatchingFrom at hub
        rw [ho] at hub
        simp only [hty, hx] at hub
        simp at hub
    refine ⟨?_, h2⟩
    -- otherwise the fallback makes no difference, and the move is defined
    cases hall : (E.mixins t).all (fun m => (D.mix m).hasMoveAsgn) with
    | false =>
      rw [List.all_eq_false] at hall
      obtain ⟨m, hm, h3⟩ := hall
      exact ⟨m, hm, by simpa using h3⟩
    | true =>
      exfalso
      rw [List.all_eq_true] at hall
      have h3 := (hcheck false (E.mixins t) (fun m hm => hm)).2 (fun m hm hx => by rw [hall m hm] at hx; simp at hx)
      have h4 := hch.2 h2
      have halive : Alive h o := by unfold Alive; rw [ho]; simp
      have hgood := good_moveMatching (orc := orc) hE ⟨hk, ht⟩ halive halive (fb := false) (fun _ => rfl)
      have heq : moveMatchingFrom D E orc h o o true = moveMatchingFrom D E orc h o o false := by
        unfold moveMatchingFrom
        rw [ho]
        simp only [hty, h3, h4]
      rw [← heq, hub] at hgood
      exact hgood
  · rintro ⟨h1, h2⟩
    unfold moveMatchingFrom
    rw [ho]
    simp only [hty, hch.2 h2]
    exact self_move_ub hidx (E.mixins t) 0 h (fun j m hj => by rw [Nat.zero_add]; exact hj) h1

/-- Object 2 of the example heap: it is undefined; object 0: it is not. -/
example : (∃ m ∈ objEnv.mixins 5, (objDecls.mix m).hasMoveAsgn = false) ∧ (∀ m ∈ objEnv.mixins 5, (objDecls.mix m).hasMoveAsgn = false → (objDecls.mix m).hasMoveInit = true) := by
  decide +kernel

/-- C47: during stack unwinding a mutation does exactly what it would do otherwise with a `rollback` at the end. -/
theorem C47_mutation_exactly (D : Decls) (E : TyEnv) (orc : Orc) (h : Heap) (o : Nat) (t : TypeId) (steps : List (MStep × Bool)) (hp : ∀ st ∈ steps, properStep st.1 = true) :
    withMutation D E orc true h o t steps = withMutation D E orc false h o t (steps ++ [(.rollback, false)]) :=
  (rollback_last false false hp).symm

/-- C54: what `substitute_mixin` gives, for all lists without duplicates; it has a duplicate exactly if both mixins were there and are different. -/
theorem C54_substitute_exactly (D : Decls) (source target : Mix) (ms : List Mix) (hn : ms.Nodup) :
    ∃ r, (V1Rule.substitute source target).applyTo D ms = .ok r ∧ (r = if source ∈ ms then ms.filter (fun x => decide (x ≠ source)) ++ [target] else ms) ∧
      (r.Nodup ↔ ¬ (source ∈ ms ∧ target ∈ ms ∧ source ≠ target)) := by
  by_cases h : source ∈ ms
  · have h1 : tmHas ms source = true := (tmHas_iff _ _).2 h
    refine ⟨ms.filter (fun x => decide (x ≠ source)) ++ [target], by simp [V1Rule.applyTo, h1, tmAdd, tmRemove_nodup source hn], by rw [if_pos h], ?_⟩
    rw [List.nodup_append]
    simp only [List.nodup_cons, List.not_mem_nil, not_false_eq_true, List.nodup_nil, and_self, List.mem_singleton, ne_eq, forall_eq, true_and, h]
    constructor
    · rintro ⟨-, h2⟩ ⟨h3, h4⟩
      exact h2 target (by rw [List.mem_filter]; exact ⟨h3, by simpa using fun e => h4 e.symm⟩) rfl
    · intro h2
      refine ⟨hn.filter _, ?_⟩
      rintro x hx rfl
      rw [List.mem_filter] at hx
      exact h2 ⟨hx.1, fun e => by have := hx.2; simp [e] at this⟩
  · have h1 : tmHas ms source = false := by
      cases hx : tmHas ms source with
      | false => rfl
      | true => exact absurd ((tmHas_iff _ _).1 hx) h
    exact ⟨ms, by simp [V1Rule.applyTo, h1], by rw [if_neg h], by simp [h, hn]⟩

example : (V1Rule.substitute 1 2).applyTo v1Decls [1, 2, 3] = .ok [2, 3, 2] ∧ (V1Rule.substitute 1 1).applyTo v1Decls [1, 2] = .ok [2, 1] := by
  refine ⟨?_, ?_⟩ <;> decide +kernel

/-- C55: what `register_in` does, successful or not: it adds the rules up to the first one without function, and then, if there is none, registers the mixin (which may fail). All of this stays. -/
theorem C55_registration_exactly (D : Decls) (W : World) (d : DomId) (m : Mix) (rules : List Rule) :
    (registerIn D W d m rules).2 = run D W ((rules.takeWhile (fun r => (ruleOf D r).apply.isSome)).map (.addRule d ·) ++
      (if rules.all (fun r => (ruleOf D r).apply.isSome) then [.regMixin d m] else [])) := by
  obtain ⟨h1, h2⟩ := addRules_exact D d rules W
  unfold registerIn
  cases hx : addRules D W d rules with
  | mk a W1 =>
    rw [hx] at h1 h2
    simp only at h1 h2
    cases a with
    | ok u =>
      rw [if_pos (h2.1 rfl), run_append, ← h1]
      rfl
    | error e =>
      have h3 : ¬ rules.all (fun r => (ruleOf D r).apply.isSome) = true := fun h => by have := h2.2 h; simp at this
      rw [if_neg h3, List.append_nil, ← h1]

/-- `mdDecls` where rule 9 has no function. -/
def noRuleDecls : Decls := { mdDecls with userRule := fun r => { name := ⟨r + 20, r + 21⟩, apply := if r = 9 then none else some fun _ => basicDepRule 3 1 } }

/-- A definition whose second rule has no function: only the first is added. -/
example : (registerIn noRuleDecls (initWorld fun _ => {}) 0 1 [1, 9, 2]).1 ≠ .ok () ∧ inForce (registerIn noRuleDecls (initWorld fun _ => {}) 0 1 [1, 9, 2]).2 0 = [1] ∧
    ((registerIn noRuleDecls (initWorld fun _ => {}) 0 1 [1, 9, 2]).2.doms 0).mixins = [] := by
  refine ⟨?_, ?_, ?_⟩ <;> decide +kernel

/-- C58: an exception after `finalize`, for all objects and all mutations that would succeed without it: either the behaviour is undefined at once, or the object designates memory that was given back and
destroying it is undefined. -/
theorem C58_exception_after_finalize_exactly (D : Decls) (E : TyEnv) (orc : Orc) (h : Heap) (hk : HeapOk D E h) (o : Nat) (ob : Obj) (ho : h.obj? o = some ob) (t : TypeId) (hne : E.mixins t ≠ [])
    (steps : List (MStep × Bool)) (hl : ∀ st ∈ steps, properStep st.1 = true) (f : NewFn) (g : UpdFn) (hf : properStep (.each f g none) = true) (u : Bool) (h1 : Heap)
    (hok : withMutation D E orc false h o t (steps ++ [(.each f g none, false)]) = .ok h1) :
    withMutation D E orc u h o t (steps ++ [(.each f g none, false), (.finalize, false), (.throw, false)]) = .ub ∨
    ∃ h', withMutation D E orc u h o t (steps ++ [(.each f g none, false), (.finalize, false), (.throw, false)]) = .throw h' .outside ∧
      (∃ a ob', h'.obj? o = some ob' ∧ ob'.ty = some t ∧ ob'.data = some a ∧ h'.blk a = none) ∧ ostep D E orc false h' (.destroy o) = .ub := by
  have hd : ob.ty = some t → ob.data ≠ none := by
    intro hty hdn
    have := hk.objs o ob ho
    unfold ObjOk at this
    rw [hdn] at this
    exact hne (this t hty)
  rcases finalize_throw ho hne hd hl f g hf u false false hok with h2 | ⟨h', h2, a, ob', h3, h4, h5, h6⟩
  · exact .inl h2
  · exact .inr ⟨h', h2, ⟨a, ob', h3, h4, h5, h6⟩, destroy_dangling h3 h4 h5 h6 hne⟩

example : finished (withMutation objDecls objEnv objOrc false objHeap 0 2 ([] ++ [(.each .dflt .noop none, false)])) = true ∧ objEnv.mixins 2 ≠ [] := by
  refine ⟨?_, ?_⟩ <;> decide +kernel

/-- C60: `has` and `get` by info, for all infos: they find the mixin with the same id, which for an info of another domain is another mixin. -/
theorem C60_by_info_exactly (D : Decls) (orc : Orc) (d : DomId) (S : Sys) (hS : Reachable D orc d S) (o : Nat) (ob : Obj) (ho : S.h.obj? o = some ob) (m : Mix) :
    (∃ b, objHas D d S o (.info m) = some b ∧ (b = true ↔ ∃ m' ∈ ownMixins (TyEnv.ofWorld S.W d) ob, S.W.mixId m ≠ none ∧ S.W.mixId m' = S.W.mixId m)) ∧
    ∃ x, objGet D d S o (.info m) = some x ∧ (x = none ↔ ∀ m' ∈ ownMixins (TyEnv.ofWorld S.W d) ob, ¬ (S.W.mixId m ≠ none ∧ S.W.mixId m' = S.W.mixId m)) ∧
      ∀ l, x = some l → ∃ m' v, m' ∈ ownMixins (TyEnv.ofWorld S.W d) ob ∧ S.W.mixId m' = S.W.mixId m ∧ Holds (TyEnv.ofWorld S.W d) S.h o m' l v := by
  obtain ⟨⟨b, h1, h2⟩, x, h3, h4, h5⟩ := C60_has_and_get_partial D orc d S hS o ob ho (.id (S.W.mixId m)) (fun m' h => by simp at h)
  refine ⟨⟨b, h1, h2⟩, x, h3, h4, fun l hl => ?_⟩
  obtain ⟨i, m', v, h6, h7, h8, -⟩ := h5 l hl
  exact ⟨m', v, List.mem_of_getElem? h6, h7.2, h8⟩

/-- C76: of infos that are given to `construct`, only the ids count: replacing infos by others with the same ids (say, of another domain) makes no difference. -/
theorem C76_by_info_exactly (D : Decls) (orc : Orc) (d : DomId) (u : Bool) (S : Sys) (o : Nat) (t : TypeId) (ops : List (InitKey × Nat)) (φ : Mix → Mix) (hφ : ∀ m, S.W.mixId (φ m) = S.W.mixId m) :
    mutateToNamed D orc d u S o t (ops.map (fun x => (x.1.renamed φ, x.2))) = mutateToNamed D orc d u S o t ops := by
  have key := affectedAll_renamed D d S.W φ hφ t ops
  unfold mutateToNamed
  cases ho : S.h.obj? o with
  | none => rfl
  | some ob =>
    cases hr : (S.W.doms d).typeAt d t with
    | none => rfl
    | some r =>
      simp only
      by_cases hty : ob.ty = some t
      · rw [if_pos hty, if_pos hty]
      · rw [if_neg hty, if_neg hty]
        cases h1 : affectedAll D d S.W (ops.map (fun x => (x.1.renamed φ, x.2))) with
        | none =>
          rw [h1] at key
          cases h2 : affectedAll D d S.W ops with
          | none => rfl
          | some l2 => rw [h2] at key; simp at key
        | some l1 =>
          rw [h1] at key
          cases h2 : affectedAll D d S.W ops with
          | none => rw [h2] at key; simp at key
          | some l2 =>
            rw [h2] at key
            simp only [Option.map_some, Option.some.injEq] at key
            simp only
            congr 1
            unfold mutateTo sortedOps
            rw [key]

/-- In `C76_foreign_mixin_refuted`: mixin 2 of domain 1 for mixin 1 of domain 0. -/
example : ∀ m, namedSys.W.mixId ((fun m => if m = 1 then 2 else if m = 2 then 1 else m) m) = namedSys.W.mixId m := by
  intro m
  by_cases h1 : m = 1
  · subst h1; decide +kernel
  · by_cases h2 : m = 2
    · subst h2; decide +kernel
    · simp [h1, h2]

end Dnmx.Props
