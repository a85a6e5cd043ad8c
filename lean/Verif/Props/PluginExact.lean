import Verif.Props.Plugin
import Verif.Proofs.RegisteredLemmas

/-! # C69: unloading a plugin at any time, whatever the program did -/

namespace Dnmx
open Spec

/-- What the destructors call: nothing for mixins that are not registered. -/
def StaticItem.calls (W : World) (d : DomId) : StaticItem → List Op
  | .mixin m rules =>
    match W.mixDom m with
    | none => []
    | some d' => .unregMixin d' m :: rules.map (.removeRule d' ·)
  | .cls c => [.unregClass d c]

/-- The calls of destructors, each in the state that the ones before it left. -/
def destroyCalls (D : Decls) (d : DomId) : World → List StaticItem → List Op
  | _, [] => []
  | W, i :: is => i.calls W d ++ destroyCalls D d (run D W (i.calls W d)) is

theorem destroy_calls (D : Decls) (W : World) (d : DomId) (hr : RegInv W) (ht : ∀ d, TypesInv D W d) (i : StaticItem) : i.destroy D W d = some (run D W (i.calls W d)) := by
  cases i with
  | cls c => rfl
  | mixin m rules =>
    cases hm : W.mixDom m with
    | none => simp only [StaticItem.destroy, StaticItem.calls, hm, run]
    | some d' =>
      have hreg : m ∈ mixinsOf W d' := by
        cases hi : W.mixId m with
        | none => rw [hr.mixFree m hi] at hm; exact absurd hm (by simp)
        | some i =>
          obtain ⟨d'', h1, h2⟩ := hr.mixReg m i hi
          rw [hm] at h1; cases h1
          exact (mem_mixinsOf _ _ _).2 ⟨i, h2⟩
      have := destroy_mixin D W d' m rules hr (ht d') hreg
      simp only [StaticItem.destroy, StaticItem.calls, StaticItem.desOps, hm] at this ⊢
      exact this

theorem destroyAll_calls (D : Decls) (d : DomId) : ∀ (p : List StaticItem) (W : World), RegInv W → (∀ d, TypesInv D W d) → destroyAll D d W p = some (run D W (destroyCalls D d W p))
  | [], _, _, _ => rfl
  | i :: p, W, hr, ht => by
    unfold destroyAll
    rw [destroy_calls D W d hr ht i]
    simp only
    rw [destroyAll_calls D d p _ (run_reg D _ _ hr) (fun d' => run_types D d' _ _ hr (ht d'))]
    rw [show destroyCalls D d W (i :: p) = i.calls W d ++ destroyCalls D d (run D W (i.calls W d)) p from rfl, run_append]

/-- The calls register nothing. -/
theorem mem_destroyCalls (D : Decls) (d : DomId) : ∀ (p : List StaticItem) (W : World) (op : Op), op ∈ destroyCalls D d W p →
    (∃ d' m, m ∈ pluginMixins p ∧ op = .unregMixin d' m) ∨ (∃ d' r, r ∈ pluginRules p ∧ op = .removeRule d' r) ∨ ∃ c ∈ pluginClasses p, op = .unregClass d c
  | [], _, op, h => by simp [destroyCalls] at h
  | i :: p, W, op, h => by
    unfold destroyCalls at h
    rw [pluginMixins_cons, pluginRules_cons, pluginClasses_cons]
    rcases List.mem_append.1 h with h | h
    · cases i with
      | cls c =>
        rw [List.mem_singleton.1 h]
        exact .inr (.inr ⟨c, by simp [pluginClasses], rfl⟩)
      | mixin m rules =>
        cases hm : W.mixDom m with
        | none => simp only [StaticItem.calls, hm] at h; simp at h
        | some d' =>
          simp only [StaticItem.calls, hm] at h
          rcases List.mem_cons.1 h with rfl | h
          · exact .inl ⟨d', m, by simp [pluginMixins], rfl⟩
          · obtain ⟨r, hr, rfl⟩ := List.mem_map.1 h
            exact .inr (.inl ⟨d', r, by simp [pluginRules, hr], rfl⟩)
    · rcases mem_destroyCalls D d p _ op h with ⟨d', m, h1, h2⟩ | ⟨d', r, h1, h2⟩ | ⟨c, h1, h2⟩
      · exact .inl ⟨d', m, List.mem_append.2 (.inr h1), h2⟩
      · exact .inr (.inl ⟨d', r, List.mem_append.2 (.inr h1), h2⟩)
      · exact .inr (.inr ⟨c, List.mem_append.2 (.inr h1), h2⟩)

theorem destroyCalls_gone (D : Decls) (d : DomId) : ∀ (p : List StaticItem) (W : World), RegInv W → (∀ d, TypesInv D W d) → ClsInv D (W.doms d) →
    (∀ m ∈ pluginMixins p, ∀ d', m ∉ mixinsOf (run D W (destroyCalls D d W p)) d') ∧ ∀ c ∈ pluginClasses p, c ∉ classesOf (run D W (destroyCalls D d W p)) d
  | [], _, _, _, _ => ⟨fun m h => by simp [pluginMixins] at h, fun c h => by simp [pluginClasses] at h⟩
  | i :: p, W, hr, ht, hc => by
    have hr' := run_reg D (i.calls W d) W hr
    have hc' := run_cls D d (i.calls W d) W hr hc
    obtain ⟨i1, i2⟩ := destroyCalls_gone D d p _ hr' (fun d' => run_types D d' (i.calls W d) _ hr (ht d')) hc'
    rw [show destroyCalls D d W (i :: p) = i.calls W d ++ destroyCalls D d (run D W (i.calls W d)) p from rfl, run_append]
    constructor
    · intro m hm d'
      rw [pluginMixins_cons] at hm
      rcases List.mem_append.1 hm with hm | hm
      · apply mixin_stays_out D d' m _ _ hr'
        · cases i with
          | cls c => simp [pluginMixins] at hm
          | mixin m' rules =>
            simp [pluginMixins] at hm
            subst hm
            intro hin
            cases hd : W.mixDom m with
            | none =>
              simp only [StaticItem.calls, hd] at hin
              obtain ⟨j, hj⟩ := (mem_mixinsOf _ _ _).1 hin
              rw [(hr.mixSlot d' j m hj).2] at hd; exact absurd hd (by simp)
            | some d'' =>
              simp only [StaticItem.calls, hd] at hin
              have hreg : m ∈ mixinsOf W d'' := by
                cases hi : W.mixId m with
                | none => rw [hr.mixFree m hi] at hd; exact absurd hd (by simp)
                | some i =>
                  obtain ⟨d3, h1, h2⟩ := hr.mixReg m i hi
                  rw [hd] at h1; cases h1
                  exact (mem_mixinsOf _ _ _).2 ⟨i, h2⟩
              have hok := unregisterMixin_succeeds D W d'' m hr (ht d'') hreg
              have hr2 := step_reg D W (.unregMixin d'' m) hr
              refine mixin_stays_out D d' m (rules.map (.removeRule d'' ·)) _ hr2 ?_ ?_ hin
              · intro hin2
                obtain ⟨j, hj⟩ := (mem_mixinsOf _ _ _).1 hin2
                have h1 := (hr2.mixSlot d' j m hj).1
                have h2 : (step D W (.unregMixin d'' m)).2 = (unregisterMixin W d'' m).2 := rfl
                rw [h2] at h1
                unfold unregisterMixin at h1 hok
                simp only at h1 hok
                cases hq : purgeQueries (W.doms d'') d'' (W.mixId m) m (W.doms d'').queries with
                | none => rw [hq] at hok; simp at hok
                | some q =>
                  rw [hq] at h1 hok
                  simp only at h1 hok
                  cases ho : ownSlot (W.doms d'').mixins (W.mixId m) m with
                  | none => rw [ho] at hok; simp at hok
                  | some k => rw [ho] at h1; simp [upd] at h1
              · intro op hop
                obtain ⟨r, -, rfl⟩ := List.mem_map.1 hop
                simp
        · intro op hop he
          rcases mem_destroyCalls D d p _ op hop with ⟨_, _, -, h⟩ | ⟨_, _, -, h⟩ | ⟨_, -, h⟩ <;> rw [h] at he <;> cases he
      · exact i1 m hm d'
    · intro c hcm
      rw [pluginClasses_cons] at hcm
      rcases List.mem_append.1 hcm with hcm | hcm
      · apply class_stays_out D d c _ _ hr' hc'
        · cases i with
          | mixin m rules => simp [pluginClasses] at hcm
          | cls c' =>
            simp [pluginClasses] at hcm
            subst hcm
            have := destroyAll_done D d [.cls c] W hr (ht d) hc (by simp [pluginMixins]) (by simp [pluginMixins])
            exact this.2 c (by simp [pluginClasses])
        · intro op hop he
          rcases mem_destroyCalls D d p _ op hop with ⟨_, _, -, h⟩ | ⟨_, _, -, h⟩ | ⟨_, -, h⟩ <;> rw [h] at he <;> cases he
      · exact i2 c hcm

end Dnmx

namespace Dnmx.Props
open Spec

/-- C69, at any time and for any library, loaded or not, whatever the program has unregistered or registered elsewhere itself: unloading does not end the program; it is the same as calling the functions
for the elements that are still registered; and afterwards none of the library's mixins is registered in any domain or part of a type of any domain, and none of its type classes is registered in the
library's domain. -/
theorem C69_unload_exactly (D : Decls) (s : DomId → Settings) (ops : List Op) (d : DomId) (p : List StaticItem) :
    ∃ calls, unload D d (run D (initWorld s) ops) p = some (run D (initWorld s) (ops ++ calls)) ∧
      (∀ op ∈ calls, (∃ d' m, m ∈ pluginMixins p ∧ op = .unregMixin d' m) ∨ (∃ d' r, r ∈ pluginRules p ∧ op = .removeRule d' r) ∨ ∃ c ∈ pluginClasses p, op = .unregClass d c) ∧
      (∀ m ∈ pluginMixins p, ∀ d', m ∉ mixinsOf (run D (initWorld s) (ops ++ calls)) d' ∧ ∀ t ∈ ((run D (initWorld s) (ops ++ calls)).doms d').types, m ∉ t.mixins) ∧
      ∀ c ∈ pluginClasses p, c ∉ classesOf (run D (initWorld s) (ops ++ calls)) d := by
  have hr := reachable_reg D s ops
  have ht := reachable_types D s ops
  have hc := reachable_cls D s ops d
  obtain ⟨g1, g2⟩ := destroyCalls_gone D d p.reverse _ hr ht hc
  refine ⟨destroyCalls D d (run D (initWorld s) ops) p.reverse, ?_, ?_, ?_, ?_⟩
  · unfold unload
    rw [destroyAll_calls D d p.reverse _ hr ht, run_append]
  · intro op hop
    rcases mem_destroyCalls D d _ _ op hop with ⟨d', m, h1, h2⟩ | ⟨d', r, h1, h2⟩ | ⟨c, h1, h2⟩
    · rw [pluginMixins_reverse, List.mem_reverse] at h1; exact .inl ⟨d', m, h1, h2⟩
    · refine .inr (.inl ⟨d', r, ?_, h2⟩)
      have := count_pluginRules_reverse r p
      have h3 := List.count_pos_iff.2 h1
      exact List.count_pos_iff.1 (by omega)
    · rw [pluginClasses_reverse, List.mem_reverse] at h1; exact .inr (.inr ⟨c, h1, h2⟩)
  · intro m hm d'
    rw [run_append]
    have hout := g1 m (by rw [pluginMixins_reverse, List.mem_reverse]; exact hm)
    refine ⟨hout d', fun t ht' hmt => ?_⟩
    obtain ⟨⟨i, hi⟩, -⟩ := ((run_types D d' (destroyCalls D d (run D (initWorld s) ops) p.reverse) _ hr (ht d')).ok t ht').reg m hmt
    obtain ⟨d'', -, hs⟩ := (run_reg D (destroyCalls D d (run D (initWorld s) ops) p.reverse) _ hr).mixReg m i hi
    exact hout d'' ((mem_mixinsOf _ _ _).2 ⟨i, hs⟩)
  · intro c hcp
    rw [run_append]
    exact g2 c (by rw [pluginClasses_reverse, List.mem_reverse]; exact hcp)

/-- A program that unregistered mixin 1 itself, and registered mixin 2 in another domain. -/
example : (unload plugDecls 0 (run plugDecls (initWorld fun _ => {}) [.regMixin 0 1, .unregMixin 0 1, .regMixin 1 2, .getType 1 [2]]) plug).map (fun W => (mixinsOf W 0, mixinsOf W 1, (W.doms 1).types.length)) =
    some ([], [], 0) := by decide +kernel

end Dnmx.Props
