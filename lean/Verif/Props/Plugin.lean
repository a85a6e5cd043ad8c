import Verif.Proofs.PluginLemmas
import Verif.Props.MixinData

/-!
# C69: plugins

A plugin is loaded and later unloaded (`Verif.Model.Plugin`); in between, arbitrary calls `mid` are made. After that the
domain must not refer to anything in the plugin, whose memory is gone.
-/

namespace Dnmx.Props
open Spec

/-! ## Examples -/

/-- Infos for examples: the name of info `k` is the one character `k + 1`; mixin 1 has features 1 and 2; all user rules
add mixin 1 if mixin 3 is there. -/
def plugDecls : Decls where
  mem := fun a => UInt8.ofNat (a + 1)
  mix := fun m => if m = 1 then { name := ⟨1, 2⟩, feats := [⟨1, 10, 0, 0⟩, ⟨2, 20, 0, 0⟩] } else { name := ⟨m, m + 1⟩ }
  feat := fun f => { name := ⟨f, f + 1⟩ }
  userRule := fun r => { name := ⟨r + 20, r + 21⟩, apply := some fun _ => basicDepRule 3 1 }
  cls := fun c => { name := ⟨c, c + 1⟩, matchesT := fun _ => true }

/-- A plugin with two mixins, one of them with two rules, and a type class. -/
def plug : List StaticItem := [.mixin 1 [1, 2], .cls 5, .mixin 2 []]

/-! ## C69 -/

/-- C69: a plugin that was loaded, and whose elements the program does not unregister itself, can be unloaded without
ending the program, and then its mixins are in no domain and in no type of any domain, no stored query of the domain
mentions them, and its type classes are gone. -/
theorem C69_unload (D : Decls) (s : DomId → Settings) (pre mid : List Op) (d : DomId) (p : List StaticItem) (W1 : World)
    (hload : load D d (run D (initWorld s) pre) p = some W1) (hmid : ∀ op ∈ mid, Spec.Op.sparesPlugin d p op) :
    ∃ W2, unload D d (run D W1 mid) p = some W2 ∧
      (∀ m ∈ pluginMixins p, (∀ d', m ∉ mixinsOf W2 d') ∧ (∀ d', ∀ t ∈ (W2.doms d').types, m ∉ t.mixins) ∧
        (∀ e ∈ (W2.doms d).queries, m ∉ e.1)) ∧
      (∀ c ∈ pluginClasses p, c ∉ classesOf W2 d) := by
  have hr := reachable_reg D s pre
  have hc := reachable_cls D s pre d
  obtain ⟨h1, h2, h3, -⟩ := load_done D d p _ W1 hr hc hload
  have hW1 := constructAll_run D d p _ W1 hload
  have hr1 : RegInv W1 := by rw [hW1]; exact run_reg D _ _ hr
  have ht1 : ∀ d', TypesInv D W1 d' := by intro d'; rw [hW1]; exact run_types D d' _ _ hr (reachable_types D s pre d')
  have hc1 : ClsInv D (W1.doms d) := by rw [hW1]; exact run_cls D d _ _ hr hc
  have hrm := run_reg D mid W1 hr1
  have htm := fun d' => run_types D d' mid W1 hr1 (ht1 d')
  have hcm := run_cls D d mid W1 hr1 hc1
  have hkeep : ∀ m ∈ pluginMixins p.reverse, m ∈ mixinsOf (run D W1 mid) d := by
    intro m hm
    rw [pluginMixins_reverse, List.mem_reverse] at hm
    refine mixin_kept D d m mid W1 hr1 (h2 m hm).1 ?_
    intro op hop he
    have := hmid op hop
    rw [he] at this
    exact this rfl hm
  have hnd : (pluginMixins p.reverse).Nodup := by rw [pluginMixins_reverse]; exact List.pairwise_reverse.2 (h1.imp Ne.symm)
  refine ⟨_, destroyAll_run D d p.reverse _ hrm (htm d) hnd hkeep, ?_, ?_⟩
  · intro m hm
    have hd := (destroyAll_done D d p.reverse _ hrm (htm d) hcm hnd hkeep).1 m
      (by rw [pluginMixins_reverse, List.mem_reverse]; exact hm)
    refine ⟨hd.1, ?_, hd.2⟩
    intro d' t ht hmt
    have hr2 := run_reg D (p.reverse.flatMap (·.desOps d)) _ hrm
    obtain ⟨⟨i, hi⟩, hdom⟩ := ((run_types D d' (p.reverse.flatMap (·.desOps d)) _ hrm (htm d')).ok t ht).reg m hmt
    obtain ⟨d'', -, hs⟩ := hr2.mixReg m i hi
    exact hd.1 d'' ((mem_mixinsOf _ _ _).2 ⟨i, hs⟩)
  · intro c hcp
    exact (destroyAll_done D d p.reverse _ hrm (htm d) hcm hnd hkeep).2 c
      (by rw [pluginClasses_reverse, List.mem_reverse]; exact hcp)

/-- The example plugin can be loaded and used. -/
example : (load plugDecls 0 (run plugDecls (initWorld fun _ => {}) [.regMixin 0 3]) plug).isSome = true := by decide +kernel
example : ∀ op ∈ [Op.getType 0 [3, 1, 2], .regMixin 0 4, .unregMixin 0 3, .unregMixin 1 1],
    Spec.Op.sparesPlugin 0 plug op := by
  intro op h; simp at h; rcases h with rfl | rfl | rfl | rfl <;> simp [Spec.Op.sparesPlugin, plug, pluginMixins]

/-- C69 (partial: rules with names as in C14): if the program does not add or remove a rule itself while the plugin is
loaded, the rule is in force after the plugin is unloaded exactly if it was before it was loaded.
Missing: rules whose names alias (see C14). -/
theorem C69_rules_partial (D : Decls) (S : Rule → Prop) (hS : RuleNamesOk D S) (s : DomId → Settings) (pre mid : List Op)
    (d : DomId) (h0 : (s d).canonicalize = true → S 0) (p : List StaticItem) (hp : ∀ r ∈ pluginRules p, S r)
    (hpre : ∀ op ∈ pre, op.rulesIn S) (hmids : ∀ op ∈ mid, op.rulesIn S) (W1 W2 : World)
    (hload : load D d (run D (initWorld s) pre) p = some W1) (hmid : ∀ op ∈ mid, Spec.Op.sparesPlugin d p op)
    (hun : unload D d (run D W1 mid) p = some W2) (r : Rule) (hr' : ∀ op ∈ mid, Spec.Op.sparesRule d r op) :
    r ∈ inForce W2 d ↔ r ∈ inForce (run D (initWorld s) pre) d := by
  have hr := reachable_reg D s pre
  have hc := reachable_cls D s pre d
  obtain ⟨h1, h2, h3, h4⟩ := load_done D d p _ W1 hr hc hload
  have hW1 := constructAll_run D d p _ W1 hload
  have hr1 : RegInv W1 := by rw [hW1]; exact run_reg D _ _ hr
  have ht1 : TypesInv D W1 d := by rw [hW1]; exact run_types D d _ _ hr (reachable_types D s pre d)
  have hkeep : ∀ m ∈ pluginMixins p.reverse, m ∈ mixinsOf (run D W1 mid) d := by
    intro m hm
    rw [pluginMixins_reverse, List.mem_reverse] at hm
    refine mixin_kept D d m mid W1 hr1 (h2 m hm).1 ?_
    intro op hop he
    have := hmid op hop
    rw [he] at this
    exact this rfl hm
  have hnd : (pluginMixins p.reverse).Nodup := by rw [pluginMixins_reverse]; exact List.pairwise_reverse.2 (h1.imp Ne.symm)
  have hd := destroyAll_run D d p.reverse _ (run_reg D mid W1 hr1) (run_types D d mid W1 hr1 ht1) hnd hkeep
  have e2 : W2 = run D (initWorld s) (pre ++ (p.flatMap (·.conOps d) ++ (mid ++ p.reverse.flatMap (·.desOps d)))) := by
    have : some W2 = some (run D (run D W1 mid) (p.reverse.flatMap (·.desOps d))) := by rw [← hun]; exact hd
    rw [run_append, run_append, run_append, ← hW1]
    simpa using this
  have hall : ∀ op ∈ pre ++ (p.flatMap (·.conOps d) ++ (mid ++ p.reverse.flatMap (·.desOps d))), op.rulesIn S := by
    intro op hop
    rcases List.mem_append.1 hop with h | hop
    · exact hpre op h
    rcases List.mem_append.1 hop with h | hop
    · obtain ⟨i, hi, hio⟩ := List.mem_flatMap.1 h
      cases i with
      | mixin m rules =>
        rcases List.mem_append.1 hio with h | h
        · obtain ⟨q, hq, rfl⟩ := List.mem_map.1 h
          exact hp q (by unfold pluginRules; rw [List.mem_flatMap]; exact ⟨_, hi, hq⟩)
        · rw [List.mem_singleton.1 h]; trivial
      | cls c => rw [List.mem_singleton.1 hio]; trivial
    rcases List.mem_append.1 hop with h | hop
    · exact hmids op h
    · obtain ⟨i, hi, hio⟩ := List.mem_flatMap.1 hop
      cases i with
      | mixin m rules =>
        rcases List.mem_cons.1 hio with h | h
        · rw [h]; trivial
        · obtain ⟨q, hq, rfl⟩ := List.mem_map.1 h
          exact hp q (by unfold pluginRules; rw [List.mem_flatMap]; exact ⟨_, List.mem_reverse.1 hi, hq⟩)
      | cls c => rw [List.mem_singleton.1 hio]; trivial
  rw [(C14_rules_in_force_partial D S hS s pre hpre d h0).1 r, e2,
    (C14_rules_in_force_partial D S hS s _ hall d h0).1 r, trace_append', ruleCount_append, trace_append', ruleCount_append,
    trace_append', ruleCount_append, ruleCount_desOps, ruleCount_spared D d r mid _ _ hr', ruleCount_conOps D d r p _ _ h4,
    count_pluginRules_reverse]
  omega

/-- In the example rule 1 is in force before and after, and rule 2 is not. -/
example : RuleNamesOk plugDecls (fun r => r = 1 ∨ r = 2) := by
  refine ⟨?_, ?_⟩
  · rintro r (rfl | rfl) <;> decide
  · rintro a b (rfl | rfl) (rfl | rfl) h <;> first | rfl | exact absurd h (by decide)
example : ((load plugDecls 0 (run plugDecls (initWorld fun _ => {}) [.addRule 0 1]) plug).bind fun W =>
    (unload plugDecls 0 (run plugDecls W [.regMixin 0 3, .getType 0 [3]]) plug).map fun W2 => (inForce W 0, inForce W2 0)) =
    some ([1, 2], [1]) := by decide +kernel

/-- C69 is false for features: features of a plugin's mixin that are not registered otherwise are registered when the
plugin is loaded, and stay registered in the domain when it is unloaded. -/
theorem C69_features_refuted :
    ∃ (W1 W2 : World), load plugDecls 0 (initWorld fun _ => {}) plug = some W1 ∧ unload plugDecls 0 W1 plug = some W2 ∧
      featuresOf (initWorld fun _ => {}) 0 = [] ∧ featuresOf W2 0 = [1, 2] := by
  refine ⟨_, _, rfl, rfl, ?_, ?_⟩ <;> decide +kernel

/-- C69 is false if the program has unregistered a mixin of the plugin itself: the rules of the mixin stay in force, and
their functions are called by `get_type` after the plugin is unloaded. -/
theorem C69_by_hand_refuted :
    ∃ (W1 W2 : World), load plugDecls 0 (initWorld fun _ => {}) plug = some W1 ∧
      unload plugDecls 0 (run plugDecls W1 [.unregMixin 0 1]) plug = some W2 ∧
      inForce (initWorld fun _ => {}) 0 = [] ∧ inForce W2 0 = [1, 2] := by
  refine ⟨_, _, rfl, rfl, ?_, ?_⟩ <;> decide +kernel

/-- C69: a plugin with a type class cannot be loaded again after it was unloaded (undefined behaviour, see C07). -/
theorem C69_reload_refuted :
    ∃ (W1 W2 : World), load plugDecls 0 (initWorld fun _ => {}) plug = some W1 ∧ unload plugDecls 0 W1 plug = some W2 ∧
      load plugDecls 0 W2 plug = none := by
  refine ⟨_, _, rfl, rfl, ?_⟩
  decide +kernel

end Dnmx.Props
