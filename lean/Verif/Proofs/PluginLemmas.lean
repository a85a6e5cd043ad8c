import Verif.Spec.Plugin
import Verif.Proofs.MixinDataLemmas
import Verif.Proofs.HistoryLemmas
import Verif.Proofs.ClassLemmas
import Verif.Proofs.SystemLemmas
import Verif.Proofs.RuleMapLemmas

/-! # Lemmas about plugins -/

set_option linter.unusedSimpArgs false
set_option linter.unusedVariables false

namespace Dnmx
open Spec

/-- The calls of a constructor. -/
def StaticItem.conOps (d : DomId) : StaticItem → List Op
  | .mixin m rules => rules.map (.addRule d ·) ++ [.regMixin d m]
  | .cls c => [.regClass d c]

/-- The calls of a destructor. -/
def StaticItem.desOps (d : DomId) : StaticItem → List Op
  | .mixin m rules => .unregMixin d m :: rules.map (.removeRule d ·)
  | .cls c => [.unregClass d c]

theorem trace_append' (D : Decls) : ∀ (a b : List Op) (W : World), trace D W (a ++ b) = trace D W a ++ trace D (run D W a) b
  | [], _, _ => rfl
  | op :: a, b, W => by simp only [List.cons_append, trace, run, trace_append' D a b]

theorem mixin_kept (D : Decls) (d : DomId) (m : Mix) (ops : List Op) (W : World) (hr : RegInv W)
    (h : m ∈ mixinsOf W d) (hno : ∀ op ∈ ops, op ≠ .unregMixin d m) : m ∈ mixinsOf (run D W ops) d := by
  rw [run_mixinRegistered D d m ops W hr]
  have : ∀ (ops : List Op) (W : World), (∀ op ∈ ops, op ≠ .unregMixin d m) →
      (trace D W ops).foldl (mixinRegStep d m) true = true := by
    intro ops
    induction ops with
    | nil => intro _ _; rfl
    | cons op ops ih =>
      intro W hno
      simp only [trace, List.foldl_cons]
      have e : mixinRegStep d m true (op, (step D W op).1) = true := by
        have hne := hno op (List.mem_cons_self ..)
        cases op <;> cases (step D W _).1 <;> simp [mixinRegStep]
        exact Classical.not_and_iff_not_or_not.1 (by rintro ⟨rfl, rfl⟩; exact hne rfl)
      rw [e]
      exact ih _ (fun o ho => hno o (List.mem_cons_of_mem _ ho))
  simp only [h, decide_true]
  exact this ops W hno

theorem mixin_stays_out (D : Decls) (d : DomId) (m : Mix) (ops : List Op) (W : World) (hr : RegInv W)
    (h : m ∉ mixinsOf W d) (hno : ∀ op ∈ ops, op ≠ .regMixin d m) : m ∉ mixinsOf (run D W ops) d := by
  rw [run_mixinRegistered D d m ops W hr]
  have : ∀ (ops : List Op) (W : World), (∀ op ∈ ops, op ≠ .regMixin d m) →
      (trace D W ops).foldl (mixinRegStep d m) false = false := by
    intro ops
    induction ops with
    | nil => intro _ _; rfl
    | cons op ops ih =>
      intro W hno
      simp only [trace, List.foldl_cons]
      have e : mixinRegStep d m false (op, (step D W op).1) = false := by
        have hne := hno op (List.mem_cons_self ..)
        cases op <;> cases (step D W _).1 <;> simp [mixinRegStep]
        rename_i d' m' _
        intro h1 h2; subst h1; subst h2; exact hne rfl
      rw [e]
      exact ih _ (fun o ho => hno o (List.mem_cons_of_mem _ ho))
  simp only [h, decide_false]
  rw [this ops W hno]; simp

theorem class_kept (D : Decls) (d : DomId) (c : Cls) (ops : List Op) (W : World) (hr : RegInv W) (hc : ClsInv D (W.doms d))
    (h : c ∈ classesOf W d) (hno : ∀ op ∈ ops, op ≠ .unregClass d c) : c ∈ classesOf (run D W ops) d := by
  rw [run_classRegistered D d c ops W hr hc]
  have : ∀ (ops : List Op) (W : World), (∀ op ∈ ops, op ≠ .unregClass d c) →
      (trace D W ops).foldl (classRegStep d c) true = true := by
    intro ops
    induction ops with
    | nil => intro _ _; rfl
    | cons op ops ih =>
      intro W hno
      simp only [trace, List.foldl_cons]
      have e : classRegStep d c true (op, (step D W op).1) = true := by
        have hne := hno op (List.mem_cons_self ..)
        cases op <;> cases (step D W _).1 <;> simp [classRegStep]
        all_goals
          exact Classical.not_and_iff_not_or_not.1 (by rintro ⟨rfl, rfl⟩; exact hne rfl)
      rw [e]
      exact ih _ (fun o ho => hno o (List.mem_cons_of_mem _ ho))
  simp only [h, decide_true]
  exact this ops W hno

theorem class_stays_out (D : Decls) (d : DomId) (c : Cls) (ops : List Op) (W : World) (hr : RegInv W) (hc : ClsInv D (W.doms d))
    (h : c ∉ classesOf W d) (hno : ∀ op ∈ ops, op ≠ .regClass d c) : c ∉ classesOf (run D W ops) d := by
  rw [run_classRegistered D d c ops W hr hc]
  have : ∀ (ops : List Op) (W : World), (∀ op ∈ ops, op ≠ .regClass d c) →
      (trace D W ops).foldl (classRegStep d c) false = false := by
    intro ops
    induction ops with
    | nil => intro _ _; rfl
    | cons op ops ih =>
      intro W hno
      simp only [trace, List.foldl_cons]
      have e : classRegStep d c false (op, (step D W op).1) = false := by
        have hne := hno op (List.mem_cons_self ..)
        cases op <;> cases (step D W _).1 <;> simp [classRegStep]
        rename_i d' m' _
        intro h1 h2; subst h1; subst h2; exact hne rfl
      rw [e]
      exact ih _ (fun o ho => hno o (List.mem_cons_of_mem _ ho))
  simp only [h, decide_false]
  rw [this ops W hno]; simp

/-! ## loading -/

theorem construct_run (D : Decls) (W W' : World) (d : DomId) (i : StaticItem) (h : i.construct D W d = some W') :
    W' = run D W (i.conOps d) := by
  cases i with
  | mixin m rules =>
    simp only [StaticItem.construct] at h
    rcases hr : registerIn D W d m rules with ⟨e, W1⟩
    rw [hr] at h
    cases e with
    | error e => simp at h
    | ok u =>
      simp only [Option.some.injEq] at h
      have := registerIn_run D W d m rules (by rw [hr])
      rw [hr] at this
      rw [← h]; exact this
  | cls c =>
    simp only [StaticItem.construct] at h
    rcases hr : registerTypeClass D W d c with ⟨e, W1⟩
    rw [hr] at h
    cases e with
    | error e => simp at h
    | ok u =>
      simp only [Option.some.injEq] at h
      show W' = (registerTypeClass D W d c).2
      rw [hr, h]

theorem constructAll_run (D : Decls) (d : DomId) : ∀ (p : List StaticItem) (W W' : World),
    constructAll D d W p = some W' → W' = run D W (p.flatMap (·.conOps d))
  | [], W, W', h => by simp [constructAll] at h; exact h.symm
  | i :: p, W, W', h => by
    unfold constructAll at h
    cases hc : i.construct D W d with
    | none => rw [hc] at h; simp at h
    | some W1 =>
      rw [hc] at h
      simp only at h
      rw [List.flatMap_cons, run_append, ← construct_run D W W1 d i hc]
      exact constructAll_run D d p W1 W' h

/-- What a constructor has done. -/
theorem construct_done (D : Decls) (W W' : World) (d : DomId) (hr : RegInv W) (hc : ClsInv D (W.doms d)) (i : StaticItem)
    (h : i.construct D W d = some W') :
    (∀ m ∈ pluginMixins [i], m ∈ mixinsOf W' d ∧ ∀ d', m ∉ mixinsOf W d') ∧
    (∀ c ∈ pluginClasses [i], c ∈ classesOf W' d) ∧ (∀ r ∈ pluginRules [i], (ruleOf D r).apply ≠ none) := by
  have hrun := construct_run D W W' d i h
  cases i with
  | mixin m rules =>
    simp only [StaticItem.construct] at h
    rcases he : registerIn D W d m rules with ⟨e, W1⟩
    rw [he] at h
    cases e with
    | error e => simp at h
    | ok u =>
      have hout := (registerIn_outcome D W d m rules).1 (by rw [he])
      refine ⟨?_, by intro c hcm; simp [pluginClasses] at hcm, ?_⟩
      · intro m' hm'
        have : m' = m := by simpa [pluginMixins] using hm'
        subst this
        obtain ⟨id, hi⟩ := registerMixin_ok D W d m' hr hout.2
        refine ⟨?_, ?_⟩
        · rw [hrun, StaticItem.conOps, run_append]
          have hr1 : RegInv (run D W (rules.map (.addRule d ·))) := run_reg D _ W hr
          have h1 : (registerMixin D (run D W (rules.map (.addRule d ·))) d m').1 = .ok () := by
            obtain ⟨⟨rs, qs, e1⟩, e2, e3⟩ := addRules_spec D d rules W
            have hok := e2.2 hout.1
            rw [← e3 hok, e1, registerMixin_reRule]
            exact hout.2
          rw [run_mixinRegistered D d m' _ _ hr1]
          show ([(Op.regMixin d m', (registerMixin D (run D W (rules.map (.addRule d ·))) d m').1)] : List _).foldl _ _ = true
          rw [h1]
          simp [mixinRegStep]
        · intro d' hd'
          obtain ⟨j, hj⟩ := (mem_mixinsOf _ _ _).1 hd'
          have hid := (hr.mixSlot d' j m' hj).1
          have h2 := hout.2
          unfold registerMixin at h2
          by_cases hf : W.mixDom m' ≠ none ∧ W.mixDom m' ≠ some d
          · rw [if_pos hf] at h2; simp at h2
          rw [if_neg hf] at h2
          obtain ⟨-, hg, -⟩ := registerFeatures_spec D d ((D.mix m').feats.map (·.feat)) W hr
          rcases hfs : registerFeatures D W d ((D.mix m').feats.map (·.feat)) with ⟨e', W2⟩
          simp only [hfs] at h2
          cases e' with
          | error e' => simp at h2
          | ok u' =>
            simp only at h2
            have hmid : W2.mixId = W.mixId := by
              have := hg.mixId
              rw [hfs] at this; exact this
            unfold basicRegister at h2
            rw [hmid, if_pos (by rw [hid]; simp)] at h2
            simp at h2
      · intro r hrm
        exact hout.1 r (by simpa [pluginRules] using hrm)
  | cls c =>
    refine ⟨by intro m hm; simp [pluginMixins] at hm, ?_, by intro r hrm; simp [pluginRules] at hrm⟩
    intro c' hc'
    have : c' = c := by simpa [pluginClasses] using hc'
    subst this
    simp only [StaticItem.construct] at h
    rcases he : registerTypeClass D W d c' with ⟨e, W1⟩
    rw [he] at h
    cases e with
    | error e => simp at h
    | ok u =>
      rw [hrun, StaticItem.conOps, run_classRegistered D d c' _ _ hr hc]
      show ([(Op.regClass d c', (registerTypeClass D W d c').1)] : List _).foldl _ _ = true
      rw [he]
      simp [classRegStep]

theorem conOps_not_unreg (d : DomId) (i : StaticItem) (op : Op) (h : op ∈ i.conOps d) :
    (∀ d' m, op ≠ .unregMixin d' m) ∧ (∀ d' c, op ≠ .unregClass d' c) ∧ (∀ d' r, op ≠ .removeRule d' r) := by
  cases i with
  | mixin m rules =>
    rcases List.mem_append.1 h with h | h
    · obtain ⟨r, -, rfl⟩ := List.mem_map.1 h; simp
    · rw [List.mem_singleton.1 h]; simp
  | cls c => rw [List.mem_singleton.1 h]; simp

theorem pluginMixins_cons (i : StaticItem) (p : List StaticItem) : pluginMixins (i :: p) = pluginMixins [i] ++ pluginMixins p := by
  cases i <;> simp [pluginMixins]
theorem pluginClasses_cons (i : StaticItem) (p : List StaticItem) : pluginClasses (i :: p) = pluginClasses [i] ++ pluginClasses p := by
  cases i <;> simp [pluginClasses]
theorem pluginRules_cons (i : StaticItem) (p : List StaticItem) : pluginRules (i :: p) = pluginRules [i] ++ pluginRules p := by
  cases i <;> simp [pluginRules]

theorem load_done (D : Decls) (d : DomId) : ∀ (p : List StaticItem) (W W' : World), RegInv W → ClsInv D (W.doms d) →
    constructAll D d W p = some W' →
    (pluginMixins p).Nodup ∧ (∀ m ∈ pluginMixins p, m ∈ mixinsOf W' d ∧ ∀ d', m ∉ mixinsOf W d') ∧
    (∀ c ∈ pluginClasses p, c ∈ classesOf W' d) ∧ (∀ r ∈ pluginRules p, (ruleOf D r).apply ≠ none)
  | [], W, W', hr, hc, h => by
    simp [pluginMixins, pluginClasses, pluginRules]
  | i :: p, W, W', hr, hc, h => by
    unfold constructAll at h
    cases he : i.construct D W d with
    | none => rw [he] at h; simp at h
    | some W1 =>
      rw [he] at h
      simp only at h
      have hd := construct_done D W W1 d hr hc i he
      have hW1 := construct_run D W W1 d i he
      have hr1 : RegInv W1 := by rw [hW1]; exact run_reg D _ W hr
      have hc1 : ClsInv D (W1.doms d) := by rw [hW1]; exact run_cls D d _ W hr hc
      obtain ⟨h1, h2, h3, h4⟩ := load_done D d p W1 W' hr1 hc1 h
      have hW' := constructAll_run D d p W1 W' h
      have hno : ∀ op ∈ p.flatMap (·.conOps d), (∀ d' m, op ≠ .unregMixin d' m) ∧ (∀ d' c, op ≠ .unregClass d' c) := by
        intro op hop
        obtain ⟨j, -, hj⟩ := List.mem_flatMap.1 hop
        exact ⟨(conOps_not_unreg d j op hj).1, (conOps_not_unreg d j op hj).2.1⟩
      rw [pluginMixins_cons, pluginClasses_cons, pluginRules_cons]
      refine ⟨?_, ?_, ?_, ?_⟩
      · rw [List.nodup_append]
        refine ⟨?_, h1, ?_⟩
        · cases i <;> simp [pluginMixins]
        · intro a ha b hb hab
          subst hab
          exact (h2 a hb).2 d (hd.1 a ha).1
      · intro m hm
        rcases List.mem_append.1 hm with hm | hm
        · refine ⟨?_, (hd.1 m hm).2⟩
          rw [hW']
          exact mixin_kept D d m _ W1 hr1 (hd.1 m hm).1 (fun op hop => (hno op hop).1 d m)
        · refine ⟨(h2 m hm).1, ?_⟩
          intro d' hmem
          refine (h2 m hm).2 d' ?_
          rw [hW1]
          exact mixin_kept D d' m _ W hr hmem (fun op hop => (conOps_not_unreg d i op hop).1 d' m)
      · intro c hcm
        rcases List.mem_append.1 hcm with hcm | hcm
        · rw [hW']
          exact class_kept D d c _ W1 hr1 hc1 (hd.2.1 c hcm) (fun op hop => (hno op hop).2 d c)
        · exact h3 c hcm
      · intro r hrm
        rcases List.mem_append.1 hrm with hrm | hrm
        · exact hd.2.2 r hrm
        · exact h4 r hrm

/-! ## unloading -/

theorem unregisterMixin_succeeds (D : Decls) (W : World) (d : DomId) (m : Mix) (hr : RegInv W) (ht : TypesInv D W d)
    (hm : m ∈ mixinsOf W d) : (unregisterMixin W d m).1 = .ok () := by
  obtain ⟨i, hs⟩ := (mem_mixinsOf _ _ _).1 hm
  have hid := (hr.mixSlot d i m hs).1
  obtain ⟨qs, hp, -⟩ := purgeQueries_some (W.doms d) d (W.mixId m) m _ ht.queries
  unfold unregisterMixin
  simp only
  rw [hp]
  simp only
  have ho : ownSlot (W.doms d).mixins (W.mixId m) m = some i := by
    unfold ownSlot; rw [hid]; simp only; rw [if_pos hs]
  rw [ho]

/-- Stored queries that mention a mixin are gone after it has been unregistered. -/
theorem unregisterMixin_keys (D : Decls) (W : World) (d : DomId) (m : Mix) (ht : TypesInv D W d)
    (h : (unregisterMixin W d m).1 = .ok ()) : ∀ e ∈ ((unregisterMixin W d m).2.doms d).queries, m ∉ e.1 := by
  obtain ⟨id, he⟩ := unregisterMixin_ok W d m h
  obtain ⟨qs, hp, hq⟩ := purgeQueries_some (W.doms d) d (W.mixId m) m _ ht.queries
  have := he.queries
  rw [hp] at this
  have e1 : qs = ((unregisterMixin W d m).2.doms d).queries := by simpa using this
  intro e hmem hin
  rw [← e1, hq] at hmem
  have := (List.mem_filter.1 hmem).2
  have hc : e.1.contains m = true := by simpa using hin
  rw [hc] at this
  simp at this

theorem desOps_queries (D : Decls) (W : World) (d d' : DomId) (op : Op) (ht : TypesInv D W d)
    (hop : (∃ m, op = .unregMixin d m) ∨ (∃ r, op = .removeRule d r) ∨ (∃ c, op = .unregClass d c)) :
    ∀ e ∈ ((step D W op).2.doms d).queries, e ∈ (W.doms d).queries := by
  rcases hop with ⟨m, rfl⟩ | ⟨r, rfl⟩ | ⟨c, rfl⟩
  · intro e he
    have he' : e ∈ ((unregisterMixin W d m).2.doms d).queries := he
    obtain ⟨qs, hp, hq⟩ := purgeQueries_some (W.doms d) d (W.mixId m) m _ ht.queries
    unfold unregisterMixin at he'
    simp only at he'
    rw [hp] at he'
    simp only at he'
    have hsub : ∀ e ∈ qs, e ∈ (W.doms d).queries := by
      intro e h; rw [hq] at h; exact (List.mem_filter.1 h).1
    cases ho : ownSlot (W.doms d).mixins (W.mixId m) m with
    | none => rw [ho] at he'; simp [World.setDom, upd] at he'; exact hsub e he'
    | some i => rw [ho] at he'; simp [World.setDom, upd] at he'; exact hsub e he'
  · intro e he
    have he' : e ∈ ((removeRule D W d r).2.doms d).queries := he
    unfold removeRule at he'
    simp only at he'
    cases hd : ruleDecr D r (W.doms d).rules with
    | none => rw [hd] at he'; exact he'
    | some x =>
      obtain ⟨rules, rc⟩ := x
      rw [hd] at he'
      simp only at he'
      by_cases hrc : rc > 0
      · rw [if_pos hrc] at he'; simpa [World.setDom, upd] using he'
      · rw [if_neg hrc] at he'; simp [World.setDom, upd] at he'
  · intro e he
    have he' : e ∈ ((unregisterTypeClass W d c).2.doms d).queries := he
    simpa [unregisterTypeClass, World.setDom, upd] using he'

theorem mem_desOps (d : DomId) (i : StaticItem) (op : Op) (h : op ∈ i.desOps d) :
    ((∃ m ∈ pluginMixins [i], op = .unregMixin d m) ∨ (∃ r, op = .removeRule d r) ∨ (∃ c ∈ pluginClasses [i], op = .unregClass d c)) := by
  cases i with
  | mixin m rules =>
    rcases List.mem_cons.1 h with h | h
    · exact .inl ⟨m, by simp [pluginMixins], h⟩
    · obtain ⟨r, -, rfl⟩ := List.mem_map.1 h; exact .inr (.inl ⟨r, rfl⟩)
  | cls c => exact .inr (.inr ⟨c, by simp [pluginClasses], List.mem_singleton.1 h⟩)

theorem run_desOps_queries (D : Decls) (d : DomId) : ∀ (ops : List Op) (W : World), RegInv W → TypesInv D W d →
    (∀ op ∈ ops, (∃ m, op = .unregMixin d m) ∨ (∃ r, op = .removeRule d r) ∨ (∃ c, op = .unregClass d c)) →
    ∀ e ∈ ((run D W ops).doms d).queries, e ∈ (W.doms d).queries
  | [], W, hr, ht, h, e, he => he
  | op :: ops, W, hr, ht, h, e, he => by
    have h1 := run_desOps_queries D d ops (step D W op).2 (step_reg D W op hr) (step_types D W hr op d ht)
      (fun o ho => h o (List.mem_cons_of_mem _ ho)) e he
    exact desOps_queries D W d d op ht (h op (List.mem_cons_self ..)) e h1

theorem destroy_mixin (D : Decls) (W : World) (d : DomId) (m : Mix) (rules : List Rule) (hr : RegInv W)
    (ht : TypesInv D W d) (hm : m ∈ mixinsOf W d) :
    (StaticItem.mixin m rules).destroy D W d = some (run D W ((StaticItem.mixin m rules).desOps d)) := by
  obtain ⟨i, hs⟩ := (mem_mixinsOf _ _ _).1 hm
  have hdom := (hr.mixSlot d i m hs).2
  have hok := unregisterMixin_succeeds D W d m hr ht hm
  simp only [StaticItem.destroy]
  rw [hdom]
  simp only
  unfold unregisterFrom
  rcases hu : unregisterMixin W d m with ⟨e, W1⟩
  rw [hu] at hok
  simp only at hok
  subst hok
  simp only
  rw [removeRules_run]
  show _ = some (run D (unregisterMixin W d m).2 _)
  rw [hu]

theorem destroyAll_run (D : Decls) (d : DomId) : ∀ (p : List StaticItem) (W : World), RegInv W → TypesInv D W d →
    (pluginMixins p).Nodup → (∀ m ∈ pluginMixins p, m ∈ mixinsOf W d) →
    destroyAll D d W p = some (run D W (p.flatMap (·.desOps d)))
  | [], W, hr, ht, hn, hm => rfl
  | i :: p, W, hr, ht, hn, hm => by
    have h1 : i.destroy D W d = some (run D W (i.desOps d)) := by
      cases i with
      | mixin m rules => exact destroy_mixin D W d m rules hr ht (hm m (by simp [pluginMixins]))
      | cls c => rfl
    unfold destroyAll
    rw [h1]
    simp only
    rw [List.flatMap_cons, run_append]
    rw [pluginMixins_cons, List.nodup_append] at hn
    refine destroyAll_run D d p _ (run_reg D _ W hr) (run_types D d _ W hr ht) hn.2.1 ?_
    intro m hmm
    refine mixin_kept D d m _ W hr (hm m (by rw [pluginMixins_cons]; exact List.mem_append_right _ hmm)) ?_
    intro op hop he
    rcases mem_desOps d i op hop with ⟨m', h2, h3⟩ | ⟨r, h3⟩ | ⟨c, -, h3⟩
    · rw [he] at h3
      have : m = m' := by simpa using h3
      subst this
      exact hn.2.2 m h2 m hmm rfl
    · rw [he] at h3; simp at h3
    · rw [he] at h3; simp at h3

/-- What the destructors have done. -/
theorem destroyAll_done (D : Decls) (d : DomId) : ∀ (p : List StaticItem) (W : World), RegInv W → TypesInv D W d →
    ClsInv D (W.doms d) → (pluginMixins p).Nodup → (∀ m ∈ pluginMixins p, m ∈ mixinsOf W d) →
    (∀ m ∈ pluginMixins p, (∀ d', m ∉ mixinsOf (run D W (p.flatMap (·.desOps d))) d') ∧
      ∀ e ∈ ((run D W (p.flatMap (·.desOps d))).doms d).queries, m ∉ e.1) ∧
    (∀ c ∈ pluginClasses p, c ∉ classesOf (run D W (p.flatMap (·.desOps d))) d)
  | [], W, hr, ht, hc, hn, hm => by simp [pluginMixins, pluginClasses]
  | i :: p, W, hr, ht, hc, hn, hm => by
    have hr1 := run_reg D (i.desOps d) W hr
    have ht1 := run_types D d (i.desOps d) W hr ht
    have hc1 := run_cls D d (i.desOps d) W hr hc
    rw [pluginMixins_cons, List.nodup_append] at hn
    have hm1 : ∀ m ∈ pluginMixins p, m ∈ mixinsOf (run D W (i.desOps d)) d := by
      intro m hmm
      refine mixin_kept D d m _ W hr (hm m (by rw [pluginMixins_cons]; exact List.mem_append_right _ hmm)) ?_
      intro op hop he
      rcases mem_desOps d i op hop with ⟨m', h2, h3⟩ | ⟨r, h3⟩ | ⟨c, -, h3⟩
      · rw [he] at h3
        have : m = m' := by simpa using h3
        subst this
        exact hn.2.2 m h2 m hmm rfl
      · rw [he] at h3; simp at h3
      · rw [he] at h3; simp at h3
    obtain ⟨ih1, ih2⟩ := destroyAll_done D d p (run D W (i.desOps d)) hr1 ht1 hc1 hn.2.1 hm1
    have hrest : ∀ op ∈ p.flatMap (·.desOps d),
        (∃ m, op = .unregMixin d m) ∨ (∃ r, op = .removeRule d r) ∨ (∃ c, op = .unregClass d c) := by
      intro op hop
      obtain ⟨j, -, hj⟩ := List.mem_flatMap.1 hop
      rcases mem_desOps d j op hj with ⟨m, -, h⟩ | ⟨r, h⟩ | ⟨c, -, h⟩
      · exact .inl ⟨m, h⟩
      · exact .inr (.inl ⟨r, h⟩)
      · exact .inr (.inr ⟨c, h⟩)
    rw [List.flatMap_cons, run_append, pluginMixins_cons, pluginClasses_cons]
    refine ⟨?_, ?_⟩
    · intro m hmm
      rcases List.mem_append.1 hmm with h | h
      · cases i with
        | cls c => simp [pluginMixins] at h
        | mixin m' rules =>
          have : m = m' := by simpa [pluginMixins] using h
          subst this
          have hok := unregisterMixin_succeeds D W d m hr ht (hm m (by simp [pluginMixins]))
          obtain ⟨id, he⟩ := unregisterMixin_ok W d m hok
          have hrs : RegInv (unregisterMixin W d m).2 := step_reg D W (.unregMixin d m) hr
          have hts : TypesInv D (unregisterMixin W d m).2 d := step_types D W hr (.unregMixin d m) d ht
          have hout : ∀ d', m ∉ mixinsOf (unregisterMixin W d m).2 d' := by
            intro d' hd'
            obtain ⟨j, hj⟩ := (mem_mixinsOf _ _ _).1 hd'
            have := (hrs.mixSlot d' j m hj).1
            rw [he.mixId] at this
            simp [upd] at this
          have hq := unregisterMixin_keys D W d m ht hok
          have hde : run D W ((StaticItem.mixin m rules).desOps d) =
              run D (unregisterMixin W d m).2 (rules.map (.removeRule d ·)) := rfl
          rw [hde, ← run_append]
          refine ⟨?_, ?_⟩
          · intro d'
            refine mixin_stays_out D d' m _ _ hrs (hout d') ?_
            intro op hop he'
            rcases List.mem_append.1 hop with hop | hop
            · obtain ⟨r, -, hr'⟩ := List.mem_map.1 hop; rw [he'] at hr'; simp at hr'
            · rcases hrest op hop with ⟨_, hx⟩ | ⟨_, hx⟩ | ⟨_, hx⟩ <;> (rw [he'] at hx; simp at hx)
          · intro e hmem
            refine hq e (run_desOps_queries D d _ _ hrs hts ?_ e hmem)
            intro op hop
            rcases List.mem_append.1 hop with hop | hop
            · obtain ⟨r, -, hr'⟩ := List.mem_map.1 hop; exact .inr (.inl ⟨r, hr'.symm⟩)
            · exact hrest op hop
      · exact ih1 m h
    · intro c hcm
      rcases List.mem_append.1 hcm with h | h
      · cases i with
        | mixin m' rules => simp [pluginClasses] at h
        | cls c' =>
          have : c = c' := by simpa [pluginClasses] using h
          subst this
          have hout : c ∉ classesOf (run D W ((StaticItem.cls c).desOps d)) d := by
            rw [run_classRegistered D d c _ W hr hc]
            show ¬ ([(Op.unregClass d c, (step D W (.unregClass d c)).1)] : List _).foldl _ _ = true
            simp [classRegStep]
          refine class_stays_out D d c _ _ hr1 hc1 hout ?_
          intro op hop he'
          rcases hrest op hop with ⟨_, hx⟩ | ⟨_, hx⟩ | ⟨_, hx⟩ <;> (rw [he'] at hx; simp at hx)
      · exact ih2 c h

/-! ## rules -/

theorem ruleCount_append (d : DomId) (r : Rule) (n : Nat) (a b : List (Op × Except Err Unit)) :
    ruleCount d r n (a ++ b) = ruleCount d r (ruleCount d r n a) b := by simp [ruleCount, List.foldl_append]

theorem ruleCount_spared (D : Decls) (d : DomId) (r : Rule) : ∀ (ops : List Op) (W : World) (n : Nat),
    (∀ op ∈ ops, Spec.Op.sparesRule d r op) → ruleCount d r n (trace D W ops) = n
  | [], W, n, h => rfl
  | op :: ops, W, n, h => by
    have h1 := h op (List.mem_cons_self ..)
    have e : ruleCountStep d r n (op, (step D W op).1) = n := by
      cases op <;> cases (step D W _).1 <;> simp [ruleCountStep] <;>
        (intro a b; exact absurd ⟨a, b⟩ h1)
    show ruleCount d r (ruleCountStep d r n (op, (step D W op).1)) _ = n
    rw [e]
    exact ruleCount_spared D d r ops _ n (fun o ho => h o (List.mem_cons_of_mem _ ho))

theorem ruleCount_conOps (D : Decls) (d : DomId) (r : Rule) : ∀ (p : List StaticItem) (W : World) (n : Nat),
    (∀ r ∈ pluginRules p, (ruleOf D r).apply ≠ none) →
    ruleCount d r n (trace D W (p.flatMap (·.conOps d))) = n + (pluginRules p).count r
  | [], W, n, h => by simp [pluginRules, trace, ruleCount]
  | i :: p, W, n, h => by
    rw [List.flatMap_cons, trace_append', ruleCount_append, pluginRules_cons, List.count_append]
    rw [pluginRules_cons] at h
    rw [ruleCount_conOps D d r p _ _ (fun r hr => h r (List.mem_append_right _ hr))]
    have e : ruleCount d r n (trace D W (i.conOps d)) = n + (pluginRules [i]).count r := by
      rw [ruleCount_adds D d r _ W n (fun op hop r' => (conOps_not_unreg d i op hop).2.2 d r')]
      cases i with
      | mixin m rules =>
        have hf : ∀ q ∈ rules, (ruleOf D q).apply ≠ none := fun q hq => h q (by simp [pluginRules, hq])
        simp only [StaticItem.conOps]
        rw [addsOf_append, addsOf_map D d r rules hf]
        simp [addsOf, pluginRules]
      | cls c => simp [StaticItem.conOps, addsOf, pluginRules]
    rw [e]; omega

theorem ruleCount_desOps (D : Decls) (d : DomId) (r : Rule) : ∀ (p : List StaticItem) (W : World) (n : Nat),
    ruleCount d r n (trace D W (p.flatMap (·.desOps d))) = n - (pluginRules p).count r
  | [], W, n => by simp [pluginRules, trace, ruleCount]
  | i :: p, W, n => by
    rw [List.flatMap_cons, trace_append', ruleCount_append, pluginRules_cons, List.count_append, ruleCount_desOps D d r p]
    have e : ruleCount d r n (trace D W (i.desOps d)) = n - (pluginRules [i]).count r := by
      cases i with
      | mixin m rules =>
        have e1 : ruleCount d r n (trace D W ((StaticItem.mixin m rules).desOps d)) =
            ruleCount d r n (trace D (step D W (.unregMixin d m)).2 (rules.map (.removeRule d ·))) := by
          simp only [StaticItem.desOps, trace, ruleCount, List.foldl_cons]
          cases (step D W (.unregMixin d m)).1 <;> rfl
        rw [e1, ruleCount_removes]
        simp [pluginRules]
      | cls c =>
        simp only [StaticItem.desOps, trace, ruleCount, List.foldl_cons, List.foldl_nil, pluginRules]
        cases (step D W (.unregClass d c)).1 <;> simp [ruleCountStep]
    rw [e]; omega

theorem pluginMixins_reverse (p : List StaticItem) : pluginMixins p.reverse = (pluginMixins p).reverse := by
  simp [pluginMixins, List.filterMap_reverse]
theorem pluginClasses_reverse (p : List StaticItem) : pluginClasses p.reverse = (pluginClasses p).reverse := by
  simp [pluginClasses, List.filterMap_reverse]
theorem count_pluginRules_reverse (r : Rule) : ∀ p : List StaticItem, (pluginRules p.reverse).count r = (pluginRules p).count r
  | [] => rfl
  | i :: p => by
    have h : ∀ a b : List StaticItem, pluginRules (a ++ b) = pluginRules a ++ pluginRules b := by
      intro a b; simp [pluginRules, List.flatMap_append]
    rw [List.reverse_cons, h, pluginRules_cons i p, List.count_append, List.count_append, count_pluginRules_reverse r p]
    omega

end Dnmx
