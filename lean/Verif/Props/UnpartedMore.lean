import Verif.Props.UnpartedAnswers
import Verif.Props.Isolation

/-! C72 and C73 for all histories in which no call makes features and mixins part (`NeverParts`). -/

namespace Dnmx.Props
open Spec

theorem here_registered {D : Decls} {V W : World} (h : SameRegistered V W) (hw : FeatsHere D W) : FeatsHere D V := by
  intro d m hm ff hff
  exact (h.feats d _).1 (hw d m ((h.mixins d m).2 hm) ff hff)

/-- Calls that ask for types do not make features and mixins part, and it does not depend on them whether others do. -/
theorem C72_parts_without_queries (D : Decls) (s : DomId → Settings) (ops more : List Op) (h : NeverParts D s (ops ++ more)) :
    NeverParts D s (ops.filter (fun op => !asksForTypes op) ++ more) := by
  rw [← C56_exactly] at h ⊢
  intro pre hpre
  obtain ⟨t, ht⟩ := hpre
  rcases List.append_eq_append_iff.1 ht with ⟨mid, h1, h2⟩ | ⟨mid, h1, h2⟩
  · obtain ⟨l, h2, rfl⟩ := List.prefix_filter_iff.1 (⟨mid, h1.symm⟩ : pre <+: _)
    exact here_registered (registered_without_queries D s l) (h l (h2.trans (List.prefix_append _ _)))
  · subst h1
    have := h (ops ++ mid) (by rw [h2]; exact ⟨t, by simp⟩)
    refine here_registered ?_ this
    rw [run_append, run_append]
    have gen : ∀ (mid a b : List Op), SameRegistered (run D (initWorld s) a) (run D (initWorld s) b) →
        SameRegistered (run D (run D (initWorld s) a) mid) (run D (run D (initWorld s) b) mid) := by
      intro mid
      induction mid with
      | nil => exact fun a b h => h
      | cons op mid ih =>
        intro a b h
        have := ih (a ++ [op]) (b ++ [op]) (by
          rw [run_append, run_append]
          have := (reachable_step_alike h op).1
          rwa [run_append, run_append] at this)
        rwa [run_append, run_append] at this
    exact gen mid _ _ (registered_without_queries D s ops)

/-- C72, for the same histories and pure rules: `get_type` cannot tell whether types were asked for before. -/
theorem C72_types_invisible_unparted (D : Decls) (s : DomId → Settings) (ops more : List Op) (hd : NeverParts D s (ops ++ more)) (hp : OnlyPureRules D s (ops ++ more)) :
    answers D (run D (initWorld s) ops) more = answers D (run D (initWorld s) (ops.filter (fun op => !asksForTypes op))) more := by
  have sub : ∀ op ∈ ops.filter (fun op => !asksForTypes op) ++ more, op ∈ ops ++ more := by
    intro op h
    rcases List.mem_append.1 h with h | h
    · exact List.mem_append_left _ (List.mem_filter.1 h).1
    · exact List.mem_append_right _ h
  exact C72_answers_unparted D s s _ ops more (C72_parts_without_queries D s ops more hd) hd ⟨fun d r h => hp.1 d r (sub _ h), hp.2⟩ hp (registered_without_queries D s ops)

/-- Nor does it depend on other domains, if every mixin and feature has one home. -/
theorem neverParts_callsOn {D : Decls} {homeM : Mix → DomId} {homeF : Feat → DomId} (s : DomId → Settings) (d : DomId) (ops : List Op) (hh : ∀ op ∈ ops, AtHome D homeM homeF op)
    (h : NeverParts D s ops) : NeverParts D s (callsOn d ops) := by
  rw [← C56_exactly] at h ⊢
  intro pre hpre
  obtain ⟨l, h2, rfl⟩ := List.prefix_filter_iff.1 hpre
  have hl : ∀ op ∈ l, AtHome D homeM homeF op := fun op ho => hh op (h2.subset ho)
  have k := C73_registered D s l ⟨homeM, homeF, hl⟩ d
  change FeatsHere D (run D (initWorld s) (callsOn d l))
  intro d' m hm ff hff
  by_cases hd : d' = d
  · subst hd
    exact (k.1 _).1 (h l h2 d' m ((k.2.1 m).2 hm) ff hff)
  · exfalso
    have := run_elsewhere D d' (callsOn d l) (initWorld s) (initWorld_reg _) (fun op ho => by
      have := (List.mem_filter.1 ho).2
      have : domainOf op = d := by simpa using this
      rw [this]; exact fun x => hd x.symm)
    unfold mixinsOf at hm
    rw [this] at hm
    simp [initWorld, newDom] at hm

/-- C73, for the same histories, one home for every mixin and feature, and pure rules: all answers of a domain are those that it gives when there are no calls on
other domains, except that `get_type` may say of a mixin of another domain that it is not registered, instead of foreign. -/
theorem C73_answers_unparted (D : Decls) (s : DomId → Settings) (ops : List Op) (ho : OneHome D ops) (hf : NeverParts D s ops) (hp : OnlyPureRules D s ops) (d : DomId) :
    (answersOn D d (initWorld s) ops).map blur = (answers D (initWorld s) (callsOn d ops)).map blur := by
  obtain ⟨homeM, homeF, hh⟩ := ho
  have gen : ∀ (more pre : List Op), ops = pre ++ more →
      (answersOn D d (run D (initWorld s) pre) more).map blur = (answers D (run D (initWorld s) (callsOn d pre)) (callsOn d more)).map blur := by
    intro more
    induction more with
    | nil => intro pre _; rfl
    | cons op more ih =>
      intro pre heq
      have hsub : ∀ o ∈ pre ++ op :: more, o ∈ ops := by rw [heq]; exact fun o ho => ho
      have ih := ih (pre ++ [op]) (by simpa using heq)
      have hfp : NeverParts D s pre := by
        intro p o post hpo
        exact hf p o (post ++ op :: more) (by rw [heq, hpo]; simp)
      have hpre : ∀ o ∈ pre, o ∈ ops := fun o ho => hsub o (List.mem_append_left _ ho)
      have hop : op ∈ ops := hsub op (by simp)
      have hcalls : ∀ o ∈ callsOn d pre, o ∈ ops := fun o ho => hpre o (List.mem_filter.1 ho).1
      rw [run_append, callsOn_append, run_append] at ih
      change (answersOn D d (step D (run D (initWorld s) pre) op).2 more).map blur = _ at ih
      rw [show op :: more = [op] ++ more from rfl, callsOn_append]
      unfold answersOn
      simp only [List.singleton_append, List.cons_append, List.nil_append]
      rw [List.map_append, ih]
      by_cases hd : domainOf op = d
      · rw [callsOn_single_pos hd, if_pos hd]
        change _ = (answers D _ (op :: callsOn d more)).map blur
        rw [show answers D (run D (initWorld s) (callsOn d pre)) (op :: callsOn d more) =
          answer D (run D (initWorld s) (callsOn d pre)) op :: answers D (step D (run D (initWorld s) (callsOn d pre)) op).2 (callsOn d more) from rfl]
        rw [List.map_cons, List.map_cons]
        have : blur (answer D (run D (initWorld s) pre) op) = blur (answer D (run D (initWorld s) (callsOn d pre)) op) := by
          cases hq : asksForTypes op with
          | false =>
            rw [answer_at s d pre op (fun o ho => hh o (by rcases List.mem_append.1 ho with h | h; exact hpre o h; simp at h; subst h; exact hop)) hd hq]
          | true =>
            have k := reachable_at s d pre (fun o ho => hh o (hpre o ho))
            have same : ∀ q, blur (typeAnswer D (run D (initWorld s) pre) d q) = blur (typeAnswer D (run D (initWorld s) (callsOn d pre)) d q) := by
              intro q
              have hpure : ∀ r ∈ ((run D (initWorld s) pre).doms d).rules.map (·.1), RulePure D r :=
                OnlyPureRules.inForce (ops := pre) ⟨fun d r hr => hp.1 d r (hpre _ hr), hp.2⟩ d
              unfold typeAnswer
              rw [rulesOf_pure (by rw [k.rules]) hpure ((run D (initWorld s) (callsOn d pre)).view D d) ((run D (initWorld s) pre).view D d)]
              cases resolve D (rulesOf D ((run D (initWorld s) pre).view D d) ((run D (initWorld s) pre).doms d)) q with
              | error e => rfl
              | ok ms =>
                simp only
                have c := checkMixins_at k (reachable_homeOk s pre (fun o ho => hh o (hpre o ho))) (reachable_homeOk s _ (fun o ho => hh o (hcalls o ho))) ms
                revert c
                cases checkMixins (run D (initWorld s) pre).mixId (run D (initWorld s) pre).mixDom d ms <;>
                  cases checkMixins (run D (initWorld s) (callsOn d pre)).mixId (run D (initWorld s) (callsOn d pre)).mixDom d ms <;> intro c
                · exact c.symm
                · exact c.elim
                · exact c.elim
                · rfl
            have a := C72_get_type_unparted D s pre hfp ⟨fun d r hr => hp.1 d r (hpre _ hr), hp.2⟩ d
            have b := C72_get_type_unparted D s (callsOn d pre) (neverParts_callsOn s d pre (fun o ho => hh o (hpre o ho)) hfp) ⟨fun d r hr => hp.1 d r (hcalls _ hr), hp.2⟩ d
            cases op with
            | getTypeMut d' md q =>
              simp only [domainOf] at hd; subst hd
              simp only [answer]
              by_cases hm : md = d'
              · subst hm; rw [(a q).2, (b q).2]; exact same q
              · unfold getTypeMut; rw [if_pos hm, if_pos hm]; rfl
            | getType d' q =>
              simp only [domainOf] at hd; subst hd
              simp only [answer]
              rw [(a q).1, (b q).1]; exact same q
            | gc d' num => rfl
            | _ => simp [asksForTypes] at hq
        rw [this]; rfl
      · rw [callsOn_single_neg hd]
        simp [hd, run]
  exact gen ops [] rfl

-- a history of this kind that does not keep to `FeatureDiscipline`: a mixin and then its feature are unregistered
example : let ops := [Op.regMixin 0 1, .unregMixin 0 1, .unregFeature 0 1, .regMixin 0 1, .getType 0 [1]]
    OneHome regDecls ops ∧ NeverParts regDecls (fun _ => {}) ops ∧ ¬ FeatureDiscipline regDecls ops ∧
    answers regDecls (initWorld fun _ => {}) ops = [.done, .done, .done, .done, .type [1]] := by
  refine ⟨⟨fun _ => 0, fun _ => 0, ?_⟩, neverParts_of _ _ _ ⟨?_, id, ?_, ?_, id, trivial⟩, ?_, by decide +kernel⟩
  · intro op hop
    simp only [List.mem_cons, List.not_mem_nil, or_false] at hop
    rcases hop with rfl | rfl | rfl | rfl | rfl <;> simp [AtHome]
  · exact not_parts_new regDecls (fun _ => {}) [] 0 1 (by decide +kernel)
  · rintro ⟨-, m, hm, -⟩
    have hno : ∀ W : World, mixinsOf W 0 = [] → m ∈ mixinsOf W 0 → False := fun W e h => by rw [e] at h; cases h
    exact hno _ (by decide +kernel) hm
  · rintro ⟨-, ff, hff, d, hd, hx⟩
    have hall : ∀ d, d ≠ 0 → featuresOf (run regDecls (initWorld fun _ => {}) [.regMixin 0 1, .unregMixin 0 1, .unregFeature 0 1]) d = [] := by
      intro d hd
      unfold featuresOf
      rw [run_elsewhere regDecls d _ _ (initWorld_reg _) (fun op ho => by
        simp only [List.mem_cons, List.not_mem_nil, or_false] at ho
        rcases ho with rfl | rfl | rfl <;> exact fun x => hd x.symm)]
      rfl
    have := hall d hd
    change ff.feat ∈ featuresOf (run regDecls (initWorld fun _ => {}) [.regMixin 0 1, .unregMixin 0 1, .unregFeature 0 1]) d at hx
    rw [this] at hx
    cases hx
  · rintro ⟨home, used, h⟩
    have h1 : ∀ ff ∈ (regDecls.mix 1).feats, home ff.feat = 0 ∧ used ff.feat := h (.regMixin 0 1) (by simp)
    have h2 := h (.unregFeature 0 1) (by simp)
    have hm : (⟨1, 10, 0, 0⟩ : FeatFor) ∈ (regDecls.mix 1).feats := by decide +kernel
    have := (h1 _ hm).2
    exact h2 this

end Dnmx.Props
