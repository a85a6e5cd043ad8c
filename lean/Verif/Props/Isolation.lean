import Verif.Proofs.IsolationLemmas
import Verif.Props.Answers

/-!
# C73: domains do not affect each other

What calls on a domain answer, in any history of calls on many domains, is what they answer when there are no calls on other
domains at all.
-/

namespace Dnmx.Props
open Spec

/-- Two histories with the same calls on `d` leave the same registered in `d`. -/
theorem reachable_at {D : Decls} {homeM : Mix → DomId} {homeF : Feat → DomId} (s : DomId → Settings) (d : DomId) (ops : List Op) (hh : ∀ op ∈ ops, AtHome D homeM homeF op) :
    SameAt d (run D (initWorld s) ops) (run D (initWorld s) (callsOn d ops)) := by
  induction ops using snoc_induction with
  | h0 => exact ⟨rfl, fun _ => Iff.rfl, fun _ => Iff.rfl, fun _ => Iff.rfl, Iff.rfl, rfl⟩
  | h1 ops op ih =>
    have hh0 : ∀ op ∈ ops, AtHome D homeM homeF op := fun o ho => hh o (List.mem_append_left _ ho)
    have ih := ih hh0
    unfold callsOn at ih ⊢
    rw [List.filter_append, run_append]
    by_cases hd : domainOf op = d
    · have : [op].filter (fun op => domainOf op == d) = [op] := by simp [hd]
      rw [this, run_append]
      refine (step_at ih (reachable_homeOk s ops hh0) (reachable_homeOk s _ (fun o ho => hh0 o (List.mem_filter.1 ho).1)) (reachable_types D s _ d) (reachable_types D s _ d)
        (reachable_cls D s _ d) (reachable_cls D s _ d) op hd (hh op (by simp))).1
    · have : [op].filter (fun op => domainOf op == d) = [] := by simp [hd]
      rw [this, List.append_nil]
      exact ih.elsewhere (reachable_reg D s ops) op hd

/-- C73: what is registered in a domain, and with which rules, is decided by the calls on this domain alone. -/
theorem C73_registered (D : Decls) (s : DomId → Settings) (ops : List Op) (ho : OneHome D ops) (d : DomId) :
    (∀ f, f ∈ featuresOf (run D (initWorld s) ops) d ↔ f ∈ featuresOf (run D (initWorld s) (callsOn d ops)) d) ∧
    (∀ m, m ∈ mixinsOf (run D (initWorld s) ops) d ↔ m ∈ mixinsOf (run D (initWorld s) (callsOn d ops)) d) ∧
    (∀ c, c ∈ classesOf (run D (initWorld s) ops) d ↔ c ∈ classesOf (run D (initWorld s) (callsOn d ops)) d) ∧
    inForce (run D (initWorld s) ops) d = inForce (run D (initWorld s) (callsOn d ops)) d := by
  obtain ⟨homeM, homeF, hh⟩ := ho
  have k := reachable_at s d ops hh
  refine ⟨fun f => ?_, fun m => ?_, fun c => (k.classes c).symm, ?_⟩
  · rw [mem_featuresOf, mem_featuresOf]; exact (k.feats f).symm
  · rw [mem_mixinsOf, mem_mixinsOf]; exact (k.mixins m).symm
  · unfold inForce; rw [k.rules]

theorem answer_at {D : Decls} {homeM : Mix → DomId} {homeF : Feat → DomId} (s : DomId → Settings) (d : DomId) (ops : List Op) (op : Op) (hh : ∀ o ∈ ops ++ [op], AtHome D homeM homeF o) (hd : domainOf op = d)
    (hq : asksForTypes op = false) : answer D (run D (initWorld s) ops) op = answer D (run D (initWorld s) (callsOn d ops)) op := by
  have hh0 : ∀ op ∈ ops, AtHome D homeM homeF op := fun o ho => hh o (List.mem_append_left _ ho)
  have k := reachable_at s d ops hh0
  have := (step_at k (reachable_homeOk s ops hh0) (reachable_homeOk s _ (fun o ho => hh0 o (List.mem_filter.1 ho).1)) (reachable_types D s _ d) (reachable_types D s _ d)
    (reachable_cls D s _ d) (reachable_cls D s _ d) op hd (hh op (by simp))).2 hq
  exact (answer_registration hq this).symm

theorem callsOn_append (d : DomId) (a b : List Op) : callsOn d (a ++ b) = callsOn d a ++ callsOn d b := List.filter_append ..

theorem callsOn_single_pos {d : DomId} {op : Op} (h : domainOf op = d) : callsOn d [op] = [op] := by simp [callsOn, h]
theorem callsOn_single_neg {d : DomId} {op : Op} (h : domainOf op ≠ d) : callsOn d [op] = [] := by simp [callsOn, h]

/-- C73: if every mixin and every feature is registered in one domain only, registrations and unregistrations in a domain succeed and
fail as if there were no other domains. -/
theorem C73_registrations (D : Decls) (s : DomId → Settings) (ops : List Op) (ho : OneHome D ops) (d : DomId) :
    registrationAnswersOn D d (initWorld s) ops = registrationAnswers D (initWorld s) (callsOn d ops) := by
  obtain ⟨homeM, homeF, hh⟩ := ho
  have gen : ∀ (more pre : List Op), (∀ op ∈ pre ++ more, AtHome D homeM homeF op) →
      registrationAnswersOn D d (run D (initWorld s) pre) more = registrationAnswers D (run D (initWorld s) (callsOn d pre)) (callsOn d more) := by
    intro more
    induction more with
    | nil => intro pre _; rfl
    | cons op more ih =>
      intro pre hp
      have ih := ih (pre ++ [op]) (by simpa using hp)
      have hp' : ∀ o ∈ pre ++ [op], AtHome D homeM homeF o := by
        intro o ho; apply hp; simp at ho ⊢; rcases ho with ho | ho
        · exact .inl ho
        · exact .inr (.inl ho)
      rw [run_append, callsOn_append, run_append] at ih
      change registrationAnswersOn D d (step D (run D (initWorld s) pre) op).2 more = _ at ih
      rw [show op :: more = [op] ++ more from rfl, callsOn_append]
      unfold registrationAnswersOn
      simp only [List.singleton_append, List.cons_append, List.nil_append]
      rw [ih]
      by_cases hd : domainOf op = d
      · rw [callsOn_single_pos hd]
        change _ = registrationAnswers D _ (op :: callsOn d more)
        rw [show registrationAnswers D (run D (initWorld s) (callsOn d pre)) (op :: callsOn d more) =
          (if asksForTypes op then [] else [answer D (run D (initWorld s) (callsOn d pre)) op]) ++ registrationAnswers D (step D (run D (initWorld s) (callsOn d pre)) op).2 (callsOn d more) from rfl]
        cases hq : asksForTypes op with
        | true => simp [hd]; rfl
        | false =>
          rw [answer_at s d pre op hp' hd hq]
          simp [hd]; rfl
      · rw [callsOn_single_neg hd]
        simp [hd, run]
  exact gen ops [] (by simpa using hh)

/-- C73 (partial: with `FeatureDiscipline` and pure rules): all answers of a domain are those that it gives when there are no calls on
other domains, except that `get_type` may say of a mixin of another domain that it is not registered, instead of foreign.
Missing: other histories (`C73_one_home_needed`, `C72_pure_rules_needed`, `C72_discipline_needed`). -/
theorem C73_answers_partial (D : Decls) (s : DomId → Settings) (ops : List Op) (ho : OneHome D ops) (hf : FeatureDiscipline D ops) (hp : OnlyPureRules D s ops) (d : DomId) :
    (answersOn D d (initWorld s) ops).map blur = (answers D (initWorld s) (callsOn d ops)).map blur := by
  obtain ⟨homeM, homeF, hh⟩ := ho
  obtain ⟨home, used, hf⟩ := hf
  have gen : ∀ (more pre : List Op), (∀ op ∈ pre ++ more, op ∈ ops) →
      (answersOn D d (run D (initWorld s) pre) more).map blur = (answers D (run D (initWorld s) (callsOn d pre)) (callsOn d more)).map blur := by
    intro more
    induction more with
    | nil => intro pre _; rfl
    | cons op more ih =>
      intro pre hsub
      have ih := ih (pre ++ [op]) (by simpa using hsub)
      have hpre : ∀ o ∈ pre, o ∈ ops := fun o ho => hsub o (List.mem_append_left _ ho)
      have hop : op ∈ ops := hsub op (by simp)
      have hcalls : ∀ o ∈ callsOn d pre, o ∈ ops := fun o ho => hpre o (List.mem_filter.1 ho).1
      rw [run_append, callsOn_append, run_append] at ih
      change (answersOn D d (step D (run D (initWorld s) pre) op).2 more).map blur = _ at ih
      rw [show op :: more = [op] ++ more from rfl, callsOn_append]
      unfold answersOn
      simp only [List.singleton_append, List.cons_append, List.nil_append]
      rw [List.map_append, ih]
      by_cases hd : domainOf op = d
      · rw [callsOn_single_pos hd, if_pos hd]
        change _ = (answers D _ (op :: callsOn d more)).map blur
        rw [show answers D (run D (initWorld s) (callsOn d pre)) (op :: callsOn d more) =
          answer D (run D (initWorld s) (callsOn d pre)) op :: answers D (step D (run D (initWorld s) (callsOn d pre)) op).2 (callsOn d more) from rfl]
        rw [List.map_cons, List.map_cons]
        have : blur (answer D (run D (initWorld s) pre) op) = blur (answer D (run D (initWorld s) (callsOn d pre)) op) := by
          cases hq : asksForTypes op with
          | false =>
            rw [answer_at s d pre op (fun o ho => hh o (by rcases List.mem_append.1 ho with h | h; exact hpre o h; simp at h; subst h; exact hop)) hd hq]
          | true =>
            have k := reachable_at s d pre (fun o ho => hh o (hpre o ho))
            have same : ∀ q, blur (typeAnswer D (run D (initWorld s) pre) d q) = blur (typeAnswer D (run D (initWorld s) (callsOn d pre)) d q) := by
              intro q
              have hpure : ∀ r ∈ ((run D (initWorld s) pre).doms d).rules.map (·.1), RulePure D r :=
                OnlyPureRules.inForce (ops := pre) ⟨fun d r hr => hp.1 d r (hpre _ hr), hp.2⟩ d
              unfold typeAnswer
              rw [rulesOf_pure (by rw [k.rules]) hpure ((run D (initWorld s) (callsOn d pre)).view D d) ((run D (initWorld s) pre).view D d)]
              cases resolve D (rulesOf D ((run D (initWorld s) pre).view D d) ((run D (initWorld s) pre).doms d)) q with
              | error e => rfl
              | ok ms =>
                simp only
                have c := checkMixins_at k (reachable_homeOk s pre (fun o ho => hh o (hpre o ho))) (reachable_homeOk s _ (fun o ho => hh o (hcalls o ho))) ms
                revert c
                cases checkMixins (run D (initWorld s) pre).mixId (run D (initWorld s) pre).mixDom d ms <;>
                  cases checkMixins (run D (initWorld s) (callsOn d pre)).mixId (run D (initWorld s) (callsOn d pre)).mixDom d ms <;> intro c
                · exact c.symm
                · exact c.elim
                · exact c.elim
                · rfl
            have a := C72_get_type_partial D s pre ⟨home, used, fun o ho => hf o (hpre o ho)⟩ ⟨fun d r hr => hp.1 d r (hpre _ hr), hp.2⟩ d
            have b := C72_get_type_partial D s (callsOn d pre) ⟨home, used, fun o ho => hf o (hcalls o ho)⟩ ⟨fun d r hr => hp.1 d r (hcalls _ hr), hp.2⟩ d
            cases op with
            | getTypeMut d' md q =>
              simp only [domainOf] at hd; subst hd
              simp only [answer]
              by_cases hm : md = d'
              · subst hm; rw [(a q).2, (b q).2]; exact same q
              · unfold getTypeMut; rw [if_pos hm, if_pos hm]; rfl
            | getType d' q =>
              simp only [domainOf] at hd; subst hd
              simp only [answer]
              rw [(a q).1, (b q).1]; exact same q
            | gc d' num => rfl
            | _ => simp [asksForTypes] at hq
        rw [this]; rfl
      · rw [callsOn_single_neg hd]
        simp [hd, run]
  exact gen ops [] (by simp)

/-! ## Examples and witnesses -/

/-- Calls on domains 0 and 1. -/
def twoOps : List Op := [.regMixin 0 3, .regMixin 1 4, .regMixin 1 6, .addRule 1 1, .regMixin 0 5, .getType 1 [4], .regClass 1 1, .getType 0 [5, 3], .getType 0 [4], .regMixin 1 9, .getType 1 [4],
  .unregMixin 1 4, .unregMixin 0 4, .gc 1 (fun _ => 0), .regClass 0 1, .unregMixin 0 3, .getType 0 [5, 3], .getType 0 [5]]

-- the calls on domain 0 with and without those on domain 1
example : OneHome tyDecls twoOps ∧ FeatureDiscipline tyDecls twoOps ∧ OnlyPureRules tyDecls (fun _ => {}) twoOps ∧
    answersOn tyDecls 0 (initWorld fun _ => {}) twoOps =
      [.done, .done, .type [5, 3], .fails .foreignMixin, .fails .unregForeign, .done, .done, .fails .unregistered, .type [5]] ∧
    answers tyDecls (initWorld fun _ => {}) (callsOn 0 twoOps) =
      [.done, .done, .type [5, 3], .fails .unregistered, .fails .unregForeign, .done, .done, .fails .unregistered, .type [5]] := by
  refine ⟨⟨fun m => if m = 3 ∨ m = 5 then 0 else 1, fun _ => 0, ?_⟩, ⟨fun _ => 0, fun _ => True, ?_⟩, ⟨?_, by simp⟩, by decide +kernel, by decide +kernel⟩
  · intro op hop
    simp only [twoOps, List.mem_cons, List.not_mem_nil, or_false] at hop
    rcases hop with rfl | rfl | rfl | rfl | rfl | rfl | rfl | rfl | rfl | rfl | rfl | rfl | rfl | rfl | rfl | rfl | rfl | rfl <;> simp [AtHome, tyDecls]
  · intro op hop
    simp only [twoOps, List.mem_cons, List.not_mem_nil, or_false] at hop
    rcases hop with rfl | rfl | rfl | rfl | rfl | rfl | rfl | rfl | rfl | rfl | rfl | rfl | rfl | rfl | rfl | rfl | rfl | rfl <;> simp [Op.disciplined, tyDecls]
  · intro d r h
    simp [twoOps] at h
    rw [h.2]
    intro v v'; rfl

/-- C73: one home is needed: a mixin that another domain has cannot be registered. -/
theorem C73_one_home_needed : ∃ ops : List Op,
    registrationAnswersOn tyDecls 0 (initWorld fun _ => {}) ops = [.fails .infoHasDomain] ∧
    registrationAnswers tyDecls (initWorld fun _ => {}) (callsOn 0 ops) = [.done] :=
  ⟨[.regMixin 1 3, .regMixin 0 3], by decide +kernel, by decide +kernel⟩

/-- C73: one home is needed also for features: registering a mixin in a domain succeeds without registering its feature there, if another
domain has the feature. -/
theorem C73_feature_home_needed : ∃ ops : List Op,
    featuresOf (run regDecls (initWorld fun _ => {}) ops) 0 = [2] ∧
    featuresOf (run regDecls (initWorld fun _ => {}) (callsOn 0 ops)) 0 = [1, 2] :=
  ⟨[.regFeature 1 1, .regMixin 0 1], by decide +kernel, by decide +kernel⟩

end Dnmx.Props
