import Verif.Proofs.RegisteredLemmas
import Verif.Proofs.SystemLemmas
import Verif.Proofs.BuilderLemmas
import Verif.Props.DomainFeatures

/-!
# C72: the answers of a domain depend only on what is registered

Two states which different histories led to, and in which the same things are registered, cannot be told apart by any
further calls. Ids, existing types, stored queries and the order of the earlier calls do not matter.
-/

namespace Dnmx.Props
open Spec

/-- All rules that the history adds are pure (they do not look at what is registered), and so is the canonicalization if a
domain uses it. -/
def OnlyPureRules (D : Decls) (s : DomId → Settings) (ops : List Op) : Prop :=
  (∀ d r, .addRule d r ∈ ops → RulePure D r) ∧ ∀ d, (s d).canonicalize = true → RulePure D 0

theorem OnlyPureRules.inForce {D : Decls} {s : DomId → Settings} {ops : List Op} (h : OnlyPureRules D s ops) (d : DomId) (r : Rule)
    (hr : r ∈ ((run D (initWorld s) ops).doms d).rules.map (·.1)) : RulePure D r := by
  rcases run_ruleKeys D d r ops _ (initWorld_reg s) hr with h1 | h1
  · exact h.1 d r h1
  · simp only [initWorld, newDom] at h1
    by_cases hc : (s d).canonicalize = true
    · rw [if_pos hc] at h1; simp at h1; subst h1; exact h.2 d hc
    · rw [if_neg hc] at h1; simp at h1

theorem reachable_alike {D : Decls} {s s' : DomId → Settings} {ops ops' : List Op} (h : SameRegistered (run D (initWorld s) ops) (run D (initWorld s') ops')) :
    Alike (run D (initWorld s) ops) (run D (initWorld s') ops') := ⟨reachable_reg D s ops, reachable_reg D s' ops', h⟩

theorem reachable_step_alike {D : Decls} {s s' : DomId → Settings} {ops ops' : List Op} (h : SameRegistered (run D (initWorld s) ops) (run D (initWorld s') ops')) (op : Op) :
    SameRegistered (run D (initWorld s) (ops ++ [op])) (run D (initWorld s') (ops' ++ [op])) ∧
    (asksForTypes op = false → (step D (run D (initWorld s') ops') op).1 = (step D (run D (initWorld s) ops) op).1) := by
  obtain ⟨a, b⟩ := step_alike (reachable_alike h) (reachable_types D s ops) (reachable_types D s' ops') (reachable_cls D s ops) (reachable_cls D s' ops') op
  rw [run_append, run_append]
  exact ⟨a.same, b⟩

theorem answer_registration {D : Decls} {W W' : World} {op : Op} (hq : asksForTypes op = false) (h : (step D W' op).1 = (step D W op).1) : answer D W' op = answer D W op := by
  cases op <;> simp [asksForTypes] at hq <;> (unfold answer; simp only; rw [h])

/-- C72: calls that register or unregister something give the same answers in all states in which the same is registered, for
ever, whatever else is called in between; and afterwards the same is registered again. -/
theorem C72_registrations (D : Decls) (s s' : DomId → Settings) (ops ops' : List Op) (h : SameRegistered (run D (initWorld s) ops) (run D (initWorld s') ops')) (more : List Op) :
    registrationAnswers D (run D (initWorld s') ops') more = registrationAnswers D (run D (initWorld s) ops) more ∧
    SameRegistered (run D (initWorld s) (ops ++ more)) (run D (initWorld s') (ops' ++ more)) := by
  induction more generalizing ops ops' with
  | nil => simpa [registrationAnswers] using h
  | cons op more ih =>
    obtain ⟨a, b⟩ := reachable_step_alike h op
    obtain ⟨c, e⟩ := ih _ _ a
    rw [run_append, run_append] at c
    rw [List.append_assoc, List.append_assoc] at e
    refine ⟨?_, e⟩
    unfold registrationAnswers
    change registrationAnswers D (step D (run D (initWorld s') ops') op).2 more = registrationAnswers D (step D (run D (initWorld s) ops) op).2 more at c
    rw [c]
    cases hq : asksForTypes op with
    | true => rfl
    | false => rw [answer_registration hq (b hq)]

open Classical in
/-- What `get_type` should answer: the composition that the rules give, unless a mixin in it is not registered in the domain or
occurs twice, or implementations clash. -/
noncomputable def typeAnswer (D : Decls) (W : World) (d : DomId) (q : List Mix) : Answer :=
  match resolve D (rulesOf D (W.view D d) (W.doms d)) q with
  | .error e => .fails e
  | .ok ms =>
    match checkMixins W.mixId W.mixDom d ms with
    | .error e => .fails e
    | .ok () => if ∃ f, (D.feat f).allowClashes = false ∧ ClashesOn D ms f then .fails .featureClash else .type ms

theorem typeAnswer_ok {D : Decls} {W : World} {d : DomId} {q ms : List Mix} (h : resolve D (rulesOf D (W.view D d) (W.doms d)) q = .ok ms)
    (hc : checkMixins W.mixId W.mixDom d ms = .ok ()) (hn : ¬ ∃ f, (D.feat f).allowClashes = false ∧ ClashesOn D ms f) : typeAnswer D W d q = .type ms := by
  unfold typeAnswer; rw [h]; simp only [hc]; rw [if_neg hn]

/-- C72 (partial: with `FeatureDiscipline` and pure rules): what `get_type` answers is given by the rules in force, the
registered mixins and the declarations alone. Missing: other histories (`C72_pure_rules_needed`, `C72_discipline_needed`). -/
theorem C72_get_type_partial (D : Decls) (s : DomId → Settings) (ops : List Op) (hd : FeatureDiscipline D ops) (hp : OnlyPureRules D s ops) (d : DomId) (q : List Mix) :
    answerOf d (getType D (run D (initWorld s) ops) d q) = typeAnswer D (run D (initWorld s) ops) d q ∧
    answerOf d (getTypeMut D (run D (initWorld s) ops) d d q) = typeAnswer D (run D (initWorld s) ops) d q := by
  have hbuild := C28_clash_in_domain_partial D s ops hd d
  have hregd : ∀ m, mixinRegistered d m (trace D (initWorld s) ops) = true ↔ _ := fun m => mixinRegistered_iff D s ops d m
  obtain ⟨home, used, hops⟩ := hd
  have htab := (reachable_home D home used s ops hops).2 d
  have hpure := hp.inForce d
  have hi := reachable_types D s ops d
  have hr := reachable_reg D s ops
  have hk := reachable_cache D s ops d
  have key : ∀ res, GetCase D (run D (initWorld s) ops) d q res → answerOf d res = typeAnswer D (run D (initWorld s) ops) d q := by
    intro res hc
    generalize run D (initWorld s) ops = W at hbuild hregd htab hpure hi hr hk hc ⊢
    have hreg' : ∀ ms, checkMixins W.mixId W.mixDom d ms = .ok () → ms.Nodup ∧ ∀ m ∈ ms, mixinRegistered d m (trace D (initWorld s) ops) = true := by
      intro ms h
      obtain ⟨h1, h2⟩ := (checkMixins_ok _ _ _ _).1 h
      exact ⟨h1, fun m hm => (hregd m).2 ((hr.mem_mixinsOf_iff d m).2 (h2 m hm))⟩
    have hclash : ∀ (tid : TypeId) (ms : List Mix), checkMixins W.mixId W.mixDom d ms = .ok () → (∃ r, buildType D W d tid ms = .ok r) →
        ¬ ∃ f, (D.feat f).allowClashes = false ∧ ClashesOn D ms f := by
      rintro tid ms h1 ⟨r, h2⟩ h3
      obtain ⟨n1, n2⟩ := hreg' ms h1
      have := (hbuild tid ms n1 n2).1.2 h3
      rw [h2] at this; simp at this
    have exists_ok : ∀ t r, (W.doms d).typeAt d t = some r → checkMixins W.mixId W.mixDom d r.mixins = .ok () ∧ ¬ ∃ f, (D.feat f).allowClashes = false ∧ ClashesOn D r.mixins f := by
      intro t r ht
      obtain ⟨-, -, h1, h2⟩ := hi.typeAt_ok ht
      have hc := (checkMixins_ok W.mixId W.mixDom d r.mixins).2 ⟨h1, h2⟩
      refine ⟨hc, ?_⟩
      rcases typeAt_some ht with ⟨a, b⟩ | ⟨a, b, c⟩
      · subst b
        rintro ⟨f, -, k, l, x, y, -, hx, -⟩
        simp [emptyType, allImpls] at hx
      · refine hclash 0 r.mixins hc ⟨⟨0, d, r.mixins, layout (r.mixins.map D.mix), sparseTable (r.mixins.filterMap W.mixId), r.ftable⟩, ?_⟩
        unfold buildType; rw [hc, htab r b]
    cases hc with
    | hit t h =>
      obtain ⟨r, h1, h2⟩ := hk hpure _ h
      obtain ⟨h3, h4⟩ := exists_ok t r h1
      rw [typeAnswer_ok (by simp [resolve, h2]) h3 h4]
      simp [answerOf, compositionOf, h1]
    | ruleError e h => simp [answerOf, typeAnswer, resolve, h]
    | empty h =>
      obtain ⟨h3, h4⟩ := exists_ok emptyTid (emptyType d) (typeAt_empty _ _)
      rw [typeAnswer_ok (ms := []) (by simp [resolve, h]) h3 h4]
      simp [answerOf, compositionOf, typeAt_empty, emptyType]
    | found r hne h hr hf =>
      have ht := hi.typeAt_mem r hr
      obtain ⟨h3, h4⟩ := exists_ok r.tid r ht
      rw [typeAnswer_ok (by simp [resolve, h]) h3 h4]
      have : ((W.setDom d { W.doms d with queries := storeQuery q r.tid (W.doms d).queries }).doms d).typeAt d r.tid = some r := by
        rw [setDom_same]; exact ht
      simp only [answerOf, compositionOf, this, Option.map_some]
    | buildError ms e hne h hn hb =>
      have hres : resolve D (rulesOf D (W.view D d) (W.doms d)) q = .ok ms := by simp [resolve, h]
      unfold typeAnswer; rw [hres]
      simp only [answerOf]
      cases hc : checkMixins W.mixId W.mixDom d ms with
      | error e' => unfold buildType at hb; rw [hc] at hb; simp at hb; subst hb; rfl
      | ok u =>
        obtain ⟨n1, n2⟩ := hreg' ms hc
        obtain ⟨h1, h2⟩ := hbuild W.nextType ms n1 n2
        rcases h2 with h2 | ⟨r, h2⟩
        · rw [hb] at h2; simp at h2; subst h2
          simp only [if_pos (h1.1 hb)]
        · rw [hb] at h2; simp at h2
    | built r hne h hn hb ht =>
      have hc : checkMixins W.mixId W.mixDom d r.mixins = .ok () := by
        cases hc : checkMixins W.mixId W.mixDom d r.mixins with
        | ok u => rfl
        | error e => unfold buildType at hb; rw [hc] at hb; simp at hb
      have hcomp := getCase_composition (GetCase.built r hne h hn hb ht) hi r.tid rfl
      obtain ⟨r', h1, h2⟩ := hcomp
      have : r'.mixins = r.mixins := by
        rcases h2 with ⟨-, h3⟩ | h2
        · exfalso
          rcases typeAt_some h3 with ⟨a, b⟩ | ⟨a, b, c⟩
          · have := hi.nextPos; rw [ht] at a; simp [emptyTid] at a; omega
          · have := (hi.tidPos r' b).2; omega
        · rw [h] at h2; simp at h2; exact h2.symm
      rw [typeAnswer_ok (by simp [resolve, h]) hc (hclash _ _ hc ⟨r, hb⟩)]
      simp only [answerOf, compositionOf, h1, Option.map_some, this]
  exact ⟨key _ (getType_cases D _ d q), key _ (getTypeMut_cases D _ d q)⟩

/-- C72 (partial: with `FeatureDiscipline` and pure rules): no sequence of calls can tell apart two states in which the same is
registered: all answers are the same. Missing: other histories (`C72_pure_rules_needed`, `C72_discipline_needed`). -/
theorem C72_answers_partial (D : Decls) (s s' : DomId → Settings) (ops ops' more : List Op) (hd : FeatureDiscipline D (ops ++ more)) (hd' : FeatureDiscipline D (ops' ++ more))
    (hp : OnlyPureRules D s (ops ++ more)) (hp' : OnlyPureRules D s' (ops' ++ more)) (h : SameRegistered (run D (initWorld s) ops) (run D (initWorld s') ops')) :
    answers D (run D (initWorld s') ops') more = answers D (run D (initWorld s) ops) more := by
  have left : ∀ {a b : List Op}, FeatureDiscipline D (a ++ b) → FeatureDiscipline D a := by
    rintro a b ⟨home, used, h⟩
    exact ⟨home, used, fun op hop => h op (List.mem_append_left _ hop)⟩
  have leftp : ∀ {s : DomId → Settings} {a b : List Op}, OnlyPureRules D s (a ++ b) → OnlyPureRules D s a :=
    fun h => ⟨fun d r hr => h.1 d r (List.mem_append_left _ hr), h.2⟩
  induction more generalizing ops ops' with
  | nil => rfl
  | cons op more ih =>
    obtain ⟨a, b⟩ := reachable_step_alike h op
    have ih := ih (ops ++ [op]) (ops' ++ [op]) (by simpa using hd) (by simpa using hd') (by simpa using hp) (by simpa using hp') a
    rw [run_append, run_append] at ih
    change answers D (step D (run D (initWorld s') ops') op).2 more = answers D (step D (run D (initWorld s) ops) op).2 more at ih
    unfold answers
    rw [ih]
    congr 1
    cases hq : asksForTypes op with
    | false => exact answer_registration hq (b hq)
    | true =>
      have same : ∀ d q, typeAnswer D (run D (initWorld s') ops') d q = typeAnswer D (run D (initWorld s) ops) d q := by
        intro d q
        have hpure := (leftp hp).inForce d
        unfold typeAnswer
        rw [rulesOf_pure (by rw [h.rules d]) hpure ((run D (initWorld s') ops').view D d) ((run D (initWorld s) ops).view D d)]
        cases resolve D (rulesOf D ((run D (initWorld s) ops).view D d) ((run D (initWorld s) ops).doms d)) q with
        | error e => rfl
        | ok ms => simp only; rw [(reachable_alike h).check d ms]
      have k := C72_get_type_partial D s ops (left hd) (leftp hp)
      have k' := C72_get_type_partial D s' ops' (left hd') (leftp hp')
      cases op <;> simp [asksForTypes] at hq
      · rename_i d md q
        simp only [answer]
        by_cases hm : md = d
        · subst hm
          rw [(k md q).2, (k' md q).2, same]
        · unfold getTypeMut
          rw [if_pos hm, if_pos hm]; rfl
      · rename_i d q
        simp only [answer]
        rw [(k d q).1, (k' d q).1, same]
      · rfl

/-! ## Histories -/

theorem registered_without_queries (D : Decls) (s : DomId → Settings) (ops : List Op) :
    SameRegistered (run D (initWorld s) (ops.filter (fun op => !asksForTypes op))) (run D (initWorld s) ops) := by
  induction ops using snoc_induction with
  | h0 => exact ⟨fun _ => rfl, fun _ _ => Iff.rfl, fun _ _ => Iff.rfl, fun _ _ => Iff.rfl, fun _ => Iff.rfl, fun _ => rfl⟩
  | h1 ops op ih =>
    rw [List.filter_append]
    cases hq : asksForTypes op with
    | true =>
      have : [op].filter (fun op => !asksForTypes op) = [] := by simp [hq]
      rw [this, List.append_nil, run_append]
      exact (isQuery_alike (D := D) (reachable_alike ih) hq).same
    | false =>
      have : [op].filter (fun op => !asksForTypes op) = [op] := by simp [hq]
      rw [this]
      exact (reachable_step_alike ih op).1

/-- C72: getting types and collecting garbage is invisible to registrations: what they answer, now and later, is what they would
answer if no type had ever been asked for and no garbage had been collected. -/
theorem C72_types_invisible (D : Decls) (s : DomId → Settings) (ops more : List Op) :
    registrationAnswers D (run D (initWorld s) ops) more =
    registrationAnswers D (run D (initWorld s) (ops.filter (fun op => !asksForTypes op))) more :=
  (C72_registrations D s s _ _ (registered_without_queries D s ops) more).1

/-- C72 (partial: with `FeatureDiscipline` and pure rules): nor can `get_type` tell. Missing: other histories
(`C72_pure_rules_needed`, `C72_discipline_needed`). -/
theorem C72_types_invisible_partial (D : Decls) (s : DomId → Settings) (ops more : List Op) (hd : FeatureDiscipline D (ops ++ more)) (hp : OnlyPureRules D s (ops ++ more)) :
    answers D (run D (initWorld s) ops) more = answers D (run D (initWorld s) (ops.filter (fun op => !asksForTypes op))) more := by
  have sub : ∀ op ∈ ops.filter (fun op => !asksForTypes op) ++ more, op ∈ ops ++ more := by
    intro op h
    rcases List.mem_append.1 h with h | h
    · exact List.mem_append_left _ (List.mem_filter.1 h).1
    · exact List.mem_append_right _ h
  refine C72_answers_partial D s s _ ops more ?_ hd ?_ hp (registered_without_queries D s ops)
  · obtain ⟨home, used, h⟩ := hd
    exact ⟨home, used, fun op hop => h op (sub op hop)⟩
  · exact ⟨fun d r h => hp.1 d r (sub _ h), hp.2⟩

/-! ## Examples and witnesses -/

/-- Different ways to the same: mixins 3 and 5 and type class 1 of domain 0, and rule 1. -/
def wayA : List Op := [.regMixin 0 3, .regMixin 0 5, .addRule 0 1, .regClass 0 1, .regMixin 0 9]
def wayB : List Op := [.regMixin 0 9, .regMixin 0 7, .regMixin 0 5, .getType 0 [5, 7], .unregMixin 0 7, .regClass 0 1, .regMixin 0 3, .getType 0 [3], .addRule 0 1, .getType 0 [3],
  .gc 0 (fun _ => 0), .getType 0 [5, 3], .addRule 0 1, .removeRule 0 1]
/-- Calls that follow. -/
def wayMore : List Op := [.getType 0 [3], .getType 0 [7], .regMixin 0 5, .regMixin 1 5, .unregMixin 0 7, .unregMixin 0 3, .getType 0 [3], .getType 0 [5, 5], .getType 0 [], .getTypeMut 0 1 [5],
  .regClass 0 1, .regClass 0 2, .removeRule 0 1, .getType 0 [5]]

-- ids, types and stored queries differ
example : (run tyDecls (initWorld fun _ => {}) wayA).mixId 3 = some 0 ∧ (run tyDecls (initWorld fun _ => {}) wayB).mixId 3 = some 1 ∧
    ((run tyDecls (initWorld fun _ => {}) wayA).doms 0).types.length = 0 ∧ ((run tyDecls (initWorld fun _ => {}) wayB).doms 0).types.length = 1 ∧
    ((run tyDecls (initWorld fun _ => {}) wayB).doms 0).queries = [([5, 3], 4)] := by decide +kernel

-- the answers are the same
example : answers tyDecls (run tyDecls (initWorld fun _ => {}) wayA) wayMore = answers tyDecls (run tyDecls (initWorld fun _ => {}) wayB) wayMore := by decide +kernel

/-- A history that touches only domain 0, compared with another one. -/
theorem sameRegistered_zero {D : Decls} {ops ops' : List Op} (h : ∀ op ∈ ops, domainOf op = 0) (h' : ∀ op ∈ ops', domainOf op = 0)
    (hf : ∀ f, f ∈ featuresOf (run D (initWorld fun _ => {}) ops') 0 ↔ f ∈ featuresOf (run D (initWorld fun _ => {}) ops) 0)
    (hm : ∀ m, m ∈ mixinsOf (run D (initWorld fun _ => {}) ops') 0 ↔ m ∈ mixinsOf (run D (initWorld fun _ => {}) ops) 0)
    (hc : ∀ c, c ∈ classesOf (run D (initWorld fun _ => {}) ops') 0 ↔ c ∈ classesOf (run D (initWorld fun _ => {}) ops) 0)
    (hg : none ∈ ((run D (initWorld fun _ => {}) ops').doms 0).classes ↔ none ∈ ((run D (initWorld fun _ => {}) ops).doms 0).classes)
    (hr : ((run D (initWorld fun _ => {}) ops').doms 0).rules = ((run D (initWorld fun _ => {}) ops).doms 0).rules) :
    SameRegistered (run D (initWorld fun _ => {}) ops) (run D (initWorld fun _ => {}) ops') := by
  have e : ∀ d, d ≠ 0 → (run D (initWorld fun _ => {}) ops').doms d = (run D (initWorld fun _ => {}) ops).doms d := by
    intro d hd
    rw [run_elsewhere D d ops _ (initWorld_reg _) (fun op ho => by rw [h op ho]; exact fun x => hd x.symm),
      run_elsewhere D d ops' _ (initWorld_reg _) (fun op ho => by rw [h' op ho]; exact fun x => hd x.symm)]
  refine ⟨fun d => ?_, fun d f => ?_, fun d m => ?_, fun d c => ?_, fun d => ?_, fun d => ?_⟩
  · rw [run_settings D d ops _ (initWorld_reg _), run_settings D d ops' _ (initWorld_reg _)]
  all_goals by_cases hd : d = 0
  · subst hd; exact hf f
  · unfold featuresOf; rw [e d hd]
  · subst hd; exact hm m
  · unfold mixinsOf; rw [e d hd]
  · subst hd; exact hc c
  · unfold classesOf; rw [e d hd]
  · subst hd; exact hg
  · rw [e d hd]
  · subst hd; exact hr
  · rw [e d hd]

theorem ways_same : SameRegistered (run tyDecls (initWorld fun _ => {}) wayA) (run tyDecls (initWorld fun _ => {}) wayB) := by
  have a1 : featuresOf (run tyDecls (initWorld fun _ => {}) wayA) 0 = [] := by decide +kernel
  have b1 : featuresOf (run tyDecls (initWorld fun _ => {}) wayB) 0 = [] := by decide +kernel
  have a2 : mixinsOf (run tyDecls (initWorld fun _ => {}) wayA) 0 = [3, 5, 9] := by decide +kernel
  have b2 : mixinsOf (run tyDecls (initWorld fun _ => {}) wayB) 0 = [9, 3, 5] := by decide +kernel
  have a3 : classesOf (run tyDecls (initWorld fun _ => {}) wayA) 0 = [1] := by decide +kernel
  have b3 : classesOf (run tyDecls (initWorld fun _ => {}) wayB) 0 = [1] := by decide +kernel
  refine sameRegistered_zero (by decide) (by decide) ?_ ?_ ?_ (by decide +kernel) (by decide +kernel)
  · intro f; rw [a1, b1]
  · intro m; rw [a2, b2]; simp; omega
  · intro c; rw [a3, b3]

-- the hypotheses of `C72_answers_partial` hold
example : FeatureDiscipline tyDecls (wayA ++ wayMore) ∧ FeatureDiscipline tyDecls (wayB ++ wayMore) ∧
    OnlyPureRules tyDecls (fun _ => {}) (wayA ++ wayMore) ∧ OnlyPureRules tyDecls (fun _ => {}) (wayB ++ wayMore) := by
  have disc : ∀ ops : List Op, (∀ op ∈ ops, match op with | .regFeature _ _ => False | .unregFeature _ _ => False | _ => True) → FeatureDiscipline tyDecls ops := by
    intro ops h
    refine ⟨fun _ => 0, fun _ => True, fun op hop => ?_⟩
    have := h op hop
    cases op <;> first | exact trivial | exact this.elim | skip
    intro ff hff
    simp [tyDecls] at hff
  have pure : ∀ ops : List Op, (∀ op ∈ ops, ∀ d r, op = .addRule d r → r = 1) → OnlyPureRules tyDecls (fun _ => {}) ops := by
    intro ops h
    refine ⟨fun d r hr => ?_, fun d hc => by simp at hc⟩
    rw [h _ hr d r rfl]
    intro v v'; rfl
  refine ⟨disc _ ?_, disc _ ?_, pure _ ?_, pure _ ?_⟩
  all_goals
    intro op hop
    simp only [wayA, wayB, wayMore, List.cons_append, List.nil_append, List.mem_cons, List.not_mem_nil, or_false] at hop
    rcases hop with rfl | rfl | rfl | rfl | rfl | rfl | rfl | rfl | rfl | rfl | rfl | rfl | rfl | rfl | rfl | rfl | rfl | rfl | rfl | rfl | rfl | rfl | rfl | rfl | rfl | rfl | rfl | rfl <;> simp

/-- C72: pure rules are needed: rule 2 looks for a mixin with a name, and the earlier answer is stored. -/
theorem C72_pure_rules_needed : ∃ ops : List Op, FeatureDiscipline tyDecls (ops ++ [.getType 0 [3]]) ∧
    answers tyDecls (run tyDecls (initWorld fun _ => {}) ops) [.getType 0 [3]] = [.type [3]] ∧
    answers tyDecls (run tyDecls (initWorld fun _ => {}) (ops.filter (fun op => !asksForTypes op))) [.getType 0 [3]] = [.type [3, 4]] := by
  refine ⟨[.regMixin 0 3, .addRule 0 2, .getType 0 [3], .regMixin 0 4], ⟨fun _ => 0, fun _ => True, ?_⟩, by decide +kernel, by decide +kernel⟩
  intro op hop
  simp only [List.cons_append, List.nil_append, List.mem_cons, List.not_mem_nil, or_false] at hop
  rcases hop with rfl | rfl | rfl | rfl | rfl
  all_goals first | exact trivial | (intro ff hff; simp [tyDecls] at hff)

/-- C72: the discipline with features is needed: a type of a mixin whose feature is not registered any more can be had if there is
one already, and otherwise asking for it is undefined. -/
theorem C72_discipline_needed : ∃ ops : List Op, OnlyPureRules regDecls (fun _ => {}) (ops ++ [.getType 0 [1]]) ∧
    answers regDecls (run regDecls (initWorld fun _ => {}) ops) [.getType 0 [1]] = [.type [1]] ∧
    answers regDecls (run regDecls (initWorld fun _ => {}) (ops.filter (fun op => !asksForTypes op))) [.getType 0 [1]] = [.fails .ub] := by
  refine ⟨[.regMixin 0 1, .getType 0 [1], .unregFeature 0 1], ⟨?_, fun d hc => by simp at hc⟩, by decide +kernel, by decide +kernel⟩
  intro d r h
  simp at h

end Dnmx.Props
