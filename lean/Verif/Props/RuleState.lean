import Verif.Proofs.RuleStateLemmas
import Verif.Proofs.TypeApiLemmas
import Verif.Proofs.BuilderLemmas
import Verif.Props.Types

/-!
# C91, C92: rules with state, and type mutations after `get_type`

`f` says what the rules do, with any state `σ` of the user: counters, configuration, `user_data`. Rule 0 is the domain's own. All programs of calls of domains, changes of the state in
between included, are covered.
-/

set_option linter.unusedVariables false

namespace Dnmx.Props
open Spec

/-! ## Example -/

/-- Rules with a counter: rule 1 adds mixin 4 if the counter is even, and counts; rule 2 adds mixin 5, but fails if the counter is 9 (after it has added the mixin). -/
def countRule (_ : ElemView) (r : Rule) : StFn Nat := fun n ms =>
  if r = 1 then (none, if n % 2 = 0 then (tmAddIfLacking ms 4).1 else ms, n + 1)
  else if r = 2 then (if n = 9 then some (.ruleUserError) else none, (tmAddIfLacking ms 5).1, n)
  else (none, ms, n)

/-- Mixins 3, 4 and 5 and rule 1. -/
def countOps : List (StOp Nat) := [.call (.regMixin 0 3), .call (.regMixin 0 4), .call (.regMixin 0 5), .call (.addRule 0 1)]

/-- After this. -/
def countWorld : World := (runSt tyDecls countRule (initWorld fun _ => {}, 0) countOps).1

/-! ## C91 -/

/-- C91: rules are called in whole passes, in their order, at most `min 5 n + 1` times; only an error can end a pass before its end. The first call gets the query without dependency mixins, each other what the one
before left, and the mutation is left as the last one left it. -/
theorem C91_calls {σ : Type} (D : Decls) (f : ElemView → Rule → StFn σ) (W : World) (s : σ) (d : DomId) (q : List Mix) :
    let g := getMutSt D f W s d d q
    (g.calls = [] ∧ g.mixins = q ∧ findQuery q (W.doms d).queries ≠ none) ∨
    (Chained (q.filter (fun m => !(D.mix m).dependency)) g.calls g.mixins ∧
      ∃ k part, InPasses (inForce W d) k part g.calls ∧ k + (if part = [] then 0 else 1) ≤ min 5 (inForce W d).length + 1 ∧ (∀ t, g.result = .ok t → part = [] ∧ 0 < k)) := by
  intro g
  have hc : StCase D f W s d q g := getMutSt_cases D f W s d q
  have h1 := loopSt_chained (stRule D f (W.view D d)) (inForce W d) 5 [] q (q.filter (fun m => !(D.mix m).dependency)) s
  obtain ⟨k, part, h2, h3, h4⟩ := loopSt_passes (stRule D f (W.view D d)) (inForce W d) 5 [] q (q.filter (fun m => !(D.mix m).dependency)) s (by omega) (by omega)
  generalize g = g' at hc
  cases hc with
  | hit t h => exact .inl ⟨rfl, rfl, by rw [h]; simp⟩
  | ruleError e hq h => exact .inr ⟨h1, k, part, h2, by omega, fun t ht => by simp at ht⟩
  | resolved r hq h hr => exact .inr ⟨h1, k, part, h2, by omega, fun t ht => h4 q h⟩

/-- C91: the calls are what the rules did, from the state of the user on, each in the state the one before left; the state is left as the last one left it, and the error of a rule is that of the call. -/
theorem C91_as_done {σ : Type} (D : Decls) (f : ElemView → Rule → StFn σ) (W : World) (s : σ) (d : DomId) (q : List Mix) :
    let g := getMutSt D f W s d d q
    ∃ eo, CallsDone (stRule D f (W.view D d)) s g.calls eo g.state ∧ (∀ e, eo = some e → g.result = .error e) := by
  intro g
  have hc : StCase D f W s d q g := getMutSt_cases D f W s d q
  obtain ⟨eo, h1, h2, h3⟩ := loopSt_done (stRule D f (W.view D d)) (inForce W d) 5 [] q (q.filter (fun m => !(D.mix m).dependency)) s
  generalize g = g' at hc
  cases hc with
  | hit t h => exact ⟨none, .none s, fun e he => by simp at he⟩
  | ruleError e hq h =>
    refine ⟨eo, h1, fun x hx => ?_⟩
    have := h2 x hx
    exact congrArg Except.error (Except.error.inj (h.symm.trans this))
  | resolved r hq h hr =>
    refine ⟨eo, h1, fun x hx => ?_⟩
    have := h2 x hx
    have h' := h.symm.trans this
    cases h'

/-- Rule 2 fails after it has added mixin 5: the mutation has it. -/
example : CallsDone (fun r => countRule (countWorld.view tyDecls 0) r) 9 [⟨2, [3], [3, 5]⟩] (some .ruleUserError) 9 := .failed (by decide +kernel)

/-- Rule 1 is called twice: in the second pass the counter is odd. -/
example : (getMutSt tyDecls countRule countWorld 0 0 0 [3]).calls = [⟨1, [3], [3, 4]⟩, ⟨1, [3, 4], [3, 4]⟩] ∧ (getMutSt tyDecls countRule countWorld 0 0 0 [3]).state = 2 := by
  refine ⟨?_, ?_⟩ <;> decide +kernel

/-- C91: if a type is given for a query that was not stored, its composition is what the calls left, and the last pass of all rules, on the whole, changed nothing - unless the first pass gave the query itself. -/
theorem C91_stable {σ : Type} (D : Decls) (f : ElemView → Rule → StFn σ) (st : DomId → Settings) (s : σ) (ops : List (StOp σ)) (d : DomId) (q : List Mix) (t : TypeId)
    (hq : findQuery q ((runSt D f (initWorld st, s) ops).1.doms d).queries = none)
    (ht : (getMutSt D f (runSt D f (initWorld st, s) ops).1 (runSt D f (initWorld st, s) ops).2 d d q).result = .ok t) :
    let g := getMutSt D f (runSt D f (initWorld st, s) ops).1 (runSt D f (initWorld st, s) ops).2 d d q
    compositionOf g.W d t = some g.mixins ∧
    ∃ pre fin b, g.calls = pre ++ fin ∧ fin.map (·.rule) = inForce (runSt D f (initWorld st, s) ops).1 d ∧ Chained b fin g.mixins ∧ (b = g.mixins ∨ (pre = [] ∧ g.mixins = q)) := by
  intro g
  obtain ⟨hr, hi⟩ := reachableSt D f st s ops
  have hc : StCase D f (runSt D f (initWorld st, s) ops).1 (runSt D f (initWorld st, s) ops).2 d q g := getMutSt_cases D f _ _ d q
  refine ⟨((stCase_types hc (hi d)).2 t ht).2.2 hq, ?_⟩
  change g.result = .ok t at ht
  generalize g = g' at hc ht
  cases hc with
  | hit t' h => rw [h] at hq; simp at hq
  | ruleError e hq h => simp at ht
  | resolved r hq h hr =>
    obtain ⟨pre, fin, b, h1, h2, -, h4, h5⟩ := applySt_first D _ _ q _ q h
    exact ⟨pre, fin, b, h1, h2, h4, h5⟩

/-- C91: in all programs the types of domains are in order: they have different compositions, of different registered mixins, and each stored query leads to one. -/
theorem C91_types {σ : Type} (D : Decls) (f : ElemView → Rule → StFn σ) (st : DomId → Settings) (s : σ) (ops : List (StOp σ)) (d : DomId) :
    let W := (runSt D f (initWorld st, s) ops).1
    (∀ t1 t2 ms, compositionOf W d t1 = some ms → compositionOf W d t2 = some ms → t1 = t2) ∧
    (∀ t ms, compositionOf W d t = some ms → ms.Nodup ∧ ∀ m ∈ ms, m ∈ mixinsOf W d) ∧
    (∀ e ∈ queriesOf W d, compositionOf W d e.2 ≠ none) := by
  intro W
  obtain ⟨hr, hi⟩ := reachableSt D f st s ops
  have h := hi d
  refine ⟨?_, ?_, ?_⟩
  · intro t1 t2 ms h1 h2
    unfold compositionOf at h1 h2
    rw [Option.map_eq_some_iff] at h1 h2
    obtain ⟨r1, a1, b1⟩ := h1
    obtain ⟨r2, a2, b2⟩ := h2
    exact h.typeAt_inj a1 a2 (by rw [b1, b2])
  · intro t ms h1
    unfold compositionOf at h1
    rw [Option.map_eq_some_iff] at h1
    obtain ⟨r1, a1, rfl⟩ := h1
    obtain ⟨-, -, h3, h4⟩ := h.typeAt_ok a1
    exact ⟨h3, fun m hm => (hr.mem_mixinsOf_iff d m).2 (h4 m hm)⟩
  · intro e he
    obtain ⟨r, hr⟩ := h.queries e he
    unfold compositionOf
    rw [hr]; simp

/-- C91: a query that was answered is answered with the same type from then on, without calling rules, until a call of this domain may take it away: `add_mutation_rule`, `remove_mutation_rule`, `unregister_mixin` or
`garbage_collect_types`. The state of the rules, and what they would do now, do not matter. -/
theorem C91_remembered {σ : Type} (D : Decls) (f : ElemView → Rule → StFn σ) (st : DomId → Settings) (s : σ) (ops more : List (StOp σ)) (d : DomId) (q : List Mix) (t : TypeId)
    (ht : (getMutSt D f (runSt D f (initWorld st, s) ops).1 (runSt D f (initWorld st, s) ops).2 d d q).result = .ok t) (hm : ∀ o, StOp.call o ∈ more → mayForget d o = false) :
    let x := runSt D f (stepSt D f (runSt D f (initWorld st, s) ops) (.call (.getTypeMut d d q))) more
    getMutSt D f x.1 x.2 d d q = ⟨.ok t, x.1, q, x.2, []⟩ ∧ getSpanSt D f x.1 x.2 d q = ⟨.ok t, x.1, q, x.2, []⟩ := by
  intro x
  obtain ⟨hr, hi⟩ := reachableSt D f st s ops
  obtain ⟨hr1, hi1⟩ := stepSt_inv D f _ (.call (.getTypeMut d d q)) hr hi
  obtain ⟨hr2, hi2⟩ := runSt_inv D f more _ hr1 hi1
  have hc := getMutSt_cases D f (runSt D f (initWorld st, s) ops).1 (runSt D f (initWorld st, s) ops).2 d q
  have h1 : (q, t) ∈ ((stepSt D f (runSt D f (initWorld st, s) ops) (.call (.getTypeMut d d q))).1.doms d).queries := findQuery_some ((stCase_types hc (hi d)).2 t ht).2.1
  have h2 := findQuery_mem (hi2 d).keys _ (runSt_keeps D f d q t more _ hr1 hi1 hm h1)
  have h3 : getMutSt D f x.1 x.2 d d q = ⟨.ok t, x.1, q, x.2, []⟩ := by
    show getMutSt D f (runSt D f _ more).1 _ d d q = _
    unfold getMutSt
    rw [if_neg (by simp), h2]
  exact ⟨h3, by rw [getSpanSt_eq]; exact h3⟩

/-- The counter is 7 afterwards, with which rule 1 would not add mixin 4; but the query is stored. -/
example : (getMutSt tyDecls countRule countWorld 0 0 0 [3]).result = .ok 1 ∧
    (let x := runSt tyDecls countRule (stepSt tyDecls countRule (countWorld, 0) (.call (.getTypeMut 0 0 [3]))) [.call (.getType 0 [5]), .call (.addRule 1 2), .set 7]
     (getMutSt tyDecls countRule x.1 x.2 0 0 [3]).result = .ok 1 ∧ compositionOf x.1 0 1 = some [3, 4] ∧ (applySt tyDecls (countRule (x.1.view tyDecls 0)) [1] [3] x.2).mixins = [3]) := by
  refine ⟨?_, ?_, ?_, ?_⟩ <;> decide +kernel

/-- C91: a `get_type` that fails changes nothing in any domain. -/
theorem C91_failure {σ : Type} (D : Decls) (f : ElemView → Rule → StFn σ) (W : World) (s : σ) (d md : DomId) (q : List Mix) (e : Err)
    (h : (getMutSt D f W s d md q).result = .error e) : (getMutSt D f W s d md q).W = W := by
  by_cases hd : md = d
  · subst hd
    exact (stCase_frame (getMutSt_cases D f W s md q)).2.2.2 e h
  · unfold getMutSt
    rw [if_pos hd]

/-- C91: if the answers of the rules do not depend on the state, `get_type` does to domains what it does in the model without states (which the other properties are about). The rules may have and change a state. -/
theorem C91_as_declared {σ : Type} (D : Decls) (f : ElemView → Rule → StFn σ) (hf : AsDeclared D f) (W : World) (s : σ) (d md : DomId) (q : List Mix) :
    ((getMutSt D f W s d md q).result, (getMutSt D f W s d md q).W) = getTypeMut D W d md q ∧
    ((getSpanSt D f W s d q).result, (getSpanSt D f W s d q).W) = getType D W d q := by
  have key : ((getMutSt D f W s d d q).result, (getMutSt D f W s d d q).W) = getTypeMut D W d d q := by
    rw [getTypeMut_finish]
    unfold getMutSt
    rw [if_neg (by simp)]
    cases hq : findQuery q (W.doms d).queries with
    | some t => rfl
    | none =>
      simp only
      have hl := loopSt_declared hf (W.view D d) ((W.doms d).rules.map (·.1)) 5 [] q (q.filter (fun m => !(D.mix m).dependency)) s
      rw [← rulesOf_keys] at hl
      have e1 : rulesLoop (rulesOf D (W.view D d) (W.doms d)) 5 [] q (q.filter (fun m => !(D.mix m).dependency)) = applyMutationRules D (rulesOf D (W.view D d) (W.doms d)) q := rfl
      have e2 : loopSt (stRule D f (W.view D d)) ((W.doms d).rules.map (·.1)) 5 [] q (q.filter (fun m => !(D.mix m).dependency)) s =
        applySt D (stRule D f (W.view D d)) ((W.doms d).rules.map (·.1)) q s := rfl
      rw [e1, e2] at hl
      cases hr : (applyMutationRules D (rulesOf D (W.view D d) (W.doms d)) q).result with
      | error e =>
        rw [hr] at hl
        simp only at hl ⊢
        rw [hl]
      | ok x =>
        rw [hr] at hl
        simp only at hl ⊢
        rw [hl.1]
        simp only
        rw [hl.2]
  refine ⟨?_, ?_⟩
  · by_cases hd : md = d
    · subst hd; exact key
    · unfold getMutSt getTypeMut
      rw [if_pos hd, if_pos hd]
  · rw [getSpanSt_eq, key]
    unfold getType
    cases hq : findQuery q (W.doms d).queries with
    | none => rfl
    | some t => rw [getTypeMut_finish, hq]

/-- The calls of a program. -/
def callsOf {σ : Type} : List (StOp σ) → List Op
  | [] => []
  | .set _ :: l => callsOf l
  | .call op :: l => op :: callsOf l

/-- C91: and so for programs: with such rules, all domains are what they are in the model without states. -/
theorem C91_programs_as_declared {σ : Type} (D : Decls) (f : ElemView → Rule → StFn σ) (hf : AsDeclared D f) (st : DomId → Settings) (s : σ) (ops : List (StOp σ)) :
    (runSt D f (initWorld st, s) ops).1 = run D (initWorld st) (callsOf ops) := by
  have key : ∀ (ops : List (StOp σ)) (W : World) (s : σ), (runSt D f (W, s) ops).1 = run D W (callsOf ops) := by
    intro ops
    induction ops with
    | nil => intro W s; rfl
    | cons o l ih =>
      intro W s
      have hstep : ∀ x : World × σ, runSt D f x (o :: l) = runSt D f (stepSt D f x o) l := fun _ => rfl
      rw [hstep]
      cases o with
      | set s' => exact ih W s'
      | call op =>
        have hrun : run D W (callsOf (.call op :: l)) = run D (step D W op).2 (callsOf l) := rfl
        rw [hrun, ← ih _ (stepSt D f (W, s) (.call op)).2]
        congr 2
        refine Prod.ext ?_ rfl
        cases op with
        | getTypeMut d md q => exact congrArg Prod.snd (C91_as_declared D f hf W s d md q).1
        | getType d q => exact congrArg Prod.snd (C91_as_declared D f hf W s d d q).2
        | _ => rfl
  exact key ops _ s

/-- Rules as declared that count their calls. -/
def countingRule (v : ElemView) (r : Rule) : StFn Nat := fun n ms => ((liftFn (ruleFn tyDecls v r) n ms).1, (liftFn (ruleFn tyDecls v r) n ms).2.1, n + 1)

example : AsDeclared tyDecls countingRule := by
  intro v r s ms
  unfold countingRule liftFn
  cases ruleFn tyDecls v r ms with
  | ok ms' => exact ⟨rfl, rfl⟩
  | error e => rfl

/-! ## C92 -/

/-- C92: what `get_type` leaves in the mutation: the query, if it was stored; the composition of the type, if this was given; what the rules did up to the error, if one failed. -/
theorem C92_left {σ : Type} (D : Decls) (f : ElemView → Rule → StFn σ) (st : DomId → Settings) (s : σ) (ops : List (StOp σ)) (d : DomId) (q : List Mix) :
    let x := runSt D f (initWorld st, s) ops
    let g := getMutSt D f x.1 x.2 d d q
    (findQuery q (x.1.doms d).queries ≠ none → g.mixins = q) ∧
    (findQuery q (x.1.doms d).queries = none → ∀ t, g.result = .ok t → compositionOf g.W d t = some g.mixins) ∧
    (∀ e, g.result = .error e → Chained (q.filter (fun m => !(D.mix m).dependency)) g.calls g.mixins) := by
  intro x g
  obtain ⟨hr, hi⟩ := reachableSt D f st s ops
  have hc : StCase D f x.1 x.2 d q g := getMutSt_cases D f _ _ d q
  refine ⟨?_, fun hq t ht => ((stCase_types hc (hi d)).2 t ht).2.2 hq, ?_⟩
  · intro hq
    generalize g = g' at hc
    cases hc with
    | hit t h => rfl
    | ruleError e hq' h => exact absurd hq' hq
    | resolved r hq' h hr => exact absurd hq' hq
  · intro e he
    have h1 := loopSt_chained (stRule D f (x.1.view D d)) ((x.1.doms d).rules.map (·.1)) 5 [] q (q.filter (fun m => !(D.mix m).dependency)) x.2
    generalize g = g' at hc he
    cases hc with
    | hit t h => simp at he
    | ruleError e' hq' h => exact h1
    | resolved r hq' h hr => exact h1

/-- `get_type` of the same domain by span and by mutation. -/
theorem getType_mut (D : Decls) (W : World) (d : DomId) (q : List Mix) : getType D W d q = getTypeMut D W d d q := by
  unfold getType
  cases hq : findQuery q (W.doms d).queries with
  | none => rfl
  | some t => rw [getTypeMut_finish, hq]

/-- C92: asking a second time with the same mutation gives the same type exactly if the query was stored before, or the composition resolves to itself. (Rules as declared, which do not look at the registry.) -/
theorem C92_again_exactly {σ : Type} (D : Decls) (f : ElemView → Rule → StFn σ) (hf : AsDeclared D f) (st : DomId → Settings) (ops : List Op) (d : DomId) (q : List Mix) (s : σ) (t : TypeId)
    (hp : ∀ r ∈ inForce (run D (initWorld st) ops) d, RulePure D r) (ht : (getMutSt D f (run D (initWorld st) ops) s d d q).result = .ok t) :
    let W := run D (initWorld st) ops
    let g := getMutSt D f W s d d q
    (getMutSt D f g.W g.state d d g.mixins).result = .ok t ↔ findQuery q (W.doms d).queries ≠ none ∨ resolve D (rulesOf D (W.view D d) (W.doms d)) g.mixins = .ok g.mixins := by
  intro W g
  have hi := reachable_types D st ops d
  have hc : StCase D f W s d q g := getMutSt_cases D f W s d q
  obtain ⟨htypes, hok⟩ := stCase_types hc hi
  obtain ⟨⟨r, hr⟩, hfind, hcomp⟩ := hok t ht
  have hW := (C91_as_declared D f hf W s d d q).1
  have hgW : g.W = run D (initWorld st) (ops ++ [.getTypeMut d d q]) := by
    rw [run_snoc]
    show g.W = (discard (getTypeMut D W d d q)).2
    rw [← hW]; rfl
  by_cases hq : findQuery q (W.doms d).queries = none
  · have hcomp := hcomp hq
    have hg2 := (C91_as_declared D f hf g.W g.state d d g.mixins).1
    have hans : (getMutSt D f g.W g.state d d g.mixins).result = (getType D g.W d g.mixins).1 := by rw [getType_mut, ← hg2]
    have hrules : (g.W.doms d).rules = (W.doms d).rules := by
      generalize hg : g = g' at hc
      cases hc with
      | hit t' h => rfl
      | ruleError e hq' h => rfl
      | resolved r' hq' h hr' =>
        have h2 := finishGet_cases D W d q (applySt D (stRule D f (W.view D d)) ((W.doms d).rules.map (·.1)) q s).mixins
        rw [← hr'] at h2
        cases h2 <;> simp [World.setDom]
    have hpure : ∀ r ∈ inForce g.W d, RulePure D r := by
      unfold inForce; rw [hrules]; exact hp
    have hsame : rulesOf D (g.W.view D d) (g.W.doms d) = rulesOf D (W.view D d) (W.doms d) := by
      rw [rulesOf_keys, rulesOf_keys, hrules]
      exact List.map_congr_left (fun r hr => hp r hr _ _)
    rw [hans]
    constructor
    · intro h
      right
      rw [hgW] at h hpure
      obtain ⟨ms, h1, h2⟩ := C16_composition_by_rules_partial D st (ops ++ [.getTypeMut d d q]) d g.mixins t hpure h
      rw [← hgW] at h1 h2
      rw [hsame] at h2
      -- the type has the same composition afterwards
      have h3 : compositionOf (getType D g.W d g.mixins).2 d t = some g.mixins := by
        have hst := run_stable D d [.getType d g.mixins] g.W (by rw [hgW]; exact reachable_reg D st _) htypes t r
        have h4 : run D g.W [.getType d g.mixins] = (getType D g.W d g.mixins).2 := rfl
        rw [h4] at hst
        unfold compositionOf at h1 hcomp ⊢
        rw [Option.map_eq_some_iff] at h1
        obtain ⟨r', h5, h6⟩ := h1
        have := hst r' hr h5
        subst this
        rw [h5]
        rw [hr] at hcomp
        exact hcomp
      rw [h1] at h3
      simp at h3; subst h3
      exact h2
    · rintro (h | h)
      · exact absurd hq h
      · rw [getType_mut, getTypeMut_finish]
        cases hq2 : findQuery g.mixins (g.W.doms d).queries with
        | some t2 =>
          simp only [Except.ok.injEq]
          have hcache := reachable_cache D st (ops ++ [.getTypeMut d d q]) d
          rw [← hgW] at hcache
          obtain ⟨r', h4, h5⟩ := hcache hpure _ (findQuery_some hq2)
          simp only at h5 h4
          rw [hsame] at h5
          have h6 : r'.mixins = g.mixins := by
            unfold resolve at h
            rw [h5] at h
            simpa using h
          refine htypes.typeAt_inj h4 hr ?_
          unfold compositionOf at hcomp
          rw [hr] at hcomp
          simp at hcomp
          rw [h6, hcomp]
        | none =>
          simp only
          rw [hsame]
          unfold resolve at h
          cases hx : (applyMutationRules D (rulesOf D (W.view D d) (W.doms d)) g.mixins).result with
          | error e => rw [hx] at h; simp at h
          | ok x =>
            rw [hx] at h
            simp only [Except.ok.injEq] at h
            simp only
            rw [h]
            unfold finishGet
            simp only
            have hm : r.mixins = g.mixins := by
              unfold compositionOf at hcomp
              rw [hr] at hcomp
              simpa using hcomp
            rcases typeAt_some hr with ⟨h7, h8⟩ | ⟨h7, h8, h9⟩
            · subst h7; subst h8
              rw [show g.mixins = [] from hm.symm]
              rfl
            · have hne : g.mixins.isEmpty = false := by
                rw [← hm]
                have := (htypes.ok r h8).nonempty
                simpa using this
              rw [hne, ← hm, findType_mem htypes.comps r h8]
              simp only [Bool.false_eq_true, if_false, Option.map_some, Except.ok.injEq]
              exact h9
  · have hg : g = ⟨.ok t, W, q, s, []⟩ := by
      generalize hg : g = g' at hc
      have ht' : g'.result = .ok t := by rw [← hg]; exact ht
      cases hc with
      | hit t' h => simp at ht'; subst ht'; rfl
      | ruleError e hq' h => exact absurd hq' hq
      | resolved r hq' h hr => exact absurd hq' hq
    rw [hg]
    simp only
    rw [show (getMutSt D f W s d d q).result = .ok t from ht]
    simp [hq]

/-- C92 (partial: the composition has no dependency mixins): asking a second time with the same mutation gives the same type.
Full statement: for all compositions; this is false (`C92_again_refuted`). -/
theorem C92_again_partial {σ : Type} (D : Decls) (f : ElemView → Rule → StFn σ) (hf : AsDeclared D f) (st : DomId → Settings) (ops : List Op) (d : DomId) (q : List Mix) (s : σ) (t : TypeId)
    (hp : ∀ r ∈ inForce (run D (initWorld st) ops) d, RulePure D r) (ht : (getMutSt D f (run D (initWorld st) ops) s d d q).result = .ok t)
    (hd : ∀ m ∈ (getMutSt D f (run D (initWorld st) ops) s d d q).mixins, (D.mix m).dependency = false) :
    (getMutSt D f (getMutSt D f (run D (initWorld st) ops) s d d q).W (getMutSt D f (run D (initWorld st) ops) s d d q).state d d
      (getMutSt D f (run D (initWorld st) ops) s d d q).mixins).result = .ok t := by
  refine (C92_again_exactly D f hf st ops d q s t hp ht).2 ?_
  by_cases hq : findQuery q ((run D (initWorld st) ops).doms d).queries = none
  · right
    generalize hW : run D (initWorld st) ops = W at *
    have hres : resolve D (rulesOf D (W.view D d) (W.doms d)) q = .ok (getMutSt D f W s d d q).mixins := by
      have hl := loopSt_declared hf (W.view D d) ((W.doms d).rules.map (·.1)) 5 [] q (q.filter (fun m => !(D.mix m).dependency)) s
      rw [← rulesOf_keys] at hl
      have e1 : rulesLoop (rulesOf D (W.view D d) (W.doms d)) 5 [] q (q.filter (fun m => !(D.mix m).dependency)) = applyMutationRules D (rulesOf D (W.view D d) (W.doms d)) q := rfl
      have e2 : loopSt (stRule D f (W.view D d)) ((W.doms d).rules.map (·.1)) 5 [] q (q.filter (fun m => !(D.mix m).dependency)) s =
        applySt D (stRule D f (W.view D d)) ((W.doms d).rules.map (·.1)) q s := rfl
      rw [e1, e2] at hl
      have hc := getMutSt_cases D f W s d q
      generalize getMutSt D f W s d d q = g at hc ht
      unfold resolve
      cases hc with
      | hit t' h => rw [h] at hq; simp at hq
      | ruleError e hq' h => simp at ht
      | resolved r hq' h hr =>
        cases hx : (applyMutationRules D (rulesOf D (W.view D d) (W.doms d)) q).result with
        | error e => rw [hx] at hl; simp only at hl; rw [hl] at h; simp at h
        | ok x => rw [hx] at hl; simp only at hl ⊢; rw [hl.2]
    generalize hms : (getMutSt D f W s d d q).mixins = ms at hres hd
    have hs : stripDeps D ms = ms := stripDeps_eq_self hd
    have hfix : applyPass (rulesOf D (W.view D d) (W.doms d)) ms = .ok ms := by
      rcases C10_fixpoint_partial D _ q ms hres with h | ⟨rfl, ⟨m, hm, hb⟩, -⟩
      · exact h
      · rw [hd m hm] at hb; simp at hb
    rcases applyMutationRules_cases D (rulesOf D (W.view D d) (W.doms d)) ms with ⟨e, h1, -⟩ | ⟨h1, h2⟩ | ⟨x, h1, h2, -⟩ | ⟨x, h1, h2, -⟩
    · rw [hs, hfix] at h1; simp at h1
    · unfold resolve; rw [h2]
    · rw [hs, hfix] at h1; simp at h1; exact absurd h1 h2
    · rw [hs, hfix] at h1; simp at h1; exact absurd h1 h2
  · exact .inl hq

/-- Mixin 9 is a dependency. Rule 1: with mixin 3, mixin 9 is added. Rule 2: with mixin 9, mixin 3 is removed. Rule 3: adds mixin 4. Rule 4: fails. -/
def againDecls : Decls where
  mem := fun a => UInt8.ofNat a
  mix := fun m => { name := ⟨m, m + 1⟩, dependency := m = 9 }
  feat := fun f => { name := ⟨f, f + 1⟩ }
  userRule := fun r => { name := ⟨r, r + 1⟩, apply := some (fun _ ms =>
    if r = 1 then basicDepRule 3 9 ms else if r = 2 then .ok (if tmHas ms 9 then (tmRemove ms 3).1 else ms) else if r = 3 then .ok (tmAddIfLacking ms 4).1
    else if r = 4 then .error (.ruleUserError) else .ok ms) }
  cls := fun c => { name := ⟨c, c + 1⟩, matchesT := fun _ => true }

/-- As declared. -/
def againRule (v : ElemView) (r : Rule) : StFn Unit := liftFn (ruleFn againDecls v r)

/-- Mixins 3, 4, 5 and 9, and rules. -/
def againWorld (rules : List Rule) : World :=
  run againDecls (initWorld fun _ => {}) ([.regMixin 0 3, .regMixin 0 4, .regMixin 0 5, .regMixin 0 9] ++ rules.map (.addRule 0 ·))

theorem againRule_declared : AsDeclared againDecls againRule := by
  intro v r s ms
  unfold againRule liftFn
  cases ruleFn againDecls v r ms with
  | ok ms' => exact ⟨rfl, rfl⟩
  | error e => rfl

/-- C92 is false: the first time the type has mixin 9 only; the second time, the dependency mixin is taken away, and the type is the empty one. -/
theorem C92_again_refuted :
    let g := getMutSt againDecls againRule (againWorld [1, 2]) () 0 0 [3]
    g.result = .ok 1 ∧ g.mixins = [9] ∧ (getMutSt againDecls againRule g.W () 0 0 g.mixins).result = .ok 0 := by
  refine ⟨?_, ?_, ?_⟩ <;> decide +kernel

/-- C92: a `get_type` that fails does not leave the mutation as it was: rule 3 has added mixin 4 when rule 4 fails. When both rules are removed, asking again with the same mutation gives a type with mixin 4,
though nobody asked for it and no rule is in force. -/
theorem C92_failed_refuted :
    let g := getMutSt againDecls againRule (againWorld [3, 4]) () 0 0 [5]
    g.result = .error (.ruleUserError) ∧ g.mixins = [5, 4] ∧
    (let W := run againDecls g.W [.removeRule 0 3, .removeRule 0 4]
     inForce W 0 = [] ∧ (getMutSt againDecls againRule W () 0 0 g.mixins).result = .ok 1 ∧ compositionOf (getMutSt againDecls againRule W () 0 0 g.mixins).W 0 1 = some [5, 4] ∧
     compositionOf (getMutSt againDecls againRule W () 0 0 [5]).W 0 1 = some [5]) := by
  refine ⟨?_, ?_, ?_, ?_, ?_, ?_⟩ <;> decide +kernel

/-- C92: what is left in the mutation depends on whether the query was stored: the composition of the type the first time, the query the second time. -/
theorem C92_stored_refuted :
    let g := getMutSt againDecls againRule (againWorld [3]) () 0 0 [5]
    g.result = .ok 1 ∧ g.mixins = [5, 4] ∧ (getMutSt againDecls againRule g.W () 0 0 [5]).result = .ok 1 ∧ (getMutSt againDecls againRule g.W () 0 0 [5]).mixins = [5] := by
  refine ⟨?_, ?_, ?_, ?_⟩ <;> decide +kernel

/-- A second question that gives the same type. -/
example : (getMutSt againDecls againRule (againWorld [3]) () 0 0 [5]).result = .ok 1 ∧ ∀ m ∈ (getMutSt againDecls againRule (againWorld [3]) () 0 0 [5]).mixins, (againDecls.mix m).dependency = false := by
  refine ⟨?_, ?_⟩ <;> decide +kernel

end Dnmx.Props
