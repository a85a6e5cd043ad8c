import Verif.Proofs.StandardLemmas
import Verif.Props.RuleSet
import Verif.Props.Features
import Verif.Props.DomainFeatures

/-!
# C93: what the standard leaves open does not matter

`S : StdSort` is any implementation of `std::sort` that does what the standard says.
-/

namespace Dnmx.Props
open Spec

/-- C93: whatever `std::sort` does with equivalent payloads, the feature table of a composition is the same up to the order of payloads of one mixin with equal bid and priority, and
building it fails in the same cases with the same error. Hence the same mixins are called in the same order. -/
theorem C93_tables (S : StdSort) (D : Decls) (fid : Feat → Option Nat) (ms : List Mix) (hf : ∀ f g i, fid f = some i → fid g = some i → f = g) :
    (∃ e, buildFtableS S D fid ms = .error e ∧ buildFtable D fid ms = .error e) ∨
    ∃ t t', buildFtableS S D fid ms = .ok t ∧ buildFtable D fid ms = .ok t' ∧ SameTable t t' :=
  buildFtableS_agree S D fid ms (fun p _ q _ i => hf p.data.feat q.data.feat i)

/-- C93: in tables that are the same in this sense, an entry is there in the same cases, its payloads belong to the same mixins in the same order, and the same number of them are top
bidders. -/
theorem C93_called (t t' : List (Option FEntry)) (h : SameTable t t') (i : Nat) :
    ((t[i]?).getD none = none ↔ (t'[i]?).getD none = none) ∧
    ∀ e e', (t[i]?).getD none = some e → (t'[i]?).getD none = some e' → e.pls.map (·.mixinIndex) = e'.pls.map (·.mixinIndex) ∧ e.topBack = e'.topBack := by
  have h2 := h.2 i
  generalize (t[i]?).getD none = a at h2 ⊢
  generalize (t'[i]?).getD none = b at h2 ⊢
  cases a with
  | none =>
    cases b with
    | none => exact ⟨Iff.rfl, fun e e' h1 => by simp at h1⟩
    | some y => exact absurd h2 (by simp [SameEntry])
  | some x =>
    cases b with
    | none => exact absurd h2 (by simp [SameEntry])
    | some y =>
      refine ⟨by simp, ?_⟩
      rintro e e' h3 h4
      simp only [Option.some.injEq] at h3 h4
      subst h3 h4
      refine ⟨?_, h2.2.2⟩
      have := congrArg (List.map (fun r : Int × Int × Nat => r.2.2)) h2.1
      simpa [List.map_map, Function.comp_def, rankOf] using this

/-- C93 (partial: with `FeatureDiscipline`; missing: other histories, in which payloads of different features can share an entry): the type that `create_type` builds at any time is the
same with every `std::sort`, but for the order of payloads of one mixin with equal bid and priority, or building fails with the same error. -/
theorem C93_types_partial (S : StdSort) (D : Decls) (s : DomId → Settings) (ops : List Op) (hd : FeatureDiscipline D ops) (d : DomId) (tid : TypeId) (ms : List Mix) :
    (∃ e, buildTypeS S D (run D (initWorld s) ops) d tid ms = .error e ∧ buildType D (run D (initWorld s) ops) d tid ms = .error e) ∨
    ∃ t t', buildTypeS S D (run D (initWorld s) ops) d tid ms = .ok t ∧ buildType D (run D (initWorld s) ops) d tid ms = .ok t' ∧
      SameTable t.ftable t'.ftable ∧ t = { t' with ftable := t.ftable } := by
  obtain ⟨home, used, hops⟩ := hd
  have hh := (reachable_home D home used s ops hops).1
  have hr := reachable_reg D s ops
  generalize run D (initWorld s) ops = W at hh hr
  unfold buildTypeS buildType
  cases hc : checkMixins W.mixId W.mixDom d ms with
  | error e => exact .inl ⟨e, rfl, rfl⟩
  | ok u =>
    rcases buildFtableS_agree S D W.featId ms (idsApart_of hr hh hc) with ⟨e, h1, h2⟩ | ⟨a, b, h1, h2, h3⟩
    · simp only [h1, h2]; exact .inl ⟨e, rfl, rfl⟩
    · simp only [h1, h2]; exact .inr ⟨_, _, rfl, rfl, h3, rfl⟩

/-- C93 (partial: names that are valid and do not alias with different lengths; missing: other names, `C93_names_refuted`): sorting by canonical order meets the requirements of
`std::sort`, and every implementation gives the same result. -/
theorem C93_canonical_partial (S : StdSort) (D : Decls) (ids : Mix → Option Nat) (ms : List Mix) (hv : ∀ m ∈ ms, (D.mix m).name.Valid)
    (hal : ∀ a ∈ ms, ∀ b ∈ ms, NoAlias (D.mix a).name (D.mix b).name) :
    WeakOrderOn ms (canonicalOrder D ids) ∧ S.sort (canonicalOrder D ids) ms = sortBy (canonicalOrder D ids) ms := by
  have ho := canonicalOrder_strictTotal D ids (· ∈ ms) hv (fun a b ha hb => hal a ha b hb)
  exact ⟨WeakOrderOn.of_total ho ms (fun _ h => h), stdSort_total S ho ms (fun _ h => h)⟩

/-- C93 (partial: rules as in C14; missing: other rules, `C93_rule_twice_refuted`): at any time the binary search in the rules in force finds what a search from the start finds. -/
theorem C93_rules_partial (D : Decls) (T : Rule → Prop) (hT : RuleNamesOk D T) (s : DomId → Settings) (ops : List Op) (hops : ∀ op ∈ ops, op.rulesIn T) (d : DomId)
    (h0 : (s d).canonicalize = true → T 0) (r : Rule) (hr : T r) :
    ruleIncrB D r ((run D (initWorld s) ops).doms d).rules = ruleIncr D r ((run D (initWorld s) ops).doms d).rules ∧
    ruleDecrB D r ((run D (initWorld s) ops).doms d).rules = ruleDecr D r ((run D (initWorld s) ops).doms d).rules := by
  have ho := ruleOrder_total D T hT
  have h1 := (run_ruleMap ho d ops _ (initWorld_reg s) hops (initWorld_ruleMap D T s d h0).1).1
  exact ⟨ruleIncrB_same ho h1 r hr, ruleDecrB_same ho h1 r hr⟩

/-- C93 (partial: names of mixins and rules that are valid and do not alias, `FeatureDiscipline`, no mixin that lists a feature twice with the same bid and priority; missing: other
names and lists, for which it is false, `C93_names_refuted`, `C93_rule_twice_refuted`, `C93_doubles_refuted`): every history of calls leads to the same state with every `std::sort` and
with binary search, and the next call, whatever it is, has the same outcome. -/
theorem C93_domain_partial (S : StdSort) (D : Decls) (T : Rule → Prop) (hT : RuleNamesOk D T) (hn : MixNamesOk D) (hd : NoDoubles D) (s : DomId → Settings)
    (h0 : ∀ d, (s d).canonicalize = true → T 0) (ops : List Op) (op : Op) (hops : ∀ o ∈ ops ++ [op], o.rulesIn T) (hf : FeatureDiscipline D ops) :
    runS S D (initWorld s) ops = run D (initWorld s) ops ∧ stepS S D (run D (initWorld s) ops) op = step D (run D (initWorld s) ops) op ∧
    ∀ d q, getTypeS S D (run D (initWorld s) ops) d q = getType D (run D (initWorld s) ops) d q := by
  obtain ⟨home, used, hdis⟩ := hf
  have ho := ruleOrder_total D T hT
  have hops1 : ∀ o ∈ ops, o.rulesIn T := fun o h => hops o (List.mem_append_left _ h)
  have hm := fun d => (run_ruleMap ho d ops _ (initWorld_reg s) hops1 (initWorld_ruleMap D T s d (h0 d)).1).1
  have hh := (reachable_home D home used s ops hdis).1
  have hr := reachable_reg D s ops
  refine ⟨runS_same S ho hd hn.canonTotal ops _ (initWorld_reg s) (initWorld_home D home used s) (fun d => (initWorld_ruleMap D T s d (h0 d)).1) hops1 hdis,
    stepS_same S ho hr hh hd hn.canonTotal hm op (hops op (by simp)), ?_⟩
  intro d q
  unfold getTypeS getType
  rw [getTypeMutS_same S hr hh hd hn.canonTotal]
  cases findQuery q ((run D (initWorld s) ops).doms d).queries <;> rfl

/-- C93 (partial: no two initializers for one mixin; missing: two, `C93_initializers_refuted`): the initializers given to `mutate` are used in the same order with every `std::sort`. -/
theorem C93_initializers_partial (S : StdSort) (E : TyEnv) (t : TypeId) (ops : List InitOp)
    (hinj : ∀ m ∈ ops.map Prod.fst, ∀ m' ∈ ops.map Prod.fst, ∀ i, E.indexOf t m = some i → E.indexOf t m' = some i → m = m') (hd : (ops.map Prod.fst).Nodup) :
    sortedOpsS S E t ops = sortedOps E t ops := by
  apply sortedOpsS_same
  intro i k k' h1 h2
  rw [List.mem_filterMap] at h1 h2
  obtain ⟨⟨m, a⟩, h3, h4⟩ := h1
  obtain ⟨⟨m', b⟩, h5, h6⟩ := h2
  simp only [Option.map_eq_some_iff, Prod.mk.injEq] at h4 h6
  obtain ⟨j, h7, rfl, rfl⟩ := h4
  obtain ⟨j', h8, rfl, rfl⟩ := h6
  have hm := hinj m (List.mem_map_of_mem (f := Prod.fst) h3) m' (List.mem_map_of_mem (f := Prod.fst) h5) _ h7 h8
  subst hm
  clear h7 h8 hinj
  induction ops with
  | nil => simp at h3
  | cons x xs ih =>
    simp only [List.map_cons, List.nodup_cons] at hd
    rcases List.mem_cons.1 h3 with h3 | h3
    · rcases List.mem_cons.1 h5 with h5 | h5
      · rw [← h3] at h5; simp at h5; exact h5.symm
      · exact absurd (List.mem_map_of_mem (f := Prod.fst) h5) (by rw [← h3] at hd; exact hd.1)
    · rcases List.mem_cons.1 h5 with h5 | h5
      · exact absurd (List.mem_map_of_mem (f := Prod.fst) h3) (by rw [← h5] at hd; exact hd.1)
      · exact ih hd.2 h3 h5

/-! ## Where it matters -/

/-- Mixin 1 lists feature 7, for which clashes are allowed, twice with equal bid and priority. -/
def doubleDecls : Decls where
  mem := fun _ => 0
  mix := fun m => { name := ⟨0, 0⟩, feats := if m = 1 then [⟨7, 100, 0, 0⟩, ⟨7, 101, 0, 0⟩] else [] }
  feat := fun _ => { name := ⟨0, 0⟩, allowClashes := true }
  userRule := fun _ => ⟨⟨0, 0⟩, none, 0⟩
  cls := fun _ => ⟨⟨0, 0⟩, false, fun _ => true⟩

/-- C93 is false in general: if a mixin lists a feature twice with equal bid and priority, the standard does not say which implementation of the two is called: two conforming sorts give
tables whose first payloads are different. -/
theorem C93_doubles_refuted :
    buildFtableS keepingSort doubleDecls exFid [1] = .ok [none, none, some ⟨[⟨0, 7, 100, 0, 0⟩, ⟨0, 7, 101, 0, 0⟩], 1⟩] ∧
    buildFtableS reversingSort doubleDecls exFid [1] = .ok [none, none, some ⟨[⟨0, 7, 101, 0, 0⟩, ⟨0, 7, 100, 0, 0⟩], 1⟩] := by
  constructor <;> decide +kernel

/-- C93 is false in general: for the mixins of `C22_canonical_order_refuted`, with valid, pairwise different names, the requirements of `std::sort` are not met, and there is a
conforming `std::sort` that returns nothing of what it was given. -/
theorem C93_names_refuted :
    ¬ WeakOrderOn [1, 0, 2] (canonicalOrder exDecls exIds) ∧ ∃ S : StdSort, S.sort (canonicalOrder exDecls exIds) [1, 0, 2] = [] := by
  have hn : ¬ WeakOrderOn [1, 0, 2] (canonicalOrder exDecls exIds) := by
    intro h
    have h1 := h.trans 1 (by simp) 0 (by simp) 2 (by simp) (by decide) (by decide)
    have h2 := h.asymm (by simp) (by simp) h1
    exact absurd h2 (by decide)
  refine ⟨hn, ?_⟩
  classical
  refine ⟨⟨fun {α} lt l => if WeakOrderOn l lt then sortBy lt l else [], ?_, ?_⟩, ?_⟩
  · intro α lt l h
    simp only [if_pos h]
    exact (sortBy_conforms lt l l (.refl l) h).1
  · intro α lt l h
    simp only [if_pos h]
    exact (sortBy_conforms lt l l (.refl l) h).2
  · simp only [if_neg hn]

/-- C93 and C14 are false in general: with the rules of `C14_rule_order_refuted` the binary search misses a rule that is there. Rule 1, added twice, is then listed twice with a count of
one each, so that it is applied twice in each pass. A search from the start would have found it. -/
theorem C93_rule_twice_refuted :
    ((runS keepingSort ruleDecls (initWorld fun _ => {}) [.addRule 0 1, .addRule 0 2, .addRule 0 5, .addRule 0 3, .addRule 0 1]).doms 0).rules = [(1, 1), (2, 1), (3, 1), (1, 1), (5, 1)] ∧
    ((run ruleDecls (initWorld fun _ => {}) [.addRule 0 1, .addRule 0 2, .addRule 0 5, .addRule 0 3, .addRule 0 1]).doms 0).rules = [(3, 1), (1, 2), (2, 1), (5, 1)] := by
  constructor <;> decide +kernel

/-- In the same way a rule that was added once and taken back stays in force. -/
theorem C93_rule_stays_refuted :
    ((runS keepingSort ruleDecls (initWorld fun _ => {}) [.addRule 0 1, .addRule 0 2, .addRule 0 5, .addRule 0 3, .removeRule 0 1]).doms 0).rules = [(1, 1), (2, 1), (3, 1), (5, 1)] := by
  decide +kernel

/-- A type with mixin 4 in second place. -/
def twoInitEnv : TyEnv := ⟨fun _ => [3, 4, 5], fun _ _ => true, fun _ m => if m = 3 then some 0 else if m = 4 then some 1 else if m = 5 then some 2 else none, fun _ => 0⟩

/-- C93 is false in general: of two initializers for one mixin, the standard does not say which comes first. -/
theorem C93_initializers_refuted :
    sortedOpsS keepingSort twoInitEnv 7 [(4, 10), (3, 12), (4, 11)] = [(0, 12), (1, 10), (1, 11)] ∧
    sortedOpsS reversingSort twoInitEnv 7 [(4, 10), (3, 12), (4, 11)] = [(0, 12), (1, 11), (1, 10)] := by
  constructor <;> decide +kernel

/-! ## Examples -/

/-- Mixins "a" and "b" (1 and 2) that provide feature 7 with different bids; mixin 1 also lists it again with another priority, and feature 8. -/
def stdDecls : Decls where
  mem := fun a => if a = 8 ∨ a = 24 then 97 else if a = 16 ∨ a = 32 then 98 else 99
  canonName := ⟨40, 41⟩
  mix := fun m => { name := if m = 1 then ⟨8, 9⟩ else if m = 2 then ⟨16, 17⟩ else ⟨0, 0⟩,
                    feats := if m = 1 then [⟨7, 100, 0, 0⟩, ⟨8, 101, 0, 0⟩, ⟨7, 102, 0, 1⟩] else if m = 2 then [⟨7, 200, 5, 0⟩] else [] }
  feat := fun f => { name := if f = 7 then ⟨24, 25⟩ else ⟨32, 33⟩, allowClashes := false }
  userRule := fun _ => { name := ⟨48, 49⟩, apply := some fun _ ms => .ok ms, orderPriority := 0 }
  cls := fun _ => { name := ⟨0, 0⟩, matchesT := fun _ => true }

/-- calls for the example -/
def stdOps : List Op := [.regMixin 0 2, .regMixin 0 1, .addRule 0 5, .getType 0 [2, 1]]

/-- The hypotheses of `C93_domain_partial` are met. -/
example : RuleNamesOk stdDecls (fun r => r = 0 ∨ r = 5) ∧ MixNamesOk stdDecls ∧ NoDoubles stdDecls ∧ FeatureDiscipline stdDecls stdOps := by
  refine ⟨⟨?_, ?_⟩, ⟨?_, ?_⟩, ?_, fun _ => 0, fun _ => True, ?_⟩
  · rintro r (rfl | rfl) <;> decide
  · rintro a b (rfl | rfl) (rfl | rfl) h <;> first | rfl | exact absurd h (by decide)
  · intro m
    simp only [stdDecls]
    by_cases h1 : m = 1
    · rw [if_pos h1]; decide
    · by_cases h2 : m = 2
      · rw [if_neg h1, if_pos h2]; decide
      · rw [if_neg h1, if_neg h2]; decide
  · intro a b
    simp only [stdDecls]
    by_cases h1 : a = 1 <;> by_cases h2 : a = 2 <;> by_cases h3 : b = 1 <;> by_cases h4 : b = 2 <;> simp [h1, h2, h3, h4] <;> decide
  · intro m
    simp only [stdDecls]
    by_cases h1 : m = 1
    · rw [if_pos h1]; decide
    · by_cases h2 : m = 2
      · rw [if_neg h1, if_pos h2]; decide
      · rw [if_neg h1, if_neg h2]; decide
  · intro op hop
    simp only [stdOps, List.mem_cons, List.not_mem_nil, or_false] at hop
    rcases hop with rfl | rfl | rfl | rfl <;> simp [Op.disciplined]

/-- With the reversing sort, the history has one type, in canonical order; feature 7 has mixin "b" first, then the two implementations of mixin "a". -/
example : ((runS reversingSort stdDecls (initWorld fun _ => { canonicalize := true }) stdOps).doms 0).types.map (fun t => (t.mixins, t.ftable)) =
    [([1, 2], [some ⟨[⟨1, 7, 200, 5, 0⟩, ⟨0, 7, 100, 0, 0⟩, ⟨0, 7, 102, 0, 1⟩], 0⟩, some ⟨[⟨0, 8, 101, 0, 0⟩], 0⟩])] := by decide +kernel

/-- Two initializers for different mixins, in either order. -/
example : sortedOpsS reversingSort twoInitEnv 7 [(4, 10), (3, 12)] = [(0, 12), (1, 10)] := by decide +kernel

end Dnmx.Props
