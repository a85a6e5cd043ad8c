import Verif.Proofs.BuilderLemmas
import Verif.Proofs.MixinDataLemmas
import Verif.Props.MixinData

/-!
# C66: what definitions of mixins mean

`buildDef m name ops` is the definition of the mixin `m` by calls `ops` of the builder.

Findings.
* Rules without names do not run in the order of their definition: they run in the order of generated names, and "A rule 10" comes
  before "A rule 2", and "A also_adds<1>" before "A attaches_to<0>" (`C66_definition_order_refuted`).
* A mixin that attaches to another one and also adds a third one gives types without the third one, if it is asked for
  (`C66_dependents_refuted`).
-/

namespace Dnmx.Props
open Spec

/-- C66: the definition has the name that was given last, the features in the order of the calls with bids and priorities from the
first perks, else from the second ones, else 0, and the dependency status by the last call that has to do with it. -/
theorem C66_contents (m : Mix) (name : List UInt8) (ops : List BuildOp) :
    (buildDef m name ops).name = nameAfter name ops ∧
    (buildDef m name ops).feats = ops.filterMap featureOf ∧
    (buildDef m name ops).dependency = (ops.filterMap dependencyOf).getLastD false ∧
    ((buildDef m name ops).hasAllocator = true ↔ .usesAllocator ∈ ops) :=
  ⟨buildDef_name m name ops, buildDef_feats m name ops, buildDef_dependency m name ops, buildDef_allocator m name ops⟩

/-- C66: every call that adds a rule adds one, in the order of the calls. -/
theorem C66_rules (m : Mix) (name : List UInt8) (a b : List BuildOp) (op : BuildOp) :
    (buildDef m name (a ++ op :: b)).rules.length = ((a ++ op :: b).filter AddsRule).length ∧
    (AddsRule op = true ↔ ruleFrom m (nameAfter name a) (a.filter AddsRule).length op ≠ none) ∧
    ∀ y, ruleFrom m (nameAfter name a) (a.filter AddsRule).length op = some y →
      (buildDef m name (a ++ op :: b)).rules[(a.filter AddsRule).length]? = some y := by
  refine ⟨buildDef_rules_length .., ?_, fun y h => buildDef_rule_at m name a b op y h⟩
  rw [← ruleFrom_adds m (nameAfter name a) (a.filter AddsRule).length op, Option.isSome_iff_ne_none]

/-- C66: generated names differ, in one definition and between definitions of mixins with different names: equal names are for the same
kind of rule at the same place in definitions of mixins that had the same name then. -/
theorem C66_generated_names (a b : List UInt8) (k k' : GenKind) (i j : Nat) (h : genName a k i = genName b k' j) : a = b ∧ k = k' ∧ i = j :=
  genName_inj h

/-- C66: different rules of one definition with generated names have different names. -/
theorem C66_names_in_definition (m : Mix) (name : List UInt8) (a b c : List BuildOp) (op op' : BuildOp) (n n' : List UInt8) (x x' : RuleBody) (p p' : Int)
    (k k' : GenKind) (hk : genKind op = some k) (hk' : genKind op' = some k')
    (h : (buildDef m name (a ++ op :: b ++ op' :: c)).rules[(a.filter AddsRule).length]? = some (.stored n x p))
    (h' : (buildDef m name (a ++ op :: b ++ op' :: c)).rules[((a ++ op :: b).filter AddsRule).length]? = some (.stored n' x' p')) : n ≠ n' := by
  have key : ∀ (mix : List UInt8) (i : Nat) (op : BuildOp) (k : GenKind), genKind op = some k →
      AddsRule op = true ∧ ∃ x p, ruleFrom m mix i op = some (.stored (genName mix k i) x p) := by
    intro mix i op k hk
    cases op with
    | unnamedRule f q => simp [genKind] at hk; subst hk; exact ⟨rfl, _, _, rfl⟩
    | onMutation f q => cases f <;> simp [genKind] at hk <;> subst hk <;> exact ⟨rfl, _, _, rfl⟩
    | _ => simp [genKind] at hk
  obtain ⟨ho, x1, p1, h1⟩ := key (nameAfter name a) (a.filter AddsRule).length op k hk
  obtain ⟨-, x2, p2, h2⟩ := key (nameAfter name (a ++ op :: b)) ((a ++ op :: b).filter AddsRule).length op' k' hk'
  have e1 := buildDef_rule_at m name a (b ++ op' :: c) op _ h1
  have e2 := buildDef_rule_at m name (a ++ op :: b) c op' _ h2
  rw [List.append_assoc, List.cons_append] at h
  rw [e1] at h
  rw [e2] at h'
  simp at h h'
  rw [← h.1, ← h'.1]
  intro he
  have := (genName_inj he).2.2
  simp [List.filter_append, ho] at this

/-- C66: rules with different names are ordered by priorities and names, wherever they are in memory. -/
theorem C66_order_by_names (D : Decls) (fns : Nat → ElemView → List Mix → Except Err (List Mix)) (r r' : Rule) (n n' : List UInt8) (x x' : RuleBody)
    (p p' : Int) (h : IsRule D fns r (.stored n x p)) (h' : IsRule D fns r' (.stored n' x' p')) (hn : n ≠ n') :
    RuleBefore D r r' ↔ p < p' ∨ (p = p' ∧ LexBefore n n') := by
  unfold RuleBefore
  rw [h.1, h'.1, h.2.2, h'.2.2]
  simp [hn]

/-- C66 (partial): two rules of one definition, of the same kind, with generated names and the same priority, run in the order of their
definition, if they are among the first ten rules and the mixin is not renamed in between. Full statement: for all rules of a
definition that have the same priority; this is false (`C66_definition_order_refuted`). -/
theorem C66_definition_order_partial (D : Decls) (fns : Nat → ElemView → List Mix → Except Err (List Mix)) (m : Mix) (rules : List Rule)
    (name : List UInt8) (a b c : List BuildOp) (op op' : BuildOp) (k : GenKind) (hk : genKind op = some k) (hk' : genKind op' = some k)
    (hreal : Realizes D fns m rules (buildDef m name (a ++ op :: b ++ op' :: c)))
    (hname : nameAfter name (a ++ op :: b) = nameAfter name a)
    (hten : ((a ++ op :: b).filter AddsRule).length < 10)
    (r r' : Rule) (hr : rules[(a.filter AddsRule).length]? = some r) (hr' : rules[((a ++ op :: b).filter AddsRule).length]? = some r')
    (hp : (ruleOf D r).orderPriority = (ruleOf D r').orderPriority) : RuleBefore D r r' := by
  have key : ∀ (mix : List UInt8) (i : Nat) (op : BuildOp) (k : GenKind), genKind op = some k →
      AddsRule op = true ∧ ∃ x p, ruleFrom m mix i op = some (.stored (genName mix k i) x p) := by
    intro mix i op k hk
    cases op with
    | unnamedRule f q => simp [genKind] at hk; subst hk; exact ⟨rfl, _, _, rfl⟩
    | onMutation f q => cases f <;> simp [genKind] at hk <;> subst hk <;> exact ⟨rfl, _, _, rfl⟩
    | _ => simp [genKind] at hk
  obtain ⟨ho, x1, p1, h1⟩ := key (nameAfter name a) (a.filter AddsRule).length op k hk
  obtain ⟨-, x2, p2, h2⟩ := key (nameAfter name (a ++ op :: b)) ((a ++ op :: b).filter AddsRule).length op' k hk'
  have e1 := buildDef_rule_at m name a (b ++ op' :: c) op _ h1
  have e2 := buildDef_rule_at m name (a ++ op :: b) c op' _ h2
  rw [show a ++ op :: (b ++ op' :: c) = a ++ op :: b ++ op' :: c by simp] at e1
  have isr : ∀ (i : Nat) (r : Rule) (y : DefRule), rules[i]? = some r → (buildDef m name (a ++ op :: b ++ op' :: c)).rules[i]? = some y → IsRule D fns r y := by
    intro i r y h1 h2
    refine hreal.rules (r, y) (List.mem_iff_getElem?.2 ⟨i, ?_⟩)
    rw [List.getElem?_zip_eq_some]
    exact ⟨h1, h2⟩
  have i1 := isr _ _ _ hr e1
  have i2 := isr _ _ _ hr' e2
  refine .inr ⟨hp, .inl ?_⟩
  rw [i1.1, i2.1, hname]
  refine genName_before _ _ ?_ hten
  simp [List.filter_append, ho]

/-- C66: rules without names and with the same priority do not run in the order of their definition: the generated name of the eleventh
rule comes before the one of the third, and "also adds" before "attaches to". -/
theorem C66_definition_order_refuted :
    (∃ (n n' : List UInt8) (x x' : RuleBody), (buildDef 1 (bytesOf "A") (List.replicate 11 (.unnamedRule 7 {}))).rules[2]? = some (.stored n x 0) ∧
      (buildDef 1 (bytesOf "A") (List.replicate 11 (.unnamedRule 7 {}))).rules[10]? = some (.stored n' x' 0) ∧ LexBefore n' n) ∧
    (∃ (n n' : List UInt8) (x x' : RuleBody), (buildDef 1 (bytesOf "A") [.onMutation (.attachesTo 2) {}, .onMutation (.alsoAdds 3) {}]).rules =
      [.stored n x 0, .stored n' x' 0] ∧ LexBefore n' n) := by
  refine ⟨⟨bytesOf "A rule 2", bytesOf "A rule 10", .user 7, .user 7, ?_, ?_, ?_⟩,
    ⟨bytesOf "A attaches_to<0>", bytesOf "A also_adds<1>", .dep 2 1, .dep 1 3, ?_, ?_⟩⟩
  · decide +kernel
  · decide +kernel
  · exact lexBefore_append (bytesOf "A rule ") (a := bytesOf "10") (b := bytesOf "2") (.head _ _ (by decide))
  · decide +kernel
  · exact lexBefore_append (bytesOf "A a") (a := bytesOf "lso_adds<1>") (b := bytesOf "ttaches_to<0>") (.head _ _ (by decide))

/-- C66 (partial: names of rules are valid and do not alias, as in C14): after a definition is registered, its rules are in force. -/
theorem C66_in_force_partial (D : Decls) (S : Rule → Prop) (hS : RuleNamesOk D S) (s : DomId → Settings) (ops : List Op)
    (hops : ∀ op ∈ ops, op.rulesIn S) (d : DomId) (h0 : (s d).canonicalize = true → S 0) (m : Mix) (rules : List Rule) (hrs : ∀ r ∈ rules, S r)
    (h : (registerIn D (run D (initWorld s) ops) d m rules).1 = .ok ()) :
    ∀ r ∈ rules, r ∈ inForce (registerIn D (run D (initWorld s) ops) d m rules).2 d := by
  intro r hr
  have hrun := registerIn_run D _ d m rules h
  obtain ⟨hfun, -⟩ := (registerIn_outcome D _ d m rules).1 h
  rw [hrun, ← run_append]
  have hops' : ∀ op ∈ ops ++ (rules.map (Op.addRule d ·) ++ [.regMixin d m]), op.rulesIn S := by
    intro op hop
    rcases List.mem_append.1 hop with h1 | h1
    · exact hops op h1
    · rcases List.mem_append.1 h1 with h1 | h1
      · obtain ⟨q, hq, rfl⟩ := List.mem_map.1 h1; exact hrs q hq
      · simp at h1; subst h1; trivial
  rw [(C14_rules_in_force_partial D S hS s _ hops' d h0).1 r]
  obtain ⟨more, h1, -, h3⟩ := C55_registered D s ops d m rules h
  have hmap := run_ruleMap (ruleOrder_total D S hS) d (rules.map (Op.addRule d ·) ++ [.regMixin d m]) _ (reachable_reg D s ops)
    (fun op hop => hops' op (List.mem_append_right _ hop)) (run_ruleMap (ruleOrder_total D S hS) d ops _ (initWorld_reg s) hops (initWorld_ruleMap D S s d h0).1).1
  have h4 := run_ruleMap (ruleOrder_total D S hS) d ops _ (initWorld_reg s) hops (initWorld_ruleMap D S s d h0).1
  have h5 := run_ruleMap (ruleOrder_total D S hS) d (ops ++ (rules.map (Op.addRule d ·) ++ [.regMixin d m])) _ (initWorld_reg s) hops' (initWorld_ruleMap D S s d h0).1
  have i2 := (initWorld_ruleMap D S s d h0).2 r
  rw [← i2, ← h5.2 r, run_append, hmap.2 r, ruleCount_adds, addsOf_append, addsOf_map D d r rules hfun]
  · have := List.count_pos_iff.2 hr
    omega
  · intro op hop q
    rcases List.mem_append.1 hop with h1 | h1
    · obtain ⟨q, hq, rfl⟩ := List.mem_map.1 h1; simp
    · simp at h1; subst h1; simp

/-- C16: the composition of a type that `get_type` gives is the result of the rules in force now on the query, as they saw the domain then or
at some earlier time. (For all rules.) -/
theorem C16_composition_seen (D : Decls) (s : DomId → Settings) (ops : List Op) (d : DomId) (q : List Mix) (t : TypeId)
    (h : (getType D (run D (initWorld s) ops) d q).1 = .ok t) :
    ∃ ms pre, pre <+: ops ∧ compositionOf (getType D (run D (initWorld s) ops) d q).2 d t = some ms ∧
      resolve D (rulesOf D ((run D (initWorld s) pre).view D d) ((run D (initWorld s) ops).doms d)) q = .ok ms := by
  have hc := getType_cases D (run D (initWorld s) ops) d q
  obtain ⟨r, h1, h2⟩ := getCase_composition hc (reachable_types D s ops d) t h
  rcases h2 with ⟨h2, h3⟩ | h2
  · obtain ⟨r', pre, hpre, h4, h5⟩ := reachable_seen D s d ops _ h2
    rw [h3] at h4; simp at h4; subst h4
    refine ⟨r.mixins, pre, hpre, by simp [compositionOf, h1], ?_⟩
    simp only at h5
    simp [resolve, h5]
  · exact ⟨r.mixins, ops, List.prefix_refl _, by simp [compositionOf, h1], by simp [resolve, h2]⟩

/-- C66: while no rule in force takes mixins out, a type that `get_type` gives has all mixins of the query but dependencies. -/
theorem C66_asked_for (D : Decls) (s : DomId → Settings) (ops : List Op) (d : DomId)
    (hk : ∀ r' ∈ inForce (run D (initWorld s) ops) d, KeepsMixins D r') (q : List Mix) (t : TypeId)
    (h : (getType D (run D (initWorld s) ops) d q).1 = .ok t) :
    ∃ ms, compositionOf (getType D (run D (initWorld s) ops) d q).2 d t = some ms ∧ ∀ m ∈ q, (D.mix m).dependency = false → m ∈ ms := by
  obtain ⟨ms, pre, -, h1, h2⟩ := C16_composition_seen D s ops d q t h
  refine ⟨ms, h1, fun m hm hd => ?_⟩
  unfold resolve applyMutationRules at h2
  cases hres : (rulesLoop (rulesOf D ((run D (initWorld s) pre).view D d) ((run D (initWorld s) ops).doms d)) maxDependencyDepth [] q
      (q.filter fun m => !(D.mix m).dependency)).result with
  | error e => rw [hres] at h2; simp at h2
  | ok kr =>
    rw [hres] at h2
    simp at h2
    have := rulesLoop_keeps _ (by
      intro f hf
      rw [rulesOf_keys] at hf
      obtain ⟨r', hr', rfl⟩ := List.mem_map.1 hf
      exact fun ms ms' => ruleFn_keeps (hk r' hr') _ ms ms') _ _ _ _ _ _ hres m (List.mem_filter.2 ⟨hm, by simp [hd]⟩)
    rw [← h2]; exact this

/-- C66 (partial): while the common rule "x goes with p" is in force and no rule in force takes mixins out, every type that `get_type` gives
for mixins that are not dependencies has `x` if it has `p`. Full statement: for all queries; this is false (`C66_dependents_refuted`). -/
theorem C66_dependents_partial (D : Decls) (fns : Nat → ElemView → List Mix → Except Err (List Mix)) (s : DomId → Settings) (ops : List Op) (d : DomId)
    (r : Rule) (n : List UInt8) (p x : Mix) (pr : Int) (hr : IsRule D fns r (.stored n (.dep p x) pr))
    (hin : r ∈ inForce (run D (initWorld s) ops) d) (hk : ∀ r' ∈ inForce (run D (initWorld s) ops) d, KeepsMixins D r')
    (q : List Mix) (hq : ∀ m ∈ q, (D.mix m).dependency = false) (t : TypeId) (h : (getType D (run D (initWorld s) ops) d q).1 = .ok t) :
    ∃ ms, compositionOf (getType D (run D (initWorld s) ops) d q).2 d t = some ms ∧ (p ∈ ms → x ∈ ms) := by
  obtain ⟨ms, pre, -, h1, h2⟩ := C16_composition_seen D s ops d q t h
  refine ⟨ms, h1, fun hp => ?_⟩
  have hfix := C10_fixpoint_no_deps_partial D _ q ms hq h2
  refine applyPass_dep _ ?_ p x ?_ ms ms hfix hp
  · intro f hf
    rw [rulesOf_keys] at hf
    obtain ⟨r', hr', rfl⟩ := List.mem_map.1 hf
    exact fun ms ms' => ruleFn_keeps (hk r' hr') _ ms ms'
  · rw [rulesOf_keys]
    refine List.mem_map.2 ⟨r, hin, ?_⟩
    rw [ruleFn_isRule hr]
    rfl

/-- The bytes of the example's names. -/
def bdText : List UInt8 := bytesOf "BCA" ++ bytesOf "B attaches_to<0>" ++ bytesOf "B also_adds<1>"

/-- Functions of the user: none. -/
def bdFns : Nat → ElemView → List Mix → Except Err (List Mix) := fun _ _ ms => .ok ms

/-- Example: the mixins "B" (1), "C" (2) and "A" (3); B attaches to A and also adds C. -/
def bdDecls : Decls where
  mem := fun a => bdText.getD a 0
  canonName := ⟨0, 1⟩
  mix := fun m => { name := ⟨m - 1, m⟩, dependency := m = 1 }
  feat := fun f => { name := ⟨f, f + 1⟩ }
  userRule := fun r => if r = 1 then { name := ⟨3, 19⟩, apply := some (bodyFn bdFns (.dep 3 1)) } else { name := ⟨19, 33⟩, apply := some (bodyFn bdFns (.dep 1 2)) }
  cls := fun _ => { name := ⟨0, 0⟩, matchesT := fun _ => true }

/-- The definition of "B". -/
def bdDef : MixinDef := buildDef 1 (bytesOf "B") [.onMutation (.attachesTo 3) {}, .onMutation (.alsoAdds 2) {}]

theorem bdDecls_realizes : Realizes bdDecls bdFns 1 [1, 2] bdDef where
  name := by decide +kernel
  feats := by decide +kernel
  dependency := by decide +kernel
  count := by decide +kernel
  rules := by
    intro p hp
    have h : bdDef.rules = [.stored (bytesOf "B attaches_to<0>") (.dep 3 1) 0, .stored (bytesOf "B also_adds<1>") (.dep 1 2) 0] := by decide +kernel
    rw [h] at hp
    simp at hp
    rcases hp with rfl | rfl
    · exact ⟨by decide +kernel, rfl, rfl⟩
    · exact ⟨by decide +kernel, rfl, rfl⟩

/-- A domain with the mixins. -/
def bdOps : List Op := [.addRule 0 1, .addRule 0 2, .regMixin 0 1, .regMixin 0 2, .regMixin 0 3]

/-- C66: dependents can be missing: B attaches to A and also adds C, both rules are in force, and no rule takes mixins out. Nevertheless the type
of A and B has B but not C. (The type of A has all three.) -/
theorem C66_dependents_refuted :
    Realizes bdDecls bdFns 1 [1, 2] bdDef ∧ (registerIn bdDecls (initWorld fun _ => {}) 0 1 [1, 2]).2.doms 0 = (run bdDecls (initWorld fun _ => {}) (bdOps.take 3)).doms 0 ∧
    inForce (run bdDecls (initWorld fun _ => {}) bdOps) 0 = [2, 1] ∧
    (∀ r ∈ inForce (run bdDecls (initWorld fun _ => {}) bdOps) 0, KeepsMixins bdDecls r) ∧
    (∃ t, (getType bdDecls (run bdDecls (initWorld fun _ => {}) bdOps) 0 [3, 1]).1 = .ok t ∧
      compositionOf (getType bdDecls (run bdDecls (initWorld fun _ => {}) bdOps) 0 [3, 1]).2 0 t = some [3, 1]) ∧
    (∃ t, (getType bdDecls (run bdDecls (initWorld fun _ => {}) bdOps) 0 [3]).1 = .ok t ∧
      compositionOf (getType bdDecls (run bdDecls (initWorld fun _ => {}) bdOps) 0 [3]).2 0 t = some [3, 1, 2]) := by
  have hin : inForce (run bdDecls (initWorld fun _ => {}) bdOps) 0 = [2, 1] := by decide +kernel
  refine ⟨bdDecls_realizes, by decide +kernel, hin, ?_, ⟨1, by decide +kernel, by decide +kernel⟩, ⟨1, by decide +kernel, by decide +kernel⟩⟩
  rw [hin]
  intro r hr
  simp at hr
  rcases hr with rfl | rfl
  · exact dep_keeps (fns := bdFns) (n := bytesOf "B also_adds<1>") (p := 1) (x := 2) (pr := 0) ⟨by decide +kernel, rfl, rfl⟩
  · exact dep_keeps (fns := bdFns) (n := bytesOf "B attaches_to<0>") (p := 3) (x := 1) (pr := 0) ⟨by decide +kernel, rfl, rfl⟩

/-- C66: the rules that the hypotheses are about: the common rules and canonicalization take no mixins out. -/
theorem C66_common_rules_keep (D : Decls) (fns : Nat → ElemView → List Mix → Except Err (List Mix)) (r : Rule) :
    (∀ n p x pr, IsRule D fns r (.stored n (.dep p x) pr) → KeepsMixins D r) ∧ KeepsMixins D 0 :=
  ⟨fun _ _ _ _ h => dep_keeps h, canon_keeps D⟩

/-- What holds of the traits of any type: trivial operations exist and do not throw. -/
structure TraitsOk (t : Traits) : Prop where
  construct : t.triviallyConstructible = true → t.defaultConstructible = true
  copy : t.triviallyCopyConstructible = true → t.copyConstructible = true
  copyAssign : t.triviallyCopyAssignable = true → t.copyAssignable = true
  move : t.triviallyMoveConstructible = true → t.nothrowMoveConstructible = true
  moveAssign : t.triviallyMoveAssignable = true → t.nothrowMoveAssignable = true

/-- The functions that a type allows. -/
def functionsFor (t : Traits) : MixinFuncs where
  hasInit := t.defaultConstructible
  hasCopyInit := t.copyConstructible
  hasMoveInit := t.nothrowMoveConstructible
  hasCopyAsgn := t.copyAssignable
  hasMoveAsgn := t.nothrowMoveAssignable
  hasDestroy := !t.triviallyDestructible

/-- C66: a mixin info for a type has exactly the functions that the type allows, where moving must not throw, and no comparisons; so the mixin is
in the object's buffer exactly if it can be moved without exceptions and neither an allocator nor `force_external` is asked for. -/
theorem C66_functions (t : Traits) (h : TraitsOk t) (x : MixDecl) (hx : x.hasMoveInit = (commonInit (some t)).hasMoveInit) :
    (commonInit (some t)) = functionsFor t ∧
    (x.external = false ↔ t.nothrowMoveConstructible = true ∧ x.hasAllocator = false ∧ x.forceExternal = false) := by
  have e : ∀ (a b : Bool), (a = true → b = true) → (if a = true then true else b) = b := by
    intro a b hab; cases a <;> simp_all
  have e1 : (commonInit (some t)) = functionsFor t := by
    unfold commonInit functionsFor
    simp only [e _ _ h.construct, e _ _ h.copy, e _ _ h.copyAssign, e _ _ h.move, e _ _ h.moveAssign]
  refine ⟨e1, ?_⟩
  rw [e1] at hx
  unfold functionsFor at hx
  unfold MixDecl.external
  rw [hx]
  cases t.nothrowMoveConstructible <;> cases x.hasAllocator <;> cases x.forceExternal <;> simp

/-- C66: a mixin without a type (`void`) has functions for everything but its destruction, so it is in the object's buffer unless an allocator or
`force_external` is asked for, and can be copied, moved and compared. -/
theorem C66_void : commonInit none = { hasInit := true, hasCopyInit := true, hasMoveInit := true, hasCopyAsgn := true, hasMoveAsgn := true, hasDestroy := false, hasCompare := true } ∧
    ∀ x : MixDecl, x.hasMoveInit = (commonInit none).hasMoveInit → (x.external = false ↔ x.hasAllocator = false ∧ x.forceExternal = false) := by
  refine ⟨rfl, ?_⟩
  intro x hx
  have hx : x.hasMoveInit = true := hx
  unfold MixDecl.external
  rw [hx]
  cases x.hasAllocator <;> cases x.forceExternal <;> simp

/-- C66: a minus before perks (`-2_bid`) negates the bid and the priority that the feature gets, wherever they are used. -/
theorem C66_minus (m : Mix) (x : MixinDef) (f : Feat) (pl : Nat) (a : Perks) (c : CommonRule) (n : List UInt8) (k : Nat) :
    (∃ g, (buildStep m x (.implements f pl a {})).feats = x.feats ++ [g] ∧ (buildStep m x (.implements f pl a.neg {})).feats = x.feats ++ [{ g with bid := -g.bid, priority := -g.priority }]) ∧
    (∃ b p, (buildStep m x (.namedRule n k a)).rules = x.rules ++ [.stored n b p] ∧ (buildStep m x (.namedRule n k a.neg)).rules = x.rules ++ [.stored n b (-p)]) ∧
    (∃ n' b p, (buildStep m x (.onMutation c a)).rules = x.rules ++ [.stored n' b p] ∧ (buildStep m x (.onMutation c a.neg)).rules = x.rules ++ [.stored n' b (-p)]) := by
  obtain ⟨ab, ap⟩ := a
  refine ⟨⟨_, rfl, ?_⟩, ⟨_, _, rfl, ?_⟩, ⟨_, _, _, rfl, ?_⟩⟩ <;> cases ab <;> cases ap <;> simp [buildStep, Perks.neg]

example : (buildStep 1 { name := [] } (.implements 5 50 (Perks.neg ⟨some 2, some 3⟩) {})).feats = [⟨5, 50, -2, -3⟩] := by decide

/-- The feature that an item of version 1 stands for. -/
def v1FeatureOf : V1Feature → Option FeatFor
  | .message f pl => some ⟨f, pl, 0, 0⟩
  | .bound f pl => some ⟨f, pl, 0, 0⟩
  | .perks f pl b p => some ⟨f, pl, b, p⟩
  | _ => none

/-- The name that an item of version 1 gives. -/
def v1NameOf : V1Feature → Option (List UInt8)
  | .mixinName n => some n
  | _ => none

/-- The dependency status that an item of version 1 gives. -/
def v1DependencyOf : V1Feature → Option Bool
  | .dependencyMixin b => some b
  | _ => none

/-- C66: a definition of version 1 has the name given last, or the one of the type; its features are in the order in which they are written; it is a
dependency if the last `dependency_mixin` says so; it has no rules. -/
theorem C66_v1 (m : Mix) (typeName : List UInt8) (fs : List V1Feature) :
    (buildV1 m typeName fs).name = (fs.filterMap v1NameOf).getLastD typeName ∧
    (buildV1 m typeName fs).feats = fs.filterMap v1FeatureOf ∧
    (buildV1 m typeName fs).dependency = (fs.filterMap v1DependencyOf).getLastD false ∧
    (buildV1 m typeName fs).rules = [] := by
  unfold buildV1
  induction fs using snoc_induction with
  | h0 => exact ⟨rfl, rfl, rfl, rfl⟩
  | h1 l x ih =>
    obtain ⟨i1, i2, i3, i4⟩ := ih
    rw [List.flatMap_append, ← List.cons_append]
    simp only [List.flatMap_cons, List.flatMap_nil, List.append_nil, List.filterMap_append]
    cases x <;> simp only [V1Feature.ops, List.append_nil] <;> (try rw [buildDef_snoc]) <;>
      simp [buildStep, v1FeatureOf, v1NameOf, v1DependencyOf, i1, i2, i3, i4]

-- an unnamed rule after a common one; a rule makes the mixin a dependency, unless this is taken back
example : buildDef 1 (bytesOf "A") [.implements 5 50 {} ⟨some 2, some 3⟩, .implements 6 60 ⟨some 7, none⟩ ⟨some 2, some 3⟩, .onMutation (.alsoAdds 2) ⟨none, some 4⟩,
      .unnamedRule 9 {}, .dependency false] =
    { name := bytesOf "A", feats := [⟨5, 50, 2, 3⟩, ⟨6, 60, 7, 3⟩], dependency := false,
      rules := [.stored (bytesOf "A also_adds<0>") (.dep 1 2) 4, .stored (bytesOf "A rule 1") (.user 9) 0] } := by decide +kernel
example : (buildDef 1 (bytesOf "A") [.unnamedRule 9 {}]).dependency = true ∧ (buildDef 1 (bytesOf "A") [.onMutation (.alsoAdds 2) {}]).dependency = false := by
  decide +kernel
-- a definition of version 1
example : buildV1 1 (bytesOf "T") [.message 1 10, .perks 2 20 1 (-1), .mixinName (bytesOf "N"), .none, .dependencyMixin true] =
    { name := bytesOf "N", feats := [⟨1, 10, 0, 0⟩, ⟨2, 20, 1, -1⟩], dependency := true } := by decide +kernel
-- the hypotheses of C66_dependents_partial: a domain with both rules in force, and a query without dependencies
example : (getType bdDecls (run bdDecls (initWorld fun _ => {}) bdOps) 0 [3, 2]).1 = .ok 1 ∧ (bdDecls.mix 3).dependency = false ∧
    (bdDecls.mix 2).dependency = false ∧ compositionOf (getType bdDecls (run bdDecls (initWorld fun _ => {}) bdOps) 0 [3, 2]).2 0 1 = some [3, 2, 1] := by
  decide +kernel
example : TraitsOk ⟨false, true, false, false, false, false, false, true, false, true, false⟩ := by constructor <;> simp

end Dnmx.Props
