import Verif.Props.Dump

/-!
# Debug output of single things (C85)

What the line about a mixin, a feature or a rule says, read by the words in it. The flags are compared to the numbers of dbg_dmp.hpp.
-/

set_option linter.unusedVariables false
set_option linter.unusedSimpArgs false

namespace Spec
open Dnmx

/-- What stands after the words. -/
def after (s : String) : Line → Option Tok
  | [] => none
  | [_] => none
  | x :: y :: l => if x = .lit s then some y else after s (y :: l)

end Spec

namespace Dnmx.Props
open Spec

variable (D : Decls) (N : DomId → Option (List UInt8)) (num : TypeId → Nat)

/-- C85: the line about a feature gives its name, its id if and only if it is registered, whether clashes are allowed and whether there is a default. -/
theorem C85_feature_line (W : World) (f : Feat) :
    itemName "feature: '" (dmpFeature D W f) = some (D.featName f) ∧
    after "id: " (dmpFeature D W f) = (W.featId f).map (fun (i : Nat) => Tok.num i) ∧
    (Tok.lit "unregistered" ∈ dmpFeature D W f ↔ W.featId f = none) ∧
    after ", allow clashes: " (dmpFeature D W f) = some (.flag (D.feat f).allowClashes) ∧
    after ", default payload: " (dmpFeature D W f) = some (.fn (D.feat f).defaultPayload.isSome) := by
  unfold dmpFeature
  cases W.featId f <;> simp [itemName, after]

example : after "id: " (dmpFeature dmpDecls dmpWorld 8) = some (.num 2) ∧ after "id: " (dmpFeature dmpDecls dmpWorld 9) = none := by decide +kernel

/-- C85: the first line about a mixin gives its name, whether it is a dependency, whether it is external, the number of its features, and its id and domain if and only if it is registered. -/
theorem C85_mixin_line (fl : DmpFlags) (W : World) (m : Mix) (ls : List Line) (h : dmpMixin D N fl W m = some ls) :
    ∃ l ls', ls = l :: ls' ∧ itemName "mixin: '" l = some (D.mixName m) ∧
      (l.head? = some (.lit "dep-") ↔ (D.mix m).dependency = true) ∧
      after "id: " l = (W.mixId m).map (fun (i : Nat) => Tok.num i) ∧
      (Tok.lit "unregistered" ∈ l ↔ W.mixId m = none) ∧
      (W.mixId m ≠ none → ∃ d n, W.mixDom m = some d ∧ N d = some n ∧ after " ('" l = some (.name n)) ∧
      (Tok.lit "external" ∈ l ↔ (D.mix m).external = true) ∧ (Tok.lit "internal" ∈ l ↔ (D.mix m).external = false) ∧
      after ", " l ≠ none ∧ Tok.num (D.mix m).feats.length ∈ l := by
  unfold dmpMixin at h
  cases hr : dmpMixinReg N W m with
  | none => rw [hr] at h; simp at h
  | some reg =>
    rw [hr] at h
    simp only [Option.bind_eq_bind, Option.bind_some, Option.some.injEq] at h
    subst h
    refine ⟨_, _, rfl, ?_⟩
    unfold dmpMixinReg at hr
    cases hi : W.mixId m with
    | none =>
      rw [hi] at hr
      simp only [Option.some.injEq] at hr
      subst hr
      cases hd : (D.mix m).dependency <;> cases he : (D.mix m).external <;> simp [itemName, after]
    | some i =>
      rw [hi] at hr
      simp only at hr
      cases hmd : W.mixDom m with
      | none => rw [hmd] at hr; simp at hr
      | some d =>
        rw [hmd] at hr
        simp only [Option.bind_some] at hr
        cases hn : N d with
        | none => rw [hn] at hr; simp at hr
        | some n =>
          rw [hn] at hr
          simp only [Option.map_some, Option.some.injEq] at hr
          subst hr
          cases hd : (D.mix m).dependency <;> cases he : (D.mix m).external <;> simp [itemName, after, hn]

example : ((dmpMixin dmpDecls dmpNames {} dmpWorld 1).bind List.head?).map (fun l => (after "id: " l, after " ('" l, decide (Tok.lit "external" ∈ l))) = some (some (.num 1), some (.name [100]), false) := by
  decide +kernel

/-- C85: the line about a rule gives its name, its priority and whether there is a function. -/
theorem C85_rule_line (r : Rule) :
    itemName "rule: '" (dmpRule D r) = some ((ruleOf D r).name.chars D.mem) ∧ after "', prio: " (dmpRule D r) = some (.num (ruleOf D r).orderPriority) ∧
    after ", apply: " (dmpRule D r) = some (.fn (ruleOf D r).apply.isSome) := by
  simp [dmpRule, itemName, after]

example : itemName "rule: '" (dmpRule dmpDecls 2) = some [2] ∧ after ", apply: " (dmpRule dmpDecls 2) = some (.fn true) := by decide +kernel

theorem readField_item (t t' : String) (x : Tok) (ls : List Line) : readField t ([.lit "  ", .lit t', x] :: ls) = if t' = t then some x else readField t ls := by
  simp [readField]

/-- C85: what is given about a mixin with `dnmx_mixin_dmp_ex`: the fields are those of its info. -/
theorem C85_mixin_fields (fl : DmpFlags) (W : World) (m : Mix) (ls : List Line) (h : dmpMixin D N fl W m = some ls) (hf : fl.mixinEx = true) :
    readField "size: " ls = some (.num (D.mix m).size) ∧ readField "alignment: " ls = some (.num (D.mix m).align) ∧ readField "init: " ls = some (.fn (D.mix m).hasInit) ∧
    readField "copy_init: " ls = some (.fn (D.mix m).hasCopyInit) ∧ readField "move_init: " ls = some (.fn (D.mix m).hasMoveInit) ∧
    readField "copy_asgn: " ls = some (.fn (D.mix m).hasCopyAsgn) ∧ readField "move_asgn: " ls = some (.fn (D.mix m).hasMoveAsgn) ∧
    readField "destroy: " ls = some (.fn (D.mix m).hasDestroy) ∧ readField "equals: " ls = some (.fn (D.mix m).hasEquals) ∧ readField "compare: " ls = some (.fn (D.mix m).hasCompare) ∧
    readField "order_priority: " ls = some (.num (D.mix m).orderPriority) ∧ readField "force_external: " ls = some (.flag (D.mix m).forceExternal) := by
  unfold dmpMixin at h
  cases hr : dmpMixinReg N W m with
  | none => rw [hr] at h; simp at h
  | some reg =>
    rw [hr] at h
    simp only [Option.bind_eq_bind, Option.bind_some, Option.some.injEq] at h
    subst h
    have hh : ∀ t rest, readField t (((if (D.mix m).dependency then [Tok.lit "dep-"] else []) ++ Tok.lit "mixin: '" :: Tok.name (D.mixName m) :: Tok.lit "', " :: (reg ++
        [Tok.lit ", ", Tok.lit (if (D.mix m).external then "external" else "internal"), Tok.lit ", ", Tok.num (D.mix m).feats.length, Tok.lit " features"])) :: rest) = readField t rest := by
      intro t rest
      cases (D.mix m).dependency <;> simp [readField]
    simp only [hh, dmpMixinEx, if_pos hf, nind, List.cons_append, readField_item, String.reduceEq, reduceIte]
    simp only [and_self]

/-- C85: the flags are those of dbg_dmp.hpp 15-37. -/
theorem C85_flags (b : Nat) :
    ((DmpFlags.ofBits b).features = true ↔ b &&& 0x1 ≠ 0) ∧ ((DmpFlags.ofBits b).mixins = true ↔ b &&& 0x2 ≠ 0) ∧ ((DmpFlags.ofBits b).rules = true ↔ b &&& 0x4 ≠ 0) ∧
    ((DmpFlags.ofBits b).classes = true ↔ b &&& 0x8 ≠ 0) ∧ ((DmpFlags.ofBits b).types = true ↔ b &&& 0x10 ≠ 0) ∧ ((DmpFlags.ofBits b).queries = true ↔ b &&& 0x20 ≠ 0) ∧
    ((DmpFlags.ofBits b).settings = true ↔ b &&& 0x40 ≠ 0) ∧ ((DmpFlags.ofBits b).mixinEx = true ↔ b &&& 0x100 ≠ 0) ∧ ((DmpFlags.ofBits b).mixinFeats = true ↔ b &&& 0x200 ≠ 0) ∧
    ((DmpFlags.ofBits b).typeEx = true ↔ b &&& 0x1000 ≠ 0) ∧ ((DmpFlags.ofBits b).ftable = true ↔ b &&& 0x2000 ≠ 0) ∧ ((DmpFlags.ofBits b).fullFtable = true ↔ b &&& 0x4000 ≠ 0) ∧
    ((DmpFlags.ofBits b).matchingClasses = true ↔ b &&& 0x8000 ≠ 0) ∧ ((DmpFlags.ofBits b).matchingQueries = true ↔ b &&& 0x10000 ≠ 0) ∧
    ((DmpFlags.ofBits b).matchingTypes = true ↔ b &&& 0x100000 ≠ 0) := by
  have key : ∀ k, b.testBit k = true ↔ b &&& 2 ^ k ≠ 0 := by
    intro k
    constructor
    · intro h hz
      have := congrArg (fun n => n.testBit k) hz
      simp [Nat.testBit_and, Nat.testBit_two_pow_self, h] at this
    · intro h
      cases hb : b.testBit k with
      | true => rfl
      | false =>
        refine absurd (Nat.eq_of_testBit_eq fun i => ?_) h
        rw [Nat.testBit_and, Nat.testBit_two_pow, Nat.zero_testBit]
        by_cases hi : k = i
        · subst hi; simp [hb]
        · simp [hi]
  exact ⟨key 0, key 1, key 2, key 3, key 4, key 5, key 6, key 8, key 9, key 12, key 13, key 14, key 15, key 16, key 20⟩

example : (DmpFlags.ofBits 0x8000).matchingClasses = true ∧ (DmpFlags.ofBits 0x8000).matchingQueries = false := by decide +kernel

/-- C85: for a type alone each of the two flags is enough to get what it asks for, as for the types of its domain. -/
theorem C85_type_alone (fl : DmpFlags) (W : World) (t : TypeRec) (h : fl.matchingClasses = true ∨ fl.matchingQueries = true) :
    dmpTypeAlone D N num fl W t = dmpType D N num fl W t (some t.dom) := by
  unfold dmpTypeAlone
  have : (fl.matchingClasses || fl.matchingQueries) = true := by simpa using h
  rw [if_pos this]

example : ((typesOf dmpWorld 0).head?.bind (dmpTypeAlone dmpDecls dmpNames (fun t => t) (.ofBits 0x10000) dmpWorld)).map (fun b => (b.filterMap classLine, b.filterMap queryLine)) =
    some ([], [[[1], [2], [3]]]) := by decide +kernel

/-- C85: without these flags nothing is said about queries and classes, and with no flags there is only one line. -/
theorem C85_type_minimum (W : World) (t : TypeRec) : (dmpTypeAlone D N num (.ofBits 0) W t).isSome = (N t.dom).isSome ∧
    ∀ ls, dmpTypeAlone D N num (.ofBits 0) W t = some ls → ls.length = 1 ∧ ls.head?.bind typeComp = some (t.mixins.map D.mixName) := by
  have hz : DmpFlags.ofBits 0 = ⟨false, false, false, false, false, false, false, false, false, false, false, false, false, false, false⟩ := by decide +kernel
  unfold dmpTypeAlone dmpType dmpFtable dmpTypeClasses dmpTypeEx dmpTypeQueries
  rw [hz]
  cases N t.dom <;> simp [dmpMixins, typeComp]

/-- C85: with a `domain_traverse`, the line about a class gives each matching type after the word "match". -/
theorem C85_matching_types_of_traverse (fl : DmpFlags) (W : World) (c : Cls) (d : DomId) (hn : (D.cls c).isNull = false) (hf : fl.matchingTypes = true) (hN : ∀ t ∈ (W.doms d).types, (N t.dom).isSome) :
    ∃ l, dmpClassIn D N num fl W c (some d) = some l ∧
      l.countP (fun x => x == .lit "match ") = (W.doms d).types.countP (fun t => (D.cls c).matchesT t.mixins) ∧
      l.filterMap (fun x => match x with | .comp m => some m | _ => none) = ((W.doms d).types.filter (fun t => (D.cls c).matchesT t.mixins)).map (fun t => t.mixins.map D.mixName) := by
  unfold dmpClassIn dmpClassTypes
  simp only
  rw [if_pos (by simp [hn, hf])]
  have hz : DmpFlags.ofBits 0 = ⟨false, false, false, false, false, false, false, false, false, false, false, false, false, false, false⟩ := by decide +kernel
  have key : ∀ ts : List TypeRec, (∀ t ∈ ts, (N t.dom).isSome) → ∃ l, dmpMatchingTypes D N num W c ts = some l ∧
      l.countP (fun x => x == .lit "match ") = ts.countP (fun t => (D.cls c).matchesT t.mixins) ∧
      l.filterMap (fun x => match x with | .comp m => some m | _ => none) = (ts.filter (fun t => (D.cls c).matchesT t.mixins)).map (fun t => t.mixins.map D.mixName) := by
    intro ts
    induction ts with
    | nil => intro _; exact ⟨[], rfl, rfl, rfl⟩
    | cons t ts ih =>
      intro hts
      obtain ⟨l, h1, h2, h3⟩ := ih (fun x hx => hts x (List.mem_cons_of_mem _ hx))
      have ht := hts t List.mem_cons_self
      obtain ⟨n, hn⟩ := Option.isSome_iff_exists.1 ht
      unfold dmpMatchingTypes dmpMatchingType
      by_cases hm : (D.cls c).matchesT t.mixins = true
      · rw [if_pos hm, h1]
        unfold dmpTypeAlone dmpType dmpFtable dmpTypeClasses dmpTypeEx dmpTypeQueries
        rw [hz, hn]
        refine ⟨_, rfl, ?_, ?_⟩
        · rw [List.countP_append, h2]
          simp [dmpMixins, List.countP_cons, hm]
          omega
        · rw [List.filterMap_append, h3]
          simp [dmpMixins, List.filter_cons, hm]
      · rw [if_neg hm, h1]
        refine ⟨_, rfl, ?_, ?_⟩
        · rw [List.countP_append, h2]; simp [List.countP_cons, hm]
        · rw [List.filterMap_append, h3]; simp [List.filter_cons, hm]
  obtain ⟨l, h1, h2, h3⟩ := key _ hN
  rw [h1]
  refine ⟨_, rfl, ?_, ?_⟩
  · rw [List.countP_append, h2]; simp [List.countP_cons]
  · rw [List.filterMap_append, h3]; simp

example : (dmpClassIn dmpDecls dmpNames (fun t => t) (.ofBits 0x100000) dmpWorld 5 (some 0)).map (fun l => (l.countP (fun x => x == .lit "match "), l.length)) = some (1, 12) := by
  decide +kernel

end Dnmx.Props
