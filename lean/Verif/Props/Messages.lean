import Verif.Proofs.MessageText
import Verif.Props.Registry

/-!
# C81: exceptions name their cause

Operations on domains that end with an exception give a text with the domain, the mixins, features, rules or type classes which are the cause
(`Verif.Spec.Messages` has all texts with their reasons).
-/

namespace Dnmx.Props
open Spec

/-! ## Examples -/

/-- Rule 82 fails for types with mixin 69, rule 84 adds one more mixin 65 each time. -/
def msgRule (r : Rule) : Option (ElemView → List Mix → Except Err (List Mix)) :=
  if r = 82 then some fun _ ms => if ms.contains 69 then .error .ruleUserError else .ok ms
  else if r = 84 then some fun _ ms => .ok (ms ++ [65])
  else none

/-- Names are letters: mixin, feature, rule or class 65 is called A. Mixins 66 and 67 both provide feature 70, which allows no clashes. Mixin 71 has
two features with the name F. -/
def msgDecls : Decls where
  mem := fun a => UInt8.ofNat a
  canonName := ⟨90, 91⟩
  mix := fun m => { name := ⟨m, m + 1⟩, feats := if m = 66 then [⟨70, 1, 0, 0⟩] else if m = 67 then [⟨71, 2, 0, 0⟩, ⟨70, 3, 0, 0⟩]
    else if m = 71 then [⟨70, 4, 1, 0⟩, ⟨1070, 5, 0, 0⟩] else [] }
  feat := fun f => { name := ⟨f % 1000, f % 1000 + 1⟩, allowClashes := f = 71 }
  userRule := fun r => { name := ⟨r, r + 1⟩, apply := msgRule r }
  cls := fun c => { name := ⟨c, c + 1⟩, matchesT := fun _ => true }

/-- Failing rules leave the mutation as it is and return 5. -/
def msgFails : RuleFails := ⟨fun _ ms => ms, fun _ _ => 5, fun _ _ => [.lit "own"]⟩

/-- Domain 1 is called B, the others have no name. -/
def msgNames (d : DomId) : Option (List UInt8) := some (if d = 1 then [66] else [])

def msgWorld : World := run msgDecls (initWorld fun _ => {}) [.regMixin 0 65, .regMixin 0 66, .regMixin 0 67, .regMixin 1 68, .regMixin 0 69, .addRule 0 82]

/-- The text of the exception of a call in the example. -/
def msgText (W : World) (op : Op) : Option (List UInt8) := (opThrows msgDecls msgFails W op).bind (fun t => textChars msgDecls msgNames t.text)

/-! ## C81 -/

/-- C81: an operation ends with an exception exactly if there is a text for it, and the kinds agree. -/
theorem C81_thrown (D : Decls) (X : RuleFails) (W : World) (op : Op) : (opThrows D X W op).map (·.err) = exceptionOf (step D W op).1 :=
  opThrows_err W op

/-- C81: in all histories, what an exception says is so: the element that could not be registered has an id, no name, or the name of a registered one (and
for a mixin, its own or one of its features); the element that could not be unregistered is not in the domain; the rule that failed is in force, and failed for
what the rules before it made of the query; the mixins that the rules lead to really change again; the mixin in the type is unregistered, of the domain
named, or twice in the composition; the mixins that clash are in the composition and provide the feature with equal bid and priority. -/
theorem C81_true (D : Decls) (X : RuleFails) (s : DomId → Settings) (ops : List Op) (op : Op) (t : Thrown)
    (h : opThrows D X (run D (initWorld s) ops) op = some t) : Says D X (run D (initWorld s) ops) op t :=
  opThrows_says (reachable_reg D s ops) h

example : msgText msgWorld (.regMixin 0 66) = some (ascii "unnamed domain: register mixin 'B' with a valid id 1") := by decide +kernel
example : msgText msgWorld (.regMixin 0 71) = some (ascii "unnamed domain: register feature with duplicate name 'F'") := by decide +kernel
example : msgText msgWorld (.regMixin 0 68) = some (ascii "unnamed domain: register mixin 'D' which has a domain = B") := by decide +kernel
example : msgText msgWorld (.unregMixin 0 70) = some (ascii "unnamed domain: unregister foreign feature 'F', id = 4294967295, domain = <null>") := by
  decide +kernel
example : msgText msgWorld (.getType 0 [65, 70]) = some (ascii "unnamed domain: creating type {'A', 'F'}: 'F' unregistered") := by decide +kernel
example : msgText msgWorld (.getType 0 [65, 68]) = some (ascii "unnamed domain: foreign mixin 'D' from 'B' while trying to create type {'A', 'D'}") := by
  decide +kernel
example : msgText msgWorld (.getType 1 [68, 68]) = some (ascii "B: creating type {'D', 'D'}: 'D' duplicate") := by decide +kernel
example : msgText msgWorld (.getType 0 [66, 65, 67]) = some (ascii "unnamed domain: feature clash in {'B', 'A', 'C'} on 'F' between 'C' and 'B'") := by
  decide +kernel
example : msgText msgWorld (.getType 0 [65, 69]) = some (ascii "unnamed domain: applying mutation rule 'R' to {'A', 'E'} failed with error 5") := by
  decide +kernel
example : msgText (step msgDecls msgWorld (.addRule 0 84)).2 (.getType 0 [66]) =
    some (ascii "unnamed domain: rule interdependency too deep or cyclic at {'B', 'A', 'A', 'A'}") := by decide +kernel
example : msgText msgWorld (.getTypeMut 0 1 [68]) = some (ascii "unnamed domain: requested type with foreign mutation {'D'} of domain 'B'") := by decide +kernel
example : msgText msgWorld (.addRule 0 85) = some (ascii "unnamed domain: register mutation rule 'U' with apply function = null") := by decide +kernel

/-- C81: operations on elements and rules throw only `domain_error`; queries throw `domain_error` only for mutations and mixins of other domains (if rules do
not throw it), and `type_error` otherwise. -/
theorem C81_classes (D : Decls) (X : RuleFails) (s : DomId → Settings) (ops : List Op) (op : Op) (t : Thrown)
    (h : opThrows D X (run D (initWorld s) ops) op = some t) (hX : ∀ v r ms e, ruleFn D v r ms = .error e → e.exClass = .typeError ∨ e = .ub) :
    match op with
    | .getType _ _ | .getTypeMut _ _ _ => t.err.exClass = .domainError ↔ t.err = .foreignMutation ∨ t.err = .foreignMixin
    | _ => t.err.exClass = .domainError := by
  have key : ∀ d q, SaysType D X (run D (initWorld s) ops) d q t → (t.err.exClass = .domainError ↔ t.err = .foreignMutation ∨ t.err = .foreignMixin) := by
    intro d q hs
    cases hs with
    | ruleThrows n ms₀ ms pre post r f e h1 h2 h3 h4 h5 h6 h7 =>
      have hm : (r, f) ∈ ruleFns D (run D (initWorld s) ops) d := by rw [h3]; simp
      obtain ⟨x, -, ex⟩ := List.mem_map.1 hm
      simp at ex
      rw [← ex.2] at h5
      rcases hX _ _ _ _ h5 with g | g
      · simp only [g]
        constructor
        · intro g'; simp at g'
        · rintro (rfl | rfl) <;> simp [Err.exClass] at g
      · exact absurd g h7
    | _ => simp [Err.exClass]
  have hs := C81_true D X s ops op t h
  cases hs with
  | regFeature d f _ h => cases h <;> rfl
  | regMixin d m _ h =>
    cases h with
    | feature pre post ff _ h1 h2 h3 => cases h3 <;> rfl
    | _ => rfl
  | foreign d _ _ h => cases h <;> rfl
  | other d _ _ h => cases h <;> rfl
  | foreignMutation d md q h => simp [Err.exClass]
  | getTypeMut d q _ h => exact key d q h
  | getType d q _ h => exact key d q h

/-- The rules of the example throw only `type_error`. -/
example : ∀ v r ms e, ruleFn msgDecls v r ms = .error e → e.exClass = .typeError ∨ e = .ub := by
  intro v r ms e
  unfold ruleFn ruleOf
  by_cases h0 : r = 0
  · simp [h0, sortByCanonicalOrder]
  · simp only [h0, if_false]
    show (match msgRule r with | some f => f _ | none => fun _ => .error .ub) ms = _ → _
    unfold msgRule
    by_cases h1 : r = 82
    · simp only [h1, if_true]; split
      · intro h; simp at h; subst h; exact .inl rfl
      · simp
    · by_cases h2 : r = 84
      · simp [h1, h2]
      · intro h; simp [h1, h2] at h; exact .inr h.symm

/-- C81: if different features have different ids, then a clash in the text is a clash: of the feature named, which allows none, between the mixins named. -/
theorem C81_clash (D : Decls) (X : RuleFails) (s : DomId → Settings) (ops : List Op) (d : DomId) (q : List Mix) (t : Thrown)
    (hid : ∀ f g i, (run D (initWorld s) ops).featId f = some i → (run D (initWorld s) ops).featId g = some i → f = g)
    (h : opThrows D X (run D (initWorld s) ops) (.getType d q) = some t) (he : t.err = .featureClash) (hX : ∀ r ms, ruleFn D ((run D (initWorld s) ops).view D d) r ms ≠ .error .featureClash) :
    ∃ (ms : List Mix) (f : Feat) (i j : Nat) (a b : Mix),
      t.text = from_ d ++ [.lit "feature clash in ", .comp ms, .lit " on ", .feat f, .lit " between ", .mixAt ms i, .lit " and ", .mixAt ms j] ∧
      ms[i]? = some a ∧ ms[j]? = some b ∧ (D.feat f).allowClashes = false ∧
      ∃ (k l : Nat) (x y : FeatFor), k ≠ l ∧ (allImpls D ms f)[k]? = some (i, x) ∧ (allImpls D ms f)[l]? = some (j, y) ∧ x ∈ (D.mix a).feats ∧
        y ∈ (D.mix b).feats ∧ x.bid = y.bid ∧ x.priority = y.priority := by
  cases C81_true D X s ops _ t h with
  | foreign _ _ _ hf => cases hf
  | other _ _ _ ho => cases ho
  | getType _ _ _ hs =>
    cases hs with
    | clash n ms k l a b g h1 h2 h3 h4 h5 h6 h7 h8 h9 h10 h11 h12 =>
      obtain ⟨i, hi⟩ := Option.ne_none_iff_exists'.1 h6
      have e1 : a.2.feat = b.2.feat := hid _ _ i hi (by rw [← h7]; exact hi)
      have e2 : a.2.feat = g := hid _ _ i hi (by rw [← h8]; exact hi)
      rcases a with ⟨ia, a⟩
      rcases b with ⟨ib, b⟩
      obtain ⟨ma, ga1, ga2⟩ := provided_at h4
      obtain ⟨mb, gb1, gb2⟩ := provided_at h5
      obtain ⟨k', l', p1, p2, p3⟩ := provided_pair (f := a.feat) h3 h4 h5 rfl e1.symm
      exact ⟨ms, a.feat, ia, ib, ma, mb, rfl, ga1, gb1, by rw [e2]; exact h9, k', l', a, b, p1, p2, p3, ga2, gb2, h10, h11⟩
    | ruleThrows n ms₀ ms pre post r f e h1 h2 h3 h4 h5 h6 h7 =>
      simp only at he
      subst he
      have : (r, f) ∈ ruleFns D (run D (initWorld s) ops) d := by rw [h3]; simp
      obtain ⟨x, -, ex⟩ := List.mem_map.1 this
      simp at ex
      rw [← ex.2] at h5
      exact absurd h5 (hX x.1 ms)
    | _ => simp at he

/-- In the example different features have different ids, and rules report no clashes. -/
example : (∀ f g i, msgWorld.featId f = some i → msgWorld.featId g = some i → f = g) ∧
    (∀ r ms, ruleFn msgDecls (msgWorld.view msgDecls 0) r ms ≠ .error .featureClash) := by
  have e : msgWorld.featId = upd (upd (fun _ => none) 70 (some 0)) 71 (some 1) := by with_unfolding_all rfl
  refine ⟨?_, ?_⟩
  · intro f g i h1 h2
    rw [e] at h1 h2
    simp only [upd] at h1 h2
    grind
  · intro r ms
    unfold ruleFn ruleOf
    by_cases h0 : r = 0
    · simp [h0, sortByCanonicalOrder]
    · simp only [h0, if_false]
      show (match msgRule r with | some f => f _ | none => fun _ => .error .ub) ms ≠ _
      unfold msgRule
      by_cases h1 : r = 82
      · simp only [h1, if_true]; split <;> simp
      · by_cases h2 : r = 84
        · simp [h1, h2]
        · simp [h1, h2]

/-- C81: the text can be made exactly if the domains it names exist. -/
theorem C81_text_iff (D : Decls) (X : RuleFails) (s : DomId → Settings) (ops : List Op) (op : Op) (t : Thrown) (N : DomId → Option (List UInt8))
    (hX : ∀ r ms, PlacesOk (X.own r ms)) (h : opThrows D X (run D (initWorld s) ops) op = some t) :
    textChars D N t.text ≠ none ↔ ∀ x ∈ namedDomains t.text, N x ≠ none := by
  rw [textChars_iff]
  exact ⟨fun x => x.1, fun x => ⟨x, says_places hX (C81_true D X s ops op t h)⟩⟩

/-- C81 (partial: the domains of registered mixins must exist): making the text of an exception is not undefined, if the domains of the call exist and those
in which mixins are registered. -/
theorem C81_text_partial (D : Decls) (X : RuleFails) (s : DomId → Settings) (ops : List Op) (op : Op) (t : Thrown) (N : DomId → Option (List UInt8))
    (hX : ∀ r ms, PlacesOk (X.own r ms) ∧ namedDomains (X.own r ms) = []) (h : opThrows D X (run D (initWorld s) ops) op = some t)
    (hop : ∀ d ∈ domainsOf op, N d ≠ none) (hm : ∀ m d, m ∈ mixinsOf (run D (initWorld s) ops) d → N d ≠ none) : textChars D N t.text ≠ none := by
  rw [C81_text_iff D X s ops op t N (fun r ms => (hX r ms).1) h]
  intro x hx
  rcases says_named (fun r ms => (hX r ms).2) (C81_true D X s ops op t h) x hx with h1 | ⟨m, h1⟩
  · exact hop x h1
  · exact hm m x (((reachable_reg D s ops).mixDom_some m x).1 h1)

/-- The examples meet the hypotheses. -/
example : (∀ r ms, PlacesOk (msgFails.own r ms) ∧ namedDomains (msgFails.own r ms) = []) ∧ (∀ d, msgNames d ≠ none) ∧
    (opThrows msgDecls msgFails msgWorld (.getType 0 [66, 65, 67])).isSome = true := by
  refine ⟨fun r ms => ⟨?_, rfl⟩, fun d => by simp [msgNames], by decide +kernel⟩
  intro ms' i h; simp [msgFails] at h

/-- C81: if the domain of a mixin was destroyed, the exceptions of its registration in another domain, and of types with it there, read a destroyed domain. -/
theorem C81_destroyed (D : Decls) (X : RuleFails) (W : World) (d x : DomId) (m : Mix) (N : DomId → Option (List UInt8)) (hm : W.mixDom m = some x) (hx : x ≠ d)
    (hN : N x = none) : ∃ t, opThrows D X W (.regMixin d m) = some t ∧ t.err = .infoHasDomain ∧ textChars D N t.text = none := by
  have h : opThrows D X W (.regMixin d m) = some (mixinThrown d m (W.mixId m) (W.mixDom m) .infoHasDomain) := by
    simp only [opThrows, registerMixinThrows]
    rw [if_pos]
    rw [hm]
    exact ⟨by simp, by simp [hx]⟩
  refine ⟨_, h, rfl, ?_⟩
  apply Classical.byContradiction
  intro hne
  have := ((textChars_iff _).1 hne).1 x (by rw [hm]; simp [mixinThrown, namedDomains])
  exact this hN

/-- C81 (refutation): domain 1 is destroyed while mixin 68 is registered in it. Then texts of exceptions for mixin 68 in domain 0 are undefined: for its
registration, its unregistration and types with it. -/
theorem C81_destroyed_refuted : ∃ (N : DomId → Option (List UInt8)), N 0 ≠ none ∧
    ∀ op ∈ [Op.regMixin 0 68, .unregMixin 0 68, .getType 0 [65, 68]],
      (opThrows msgDecls msgFails msgWorld op).isSome = true ∧ (opThrows msgDecls msgFails msgWorld op).bind (fun t => textChars msgDecls N t.text) = none := by
  refine ⟨fun d => if d = 1 then none else some [], by simp, ?_⟩
  intro op hop
  simp only [List.mem_cons, List.mem_nil_iff, or_false] at hop
  rcases hop with rfl | rfl | rfl <;> decide +kernel

/-! ## Type mutations and type classes -/

/-- C81: exceptions of `type_mutation`: `to_back` names the mixin or the name exactly if it is not in the mutation, `add` by name names the name exactly if no
registered mixin has it, `add_if_lacking` only if no mixin of the mutation has it, either. -/
theorem C81_type_mutation (D : Decls) (W : World) (d : DomId) (ms : List Mix) (m : Mix) (name : List UInt8) :
    (∀ t, tmToBackThrows d ms m = some t ↔ m ∉ ms ∧
      t = ⟨.missingMixin, from_ d ++ [.lit "creating type ", .comp ms, .lit ": ", .mix m, .lit " ", .lit "to_back on missing mixin"]⟩) ∧
    (∀ t, tmToBackNameThrows D d ms name = some t ↔ (∀ x ∈ ms, D.mixName x ≠ name) ∧
      t = ⟨.missingMixin, from_ d ++ [.lit "creating type ", .comp ms, .lit ": unknown mixin '", .raw name, .lit "' in ", .lit "to_back"]⟩) ∧
    (∀ t, tmAddNameThrows (W.view D d) d ms name = some t ↔ (∀ x ∈ mixinsOf W d, D.mixName x ≠ name) ∧
      t = ⟨.missingMixin, from_ d ++ [.lit "creating type ", .comp ms, .lit ": unknown mixin '", .raw name, .lit "' in ", .lit "add"]⟩) ∧
    (∀ t, tmAddIfLackingNameThrows D (W.view D d) d ms name = some t ↔ (∀ x ∈ ms, D.mixName x ≠ name) ∧ (∀ x ∈ mixinsOf W d, D.mixName x ≠ name) ∧
      t = ⟨.missingMixin, from_ d ++ [.lit "creating type ", .comp ms, .lit ": unknown mixin '", .raw name, .lit "' in ", .lit "add"]⟩) := by
  have hb : (W.view D d).byName name = none ↔ ∀ x ∈ mixinsOf W d, D.mixName x ≠ name := getByName_absent D.mixName name (W.doms d).mixins
  have hadd : ∀ t, tmAddNameThrows (W.view D d) d ms name = some t ↔ (∀ x ∈ mixinsOf W d, D.mixName x ≠ name) ∧
      t = ⟨.missingMixin, from_ d ++ [.lit "creating type ", .comp ms, .lit ": unknown mixin '", .raw name, .lit "' in ", .lit "add"]⟩ := by
    intro t
    rw [← hb]
    unfold tmAddNameThrows tmSafeAddName
    cases (W.view D d).byName name with
    | none => simp [typeMutNameThrown, from_, eq_comm]
    | some x => simp
  refine ⟨?_, ?_, hadd, ?_⟩
  · intro t
    unfold tmToBackThrows tmHas
    by_cases h : m ∈ ms
    · simp [h]
    · simp only [h, List.any_eq_true, beq_iff_eq, exists_eq_right, if_false, Option.some.injEq, not_false_eq_true, true_and]
      exact ⟨fun h => h.symm, fun h => h.symm⟩
  · intro t
    rw [← tmFindName_absent]
    unfold tmToBackNameThrows
    cases tmFindName D name ms with
    | none => simp [typeMutNameThrown, from_, eq_comm]
    | some x => simp
  · intro t
    rw [← hadd t, ← tmFindName_absent]
    unfold tmAddIfLackingNameThrows
    cases tmFindName D name ms with
    | none => simp
    | some x => simp

/-- C81: and they are thrown exactly if these functions fail. -/
theorem C81_type_mutation_thrown (D : Decls) (v : ElemView) (d : DomId) (ms : List Mix) (m : Mix) (name : List UInt8) :
    (tmToBackThrows d ms m).map (·.err) = exceptionOf (tmToBack ms m) ∧ (tmToBackNameThrows D d ms name).map (·.err) = exceptionOf (tmToBackName D ms name) ∧
    (tmAddNameThrows v d ms name).map (·.err) = exceptionOf (tmAddName v ms name) ∧
    (tmAddIfLackingNameThrows D v d ms name).map (·.err) = exceptionOf (tmAddIfLackingName D v ms name) := by
  have ha : (tmAddNameThrows v d ms name).map (·.err) = exceptionOf (tmAddName v ms name) := by
    unfold tmAddNameThrows tmAddName tmSafeAddName
    cases v.byName name <;> simp [exceptionOf, typeMutNameThrown]
  refine ⟨?_, ?_, ha, ?_⟩
  · unfold tmToBackThrows tmToBack; split <;> simp [exceptionOf, typeMutThrown]
  · unfold tmToBackNameThrows tmToBackName; cases tmFindName D name ms <;> simp [exceptionOf, typeMutNameThrown]
  · unfold tmAddIfLackingNameThrows tmAddIfLackingName
    cases tmFindName D name ms with
    | some x => simp [exceptionOf]
    | none => exact ha

example : (tmAddNameThrows (msgWorld.view msgDecls 0) 0 [65] [70]).bind (fun t => textChars msgDecls msgNames t.text) =
    some (ascii "unnamed domain: creating type {'A'}: unknown mixin 'F' in add") := by decide +kernel

/-- C81: `is_of` with a name throws exactly if no type class of the domain has the name, and names it. -/
theorem C81_is_of (D : Decls) (W : World) (t : TypeRec) (name : List UInt8) :
    (typeIsOfThrows D W t name).map (·.err) = exceptionOf (typeIsOf D W t name) ∧
    ∀ x, typeIsOfThrows D W t name = some x ↔ (∀ c ∈ classesOf W t.dom, D.clsName c ≠ name) ∧
      x = ⟨.unknownTypeClass, from_ t.dom ++ [.lit "type ", .comp t.mixins, .lit ": unknown type class '", .raw name, .lit "'"]⟩ := by
  have hb : getTypeClass D W t.dom name = none ↔ ∀ c ∈ classesOf W t.dom, D.clsName c ≠ name := getByName_absent D.clsName name (W.doms t.dom).classes
  rw [← hb]
  unfold typeIsOfThrows typeIsOf
  cases getTypeClass D W t.dom name with
  | none => simp [exceptionOf, from_, eq_comm]
  | some c => simp [exceptionOf]

/-- C81: a composition in a text has the quoted names of its mixins in their order, with commas between them, in braces. -/
theorem C81_composition (D : Decls) (N : DomId → Option (List UInt8)) (ms : List Mix) :
    Piece.chars D N (.comp ms) = some (ascii "{" ++ ((ms.map (fun m => ascii "'" ++ D.mixName m ++ ascii "'")).intersperse (ascii ", ")).flatten ++ ascii "}") := by
  cases ms with
  | nil => rfl
  | cons m ms =>
    simp only [Piece.chars, outputMixins, mixinsTail_exact, List.map_cons, Option.some.injEq, List.append_assoc]
    congr 1
    induction ms generalizing m with
    | nil => simp [quoted]
    | cons m' ms ih =>
      simp only [List.flatMap_cons, List.map_cons, List.intersperse_cons_cons, List.flatten_cons, List.append_assoc]
      rw [ih m']
      simp [quoted]

/-- C81: if the names of the mixins have no quotes, then the names can be read from the text. -/
theorem C81_composition_read (D : Decls) (N : DomId → Option (List UInt8)) (ms ms' : List Mix) (hq : ∀ m, m ∈ ms ++ ms' → (39 : UInt8) ∉ D.mixName m) :
    Piece.chars D N (.comp ms) = Piece.chars D N (.comp ms') ↔ ms.map D.mixName = ms'.map D.mixName := by
  constructor
  · intro he
    exact outputMixins_read D ms ms' hq (by simpa [Piece.chars] using he)
  · intro he
    rw [C81_composition, C81_composition]
    have : ∀ l : List Mix, l.map (fun m => ascii "'" ++ D.mixName m ++ ascii "'") = (l.map D.mixName).map (fun n => ascii "'" ++ n ++ ascii "'") := by
      intro l; simp [List.map_map]
    rw [this, this, he]

example : ∀ m, m ∈ [65, 66] ++ [66] → (39 : UInt8) ∉ msgDecls.mixName m := by decide +kernel

end Dnmx.Props
