import Verif.Model.Messages
import Verif.Spec.Registry
import Verif.Spec.Features

/-!
# Specification: what exceptions say, and when it is true

For every kind of exception: its text, and what is the case when it is thrown.
-/

namespace Spec
open Dnmx

/-- The rules in force in a domain, as functions, in order. -/
def ruleFns (D : Decls) (W : World) (d : DomId) : List (Rule × RuleFn) :=
  (W.doms d).rules.map (fun e => (e.1, ruleFn D (W.view D d) e.1))

/-- Apply functions one after the other. -/
def inTurn (fs : List RuleFn) (ms : List Mix) : Except Err (List Mix) := fs.foldlM (fun ms f => f ms) ms

/-- What the rules make of a query if all of them are applied `n` times in order. -/
def ruled (D : Decls) (W : World) (d : DomId) (q : List Mix) (n : Nat) : Except Err (List Mix) :=
  inTurn (List.replicate n ((ruleFns D W d).map (·.2))).flatten (q.filter (fun m => !(D.mix m).dependency))

/-- What the mixins of a composition provide, with their positions. -/
def provided (D : Decls) (ms : List Mix) : List (Nat × FeatFor) :=
  ms.zipIdx.flatMap (fun (m, i) => (D.mix m).feats.map (fun ff => (i, ff)))

/-- The beginning of all texts. -/
def from_ (d : DomId) : List Piece := [.dom d, .lit ": "]

/-- A name that must be unique is used by a registered element. -/
def Taken (nameOf : Nat → List UInt8) (l : List Nat) (x : Nat) : Prop := ∃ y ∈ l, nameOf y = nameOf x

/-- Exceptions for the registration of a feature, and their reasons. -/
inductive SaysFeature (D : Decls) (W : World) (d : DomId) (f : Feat) : Thrown → Prop
  | idRegistered (i : Nat) : W.featId f = some i →
    SaysFeature D W d f ⟨.idRegistered, from_ d ++ [.lit "register feature ", .feat f, .lit " with a valid id ", .id (some i)]⟩
  | emptyName : W.featId f = none → (W.doms d).settings.allowDupFeat = false → D.featName f = [] →
    SaysFeature D W d f ⟨.emptyName, from_ d ++ [.lit "register feature with empty name"]⟩
  | duplicateName : W.featId f = none → (W.doms d).settings.allowDupFeat = false → Taken D.featName (featuresOf W d) f →
    SaysFeature D W d f ⟨.duplicateName, from_ d ++ [.lit "register feature with duplicate name ", .feat f]⟩

/-- Exceptions for the registration of a mixin, and their reasons. -/
inductive SaysMixin (D : Decls) (W : World) (d : DomId) (m : Mix) : Thrown → Prop
  | hasDomain (x : DomId) : W.mixDom m = some x → x ≠ d →
    SaysMixin D W d m ⟨.infoHasDomain, from_ d ++ [.lit "register mixin ", .mix m, .lit " which has a domain = ", .dom x]⟩
  /-- the first feature that cannot be registered, after those before it -/
  | feature (pre post : List FeatFor) (ff : FeatFor) (t : Thrown) : (D.mix m).feats = pre ++ ff :: post → W.featId ff.feat = none →
    SaysFeature D (run D W ((pre.map (·.feat)).map (Op.regFeature d))) d ff.feat t → SaysMixin D W d m t
  | idRegistered (i : Nat) : W.mixId m = some i →
    SaysMixin D W d m ⟨.idRegistered, from_ d ++ [.lit "register mixin ", .mix m, .lit " with a valid id ", .id (some i)]⟩
  | emptyName : W.mixId m = none → (W.doms d).settings.allowDupMix = false → D.mixName m = [] →
    SaysMixin D W d m ⟨.emptyName, from_ d ++ [.lit "register mixin with empty name"]⟩
  | duplicateName : W.mixId m = none → (W.doms d).settings.allowDupMix = false → Taken D.mixName (mixinsOf W d) m →
    SaysMixin D W d m ⟨.duplicateName, from_ d ++ [.lit "register mixin with duplicate name ", .mix m]⟩

/-- Exceptions of unregistrations, and their reasons. -/
inductive SaysForeign (W : World) (d : DomId) : Op → Thrown → Prop
  | feature (f : Feat) : f ∉ featuresOf W d →
    SaysForeign W d (.unregFeature d f) ⟨.unregForeign, from_ d ++ [.lit "unregister foreign feature ", .feat f, .lit ", id = ", .id (W.featId f)]⟩
  | elsewhere (m : Mix) (x : DomId) : W.mixDom m = some x → m ∉ mixinsOf W d → SaysForeign W d (.unregMixin d m)
      ⟨.unregForeign, from_ d ++ [.lit "unregister foreign feature ", .mix m, .lit ", id = ", .id (W.mixId m), .lit ", domain = ", .dom x]⟩
  | nowhere (m : Mix) : W.mixDom m = none → m ∉ mixinsOf W d → SaysForeign W d (.unregMixin d m)
      ⟨.unregForeign, from_ d ++ [.lit "unregister foreign feature ", .mix m, .lit ", id = ", .id (W.mixId m), .lit ", domain = ", .lit "<null>"]⟩

/-- Exceptions for the registration of a type class or a rule, and their reasons. -/
inductive SaysOther (D : Decls) (W : World) (d : DomId) : Op → Thrown → Prop
  | emptyName (c : Cls) : D.clsName c = [] → SaysOther D W d (.regClass d c) ⟨.emptyName, from_ d ++ [.lit "register type class with empty name"]⟩
  | noMatches (c : Cls) : (D.cls c).isNull = true →
    SaysOther D W d (.regClass d c) ⟨.noFunc, from_ d ++ [.lit "register type class ", .cls c, .lit " with match function = null"]⟩
  | duplicateName (c : Cls) : Taken D.clsName (classesOf W d) c →
    SaysOther D W d (.regClass d c) ⟨.duplicateName, from_ d ++ [.lit "register type class with duplicate name ", .cls c]⟩
  | noApply (r : Rule) : (ruleOf D r).apply = none →
    SaysOther D W d (.addRule d r) ⟨.noFunc, from_ d ++ [.lit "register mutation rule ", .rule r, .lit " with apply function = null"]⟩

/-- Exceptions for queries, and their reasons. -/
inductive SaysType (D : Decls) (X : RuleFails) (W : World) (d : DomId) (q : List Mix) : Thrown → Prop
  /-- the first rule that fails, at what the rules before it made of the query -/
  | rule (n : Nat) (ms₀ ms : List Mix) (pre post : List (Rule × RuleFn)) (r : Rule) (f : RuleFn) : n ≤ 5 → ruled D W d q n = .ok ms₀ →
    ruleFns D W d = pre ++ (r, f) :: post → inTurn (pre.map (·.2)) ms₀ = .ok ms → f ms = .error .ruleUserError →
    SaysType D X W d q ⟨.ruleUserError, from_ d ++ [.lit "applying mutation rule ", .rule r, .lit " to ", .comp (X.left r ms),
      .lit " failed with error ", .code (X.code r ms)]⟩
  | ruleThrows (n : Nat) (ms₀ ms : List Mix) (pre post : List (Rule × RuleFn)) (r : Rule) (f : RuleFn) (e : Err) : n ≤ 5 → ruled D W d q n = .ok ms₀ →
    ruleFns D W d = pre ++ (r, f) :: post → inTurn (pre.map (·.2)) ms₀ = .ok ms → f ms = .error e → e ≠ .ruleUserError → e ≠ .ub →
    SaysType D X W d q ⟨e, X.own r ms⟩
  /-- the mixins still change when the rules are applied once more -/
  | cyclic (n : Nat) (ms₀ ms : List Mix) : n = min 5 (ruleFns D W d).length → (if n = 0 then ms₀ = q else ruled D W d q n = .ok ms₀) →
    ruled D W d q (n + 1) = .ok ms → ms₀ ≠ ms →
    SaysType D X W d q ⟨.cyclicRuleDeps, from_ d ++ [.lit "rule interdependency too deep or cyclic at ", .comp ms]⟩
  | unregistered (n : Nat) (ms : List Mix) (m : Mix) : ruled D W d q n = .ok ms → m ∈ ms → W.mixId m = none →
    SaysType D X W d q ⟨.unregistered, from_ d ++ [.lit "creating type ", .comp ms, .lit ": ", .mix m, .lit " ", .lit "unregistered"]⟩
  | foreignMixin (n : Nat) (ms : List Mix) (m : Mix) (x : DomId) : ruled D W d q n = .ok ms → m ∈ ms → W.mixDom m = some x → x ≠ d →
    SaysType D X W d q ⟨.foreignMixin, from_ d ++ [.lit "foreign mixin ", .mix m, .lit " from ", .lit "'", .dom x, .lit "'",
      .lit " while trying to create type ", .comp ms]⟩
  | duplicate (n : Nat) (ms : List Mix) (m : Mix) (i j : Nat) : ruled D W d q n = .ok ms → i < j → ms[i]? = some m → ms[j]? = some m →
    SaysType D X W d q ⟨.duplicateMixin, from_ d ++ [.lit "creating type ", .comp ms, .lit ": ", .mix m, .lit " ", .lit "duplicate"]⟩
  /-- two implementations of a feature which does not allow clashes -/
  | clash (n : Nat) (ms : List Mix) (k l : Nat) (a b : Nat × FeatFor) (g : Feat) : ruled D W d q n = .ok ms → (∀ m ∈ ms, m ∈ mixinsOf W d) → k ≠ l →
    (provided D ms)[k]? = some a → (provided D ms)[l]? = some b → W.featId a.2.feat ≠ none → W.featId a.2.feat = W.featId b.2.feat →
    W.featId a.2.feat = W.featId g → (D.feat g).allowClashes = false → a.2.bid = b.2.bid → a.2.priority = b.2.priority → b.1 ≤ a.1 →
    SaysType D X W d q ⟨.featureClash, from_ d ++ [.lit "feature clash in ", .comp ms, .lit " on ", .feat a.2.feat, .lit " between ", .mixAt ms a.1,
      .lit " and ", .mixAt ms b.1]⟩

/-- The exception `t` is true for the call. -/
inductive Says (D : Decls) (X : RuleFails) (W : World) : Op → Thrown → Prop
  | regFeature (d : DomId) (f : Feat) (t : Thrown) : SaysFeature D W d f t → Says D X W (.regFeature d f) t
  | regMixin (d : DomId) (m : Mix) (t : Thrown) : SaysMixin D W d m t → Says D X W (.regMixin d m) t
  | foreign (d : DomId) (o : Op) (t : Thrown) : SaysForeign W d o t → Says D X W o t
  | other (d : DomId) (o : Op) (t : Thrown) : SaysOther D W d o t → Says D X W o t
  | foreignMutation (d md : DomId) (q : List Mix) : md ≠ d → Says D X W (.getTypeMut d md q)
      ⟨.foreignMutation, from_ d ++ [.lit "requested type with foreign mutation ", .comp q, .lit " of domain '", .dom md, .lit "'"]⟩
  | getTypeMut (d : DomId) (q : List Mix) (t : Thrown) : SaysType D X W d q t → Says D X W (.getTypeMut d d q) t
  | getType (d : DomId) (q : List Mix) (t : Thrown) : SaysType D X W d q t → Says D X W (.getType d q) t

/-- The error of a call, if it ends with an exception. -/
def exceptionOf {α : Type} : Except Err α → Option Err
  | .ok _ => none
  | .error e => if e = .ub then none else some e

/-- The domains of a call. -/
def domainsOf : Op → List DomId
  | .regFeature d _ | .unregFeature d _ | .regMixin d _ | .unregMixin d _ | .regClass d _ | .unregClass d _ | .addRule d _ | .removeRule d _
  | .getType d _ | .gc d _ => [d]
  | .getTypeMut d md _ => [d, md]

/-- The domains that a text names. -/
def namedDomains (ps : List Piece) : List DomId := ps.filterMap (fun p => match p with | .dom d => some d | _ => none)

/-- All mixins which a text names by position exist. -/
def PlacesOk (ps : List Piece) : Prop := ∀ ms i, Piece.mixAt ms i ∈ ps → i < ms.length

end Spec
