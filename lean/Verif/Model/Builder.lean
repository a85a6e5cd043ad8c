import Verif.Model.MixinData

/-!
# Building mixin definitions

Model of `util::mixin_info_data_builder` (code/dynamix/mixin_info_data.hpp 58-233) and of the version-1 `feature_parser`
(v1compat/code/dynamix/v1compat/define_mixin.hpp 100-149), which is built on it.

Simplifications: payloads are addresses; the storage of names, payloads and rules (deques, whose elements do not move) is not
modelled; `user_data` is left out (the library does not use it).
-/

namespace Dnmx

/-- The bytes of a literal. -/
def bytesOf (s : String) : List UInt8 := s.toList.map (fun c => UInt8.ofNat c.toNat)

/-- `std::to_string` of an unsigned number. -/
def decimal (n : Nat) : List UInt8 :=
  if n < 10 then [UInt8.ofNat (48 + n)] else decimal (n / 10) ++ [UInt8.ofNat (48 + n % 10)]
termination_by n

/-- `builder_perks` (mixin_info_data_literals.hpp 9-19). -/
structure Perks where
  bid : Option Int := none
  priority : Option Int := none
deriving DecidableEq, Repr

/-- `builder_perks::operator-` (mixin_info_data_literals.hpp 12-18). -/
def Perks.neg (p : Perks) : Perks := ⟨p.bid.map (- ·), p.priority.map (- ·)⟩

/-- The common rules (common_mutation_rules.hpp 29-51). -/
inductive CommonRule
  | attachesTo (primary : Mix)
  | alsoAdds (dependent : Mix)
deriving DecidableEq, Repr

/-- `name` (common_mutation_rules.hpp 31, 43). -/
def CommonRule.name : CommonRule → List UInt8
  | .attachesTo _ => bytesOf "attaches_to"
  | .alsoAdds _ => bytesOf "also_adds"

/-- What the function of a rule does. -/
inductive RuleBody
  /-- function number `k` of the user -/
  | user (k : Nat)
  /-- `apply_basic_mixin_dep<primary, dependent>` (common_mutation_rules.hpp 14-21) -/
  | dep (primary dependent : Mix)
deriving DecidableEq, Repr

/-- `get_rule_for` (common_mutation_rules.hpp 33-38, 45-50) for the mixin `m`: the function and `makes_dependency`. -/
def CommonRule.ruleFor (m : Mix) : CommonRule → RuleBody × Bool
  | .attachesTo p => (.dep p m, true)
  | .alsoAdds x => (.dep m x, false)

/-- A rule of a mixin definition: an info of the user, or one that is stored in the definition. -/
inductive DefRule
  | given (r : Rule)
  | stored (name : List UInt8) (body : RuleBody) (priority : Int)
deriving DecidableEq, Repr

/-- The part of `mixin_info_data` that the builder fills in (mixin_info_data.hpp 25-54). -/
structure MixinDef where
  name : List UInt8
  hasAllocator : Bool := false
  dependency : Bool := false
  feats : List FeatFor := []
  rules : List DefRule := []
deriving DecidableEq, Repr

/-- Functions of the builder. -/
inductive BuildOp
  /-- `name`, `store_name` (mixin_info_data.hpp 84-93) -/
  | name (n : List UInt8)
  /-- `uses_allocator` (mixin_info_data.hpp 96-109) -/
  | usesAllocator
  /-- `dependency` (mixin_info_data.hpp 118-121) -/
  | dependency (b : Bool)
  /-- `implements_with_payload` (mixin_info_data.hpp 124-131), to which the other `implements` functions lead (133-173) -/
  | implements (f : Feat) (payload : Nat) (a b : Perks)
  /-- `adds_mutation_rule(info)` (mixin_info_data.hpp 178-182) -/
  | rule (r : Rule)
  /-- `adds_mutation_rule(name, apply, ...)` (mixin_info_data.hpp 184-189) -/
  | namedRule (n : List UInt8) (k : Nat) (p : Perks)
  /-- `adds_mutation_rule(apply, ...)` (mixin_info_data.hpp 191-197) -/
  | unnamedRule (k : Nat) (p : Perks)
  /-- `on_mutation` (mixin_info_data.hpp 201-228) -/
  | onMutation (c : CommonRule) (p : Perks)

/-- The generated name of a rule (mixin_info_data.hpp 193-195) of a definition that has `i` rules. -/
def unnamedName (mixin : List UInt8) (i : Nat) : List UInt8 := mixin ++ bytesOf " rule " ++ decimal i

/-- The generated name of a common rule (mixin_info_data.hpp 208-217). -/
def commonName (mixin : List UInt8) (c : CommonRule) (i : Nat) : List UInt8 :=
  mixin ++ bytesOf " " ++ c.name ++ bytesOf "<" ++ decimal i ++ bytesOf ">"

/-- One call, in the definition of the mixin `m`. -/
def buildStep (m : Mix) (x : MixinDef) : BuildOp → MixinDef
  | .name n => { x with name := n }
  | .usesAllocator => { x with hasAllocator := true }
  | .dependency b => { x with dependency := b }
  | .implements f payload a b =>
    { x with feats := x.feats ++ [⟨f, payload, a.bid.getD (b.bid.getD 0), a.priority.getD (b.priority.getD 0)⟩] }
  | .rule r => { x with rules := x.rules ++ [.given r], dependency := true }
  | .namedRule n k p => { x with rules := x.rules ++ [.stored n (.user k) (p.priority.getD 0)], dependency := true }
  | .unnamedRule k p =>
    { x with rules := x.rules ++ [.stored (unnamedName x.name x.rules.length) (.user k) (p.priority.getD 0)], dependency := true }
  | .onMutation c p =>
    { x with rules := x.rules ++ [.stored (commonName x.name c x.rules.length) (c.ruleFor m).1 (p.priority.getD 0)],
             dependency := if (c.ruleFor m).2 then true else x.dependency }

/-- A definition: the builder is made with a name (mixin_info_data.hpp 62-70), then its functions are called. -/
def buildDef (m : Mix) (name : List UInt8) (ops : List BuildOp) : MixinDef := ops.foldl (buildStep m) { name := name }

/-- What the compiler knows about the type of a mixin (`std::is_…`). -/
structure Traits where
  triviallyConstructible : Bool
  defaultConstructible : Bool
  triviallyCopyConstructible : Bool
  copyConstructible : Bool
  triviallyCopyAssignable : Bool
  copyAssignable : Bool
  triviallyMoveConstructible : Bool
  nothrowMoveConstructible : Bool
  triviallyMoveAssignable : Bool
  nothrowMoveAssignable : Bool
  triviallyDestructible : Bool

/-- The functions of a mixin info. -/
structure MixinFuncs where
  hasInit : Bool := false
  hasCopyInit : Bool := false
  hasMoveInit : Bool := false
  hasCopyAsgn : Bool := false
  hasMoveAsgn : Bool := false
  hasDestroy : Bool := false
  hasEquals : Bool := false
  hasCompare : Bool := false
deriving DecidableEq, Repr

/-- `common_init_mixin_info` (mixin_info_util.hpp 57-89); `none`: for `void`. -/
def commonInit : Option Traits → MixinFuncs
  | none => { hasInit := true, hasCopyInit := true, hasCopyAsgn := true, hasMoveInit := true, hasMoveAsgn := true, hasCompare := true }
  | some t => {
      hasInit := if t.triviallyConstructible then true else t.defaultConstructible
      hasCopyInit := if t.triviallyCopyConstructible then true else t.copyConstructible
      hasCopyAsgn := if t.triviallyCopyAssignable then true else t.copyAssignable
      hasMoveInit := if t.triviallyMoveConstructible then true else t.nothrowMoveConstructible
      hasMoveAsgn := if t.triviallyMoveAssignable then true else t.nothrowMoveAssignable
      hasDestroy := !t.triviallyDestructible }

/-- What may follow a definition of version 1 (define_mixin.hpp 113-148). -/
inductive V1Feature
  /-- a message -/
  | message (f : Feat) (payload : Nat)
  | none
  | userData
  /-- `bind` -/
  | bound (f : Feat) (payload : Nat)
  | mixinName (n : List UInt8)
  | dependencyMixin (b : Bool)
  /-- `bid(…, priority(…, msg))` -/
  | perks (f : Feat) (payload : Nat) (bid priority : Int)

/-- What `operator&` calls (define_mixin.hpp 113-148). -/
def V1Feature.ops : V1Feature → List BuildOp
  | .message f pl => [.implements f pl {} {}]
  | .none => []
  | .userData => []
  | .bound f pl => [.implements f pl {} {}]
  | .mixinName n => [.name n]
  | .dependencyMixin b => [.dependency b]
  | .perks f pl b p => [.implements f pl ⟨some b, some p⟩ {}]

/-- A definition of version 1 (define_mixin.hpp 104-111); `typeName`: from `typeid`. -/
def buildV1 (m : Mix) (typeName : List UInt8) (fs : List V1Feature) : MixinDef :=
  buildDef m typeName (.name typeName :: fs.flatMap V1Feature.ops)

end Dnmx
