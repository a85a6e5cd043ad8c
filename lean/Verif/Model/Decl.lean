import Verif.Model.Sv

/-!
# Immutable attributes of infos

Infos are identified by their address. What the user fills in before registering an info and must not change
afterwards is given by a `Decls`; all theorems quantify over it.
-/

namespace Dnmx

/-- Address of a `mixin_info`. -/
macro "Mix" : term => `(Nat)
/-- Address of a `feature_info`. -/
macro "Feat" : term => `(Nat)
/-- Address of a `mutation_rule_info`. -/
macro "Rule" : term => `(Nat)
/-- Address of a `type_class`. -/
macro "Cls" : term => `(Nat)
/-- Address of a `domain`. -/
macro "DomId" : term => `(Nat)
/-- Address of a `type`. -/
macro "TypeId" : term => `(Nat)

/-- `dnmx_feature_for_mixin` (code/dnmx/feature_for_mixin.h 15-24). `payload` is the address of the payload. -/
structure FeatFor where
  feat : Feat
  payload : Nat
  bid : Int
  priority : Int
deriving DecidableEq, Repr

/-- The user-filled part of `dnmx_mixin_info` (code/dnmx/mixin_info.h 36-152). Function pointers are
represented by whether they are set; what they do is the subject of the object model. Omitted:
`mixin_class`, `type_info_class`, `user_data` (not used by the library). -/
structure MixDecl where
  name : Sv
  size : Nat := 0
  align : Nat := 0
  objBufSize : Nat := 8
  objBufOffset : Nat := 8
  hasInit : Bool := true
  hasCopyInit : Bool := true
  hasMoveInit : Bool := true
  hasCopyAsgn : Bool := true
  hasMoveAsgn : Bool := true
  hasDestroy : Bool := true
  hasEquals : Bool := true
  hasCompare : Bool := true
  hasAllocator : Bool := false
  feats : List FeatFor := []
  orderPriority : Int := 0
  forceExternal : Bool := false
  dependency : Bool := false

/-- `dnmx_mixin_info::external` (code/dnmx/mixin_info.h 139-141). -/
def MixDecl.external (m : MixDecl) : Bool := !m.hasMoveInit || m.hasAllocator || m.forceExternal

/-- The user-filled part of `dnmx_feature_info` (code/dnmx/feature_info.h 14-35). `defaultPayload = none` is
the null pointer. -/
structure FeatDecl where
  name : Sv
  allowClashes : Bool := true
  defaultPayload : Option Nat := none

/-- Errors, by the `throw_exception` function (code/dynamix/throw_exception.hpp) that raises them. -/
inductive Err
  | idRegistered
  | emptyName
  | duplicateName
  | unregForeign
  | infoHasDomain
  | noFunc
  | ruleUserError
  | cyclicRuleDeps
  | foreignMutation
  | unregistered
  | foreignMixin
  | duplicateMixin
  | featureClash
  | missingMixin
  | unknownTypeClass
  /-- not an exception: undefined behaviour (out-of-bounds access, dead type, call through null) -/
  | ub
deriving DecidableEq, Repr

deriving instance DecidableEq for Except

/-- What a rule can see of the domain's elements: which mixin is registered under a name
(`type_mutation::add(name)` and friends call `domain::get_mixin_info(name)`,
code/dynamix/type_mutation.cpp 99-122), and the ids in the mixin infos. -/
structure ElemView where
  byName : List UInt8 → Option Mix
  ids : Mix → Option Nat

/-- `dnmx_mutation_rule_info` (code/dnmx/mutation_rule_info.h). `apply = none` is the null pointer.
Simplification: an `apply` function is a function of the mixin list and of the domain's elements;
functions that use other global state are in Verif/Model/RuleState.lean. -/
structure RuleDecl where
  name : Sv
  apply : Option (ElemView → List Mix → Except Err (List Mix))
  orderPriority : Int := 0

/-- `dnmx_type_class` (code/dnmx/type_class.h): a named predicate on types, here on their mixin list.
`isNull` is a null `matches`. -/
structure ClsDecl where
  name : Sv
  isNull : Bool := false
  matchesT : List Mix → Bool

/-- All infos of a program. `canonName` is where the literal "canonicalize types" (code/dynamix/domain.cpp 175)
is stored. -/
structure Decls where
  mem : Mem
  canonName : Sv := ⟨0, 0⟩
  mix : Mix → MixDecl
  feat : Feat → FeatDecl
  userRule : Rule → RuleDecl
  cls : Cls → ClsDecl

/-- The characters of a mixin's name; name equality in domain.cpp (211, 386) is equality of these. -/
def Decls.mixName (D : Decls) (m : Mix) : List UInt8 := (D.mix m).name.chars D.mem
/-- The characters of a feature's name. -/
def Decls.featName (D : Decls) (f : Feat) : List UInt8 := (D.feat f).name.chars D.mem
/-- The characters of a type class' name. -/
def Decls.clsName (D : Decls) (c : Cls) : List UInt8 := (D.cls c).name.chars D.mem

/-- `dnmx_mixin_canonical_order` (code/dnmx/mixin_info.h 164-174). `ids m` is `m->id.i`; an invalid id is the
greatest id value, here `none`. -/
def canonicalOrder (D : Decls) (ids : Mix → Option Nat) (a b : Mix) : Bool :=
  if (D.mix a).orderPriority ≠ (D.mix b).orderPriority then decide ((D.mix a).orderPriority < (D.mix b).orderPriority)
  else
    let cmp := svCmp D.mem (D.mix a).name (D.mix b).name
    if cmp ≠ 0 then decide (cmp < 0)
    else if ids a ≠ ids b then
      match ids a, ids b with
      | some i, some j => decide (i < j)
      | some _, none => true
      | none, _ => false
    else decide (a < b)

/-- `rule_compare` (code/dynamix/domain.cpp 112-119). -/
def ruleCompare (mem : Mem) (rule : Rule → RuleDecl) (a b : Rule) : Bool :=
  if (rule a).orderPriority ≠ (rule b).orderPriority then decide ((rule a).orderPriority < (rule b).orderPriority)
  else
    let cmp := svCmp mem (rule a).name (rule b).name
    if cmp ≠ 0 then decide (cmp < 0)
    else decide (a < b)

end Dnmx
