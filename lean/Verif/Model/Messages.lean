import Verif.Model.Domain
import Verif.Model.TypeMutation

/-!
# What exceptions say

Model of code/dynamix/throw_exception.cpp and of its calls in code/dynamix/domain.cpp and type.cpp: which exception an operation on domains
throws, with its text. The operations themselves are in `Verif.Model.Domain`; here they are walked through again up to the `throw`.

A text is a list of pieces. Making it reads the names of domains, also of the domain that a mixin belongs to, which may be destroyed; this is undefined
behaviour. Simplification: making a text does not fail otherwise (memory).
-/

namespace Dnmx

/-- The classes of exceptions (code/dynamix/exception.hpp 11-34) that operations on domains throw. -/
inductive ExClass
  | domainError
  | typeError
deriving DecidableEq, Repr

/-- The argument of `e<…>` in each function of throw_exception.cpp (93-192). -/
def Err.exClass : Err → ExClass
  | .ruleUserError | .cyclicRuleDeps | .unregistered | .duplicateMixin | .featureClash | .missingMixin | .unknownTypeClass => .typeError
  | _ => .domainError

/-- What is written with `<<` (throw_exception.cpp 26-85). -/
inductive Piece
  | lit (s : String)
  | dom (d : DomId)
  | feat (f : Feat)
  | mix (m : Mix)
  /-- `*mut.mixins[i]` -/
  | mixAt (ms : List Mix) (i : Nat)
  | rule (r : Rule)
  | cls (c : Cls)
  | comp (ms : List Mix)
  | id (i : Option Nat)
  | code (n : Int)
  | raw (s : List UInt8)
deriving DecidableEq, Repr

structure Thrown where
  err : Err
  text : List Piece
deriving DecidableEq, Repr

/-! ## Texts as characters -/

def ascii (s : String) : List UInt8 := s.toList.map (fun c => UInt8.ofNat c.toNat)

/-- `out << '\'' << info.name.to_std() << '\''` (throw_exception.cpp 37, 42, 47, 52). -/
def quoted (s : List UInt8) : List UInt8 := ascii "'" ++ s ++ ascii "'"

/-- `output_mixins` (throw_exception.cpp 56-69), behind the first mixin. -/
def mixinsTail (D : Decls) : List Mix → List UInt8
  | [] => ascii "}"
  | m :: ms => ascii ", " ++ quoted (D.mixName m) ++ mixinsTail D ms

/-- `output_mixins` (throw_exception.cpp 56-69). -/
def outputMixins (D : Decls) : List Mix → List UInt8
  | [] => ascii "{}"
  | m :: ms => ascii "{" ++ quoted (D.mixName m) ++ mixinsTail D ms

/-- The `operator<<` (throw_exception.cpp 26-85). `N` has the names of the domains, `none` for destroyed ones. `none`: undefined. -/
def Piece.chars (D : Decls) (N : DomId → Option (List UInt8)) : Piece → Option (List UInt8)
  | .lit s => some (ascii s)
  | .dom d => (N d).map (fun s => if s.isEmpty then ascii "unnamed domain" else s)
  | .feat f => some (quoted (D.featName f))
  | .mix m => some (quoted (D.mixName m))
  | .mixAt ms i => (ms[i]?).map (fun m => quoted (D.mixName m))
  | .rule r => some (quoted ((ruleOf D r).name.chars D.mem))
  | .cls c => some (quoted (D.clsName c))
  | .comp ms => some (outputMixins D ms)
  | .id i => some (ascii (toString (i.getD 4294967295)))
  | .code n => some (ascii (toString n))
  | .raw s => some s

/-- All pieces one after the other: `out.str()` (throw_exception.cpp 88). -/
def textChars (D : Decls) (N : DomId → Option (List UInt8)) : List Piece → Option (List UInt8)
  | [] => some []
  | p :: ps =>
    match p.chars D N, textChars D N ps with
    | some a, some b => some (a ++ b)
    | _, _ => none

/-! ## Elements -/

/-- `id_registered`, `empty_name`, `duplicate_name`, `unreg_foreign` for features (throw_exception.cpp 93-95, 101-103, 113-115, 129-131). -/
def featureThrown (d : DomId) (f : Feat) (id : Option Nat) (e : Err) : Thrown :=
  ⟨e, [.dom d, .lit ": "] ++ match e with
    | .idRegistered => [.lit "register feature ", .feat f, .lit " with a valid id ", .id id]
    | .emptyName => [.lit "register feature with empty name"]
    | .duplicateName => [.lit "register feature with duplicate name ", .feat f]
    | _ => [.lit "unregister foreign feature ", .feat f, .lit ", id = ", .id id]⟩

/-- `id_registered`, `empty_name`, `duplicate_name`, `info_has_domain`, `unreg_foreign` for mixins (throw_exception.cpp 97-99, 105-107,
117-119, 125-127, 132-142). -/
def mixinThrown (d : DomId) (m : Mix) (id : Option Nat) (dom : Option DomId) (e : Err) : Thrown :=
  ⟨e, [.dom d, .lit ": "] ++ match e with
    | .idRegistered => [.lit "register mixin ", .mix m, .lit " with a valid id ", .id id]
    | .emptyName => [.lit "register mixin with empty name"]
    | .duplicateName => [.lit "register mixin with duplicate name ", .mix m]
    | .infoHasDomain => [.lit "register mixin ", .mix m, .lit " which has a domain = "] ++ (match dom with | some x => [.dom x] | none => [])
    | _ => [.lit "unregister foreign feature ", .mix m, .lit ", id = ", .id id, .lit ", domain = "] ++
        match dom with | some x => [.dom x] | none => [.lit "<null>"]⟩

/-- `empty_name`, `no_func`, `duplicate_name` for type classes (throw_exception.cpp 109-111, 121-123, 148-150). -/
def classThrown (d : DomId) (c : Cls) (e : Err) : Thrown :=
  ⟨e, [.dom d, .lit ": "] ++ match e with
    | .emptyName => [.lit "register type class with empty name"]
    | .noFunc => [.lit "register type class ", .cls c, .lit " with match function = null"]
    | _ => [.lit "register type class with duplicate name ", .cls c]⟩

/-- Exceptions of `register_feature` (domain.cpp 198-210, 245-247). -/
def registerFeatureThrows (D : Decls) (W : World) (d : DomId) (f : Feat) : Option Thrown :=
  match (registerFeature D W d f).1 with
  | .ok () => none
  | .error e => some (featureThrown d f (W.featId f) e)

/-- Exceptions of the loop over features in `register_mixin` (domain.cpp 269-280). -/
def registerFeaturesThrows (D : Decls) (W : World) (d : DomId) : List Feat → Option Thrown
  | [] => none
  | f :: fs =>
    if W.featId f ≠ none then registerFeaturesThrows D W d fs
    else
      match registerFeatureThrows D W d f with
      | some t => some t
      | none => registerFeaturesThrows D (registerFeature D W d f).2 d fs

/-- Exceptions of `register_mixin` (domain.cpp 264-285). -/
def registerMixinThrows (D : Decls) (W : World) (d : DomId) (m : Mix) : Option Thrown :=
  if W.mixDom m ≠ none ∧ W.mixDom m ≠ some d then some (mixinThrown d m (W.mixId m) (W.mixDom m) .infoHasDomain)
  else
    match registerFeaturesThrows D W d ((D.mix m).feats.map (·.feat)) with
    | some t => some t
    | none =>
      let W' := (registerFeatures D W d ((D.mix m).feats.map (·.feat))).2
      match basicRegister D.mixName (!(W'.doms d).settings.allowDupMix) (W'.mixId m) m (W'.doms d).mixins with
      | .error e => some (mixinThrown d m (W'.mixId m) (W'.mixDom m) e)
      | .ok _ => none

/-- Exceptions of `unregister_feature` (domain.cpp 239). -/
def unregisterFeatureThrows (W : World) (d : DomId) (f : Feat) : Option Thrown :=
  match ownSlot (W.doms d).feats (W.featId f) f with
  | none => some (featureThrown d f (W.featId f) .unregForeign)
  | some _ => none

/-- Exceptions of `unregister_mixin` (domain.cpp 329), if it gets there. -/
def unregisterMixinThrows (W : World) (d : DomId) (m : Mix) : Option Thrown :=
  match purgeQueries (W.doms d) d (W.mixId m) m (W.doms d).queries with
  | none => none
  | some _ =>
    match ownSlot (W.doms d).mixins (W.mixId m) m with
    | none => some (mixinThrown d m (W.mixId m) (W.mixDom m) .unregForeign)
    | some _ => none

/-- Exceptions of `register_type_class` (domain.cpp 338-348). -/
def registerTypeClassThrows (D : Decls) (W : World) (d : DomId) (c : Cls) : Option Thrown :=
  if (D.clsName c).isEmpty then some (classThrown d c .emptyName)
  else if (D.cls c).isNull then some (classThrown d c .noFunc)
  else if classNameTaken D (D.clsName c) (W.doms d).classes then some (classThrown d c .duplicateName)
  else none

/-- Exceptions of `add_mutation_rule` (domain.cpp 406, throw_exception.cpp 144-146). -/
def addRuleThrows (D : Decls) (d : DomId) (r : Rule) : Option Thrown :=
  if (ruleOf D r).apply.isNone then
    some ⟨.noFunc, [.dom d, .lit ": ", .lit "register mutation rule ", .rule r, .lit " with apply function = null"]⟩
  else none

/-! ## Types -/

/-- What failing rules do: what they leave in the mutation, the error they return, and the text of an exception of their own. -/
structure RuleFails where
  left : Rule → List Mix → List Mix
  code : Rule → List Mix → Int
  own : Rule → List Mix → List Piece

/-- One application of the rules (domain.cpp 466-471): the exception of the first that fails (throw_exception.cpp 169-171). -/
def passThrows (D : Decls) (v : ElemView) (X : RuleFails) (d : DomId) : List Rule → List Mix → Option Thrown
  | [], _ => none
  | r :: rs, ms =>
    match ruleFn D v r ms with
    | .ok ms' => passThrows D v X d rs ms'
    | .error .ruleUserError =>
      some ⟨.ruleUserError, [.dom d, .lit ": ", .lit "applying mutation rule ", .rule r, .lit " to ", .comp (X.left r ms), .lit " failed with error ",
        .code (X.code r ms)]⟩
    | .error .ub => none
    | .error e => some ⟨e, X.own r ms⟩

/-- `cyclic_rule_deps` (throw_exception.cpp 173-175). -/
def cyclicThrown (d : DomId) (ms : List Mix) : Thrown :=
  ⟨.cyclicRuleDeps, [.dom d, .lit ": ", .lit "rule interdependency too deep or cyclic at ", .comp ms]⟩

/-- The loop of `apply_mutation_rules_l` (domain.cpp 464-486); see `rulesLoop`. -/
def rulesThrows (D : Decls) (v : ElemView) (X : RuleFails) (d : DomId) (rules : List Rule) : (left : Nat) → (last nt : List Mix) → Option Thrown
  | left, last, nt =>
    let i := maxDependencyDepth - left
    match passThrows D v X d rules nt with
    | some t => some t
    | none =>
      match applyPass (rules.map (ruleFn D v)) nt with
      | .error _ => none
      | .ok nt' =>
        if last = nt' then none
        else
          match left with
          | 0 => some (cyclicThrown d nt')
          | left' + 1 => if i = rules.length then some (cyclicThrown d nt') else rulesThrows D v X d rules left' nt' nt'

/-- `type_mut_error` for mixins (throw_exception.cpp 177-179). -/
def typeMutThrown (d : DomId) (ms : List Mix) (m : Mix) (e : Err) (err : String) : Thrown :=
  ⟨e, [.dom d, .lit ": ", .lit "creating type ", .comp ms, .lit ": ", .mix m, .lit " ", .lit err]⟩

/-- `foreign_mixin` (throw_exception.cpp 156-166). -/
def foreignMixinThrown (d : DomId) (ms : List Mix) (m : Mix) (dom : Option DomId) : Thrown :=
  ⟨.foreignMixin, [.dom d, .lit ": ", .lit "foreign mixin ", .mix m, .lit " from "] ++
    (match dom with | some x => [.lit "'", .dom x, .lit "'"] | none => [.lit "<null>"]) ++ [.lit " while trying to create type ", .comp ms]⟩

/-- The validity check of `create_type` (domain.cpp 693-700); `all` is the mutation. -/
def checkThrows (W : World) (d : DomId) (all : List Mix) : List Mix → Option Thrown
  | [] => none
  | m :: ms =>
    if W.mixId m = none then some (typeMutThrown d all m .unregistered "unregistered")
    else if W.mixDom m ≠ some d then some (foreignMixinThrown d all m (W.mixDom m))
    else if ms.contains m then some (typeMutThrown d all m .duplicateMixin "duplicate")
    else checkThrows W d all ms

/-- The loop which checks for clashes (domain.cpp 664-671): the first neighbours with equal bid and priority. -/
def firstClash : List Payload → Option (Payload × Payload)
  | a :: b :: rest => if a.data.bid = b.data.bid ∧ a.data.priority = b.data.priority then some (a, b) else firstClash (b :: rest)
  | _ => none

/-- `feature_clash` (throw_exception.cpp 185-188). -/
def clashThrown (d : DomId) (ms : List Mix) (a b : Payload) : Thrown :=
  ⟨.featureClash, [.dom d, .lit ": ", .lit "feature clash in ", .comp ms, .lit " on ", .feat a.data.feat, .lit " between ", .mixAt ms a.mixinIndex,
    .lit " and ", .mixAt ms b.mixinIndex]⟩

/-- The fourth pass for one entry (domain.cpp 647-671). -/
def entryThrows (D : Decls) (d : DomId) (ms : List Mix) (pls : List Payload) : Option Thrown :=
  match sortPayloads pls with
  | [] => none
  | p :: ps =>
    if (D.feat p.data.feat).allowClashes then none
    else (firstClash (p :: ps)).map (fun x => clashThrown d ms x.1 x.2)

/-- The fourth pass (domain.cpp 643-683). -/
def finishThrows (D : Decls) (d : DomId) (ms : List Mix) (buf : List (Option Payload)) : List (Option (Nat × Nat)) → Option Thrown
  | [] => none
  | e :: es =>
    match entryThrows D d ms (entryPayloads buf e) with
    | some t => some t
    | none => finishThrows D d ms buf es

/-- Exceptions of `ftable_build_helper` (domain.cpp 549-686). -/
def ftableThrows (D : Decls) (fid : Feat → Option Nat) (d : DomId) (ms : List Mix) : Option Thrown :=
  let stream := featStream D 0 ms
  let size := ftableSize fid stream
  match ftableCounts fid stream (List.replicate size 0) with
  | none => none
  | some counts =>
    match ftableFill fid counts ⟨List.replicate size none, 0, List.replicate stream.length none⟩ stream with
    | none => none
    | some s => finishThrows D d ms s.buf s.entries

/-- Exceptions of `create_type` (domain.cpp 689-836). -/
def createTypeThrows (D : Decls) (W : World) (d : DomId) (ms : List Mix) : Option Thrown :=
  match checkThrows W d ms ms with
  | some t => some t
  | none => ftableThrows D W.featId d ms

/-- Exceptions of `get_type` (domain.cpp 489-531, `foreign_mutation` throw_exception.cpp 152-154). -/
def getTypeMutThrows (D : Decls) (X : RuleFails) (W : World) (d md : DomId) (q : List Mix) : Option Thrown :=
  if md ≠ d then
    some ⟨.foreignMutation, [.dom d, .lit ": ", .lit "requested type with foreign mutation ", .comp q, .lit " of domain '", .dom md, .lit "'"]⟩
  else
    match lookupSection D (W.view D d) (W.doms d) q with
    | .hit _ => none
    | .failed _ => rulesThrows D (W.view D d) X d ((W.doms d).rules.map (·.1)) maxDependencyDepth q (q.filter (fun m => !(D.mix m).dependency))
    | .resolved _ _ (some _) => none
    | .resolved _ ms none => createTypeThrows D W d ms

/-- Exceptions of `get_type(span)` (domain.cpp 533-547). -/
def getTypeThrows (D : Decls) (X : RuleFails) (W : World) (d : DomId) (q : List Mix) : Option Thrown :=
  match findQuery q (W.doms d).queries with
  | some _ => none
  | none => getTypeMutThrows D X W d d q

/-- `unknown_type_class` (type.cpp 85, throw_exception.cpp 190-192). -/
def typeIsOfThrows (D : Decls) (W : World) (t : TypeRec) (name : List UInt8) : Option Thrown :=
  match getTypeClass D W t.dom name with
  | none => some ⟨.unknownTypeClass, [.dom t.dom, .lit ": ", .lit "type ", .comp t.mixins, .lit ": unknown type class '", .raw name, .lit "'"]⟩
  | some _ => none

/-! ## Type mutations -/

/-- `type_mut_error` for names (throw_exception.cpp 181-183). -/
def typeMutNameThrown (d : DomId) (ms : List Mix) (name : List UInt8) (err : String) : Thrown :=
  ⟨.missingMixin, [.dom d, .lit ": ", .lit "creating type ", .comp ms, .lit ": unknown mixin '", .raw name, .lit "' in ", .lit err]⟩

/-- Exceptions of `to_back(info)` (type_mutation.cpp 41-43). -/
def tmToBackThrows (d : DomId) (ms : List Mix) (m : Mix) : Option Thrown :=
  if tmHas ms m then none else some (typeMutThrown d ms m .missingMixin "to_back on missing mixin")

/-- Exceptions of `to_back(name)` (type_mutation.cpp 49-51). -/
def tmToBackNameThrows (D : Decls) (d : DomId) (ms : List Mix) (name : List UInt8) : Option Thrown :=
  match tmFindName D name ms with
  | none => some (typeMutNameThrown d ms name "to_back")
  | some _ => none

/-- Exceptions of `add(name)` (type_mutation.cpp 106-110). -/
def tmAddNameThrows (view : ElemView) (d : DomId) (ms : List Mix) (name : List UInt8) : Option Thrown :=
  match (tmSafeAddName view ms name).2 with
  | none => some (typeMutNameThrown d ms name "add")
  | some _ => none

/-- Exceptions of `add_if_lacking(name)` (type_mutation.cpp 118-122). -/
def tmAddIfLackingNameThrows (D : Decls) (view : ElemView) (d : DomId) (ms : List Mix) (name : List UInt8) : Option Thrown :=
  match tmFindName D name ms with
  | some _ => none
  | none => tmAddNameThrows view d ms name

/-! ## Calls -/

/-- The exception of a call. -/
def opThrows (D : Decls) (X : RuleFails) (W : World) : Op → Option Thrown
  | .regFeature d f => registerFeatureThrows D W d f
  | .unregFeature d f => unregisterFeatureThrows W d f
  | .regMixin d m => registerMixinThrows D W d m
  | .unregMixin d m => unregisterMixinThrows W d m
  | .regClass d c => registerTypeClassThrows D W d c
  | .unregClass _ _ => none
  | .addRule d r => addRuleThrows D d r
  | .removeRule _ _ => none
  | .getTypeMut d md q => getTypeMutThrows D X W d md q
  | .getType d q => getTypeThrows D X W d q
  | .gc _ _ => none

end Dnmx
