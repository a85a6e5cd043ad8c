import Verif.Model.Builder

/-!
# What mixin definitions mean

Declarative counterparts of the builder, and what it means that a definition is part of a program.
-/

namespace Spec
open Dnmx

/-- The feature that a call of the builder adds: the first perks go before the second ones, and 0 is the default. -/
def featureOf : BuildOp → Option FeatFor
  | .implements f pl a b => some
      { feat := f, payload := pl,
        bid := match a.bid, b.bid with | some x, _ => x | none, some y => y | none, none => 0,
        priority := match a.priority, b.priority with | some x, _ => x | none, some y => y | none, none => 0 }
  | _ => none

/-- What a call of the builder makes of the dependency status (`none`: nothing). -/
def dependencyOf : BuildOp → Option Bool
  | .dependency b => some b
  | .rule _ => some true
  | .namedRule .. => some true
  | .unnamedRule .. => some true
  | .onMutation (.attachesTo _) _ => some true
  | _ => none

/-- The call adds a rule. -/
def AddsRule : BuildOp → Bool
  | .rule _ => true
  | .namedRule .. => true
  | .unnamedRule .. => true
  | .onMutation .. => true
  | _ => false

/-- The name that a mixin has after some calls. -/
def nameAfter (name : List UInt8) : List BuildOp → List UInt8
  | [] => name
  | .name n :: ops => nameAfter n ops
  | _ :: ops => nameAfter name ops

/-- Kinds of generated names. -/
inductive GenKind
  | unnamed
  | attachesTo
  | alsoAdds
deriving DecidableEq, Repr

/-- The kind of the name that is generated for the rule of a call. -/
def genKind : BuildOp → Option GenKind
  | .unnamedRule .. => some .unnamed
  | .onMutation (.attachesTo _) _ => some .attachesTo
  | .onMutation (.alsoAdds _) _ => some .alsoAdds
  | _ => none

/-- The generated name for rule number `i` of a mixin with the given name. -/
def genName (mixin : List UInt8) : GenKind → Nat → List UInt8
  | .unnamed, i => unnamedName mixin i
  | .attachesTo, i => commonName mixin (.attachesTo 0) i
  | .alsoAdds, i => commonName mixin (.alsoAdds 0) i

/-- The name of a rule of a definition (of those that are stored in it). -/
def _root_.Dnmx.DefRule.storedName : DefRule → Option (List UInt8)
  | .given _ => none
  | .stored n _ _ => some n

/-- The rule that a call adds to the definition of the mixin `m`, when this has the given name and `i` rules. -/
def ruleFrom (m : Nat) (mixin : List UInt8) (i : Nat) : BuildOp → Option DefRule
  | .rule r => some (.given r)
  | .namedRule n k p => some (.stored n (.user k) (p.priority.getD 0))
  | .unnamedRule k p => some (.stored (genName mixin .unnamed i) (.user k) (p.priority.getD 0))
  | .onMutation (.attachesTo q) p => some (.stored (genName mixin .attachesTo i) (.dep q m) (p.priority.getD 0))
  | .onMutation (.alsoAdds x) p => some (.stored (genName mixin .alsoAdds i) (.dep m x) (p.priority.getD 0))
  | _ => none

/-- What the functions of rules do; `fns` are the functions of the user. -/
def bodyFn (fns : Nat → ElemView → List Nat → Except Err (List Nat)) : RuleBody → ElemView → List Nat → Except Err (List Nat)
  | .user k => fns k
  | .dep p x => fun _ ms => .ok (if p ∈ ms then (if x ∈ ms then ms else ms ++ [x]) else ms)

/-- The rule at address `r` is the given one. -/
def IsRule (D : Decls) (fns : Nat → ElemView → List Nat → Except Err (List Nat)) (r : Nat) : DefRule → Prop
  | .given r' => r = r'
  | .stored n b p => (ruleOf D r).name.chars D.mem = n ∧ (ruleOf D r).apply = some (bodyFn fns b) ∧ (ruleOf D r).orderPriority = p

/-- Mixin `m` with rules at the addresses `rules` is according to a definition. -/
structure Realizes (D : Decls) (fns : Nat → ElemView → List Nat → Except Err (List Nat)) (m : Nat) (rules : List Nat) (x : MixinDef) : Prop where
  name : D.mixName m = x.name
  feats : (D.mix m).feats = x.feats
  dependency : (D.mix m).dependency = x.dependency
  count : rules.length = x.rules.length
  rules : ∀ p ∈ rules.zip x.rules, IsRule D fns p.1 p.2

/-- The rule never takes a mixin out. -/
def KeepsMixins (D : Decls) (r : Nat) : Prop :=
  ∀ v ms ms' f, (ruleOf D r).apply = some f → f v ms = .ok ms' → ∀ m ∈ ms, m ∈ ms'

end Spec
