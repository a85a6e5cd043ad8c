import Verif.Model.Domain

/-!
# Rules with state, and type mutations during `get_type`

Model of `apply_mutation_rules_l` and `get_type` (code/dynamix/domain.cpp 433-547) that covers what `Verif.Model.TypeMutation` and `Verif.Model.Domain`
leave out: a rule is a function with `user_data` (code/dnmx/mutation_rule_info.h 14-24) and access to global variables, so it may give different results for the same mutation; and it
works on the caller's `type_mutation` in place, which has its changes afterwards, also if the call fails.

Simplifications: a rule does not call the domain, except through the mutation (`ElemView`).
-/

namespace Dnmx

/-- `mutation_rule_info::apply`: works on the state of the user and on the mixins of the mutation. A result other than 0 is an error. -/
abbrev StFn (σ : Type) := σ → List Mix → Option Err × List Mix × σ

/-- A call of a rule: the mixins of the mutation before and after (not in the code; makes the calls observable). -/
structure RuleCall where
  rule : Rule
  before : List Mix
  after : List Mix
deriving DecidableEq, Repr

/-- What calls of rules leave. -/
structure PassOut (σ : Type) where
  err : Option Err
  mixins : List Mix
  state : σ
  calls : List RuleCall

/-- One application of all rules (domain.cpp 466-471). -/
def passSt {σ : Type} (fn : Rule → StFn σ) : List Rule → σ → List Mix → PassOut σ
  | [], s, ms => ⟨none, ms, s, []⟩
  | r :: rs, s, ms =>
    match fn r s ms with
    | (some e, ms', s') => ⟨some e, ms', s', [⟨r, ms, ms'⟩]⟩
    | (none, ms', s') =>
      let o := passSt fn rs s' ms'
      { o with calls := ⟨r, ms, ms'⟩ :: o.calls }

/-- What `apply_mutation_rules_l` returns (the query to remember) or throws, and leaves. -/
structure ApplyOut (σ : Type) where
  result : Except Err (List Mix)
  mixins : List Mix
  state : σ
  calls : List RuleCall

/-- The loop of `apply_mutation_rules_l` (domain.cpp 464-486), as `rulesLoop`. -/
def loopSt {σ : Type} (fn : Rule → StFn σ) (rs : List Rule) : (left : Nat) → (original last nt : List Mix) → σ → ApplyOut σ
  | left, original, last, nt, s =>
    let i := maxDependencyDepth - left
    let o := passSt fn rs s nt
    match o.err with
    | some e => ⟨.error e, o.mixins, o.state, o.calls⟩
    | none =>
      if last = o.mixins then ⟨.ok (if i = 0 then last else original), o.mixins, o.state, o.calls⟩
      else
        match left with
        | 0 => ⟨.error .cyclicRuleDeps, o.mixins, o.state, o.calls⟩
        | left' + 1 =>
          if i = rs.length then ⟨.error .cyclicRuleDeps, o.mixins, o.state, o.calls⟩
          else
            let o' := loopSt fn rs left' (if i = 0 then last else original) o.mixins o.mixins o.state
            { o' with calls := o.calls ++ o'.calls }

/-- `apply_mutation_rules_l` (domain.cpp 438-487) for a mutation with mixins `q`. -/
def applySt {σ : Type} (D : Decls) (fn : Rule → StFn σ) (rs : List Rule) (q : List Mix) (s : σ) : ApplyOut σ :=
  loopSt fn rs maxDependencyDepth [] q (q.filter (fun m => !(D.mix m).dependency)) s

/-- A rule without state that leaves the mutation alone if it fails. -/
def liftFn {σ : Type} (f : RuleFn) : StFn σ := fun s ms =>
  match f ms with
  | .ok ms' => (none, ms', s)
  | .error e => (some e, ms, s)

/-- All rules: rule 0 is the domain's own, which has no state (domain.cpp 54-58, 174-179). -/
def stRule {σ : Type} (D : Decls) (f : ElemView → Rule → StFn σ) (v : ElemView) (r : Rule) : StFn σ :=
  if r = 0 then liftFn (ruleFn D v 0) else f v r

/-- `get_type` after the rules (domain.cpp 507-530): the type with mixins `ms` is found or created, and the query is stored. -/
def finishGet (D : Decls) (W : World) (d : DomId) (key ms : List Mix) : Except Err TypeId × World :=
  let x := W.doms d
  match (if ms.isEmpty then some emptyTid else (findType ms x.types).map (·.tid)) with
  | some t => (.ok t, W.setDom d { x with queries := storeQuery key t x.queries })
  | none =>
    match buildType D W d W.nextType ms with
    | .error e => (.error e, W)
    | .ok t =>
      let (r, x') := emplaceSection x key t
      (.ok r, { W.setDom d x' with nextType := W.nextType + 1 })

/-- What `get_type` gives and leaves: in the domain, in the mutation and in the state of the user. -/
structure GetOut (σ : Type) where
  result : Except Err TypeId
  W : World
  mixins : List Mix
  state : σ
  calls : List RuleCall

/-- `get_type(type_mutation&)` (domain.cpp 489-531) of domain `d` for a mutation of domain `md` with mixins `q`. -/
def getMutSt {σ : Type} (D : Decls) (f : ElemView → Rule → StFn σ) (W : World) (s : σ) (d md : DomId) (q : List Mix) : GetOut σ :=
  if md ≠ d then ⟨.error .foreignMutation, W, q, s, []⟩
  else
    match findQuery q (W.doms d).queries with
    | some t => ⟨.ok t, W, q, s, []⟩
    | none =>
      let o := applySt D (stRule D f (W.view D d)) ((W.doms d).rules.map (·.1)) q s
      match o.result with
      | .error e => ⟨.error e, W, o.mixins, o.state, o.calls⟩
      | .ok key =>
        let r := finishGet D W d key o.mixins
        ⟨r.1, r.2, o.mixins, o.state, o.calls⟩

/-- `get_type(span)` (domain.cpp 533-547): a mutation is made, and destroyed in the end. -/
def getSpanSt {σ : Type} (D : Decls) (f : ElemView → Rule → StFn σ) (W : World) (s : σ) (d : DomId) (q : List Mix) : GetOut σ :=
  match findQuery q (W.doms d).queries with
  | some t => ⟨.ok t, W, q, s, []⟩
  | none => getMutSt D f W s d d q

/-- What a program with such rules does: it calls the domain, and changes its state. -/
inductive StOp (σ : Type)
  | call (op : Op)
  | set (s : σ)

/-- One step of such a program. The other calls do not call rules. -/
def stepSt {σ : Type} (D : Decls) (f : ElemView → Rule → StFn σ) (x : World × σ) : StOp σ → World × σ
  | .set s => (x.1, s)
  | .call (.getTypeMut d md q) => ((getMutSt D f x.1 x.2 d md q).W, (getMutSt D f x.1 x.2 d md q).state)
  | .call (.getType d q) => ((getSpanSt D f x.1 x.2 d q).W, (getSpanSt D f x.1 x.2 d q).state)
  | .call op => ((step D x.1 op).2, x.2)

/-- A program. -/
def runSt {σ : Type} (D : Decls) (f : ElemView → Rule → StFn σ) (x : World × σ) (ops : List (StOp σ)) : World × σ := ops.foldl (stepSt D f) x

end Dnmx
