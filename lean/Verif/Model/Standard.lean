import Verif.Model.Object

/-!
# What the C++ standard leaves open

The other models take one fixed sorting algorithm for `std::sort` and a linear search for the binary search of `flat_map`. Here `std::sort` is any function that does what the
standard says ([sort], [alg.sorting]): if the comparator is a strict weak order on the elements, the result is a sorted permutation, where the order of elements that the
comparator does not distinguish is open; otherwise the behaviour is undefined, and nothing is known about the result. `flat_map` (of the library itlib, a dependency; its documented
interface is that of a sorted vector) searches with `std::lower_bound` ([lower.bound]), which is given as the usual loop that halves the range.

The functions of the domain that sort or search are given once more with these. Lines are those of code/dynamix/domain.cpp.
-/

namespace Dnmx

/-- What `std::sort` requires of its comparator: a strict weak order on the elements. -/
structure WeakOrderOn {α : Type} (l : List α) (lt : α → α → Bool) : Prop where
  irrefl : ∀ a ∈ l, lt a a = false
  trans : ∀ a ∈ l, ∀ b ∈ l, ∀ c ∈ l, lt a b = true → lt b c = true → lt a c = true
  same : ∀ a ∈ l, ∀ b ∈ l, ∀ c ∈ l, lt a b = false → lt b a = false → lt b c = false → lt c b = false → lt a c = false

/-- An implementation of `std::sort`. -/
structure StdSort where
  sort : {α : Type} → (α → α → Bool) → List α → List α
  perm : ∀ {α : Type} (lt : α → α → Bool) (l : List α), WeakOrderOn l lt → (sort lt l).Perm l
  sorted : ∀ {α : Type} (lt : α → α → Bool) (l : List α), WeakOrderOn l lt → (sort lt l).Pairwise (fun a b => lt b a = false)

/-- The loop of `std::lower_bound`: the first position in `[first, first + count)` whose element does not satisfy `p`. The first number bounds the rounds. -/
def lowerBoundFrom {α : Type} (p : α → Bool) (l : List α) : Nat → Nat → Nat → Nat
  | 0, first, _ => first
  | n + 1, first, count =>
    if count = 0 then first
    else
      match l[first + count / 2]? with
      | none => first
      | some x => if p x then lowerBoundFrom p l n (first + count / 2 + 1) (count - (count / 2 + 1)) else lowerBoundFrom p l n first (count / 2)

/-- `std::lower_bound`. -/
def lowerBound {α : Type} (p : α → Bool) (l : List α) : Nat := lowerBoundFrom p l l.length 0 l.length

/-- `reg->mutation_rules[&info]` and `++rc` (410-411): `flat_map::operator[]` inserts where the search ends, unless the key there is not greater. -/
def ruleIncrB (D : Decls) (r : Rule) (l : List (Rule × Nat)) : List (Rule × Nat) × Nat :=
  let i := lowerBound (fun e => ruleLt D e.1 r) l
  match l[i]? with
  | none => (l.take i ++ (r, 1) :: l.drop i, 1)
  | some e => if ruleLt D r e.1 then (l.take i ++ (r, 1) :: l.drop i, 1) else (l.set i (e.1, e.2 + 1), e.2 + 1)

/-- `find`, `--f->second` and `erase` (421-428). -/
def ruleDecrB (D : Decls) (r : Rule) (l : List (Rule × Nat)) : Option (List (Rule × Nat) × Nat) :=
  let i := lowerBound (fun e => ruleLt D e.1 r) l
  match l[i]? with
  | none => none
  | some e =>
    if ruleLt D r e.1 then none
    else if e.2 - 1 > 0 then some (l.set i (e.1, e.2 - 1), e.2 - 1)
    else some (l.eraseIdx i, 0)

/-- `add_mutation_rule` (405-418). -/
def addRuleB (D : Decls) (W : World) (d : DomId) (r : Rule) : Except Err Unit × World :=
  if (ruleOf D r).apply.isNone then (.error .noFunc, W)
  else
    let x := W.doms d
    let (rules, rc) := ruleIncrB D r x.rules
    if rc ≠ 1 then (.ok (), W.setDom d { x with rules := rules })
    else (.ok (), W.setDom d { x with rules := rules, queries := [] })

/-- `remove_mutation_rule` (419-431). -/
def removeRuleB (D : Decls) (W : World) (d : DomId) (r : Rule) : Except Err Unit × World :=
  let x := W.doms d
  match ruleDecrB D r x.rules with
  | none => (.ok (), W)
  | some (rules, rc) =>
    if rc > 0 then (.ok (), W.setDom d { x with rules := rules })
    else (.ok (), W.setDom d { x with rules := rules, queries := [] })

section
variable (S : StdSort) (D : Decls)

/-- Fourth pass for one entry (647-682). -/
def finishEntryS (pls : List Payload) : Except Err (Option FEntry) :=
  match S.sort payloadLt pls with
  | [] => .ok none
  | p :: ps =>
    if !(D.feat p.data.feat).allowClashes && hasClash (p :: ps) then .error .featureClash
    else .ok (some ⟨p :: ps, topBackLoop p 0 ps⟩)

/-- Fourth pass (643-683). -/
def finishAllS (buf : List (Option Payload)) : List (Option (Nat × Nat)) → Except Err (List (Option FEntry))
  | [] => .ok []
  | e :: es =>
    match finishEntryS S D (entryPayloads buf e) with
    | .error err => .error err
    | .ok fe =>
      match finishAllS buf es with
      | .error err => .error err
      | .ok fes => .ok (fe :: fes)

/-- `ftable_build_helper` (549-686). -/
def buildFtableS (fid : Feat → Option Nat) (ms : List Mix) : Except Err (List (Option FEntry)) :=
  let stream := featStream D 0 ms
  let size := ftableSize fid stream
  match ftableCounts fid stream (List.replicate size 0) with
  | none => .error .ub
  | some counts =>
    match ftableFill fid counts ⟨List.replicate size none, 0, List.replicate stream.length none⟩ stream with
    | none => .error .ub
    | some s => finishAllS S D s.buf s.entries

/-- `create_type` up to the final lock (689-815). -/
def buildTypeS (W : World) (d : DomId) (tid : TypeId) (ms : List Mix) : Except Err TypeRec :=
  match checkMixins W.mixId W.mixDom d ms with
  | .error e => .error e
  | .ok () =>
    match buildFtableS S D W.featId ms with
    | .error e => .error e
    | .ok ft => .ok ⟨tid, d, ms, layout (ms.map D.mix), sparseTable (ms.filterMap W.mixId), ft⟩

/-- A rule's function; that of rule 0 is `sort_by_canonical_order` (54-58). -/
def ruleFnS (v : ElemView) (r : Rule) : RuleFn :=
  if r = 0 then fun ms => .ok (S.sort (canonicalOrder D v.ids) ms) else ruleFn D v r

/-- The rules in force, in order. -/
def rulesOfS (v : ElemView) (x : Dom) : List RuleFn := x.rules.map (fun e => ruleFnS S D v e.1)

/-- The part of `get_type(type_mutation&)` under the shared lock (495-515). -/
def lookupSectionS (v : ElemView) (x : Dom) (q : List Mix) : Lookup :=
  match findQuery q x.queries with
  | some t => .hit t
  | none =>
    match (applyMutationRules D (rulesOfS S D v x) q).result with
    | .error e => .failed e
    | .ok (key, ms) => .resolved key ms (if ms.isEmpty then some emptyTid else (findType ms x.types).map (·.tid))

/-- `get_type(type_mutation&)` (489-531). -/
def getTypeMutS (W : World) (d md : DomId) (q : List Mix) : Except Err TypeId × World :=
  if md ≠ d then (.error .foreignMutation, W)
  else
    let x := W.doms d
    match lookupSectionS S D (W.view D d) x q with
    | .hit t => (.ok t, W)
    | .failed e => (.error e, W)
    | .resolved key _ (some t) => (.ok t, W.setDom d { x with queries := storeQuery key t x.queries })
    | .resolved key ms none =>
      match buildTypeS S D W d W.nextType ms with
      | .error e => (.error e, W)
      | .ok t =>
        let (r, x') := emplaceSection x key t
        (.ok r, { W.setDom d x' with nextType := W.nextType + 1 })

/-- `get_type(span)` (533-547). -/
def getTypeS (W : World) (d : DomId) (q : List Mix) : Except Err TypeId × World :=
  match findQuery q (W.doms d).queries with
  | some t => (.ok t, W)
  | none => getTypeMutS S D W d d q

/-- One call; those that neither sort nor search are as in `step`. -/
def stepS (W : World) : Op → Except Err Unit × World
  | .addRule d r => addRuleB D W d r
  | .removeRule d r => removeRuleB D W d r
  | .getTypeMut d md q => discard (getTypeMutS S D W d md q)
  | .getType d q => discard (getTypeS S D W d q)
  | op => step D W op

/-- Calls one after the other. -/
def runS : World → List Op → World
  | W, [] => W
  | W, op :: ops => runS (stepS S D W op).2 ops

/-- The filter and sort of `mutate_to` (mutate_to.hpp 33-45). -/
def sortedOpsS (E : TyEnv) (t : TypeId) (ops : List InitOp) : List (Nat × Nat) :=
  S.sort (fun a b => decide (a.1 < b.1)) (ops.filterMap (fun (m, k) => (E.indexOf t m).map (fun i => (i, k))))

end

end Dnmx
