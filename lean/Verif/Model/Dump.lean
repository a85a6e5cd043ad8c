import Verif.Model.Traverse

/-!
# Debug output

Model of code/dynamix/dbg_dmp.cpp: the text as lines of tokens. The locks that it takes are in `Verif.Model.Locks`.

Simplifications: lists of mixins are one token (their characters are those of `outputMixins` in `Verif.Model.Messages`, the code is the same), addresses and function pointers are
tokens as well, fields which are not modelled (user data, classes, context, allocator) are opaque tokens. `std::endl` and streams do not fail.
-/

namespace Dnmx

inductive Tok
  | lit (s : String)
  | name (s : List UInt8)
  | comp (ms : List (List UInt8))
  | num (n : Int)
  | flag (b : Bool)
  /-- an address -/
  | addr (a : Nat)
  /-- a function pointer, null (`none`) or not -/
  | fn (isSet : Bool)
  | opaque (what : String)
deriving DecidableEq, Repr

/-- One line of the text. Lines that begin with `NIND` (33) begin with two blanks. -/
abbrev Line := List Tok

/-- The flags of dbg_dmp.hpp 14-44. -/
structure DmpFlags where
  features : Bool := true
  mixins : Bool := true
  rules : Bool := true
  classes : Bool := true
  types : Bool := true
  queries : Bool := true
  settings : Bool := true
  mixinEx : Bool := true
  mixinFeats : Bool := true
  typeEx : Bool := true
  ftable : Bool := true
  fullFtable : Bool := true
  matchingClasses : Bool := true
  matchingQueries : Bool := true
  matchingTypes : Bool := true
deriving DecidableEq, Repr

/-- The bits of the flags (dbg_dmp.hpp 15-37). -/
def DmpFlags.ofBits (b : Nat) : DmpFlags where
  features := b.testBit 0
  mixins := b.testBit 1
  rules := b.testBit 2
  classes := b.testBit 3
  types := b.testBit 4
  queries := b.testBit 5
  settings := b.testBit 6
  mixinEx := b.testBit 8
  mixinFeats := b.testBit 9
  typeEx := b.testBit 12
  ftable := b.testBit 13
  fullFtable := b.testBit 14
  matchingClasses := b.testBit 15
  matchingQueries := b.testBit 16
  matchingTypes := b.testBit 20

section
/- `N`: the names of domains, `none` for destroyed ones. `num`: the object counts of types. -/
variable (D : Decls) (N : DomId → Option (List UInt8)) (num : TypeId → Nat)

/-- `NIND` (dbg_dmp.cpp 33). -/
def nind (l : Line) : Line := .lit "  " :: l

/-- `output_mixins` (dbg_dmp.cpp 35-48). -/
def dmpMixins (ms : List Mix) : Tok := .comp (ms.map D.mixName)

/-- One payload in the full table (dbg_dmp.cpp 77-79). `none`: there is no such mixin, undefined. -/
def dmpPayload (t : TypeRec) (p : Payload) : Option Line :=
  (t.mixins[p.mixinIndex]?).map (fun m =>
    nind [.lit "    '", .name (D.mixName m), .lit "': ", .addr p.data.payload, .lit " with ", .num p.data.bid, .lit "_bid ", .num p.data.priority, .lit "_prio"])

/-- The payloads of one entry (dbg_dmp.cpp 76-80). -/
def dmpFull (fl : DmpFlags) (t : TypeRec) (ps : List Payload) : Option (List Line) := if fl.fullFtable then ps.mapM (dmpPayload D t) else some []

/-- One entry of the table (dbg_dmp.cpp 74-80). -/
def dmpEntry (fl : DmpFlags) (t : TypeRec) (e : FEntry) : Option (List Line) :=
  match e.pls with
  | [] => none
  | p :: ps => do
    let full ← dmpFull D fl t (p :: ps)
    some (nind [.lit "  impl: '", .name (D.featName p.data.feat), .lit "' ", .num (e.topBack + 1), .lit "/", .num (p :: ps).length] :: full)

/-- The loop over the table (dbg_dmp.cpp 73-81). -/
def dmpEntries (fl : DmpFlags) (t : TypeRec) : List (Option FEntry) → Option (List Line)
  | [] => some []
  | none :: es => dmpEntries fl t es
  | some e :: es => do
    let l ← dmpEntry D fl t e
    let ls ← dmpEntries fl t es
    some (l ++ ls)

/-- Matching queries of a type (dbg_dmp.cpp 83-94). -/
def dmpMatchingQueries (W : World) (d : DomId) (t : TypeRec) : List Line :=
  nind [.num ((traverseQueries W d).countP (fun q => q.2 == t.tid)), .lit " matching queries:"] ::
    ((traverseQueries W d).filter (fun q => q.2 == t.tid)).map (fun q => nind [.lit "  ", dmpMixins D q.1])

/-- The loop over type classes (dbg_dmp.cpp 97-100). `none`: a call through null. -/
def dmpClassNames (t : TypeRec) : List Cls → Option (List Line)
  | [] => some []
  | c :: cs =>
    if (D.cls c).isNull then none
    else do
      let ls ← dmpClassNames t cs
      some (if (D.cls c).matchesT t.mixins then nind [.lit "  ", .name (D.clsName c)] :: ls else ls)

/-- The number of implemented features (dbg_dmp.cpp 55-57). -/
def dmpNumFeatures (t : TypeRec) : Nat := (t.ftable.filter Option.isSome).length

/-- Sizes and traits of a type (dbg_dmp.cpp 59-70). -/
def dmpTypeEx (fl : DmpFlags) (t : TypeRec) : List Line :=
  if fl.typeEx then
    [nind [.lit "size: ", .opaque "buf_size"],
     nind [.lit "obj buf size: ", .num t.layout.size],
     nind [.lit "obj buf align: ", .num t.layout.align],
     nind [.lit "num obj: ", .num (num t.tid)],
     nind [.lit "default_constructible: ", .flag (t.defaultConstructible D)],
     nind [.lit "copy_constructible: ", .flag (t.copyConstructible D)],
     nind [.lit "copy_assignable: ", .flag (t.copyAssignable D)],
     nind [.lit "equality_comparable: ", .flag (t.equalityComparable D)],
     nind [.lit "comparable: ", .flag (t.comparable D)],
     nind [.lit "features: ", .num (dmpNumFeatures t), .lit "/", .num t.ftable.length]]
  else []

/-- The feature table of a type (dbg_dmp.cpp 71-82). -/
def dmpFtable (fl : DmpFlags) (t : TypeRec) : Option (List Line) :=
  if fl.ftable then (dmpEntries D fl t t.ftable).map (fun ls => nind [.num (dmpNumFeatures t), .lit " features:"] :: ls) else some []

/-- dbg_dmp.cpp 83-94 -/
def dmpTypeQueries (fl : DmpFlags) (W : World) (t : TypeRec) : Option DomId → List Line
  | some d => if fl.matchingQueries then dmpMatchingQueries D W d t else []
  | none => []

/-- dbg_dmp.cpp 95-101 -/
def dmpTypeClasses (fl : DmpFlags) (W : World) (t : TypeRec) : Option DomId → Option (List Line)
  | some d => if fl.matchingClasses then (dmpClassNames D t (traverseClasses W d)).map (fun ls => nind [.lit "matching type classes:"] :: ls) else some []
  | none => some []

/-- `dbg_dmp_l` for types (dbg_dmp.cpp 50-102) with a `domain_traverse` of domain `tr` if there is one. -/
def dmpType (fl : DmpFlags) (W : World) (t : TypeRec) (tr : Option DomId) : Option (List Line) := do
  let dn ← N t.dom
  let ft ← dmpFtable D fl t
  let cs ← dmpTypeClasses D fl W t tr
  some ([.lit "type: ", dmpMixins D t.mixins, .lit " (", .addr t.tid, .lit ") ('", .name dn, .lit "')"] ::
    (dmpTypeEx D num fl t ++ ft ++ dmpTypeQueries D fl W t tr ++ cs))

/-- `dbg_dmp` of a type (dbg_dmp.cpp 284-292). -/
def dmpTypeAlone (fl : DmpFlags) (W : World) (t : TypeRec) : Option (List Line) :=
  dmpType D N num fl W t (if fl.matchingClasses || fl.matchingQueries then some t.dom else none)

/-- One type in `dbg_dmp_l` for type classes (dbg_dmp.cpp 108-110), on the line of the class: `dbg_dmp(out, t, 0)` is one line and there is no line break. -/
def dmpMatchingType (W : World) (c : Cls) (t : TypeRec) : Option (List Tok) :=
  if (D.cls c).matchesT t.mixins then (dmpTypeAlone D N num (.ofBits 0) W t).map (fun ls => .lit "match " :: ls.flatten) else some []

/-- The loop over types in `dbg_dmp_l` for type classes (dbg_dmp.cpp 107-111). -/
def dmpMatchingTypes (W : World) (c : Cls) : List TypeRec → Option (List Tok)
  | [] => some []
  | t :: ts => do
    let x ← dmpMatchingType D N num W c t
    let xs ← dmpMatchingTypes W c ts
    some (x ++ xs)

/-- dbg_dmp.cpp 106-112 -/
def dmpClassTypes (fl : DmpFlags) (W : World) (c : Cls) : Option DomId → Option (List Tok)
  | some d => if !(D.cls c).isNull && fl.matchingTypes then dmpMatchingTypes D N num W c (W.doms d).types else some []
  | none => some []

/-- `dbg_dmp_l` for type classes (dbg_dmp.cpp 104-113). -/
def dmpClassIn (fl : DmpFlags) (W : World) (c : Cls) (tr : Option DomId) : Option Line :=
  (dmpClassTypes D N num fl W c tr).map (fun ts => [.lit "type class: '", .name (D.clsName c), .lit ", match: ", .fn (!(D.cls c).isNull)] ++ ts)

/-- `dbg_dmp` of a type class (dbg_dmp.cpp 294-296): no `domain_traverse`. -/
def dmpClass (fl : DmpFlags) (W : World) (c : Cls) : Option Line := dmpClassIn D N num fl W c none

/-- `dbg_dmp` of a feature (dbg_dmp.cpp 266-277). -/
def dmpFeature (W : World) (f : Feat) : Line :=
  [.lit "feature: '", .name (D.featName f), .lit "', "] ++
  (match W.featId f with
    | none => [.lit "unregistered"]
    | some i => [.lit "id: ", .num i]) ++
  [.lit ", allow clashes: ", .flag (D.feat f).allowClashes, .lit ", class: ", .opaque "class", .lit ", default payload: ", .fn (D.feat f).defaultPayload.isSome]

/-- dbg_dmp.cpp 222-227. `none`: the domain is destroyed. -/
def dmpMixinReg (W : World) (m : Mix) : Option (List Tok) :=
  match W.mixId m with
  | none => some [.lit "unregistered"]
  | some i => (W.mixDom m).bind (fun d => (N d).map (fun dn => [.lit "id: ", .num i, .lit " ('", .name dn, .lit "')"]))

/-- dbg_dmp.cpp 237-256 -/
def dmpMixinEx (fl : DmpFlags) (x : MixDecl) : List Line :=
  if fl.mixinEx then
    [nind [.lit "size: ", .num x.size], nind [.lit "alignment: ", .num x.align], nind [.lit "obj_buf_size: ", .num x.objBufSize], nind [.lit "obj_buf_align: ", .num x.objBufOffset],
     nind [.lit "init: ", .fn x.hasInit], nind [.lit "copy_init: ", .fn x.hasCopyInit], nind [.lit "move_init: ", .fn x.hasMoveInit], nind [.lit "copy_asgn: ", .fn x.hasCopyAsgn],
     nind [.lit "move_asgn: ", .fn x.hasMoveAsgn], nind [.lit "destroy: ", .fn x.hasDestroy], nind [.lit "equals: ", .fn x.hasEquals], nind [.lit "compare: ", .fn x.hasCompare],
     nind [.lit "allocator: ", .fn x.hasAllocator], nind [.lit "class: ", .opaque "class"], nind [.lit "type_info_class: ", .opaque "type_info_class"],
     nind [.lit "user_data: ", .opaque "user_data"], nind [.lit "order_priority: ", .num x.orderPriority], nind [.lit "force_external: ", .flag x.forceExternal]]
  else []

/-- dbg_dmp.cpp 257-263 -/
def dmpMixinFeatures (fl : DmpFlags) (x : MixDecl) : List Line :=
  if fl.mixinFeats then
    nind [.num x.feats.length, .lit " features:"] ::
      x.feats.map (fun f => nind [.lit "  '", .name (D.featName f.feat), .lit "': ", .addr f.payload, .lit " ", .num f.bid, .lit "_bid ", .num f.priority, .lit "_prio"])
  else []

/-- `dbg_dmp` of a mixin (dbg_dmp.cpp 216-264). -/
def dmpMixin (fl : DmpFlags) (W : World) (m : Mix) : Option (List Line) := do
  let reg ← dmpMixinReg N W m
  some (((if (D.mix m).dependency then [Tok.lit "dep-"] else []) ++ .lit "mixin: '" :: .name (D.mixName m) :: .lit "', " :: (reg ++
    [.lit ", ", .lit (if (D.mix m).external then "external" else "internal"), .lit ", ", .num (D.mix m).feats.length, .lit " features"])) ::
    (dmpMixinEx fl (D.mix m) ++ dmpMixinFeatures D fl (D.mix m)))

/-- `dbg_dmp` of a rule (dbg_dmp.cpp 279-282). -/
def dmpRule (r : Rule) : Line :=
  [.lit "rule: '", .name ((ruleOf D r).name.chars D.mem), .lit "', prio: ", .num (ruleOf D r).orderPriority, .lit ", ud: ", .opaque "user_data", .lit ", apply: ", .fn (ruleOf D r).apply.isSome]

/-- `iid()` of an id; the invalid id is the greatest. -/
def iidOf (i : Option Nat) : Nat := i.getD 4294967295

/-- The line about empty slots (dbg_dmp.cpp 153-155, 170-172). -/
def dmpGap (id next : Nat) : List Line := if id ≠ next then [[.num ((id : Int) - next), .lit " empty slots"]] else []

/-- The loop over features (dbg_dmp.cpp 151-161). -/
def dmpFeatures (W : World) : Nat → List Feat → List Line
  | _, [] => []
  | next, f :: fs => dmpGap (iidOf (W.featId f)) next ++ dmpFeature D W f :: dmpFeatures W (iidOf (W.featId f) + 1) fs

/-- The loop over mixins (dbg_dmp.cpp 168-178). -/
def dmpMixinList (fl : DmpFlags) (W : World) : Nat → List Mix → Option (List Line)
  | _, [] => some []
  | next, m :: ms => do
    let l ← dmpMixin D N fl W m
    let ls ← dmpMixinList fl W (iidOf (W.mixId m) + 1) ms
    some (dmpGap (iidOf (W.mixId m)) next ++ l ++ ls)

/-- The loop over types (dbg_dmp.cpp 189-192). -/
def dmpTypes (fl : DmpFlags) (W : World) (d : DomId) : List TypeRec → Option (List Line)
  | [] => some []
  | t :: ts => do
    let l ← dmpType D N num fl W t (some d)
    let ls ← dmpTypes fl W d ts
    some (l ++ ls)

/-- The loop over queries (dbg_dmp.cpp 206-212). `none`: the type is gone. -/
def dmpQueries (W : World) (d : DomId) : List (List Mix × TypeId) → Option (List Line)
  | [] => some []
  | (q, t) :: qs => do
    let r ← (W.doms d).typeAt d t
    let ls ← dmpQueries W d qs
    some ([.lit "tq: ", dmpMixins D q, .lit " -> type: ", dmpMixins D r.mixins] :: ls)

/-- A section with its title. -/
def dmpSection (count : Nat) (title : String) (body : List Line) : List Line := [.lit "## ", .num count, .lit title] :: body

/-- dbg_dmp.cpp 138-145 -/
def dmpSettings (fl : DmpFlags) (s : Settings) : List Line :=
  if fl.settings then
    [[.lit "## Settings"], nind [.lit "canonicalize_types: ", .flag s.canonicalize], nind [.lit "allow_duplicate_feature_names: ", .flag s.allowDupFeat],
     nind [.lit "allow_duplicate_mixin_names: ", .flag s.allowDupMix]]
  else []

/-- dbg_dmp.cpp 146-162 -/
def dmpFeaturesSection (fl : DmpFlags) (W : World) (d : DomId) : List Line :=
  if fl.features then dmpSection (traverseFeatures W d).length " Features" (dmpFeatures D W 0 (traverseFeatures W d)) else []

/-- dbg_dmp.cpp 163-179 -/
def dmpMixinsSection (fl : DmpFlags) (W : World) (d : DomId) : Option (List Line) :=
  if fl.mixins then (dmpMixinList D N fl W 0 (traverseMixins W d)).map (dmpSection (traverseMixins W d).length " Mixins") else some []

/-- dbg_dmp.cpp 180-186 -/
def dmpRulesSection (fl : DmpFlags) (W : World) (d : DomId) : List Line :=
  if fl.rules then
    dmpSection (numMutationRules W d) " Mutation Rules" ((traverseRules W d).map (fun r => dmpRule D r.1 ++ [.lit ", ", .num r.2, .lit " refs"]))
  else []

/-- dbg_dmp.cpp 187-193 -/
def dmpTypesSection (fl : DmpFlags) (W : World) (d : DomId) : Option (List Line) :=
  if fl.types then (dmpTypes D N num fl W d (W.doms d).types).map (dmpSection (numTypes W d) " Types") else some []

/-- dbg_dmp.cpp 194-203 -/
def dmpClassesSection (fl : DmpFlags) (W : World) (d : DomId) : Option (List Line) :=
  if fl.classes then ((traverseClasses W d).mapM (dmpClass D N num fl W)).map (dmpSection (traverseClasses W d).length " Type Classes") else some []

/-- dbg_dmp.cpp 204-213 -/
def dmpQueriesSection (fl : DmpFlags) (W : World) (d : DomId) : Option (List Line) :=
  if fl.queries then (dmpQueries D W d (traverseQueries W d)).map (dmpSection (numTypeQueries W d) " Type Queries") else some []

/-- `dbg_dmp` of a domain (dbg_dmp.cpp 116-214). -/
def dmpDomain (fl : DmpFlags) (W : World) (d : DomId) : Option (List Line) := do
  let dn ← N d
  let mixins ← dmpMixinsSection D N fl W d
  let types ← dmpTypesSection D N num fl W d
  let classes ← dmpClassesSection D N num fl W d
  let queries ← dmpQueriesSection D fl W d
  some ([.lit "domain: '", .name dn, .lit "' (", .addr d, .lit "), ud: ", .opaque "user_data", .lit ", ctx : ", .opaque "context", .lit ", alloc: ", .opaque "allocator"] ::
    (dmpSettings fl (W.doms d).settings ++ (dmpFeaturesSection D fl W d ++ (mixins ++ (dmpRulesSection D fl W d ++ (types ++ (classes ++ (queries ++ []))))))))

end

end Dnmx
