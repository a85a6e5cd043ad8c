import Verif.Props.System
import Verif.Props.Order
import Verif.Proofs.LookupLemmas

/-!
# Comparison of objects (C43), traits of types (C52), access to mixins (C60)

The theorems are about all states that programs can reach (`Reachable`).

Full statement of C43: with lawful mixin functions `equals` is an equivalence, and `compare` is an order on all objects for which it does not fail. The first is proved;
the second is false if the names of two mixins begin at the same address and have different lengths (`C43_order_of_types_refuted`), and proved otherwise.
-/

set_option linter.unusedVariables false

namespace Dnmx.Props
open Spec

/-! ## An example

Mixin 1 has both functions, 2 only `equals`, 3 only `compare`, 4 has none of them. 5 cannot be made by default and 6 cannot be copied. Values are the same up to a multiple of 4. -/

def cmpDecls : Decls where
  mem := fun a => UInt8.ofNat a
  mix := fun m => { name := ⟨m, m + 1⟩, size := 8, align := 8, hasInit := m ≠ 5, hasCopyInit := m ≠ 6, hasCopyAsgn := m ≠ 6, hasEquals := m ≠ 3 ∧ m ≠ 4, hasCompare := m ≠ 2 ∧ m ≠ 4 }
  feat := fun f => { name := ⟨f, f + 1⟩ }
  userRule := fun _ => ⟨⟨0, 0⟩, none, 0⟩
  cls := fun _ => ⟨⟨0, 0⟩, false, fun _ => true⟩

def cmpFns : CmpFns := ⟨fun _ v w => v / 4 == w / 4, fun _ v w => (v / 4 : Nat) - (w / 4 : Nat)⟩

theorem cmpFns_lawful : Lawful cmpDecls cmpFns := by
  refine ⟨?_, ?_, ?_, ?_, ?_⟩ <;> intros <;> simp only [cmpFns, beq_iff_eq] at * <;> omega

def cmpProg : List SOp :=
  [.dom (.regMixin 0 1), .dom (.regMixin 0 2), .dom (.regMixin 0 3), .dom (.regMixin 0 4), .dom (.regMixin 0 5), .dom (.regMixin 0 6),
   .dom (.getType 0 [1, 3]), .dom (.getType 0 [1, 2]), .dom (.getType 0 [1, 4]), .dom (.getType 0 [1, 5]), .dom (.getType 0 [6, 1]),
   .obj false (.newOfType 1 0 false), .obj false (.newOfType 1 0 false), .obj false (.newOfType 2 0 false), .obj false (.newOfType 3 0 false), .obj false (.newOfType 5 0 false),
   .obj false (.copy 0 0), .obj false (.copy 2 0), .obj false (.copy 3 0)]

def cmpSys : Sys := (srun cmpDecls objOrc 0 cmpProg ⟨initWorld fun _ => {}, {}⟩).getD ⟨initWorld fun _ => {}, {}⟩

theorem cmpSys_reachable : Reachable cmpDecls objOrc 0 cmpSys := by
  refine ⟨fun _ => {}, cmpProg, by decide +kernel, ?_⟩
  have h2 : (srun cmpDecls objOrc 0 cmpProg ⟨initWorld fun _ => {}, {}⟩).isSome = true := by decide +kernel
  unfold cmpSys
  obtain ⟨x, hx⟩ := Option.isSome_iff_exists.1 h2
  rw [hx]; rfl

/-! ## C43: equality -/

/-- C43: `equals` is defined for all objects and means: the same object, or objects of the same type whose mixins are all the same by their functions (and have such functions). -/
theorem C43_equals_meaning (D : Decls) (orc : Orc) (d : DomId) (F : CmpFns) (S : Sys) (hS : Reachable D orc d S) (o o' : Nat) (ob ob' : Obj) (ho : S.h.obj? o = some ob) (ho' : S.h.obj? o' = some ob') :
    ∃ b, objEquals D (TyEnv.ofWorld S.W d) F S.h o o' = some b ∧ (b = true ↔ ObjectsEqual D (TyEnv.ofWorld S.W d) F S.h o o') :=
  have hi := reachable_inv hS
  objEquals_iff (ofWorld_nodup hi.types) hi.good.1 hi.good.2 ho ho'

/-- C43: `equals` is an equivalence. -/
theorem C43_equals_equivalence (D : Decls) (orc : Orc) (d : DomId) (F : CmpFns) (hL : Lawful D F) (S : Sys) (hS : Reachable D orc d S) :
    (∀ o, S.h.obj? o ≠ none → objEquals D (TyEnv.ofWorld S.W d) F S.h o o = some true) ∧
    (∀ o o', objEquals D (TyEnv.ofWorld S.W d) F S.h o o' = some true → objEquals D (TyEnv.ofWorld S.W d) F S.h o' o = some true) ∧
    ∀ o o' o'', objEquals D (TyEnv.ofWorld S.W d) F S.h o o' = some true → objEquals D (TyEnv.ofWorld S.W d) F S.h o' o'' = some true →
      objEquals D (TyEnv.ofWorld S.W d) F S.h o o'' = some true := by
  have hi := reachable_inv hS
  have hn := ofWorld_nodup hi.types
  have hobj : ∀ o o', objEquals D (TyEnv.ofWorld S.W d) F S.h o o' = some true → ∃ ob ob', S.h.obj? o = some ob ∧ S.h.obj? o' = some ob' := by
    intro o o' h
    unfold objEquals at h
    split at h
    · rename_i ob ob' h1 h2; exact ⟨ob, ob', h1, h2⟩
    · simp at h
  have hiff : ∀ o o' ob ob', S.h.obj? o = some ob → S.h.obj? o' = some ob' →
      (objEquals D (TyEnv.ofWorld S.W d) F S.h o o' = some true ↔ ObjectsEqual D (TyEnv.ofWorld S.W d) F S.h o o') := by
    intro o o' ob ob' h1 h2
    obtain ⟨b, h3, h4⟩ := objEquals_iff (F := F) hn hi.good.1 hi.good.2 h1 h2
    rw [h3, ← h4]; simp
  refine ⟨?_, ?_, ?_⟩
  · intro o h
    cases ho : S.h.obj? o with
    | none => exact absurd ho h
    | some ob => exact (hiff o o ob ob ho ho).2 (.inl rfl)
  · intro o o' h
    obtain ⟨ob, ob', h1, h2⟩ := hobj o o' h
    exact (hiff o' o ob' ob h2 h1).2 (objectsEqual_symm hn hL ((hiff o o' ob ob' h1 h2).1 h))
  · intro o o' o'' h h'
    obtain ⟨ob, ob', h1, h2⟩ := hobj o o' h
    obtain ⟨-, ob'', -, h3⟩ := hobj o' o'' h'
    exact (hiff o o'' ob ob'' h1 h3).2 (objectsEqual_trans hn hL hi.good.1 hi.good.2 h2 ((hiff o o' ob ob' h1 h2).1 h) ((hiff o' o'' ob' ob'' h2 h3).1 h'))

-- an object and its copy; different values; the mixin without functions
example : objEquals cmpDecls (TyEnv.ofWorld cmpSys.W 0) cmpFns cmpSys.h 0 5 = some true ∧ objEquals cmpDecls (TyEnv.ofWorld cmpSys.W 0) cmpFns cmpSys.h 0 1 = some false ∧
    objEquals cmpDecls (TyEnv.ofWorld cmpSys.W 0) cmpFns cmpSys.h 2 6 = some true ∧ objEquals cmpDecls (TyEnv.ofWorld cmpSys.W 0) cmpFns cmpSys.h 3 7 = some false ∧
    objEquals cmpDecls (TyEnv.ofWorld cmpSys.W 0) cmpFns cmpSys.h 0 2 = some false ∧ objEquals cmpDecls (TyEnv.ofWorld cmpSys.W 0) cmpFns cmpSys.h 3 3 = some true :=
  ⟨by decide +kernel, by decide +kernel, by decide +kernel, by decide +kernel, by decide +kernel, by decide +kernel⟩

/-! ## C43: order -/

/-- C43: `compare` is defined for all objects, and its result is one of those of `Comparison`. -/
theorem C43_compare_meaning (D : Decls) (orc : Orc) (d : DomId) (F : CmpFns) (addr : DomId → Nat) (S : Sys) (hS : Reachable D orc d S) (o o' : Nat) (ob ob' : Obj)
    (ho : S.h.obj? o = some ob) (ho' : S.h.obj? o' = some ob') :
    ∃ r, objCompare D F addr d S o o' = some r ∧ Comparison D F d S o o' ob ob' r :=
  objCompare_meaning (reachable_inv hS) addr ho ho'

-- all cases: same, types, differ, tie, missing
example : objCompare cmpDecls cmpFns (fun d => d) 0 cmpSys 0 0 = some (.ok 0) ∧ objCompare cmpDecls cmpFns (fun d => d) 0 cmpSys 0 2 = some (.ok 1) ∧
    objCompare cmpDecls cmpFns (fun d => d) 0 cmpSys 1 0 = some (.ok 1) ∧ objCompare cmpDecls cmpFns (fun d => d) 0 cmpSys 0 5 = some (.ok 0) ∧
    objCompare cmpDecls cmpFns (fun d => d) 0 cmpSys 3 7 = some (.error (.missingFunc 4)) :=
  ⟨by decide +kernel, by decide +kernel, by decide +kernel, by decide +kernel, by decide +kernel⟩

/-- C43: objects that compare as 0 are equal; equal objects compare as 0, unless a mixin has no `compare` function (and then that is the error). -/
theorem C43_compare_agrees_with_equals (D : Decls) (orc : Orc) (d : DomId) (F : CmpFns) (hL : Lawful D F) (addr : DomId → Nat) (S : Sys) (hS : Reachable D orc d S) (o o' : Nat) (ob ob' : Obj)
    (ho : S.h.obj? o = some ob) (ho' : S.h.obj? o' = some ob') :
    (objCompare D F addr d S o o' = some (.ok 0) → objEquals D (TyEnv.ofWorld S.W d) F S.h o o' = some true) ∧
    (objEquals D (TyEnv.ofWorld S.W d) F S.h o o' = some true → objCompare D F addr d S o o' = some (.ok 0) ∨
      ∃ m, m ∈ ownMixins (TyEnv.ofWorld S.W d) ob ∧ (D.mix m).hasCompare = false ∧ objCompare D F addr d S o o' = some (.error (.missingFunc m))) := by
  have hi := reachable_inv hS
  obtain ⟨b, hb, hiff⟩ := C43_equals_meaning D orc d F S hS o o' ob ob' ho ho'
  obtain ⟨r, hr, hc⟩ := C43_compare_meaning D orc d F addr S hS o o' ob ob' ho ho'
  rw [hb, hr]
  have sameBy : ∀ m v w, (D.mix m).hasCompare = true → (F.cmp m v w = 0 ↔ SameBy D F m v w) := by
    intro m v w h
    unfold SameBy
    by_cases he : (D.mix m).hasEquals = true
    · rw [if_pos he]; exact (hL.agree m v w he h).symm
    · rw [if_neg he]; simp [h]
  constructor
  · intro h
    simp only [Option.some.injEq] at h ⊢
    rw [hiff]
    cases hc with
    | same e => exact .inl e
    | types t t' ms ms' c h1 h2 h3 h4 h5 h6 h7 => simp at h; omega
    | differ t k m l l' v w h1 h2 h3 h4 h5 h6 h7 h8 h9 => simp at h; exact absurd h h8
    | tie t h1 h2 h3 h4 =>
      refine .inr ⟨by simp [ho, ho', h2, h3], ?_⟩
      intro m l v l' w hv hw
      have hm := holds_mem ho h2 hv
      obtain ⟨j, hj, he⟩ := List.getElem_of_mem hm
      obtain ⟨h5, h6⟩ := h4 j m hj (by rw [List.getElem?_eq_getElem hj, he])
      exact (sameBy m v w h5).1 (h6 l v l' w hv hw)
    | missing t k m h1 h2 h3 h4 h5 h6 => simp at h
  · intro h
    simp only [Option.some.injEq] at h ⊢
    have he := hiff.1 h
    cases hc with
    | same e => left; rfl
    | types t t' ms ms' c h1 h2 h3 h4 h5 h6 h7 =>
      rcases he with he | ⟨he, -⟩
      · exact absurd he h1
      · simp [ho, ho', h2, h3] at he; exact absurd he h4
    | differ t k m l l' v w h1 h2 h3 h4 h5 h6 h7 h8 h9 =>
      rcases he with he | ⟨-, he⟩
      · exact absurd he h1
      · exact absurd ((sameBy m v w h5).2 (he m l v l' w h6 h7)) h8
    | tie t h1 h2 h3 h4 => left; rfl
    | missing t k m h1 h2 h3 h4 h5 h6 => exact .inr ⟨m, by unfold ownMixins; rw [h2]; exact List.mem_of_getElem? h4, h5, rfl⟩

-- both: a tie; equal objects with a mixin that has only `equals`
example : objCompare cmpDecls cmpFns (fun d => d) 0 cmpSys 0 5 = some (.ok 0) ∧ objEquals cmpDecls (TyEnv.ofWorld cmpSys.W 0) cmpFns cmpSys.h 2 6 = some true ∧
    objCompare cmpDecls cmpFns (fun d => d) 0 cmpSys 2 6 = some (.error (.missingFunc 2)) :=
  ⟨by decide +kernel, by decide +kernel, by decide +kernel⟩

/-- C43: `compare` is antisymmetric and transitive, and for fixed objects it always gives the same error in both directions. Missing: mixins whose names begin at the same address with
different lengths. -/
theorem C43_compare_order_partial (D : Decls) (orc : Orc) (d : DomId) (F : CmpFns) (hL : Lawful D F) (addr : DomId → Nat) (S : Sys) (hS : Reachable D orc d S) (hn : NamesProper D S.W d)
    (o o' : Nat) (ho : S.h.obj? o ≠ none) (ho' : S.h.obj? o' ≠ none) :
    (∀ e, objCompare D F addr d S o o' = some (.error e) → objCompare D F addr d S o' o = some (.error e)) ∧
    (∀ c, objCompare D F addr d S o o' = some (.ok c) → ∃ c', objCompare D F addr d S o' o = some (.ok c') ∧ (c < 0 ↔ 0 < c') ∧ (c' < 0 ↔ 0 < c)) ∧
    ∀ o'' c c', S.h.obj? o'' ≠ none → objCompare D F addr d S o o' = some (.ok c) → objCompare D F addr d S o' o'' = some (.ok c') → c ≤ 0 → c' ≤ 0 →
      ∃ c'', objCompare D F addr d S o o'' = some (.ok c'') ∧ c'' ≤ 0 ∧ (c'' = 0 → c = 0 ∧ c' = 0) := by
  have hi := reachable_inv hS
  obtain ⟨ob, h1⟩ := Option.ne_none_iff_exists'.1 ho
  obtain ⟨ob', h2⟩ := Option.ne_none_iff_exists'.1 ho'
  obtain ⟨h3, h4⟩ := objCompare_anti (F := F) hL hi hn addr h1 h2
  refine ⟨h3, h4, ?_⟩
  intro o'' c c' h5 h6 h7 h8 h9
  obtain ⟨ob'', h5⟩ := Option.ne_none_iff_exists'.1 h5
  exact objCompare_trans hL hi hn addr h1 h2 h5 h6 h7 h8 h9

theorem cmpSys_names : NamesProper cmpDecls cmpSys.W 0 :=
  ⟨by decide +kernel, fun r hr m hm r' hr' m' hm' h => by show (m + 1) - m = (m' + 1) - m'; omega⟩

-- objects of three types and two with different values in order
example : Reachable cmpDecls objOrc 0 cmpSys ∧ NamesProper cmpDecls cmpSys.W 0 ∧ Lawful cmpDecls cmpFns ∧
    objCompare cmpDecls cmpFns (fun d => d) 0 cmpSys 2 0 = some (.ok (-1)) ∧ objCompare cmpDecls cmpFns (fun d => d) 0 cmpSys 0 1 = some (.ok (-1)) ∧ objCompare cmpDecls cmpFns (fun d => d) 0 cmpSys 1 3 = some (.ok (-1)) ∧
    objCompare cmpDecls cmpFns (fun d => d) 0 cmpSys 3 2 = some (.ok 1) :=
  ⟨cmpSys_reachable, cmpSys_names, cmpFns_lawful, by decide +kernel, by decide +kernel, by decide +kernel, by decide +kernel⟩

/-- C43: `type::compare` is a total order of all types of all domains: it gives -1, 0 or 1, 0 only for the type itself, the opposite for exchanged types, and is transitive. `addr`: the
addresses of domains. Missing: names as above. -/
theorem C43_type_compare_order_partial (D : Decls) (s : DomId → Settings) (ops : List Op) (hn : ∀ d, NamesProper D (run D (initWorld s) ops) d) (addr : DomId → Nat) (ha : ∀ d d', addr d = addr d' → d = d')
    (d d' : DomId) (t t' : TypeId) (r r' : TypeRec) (hr : ((run D (initWorld s) ops).doms d).typeAt d t = some r) (hr' : ((run D (initWorld s) ops).doms d').typeAt d' t' = some r') :
    ∃ c, typeCompare D (run D (initWorld s) ops) addr d t d' t' = some c ∧ (c = -1 ∨ c = 0 ∨ c = 1) ∧ (c = 0 ↔ d = d' ∧ t = t') ∧
      typeCompare D (run D (initWorld s) ops) addr d' t' d t = some (-c) ∧
      ∀ d'' t'' c', c < 0 → typeCompare D (run D (initWorld s) ops) addr d' t' d'' t'' = some c' → c' < 0 → typeCompare D (run D (initWorld s) ops) addr d t d'' t'' = some (-1) := by
  have hi : ∀ d, TypesInv D (run D (initWorld s) ops) d := fun d => reachable_types D s ops d
  obtain ⟨c, hc⟩ := typeCompare_some (D := D) addr hr hr'
  obtain ⟨h1, h2, h3⟩ := typeCompare_anti hi hn ha hc
  refine ⟨c, hc, h3, h2, h1, ?_⟩
  intro d'' t'' c' h4 h5 h6
  obtain ⟨c'', h7, h8⟩ := typeCompare_trans hi hn ha hc h5 h4 h6
  obtain ⟨-, -, h9⟩ := typeCompare_anti hi hn ha h7
  have : c'' = -1 := by omega
  rw [h7, this]

-- types of two domains
example : let W := run cmpDecls (initWorld fun _ => {}) [.regMixin 0 1, .regMixin 0 2, .regMixin 1 3, .getType 0 [1, 2], .getType 0 [1], .getType 1 [3]]
    typeCompare cmpDecls W (fun d => d) 0 2 0 1 = some (-1) ∧ typeCompare cmpDecls W (fun d => d) 0 1 1 3 = some (-1) ∧ typeCompare cmpDecls W (fun d => d) 0 0 0 2 = some (-1) ∧
    ((W.doms 1).typeAt 1 3).map (·.mixins) = some [3] := by decide +kernel

/-- C43 is false without the condition on names: three types that form a cycle, so that no arrangement of them is sorted. -/
theorem C43_order_of_types_refuted :
    let W := run exDecls (initWorld fun _ => {}) [.regMixin 0 1, .regMixin 0 0, .regMixin 0 2, .getType 0 [1], .getType 0 [0], .getType 0 [2]]
    (∀ m, m < 3 → (exDecls.mix m).name.Valid) ∧ (typesOf W 0).map (fun r => (r.tid, r.mixins)) = [(1, [1]), (2, [0]), (3, [2])] ∧
    typeCompare exDecls W (fun d => d) 0 1 0 2 = some (-1) ∧ typeCompare exDecls W (fun d => d) 0 2 0 3 = some (-1) ∧ typeCompare exDecls W (fun d => d) 0 3 0 1 = some (-1) := by
  refine ⟨by decide, by decide +kernel, by decide +kernel, by decide +kernel, by decide +kernel⟩

/-! ## C52 -/

theorem all_false {α : Type} {p : α → Bool} : ∀ {l : List α}, l.all p = false → ∃ x ∈ l, p x = false
  | [], h => by simp at h
  | x :: l, h => by
    simp only [List.all_cons, Bool.and_eq_false_iff] at h
    rcases h with h | h
    · exact ⟨x, by simp, h⟩
    · obtain ⟨y, h1, h2⟩ := all_false h; exact ⟨y, by simp [h1], h2⟩

/-- C52: a type is `default_constructible` exactly if making an object of it does not fail for lack of a function: if it is, making an object never fails for this reason, and succeeds if
nothing else fails; if it is not, making an object never succeeds, and fails for this reason if nothing else fails before. -/
theorem C52_default_constructible (D : Decls) (orc : Orc) (d : DomId) (S : Sys) (hS : Reachable D orc d S) (hf : TypesFit D S.W d) (t : TypeId) (r : TypeRec) (hr : (S.W.doms d).typeAt d t = some r)
    (orc' : Orc) (al : Nat) (sd : Bool) :
    (r.defaultConstructible D = true → (∀ h' m, newOfType D (TyEnv.ofWorld S.W d) orc' false S.h t al sd ≠ .throw h' (.missingFunc m)) ∧
      ((∀ n, orc'.fail n = false) → ∃ h', newOfType D (TyEnv.ofWorld S.W d) orc' false S.h t al sd = .ok h')) ∧
    (r.defaultConstructible D = false → (∀ h', newOfType D (TyEnv.ofWorld S.W d) orc' false S.h t al sd ≠ .ok h') ∧
      ((∀ n, orc'.fail n = false) → ∃ h' m, newOfType D (TyEnv.ofWorld S.W d) orc' false S.h t al sd = .throw h' (.missingFunc m) ∧ m ∈ r.mixins ∧ (D.mix m).hasInit = false)) := by
  have hi := reachable_inv hS
  have hE := ofWorld_ok hi.reg hi.types hf
  have hm := ofWorld_mixins hr
  have hends := newOfType_ends (D := D) (E := TyEnv.ofWorld S.W d) (orc := orc') false S.h t al sd
  have hgood := good_newOfType (orc := orc') hE hi.good t al sd
  have herr : ∀ h' e, newOfType D (TyEnv.ofWorld S.W d) orc' false S.h t al sd = .throw h' e → (∀ n, orc'.fail n = false) → ∃ m, e = .missingFunc m ∧ m ∈ r.mixins ∧ (D.mix m).hasInit = false := by
    intro h' e he hn
    rw [he] at hends
    have hends : ErrOf D (TyEnv.ofWorld S.W d) orc' False t .dflt e := hends
    cases e with
    | missingFunc m => rw [ErrOf, hm] at hends; exact ⟨m, rfl, hends⟩
    | user n => have h1 : orc'.fail n = true := hends; rw [hn] at h1; simp at h1
    | badAlloc => obtain ⟨n, h1⟩ := hends; rw [hn] at h1; simp at h1
    | isSealed => exact hends.elim
    | outOfOrder => exact hends.elim
    | allocMismatch => exact hends.elim
    | outside => exact hends.elim
  constructor
  · intro hc
    have hall : ∀ m ∈ r.mixins, (D.mix m).hasInit = true := by simpa [TypeRec.defaultConstructible] using hc
    constructor
    · intro h' m he
      rw [he] at hends
      have hends : m ∈ (TyEnv.ofWorld S.W d).mixins t ∧ (D.mix m).hasInit = false := hends
      rw [hm] at hends
      rw [hall m hends.1] at hends; simp at hends
    · intro hn
      cases he : newOfType D (TyEnv.ofWorld S.W d) orc' false S.h t al sd with
      | ok h' => exact ⟨h', rfl⟩
      | ub => rw [he] at hgood; exact hgood.elim
      | throw h' e =>
        obtain ⟨m, -, h1, h2⟩ := herr h' e he hn
        rw [hall m h1] at h2; simp at h2
  · intro hc
    obtain ⟨m, h1, h2⟩ := all_false hc
    have hno : ∀ h', newOfType D (TyEnv.ofWorld S.W d) orc' false S.h t al sd ≠ .ok h' := by
      intro h' he
      have := newOfType_inits hE hi.good hi.log he m (by rw [hm]; exact h1)
      rw [h2] at this; simp at this
    refine ⟨hno, fun hn => ?_⟩
    cases he : newOfType D (TyEnv.ofWorld S.W d) orc' false S.h t al sd with
    | ok h' => exact absurd he (hno h')
    | ub => rw [he] at hgood; exact hgood.elim
    | throw h' e =>
      obtain ⟨m, rfl, h3, h4⟩ := herr h' e he hn
      exact ⟨h', m, rfl, h3, h4⟩

example : TypesFit cmpDecls cmpSys.W 0 ∧ ((cmpSys.W.doms 0).typeAt 0 4).map (·.defaultConstructible cmpDecls) = some false ∧ ((cmpSys.W.doms 0).typeAt 0 5).map (·.defaultConstructible cmpDecls) = some true ∧
    threw (newOfType cmpDecls (TyEnv.ofWorld cmpSys.W 0) objOrc false cmpSys.h 4 0 false) = some (.missingFunc 5) ∧
    finished (newOfType cmpDecls (TyEnv.ofWorld cmpSys.W 0) objOrc false cmpSys.h 5 0 false) = true :=
  ⟨by decide +kernel, by decide +kernel, by decide +kernel, by decide +kernel, by decide +kernel⟩

/-- C52: the same for `copy_constructible` and `copy` of an object of the type. -/
theorem C52_copy_constructible (D : Decls) (orc : Orc) (d : DomId) (S : Sys) (hS : Reachable D orc d S) (hf : TypesFit D S.W d) (src : Nat) (sb : Obj) (hs : S.h.obj? src = some sb)
    (t : TypeId) (ht : sb.ty = some t) (r : TypeRec) (hr : (S.W.doms d).typeAt d t = some r) (orc' : Orc) (al : Nat) :
    (r.copyConstructible D = true → (∀ h' m, copyObject D (TyEnv.ofWorld S.W d) orc' false S.h src al ≠ .throw h' (.missingFunc m)) ∧
      ((∀ n, orc'.fail n = false) → ∃ h', copyObject D (TyEnv.ofWorld S.W d) orc' false S.h src al = .ok h')) ∧
    (r.copyConstructible D = false → (∀ h', copyObject D (TyEnv.ofWorld S.W d) orc' false S.h src al ≠ .ok h') ∧
      ((∀ n, orc'.fail n = false) → ∃ h' m, copyObject D (TyEnv.ofWorld S.W d) orc' false S.h src al = .throw h' (.missingFunc m) ∧ m ∈ r.mixins ∧ (D.mix m).hasCopyInit = false)) := by
  have hi := reachable_inv hS
  have hE := ofWorld_ok hi.reg hi.types hf
  have hm := ofWorld_mixins hr
  have hends := copyObject_ends (D := D) (E := TyEnv.ofWorld S.W d) (orc := orc') false S.h src al hs ht
  have hgood := good_copy (orc := orc') hE hi.good (src := src) (by unfold Alive; rw [hs]; simp) al
  have herr : ∀ h' e, copyObject D (TyEnv.ofWorld S.W d) orc' false S.h src al = .throw h' e → (∀ n, orc'.fail n = false) → ∃ m, e = .missingFunc m ∧ m ∈ r.mixins ∧ (D.mix m).hasCopyInit = false := by
    intro h' e he hn
    rw [he] at hends
    have hends : ErrOf D (TyEnv.ofWorld S.W d) orc' False t (.copy src true) e := hends
    cases e with
    | missingFunc m => rw [ErrOf, hm] at hends; exact ⟨m, rfl, hends.1, hends.2.2⟩
    | user n => have h1 : orc'.fail n = true := hends; rw [hn] at h1; simp at h1
    | badAlloc => obtain ⟨n, h1⟩ := hends; rw [hn] at h1; simp at h1
    | isSealed => exact hends.elim
    | outOfOrder => exact hends.elim
    | allocMismatch => exact hends.elim
    | outside => exact hends.elim
  constructor
  · intro hc
    have hall : ∀ m ∈ r.mixins, (D.mix m).hasCopyInit = true := by simpa [TypeRec.copyConstructible] using hc
    constructor
    · intro h' m he
      rw [he] at hends
      have hends : m ∈ (TyEnv.ofWorld S.W d).mixins t ∧ true = true ∧ (D.mix m).hasCopyInit = false := hends
      rw [hm] at hends
      rw [hall m hends.1] at hends; simp at hends
    · intro hn
      cases he : copyObject D (TyEnv.ofWorld S.W d) orc' false S.h src al with
      | ok h' => exact ⟨h', rfl⟩
      | ub => rw [he] at hgood; exact hgood.elim
      | throw h' e =>
        obtain ⟨m, -, h1, h2⟩ := herr h' e he hn
        rw [hall m h1] at h2; simp at h2
  · intro hc
    obtain ⟨m, h1, h2⟩ := all_false hc
    have hno : ∀ h', copyObject D (TyEnv.ofWorld S.W d) orc' false S.h src al ≠ .ok h' := by
      intro h' he
      have := copyObject_inits hE hi.good hi.log hs he m (by unfold ownMixins; rw [ht]; show m ∈ (TyEnv.ofWorld S.W d).mixins t; rw [hm]; exact h1)
      rw [h2] at this; simp at this
    refine ⟨hno, fun hn => ?_⟩
    cases he : copyObject D (TyEnv.ofWorld S.W d) orc' false S.h src al with
    | ok h' => exact absurd he (hno h')
    | ub => rw [he] at hgood; exact hgood.elim
    | throw h' e =>
      obtain ⟨m, rfl, h3, h4⟩ := herr h' e he hn
      exact ⟨h', m, rfl, h3, h4⟩

example : (cmpSys.h.obj? 4).map (·.ty) = some (some 5) ∧ ((cmpSys.W.doms 0).typeAt 0 5).map (·.copyConstructible cmpDecls) = some false ∧ ((cmpSys.W.doms 0).typeAt 0 1).map (·.copyConstructible cmpDecls) = some true ∧
    threw (copyObject cmpDecls (TyEnv.ofWorld cmpSys.W 0) objOrc false cmpSys.h 4 0) = some (.missingFunc 6) ∧
    finished (copyObject cmpDecls (TyEnv.ofWorld cmpSys.W 0) objOrc false cmpSys.h 0 0) = true :=
  ⟨by decide +kernel, by decide +kernel, by decide +kernel, by decide +kernel, by decide +kernel⟩

/-- C52: if the type of the source is `copy_constructible` and `copy_assignable`, `copy_from` does not fail for lack of a function, whatever the target; if nothing else fails and the target is not sealed,
it succeeds. -/
theorem C52_copy_from (D : Decls) (orc : Orc) (d : DomId) (S : Sys) (hS : Reachable D orc d S) (hf : TypesFit D S.W d) (o src : Nat) (ob sb : Obj) (ho : S.h.obj? o = some ob) (hs : S.h.obj? src = some sb)
    (t : TypeId) (ht : sb.ty = some t) (r : TypeRec) (hr : (S.W.doms d).typeAt d t = some r) (hc : r.copyConstructible D = true) (ha : r.copyAssignable D = true) (orc' : Orc) (u : Bool) :
    (∀ h' m, copyFrom D (TyEnv.ofWorld S.W d) orc' u S.h o src ≠ .throw h' (.missingFunc m)) ∧
    ((∀ n, orc'.fail n = false) → ob.isSealed = false → ∃ h', copyFrom D (TyEnv.ofWorld S.W d) orc' u S.h o src = .ok h') := by
  have hi := reachable_inv hS
  have hE := ofWorld_ok hi.reg hi.types hf
  have hm := ofWorld_mixins hr
  have hgood := good_copyFrom (orc := orc') hE hi.good u (o := o) (src := src) (by unfold Alive; rw [ho]; simp) (by unfold Alive; rw [hs]; simp)
  obtain ⟨own, hown⟩ := Option.ne_none_iff_exists'.1 (hi.good.2 o ob ho)
  have hchk : copyFromCheck D (TyEnv.ofWorld S.W d) own ((TyEnv.ofWorld S.W d).mixins t) = none := by
    cases hx : copyFromCheck D (TyEnv.ofWorld S.W d) own ((TyEnv.ofWorld S.W d).mixins t) with
    | none => rfl
    | some m =>
      obtain ⟨h1, h2⟩ := copyCheck_some hx
      rw [hm] at h1
      have h3 : (D.mix m).hasCopyInit = true := by have := hc; simp [TypeRec.copyConstructible] at this; exact this m h1
      have h4 : (D.mix m).hasCopyAsgn = true := by have := ha; simp [TypeRec.copyAssignable] at this; exact this m h1
      rw [h3, h4] at h2; simp at h2
  cases hd : sb.data with
  | none =>
    cases hx : copyFrom D (TyEnv.ofWorld S.W d) orc' u S.h o src with
    | ok h' => exact ⟨by simp, fun _ _ => ⟨h', rfl⟩⟩
    | ub => rw [hx] at hgood; exact hgood.elim
    | throw h' e =>
      unfold copyFrom at hx
      simp only [ho, hs, hd] at hx
      cases hsl : ob.isSealed with
      | true =>
        rw [hsl] at hx
        simp at hx
        obtain ⟨rfl, rfl⟩ := hx
        exact ⟨by simp, by simp⟩
      | false =>
        rw [hsl] at hx
        simp only [Bool.false_eq_true, if_false] at hx
        split at hx
        · simp at hx
        · split at hx <;> simp at hx
  | some a =>
    have hends := copyFrom_ends (D := D) (E := TyEnv.ofWorld S.W d) (orc := orc') u S.h o src ho hs ht hown (by rw [hd]; simp) hchk
    cases hx : copyFrom D (TyEnv.ofWorld S.W d) orc' u S.h o src with
    | ok h' => exact ⟨by simp, fun _ _ => ⟨h', rfl⟩⟩
    | ub => rw [hx] at hgood; exact hgood.elim
    | throw h' e =>
      rw [hx] at hends
      obtain ⟨h1, h2, h3⟩ := hends
      refine ⟨fun h'' m h => by simp at h; exact h2 m h.2, fun hn hsl => ?_⟩
      have := h1 (h3 hn)
      rw [hsl] at this; simp at this

example : ((cmpSys.W.doms 0).typeAt 0 2).map (fun r => (r.mixins, r.copyConstructible cmpDecls, r.copyAssignable cmpDecls)) = some ([1, 2], true, true) ∧
    finished (copyFrom cmpDecls (TyEnv.ofWorld cmpSys.W 0) objOrc false cmpSys.h 0 2) = true ∧ threw (copyFrom cmpDecls (TyEnv.ofWorld cmpSys.W 0) objOrc false cmpSys.h 0 4) = some (.missingFunc 6) :=
  ⟨by decide +kernel, by decide +kernel, by decide +kernel⟩

/-- C52: a type is `comparable` exactly if `compare` of two different objects of it cannot fail: if it is, there is always a result; if it is not, `compare` fails for all pairs whose mixins
do not differ (by the functions that there are), for example for an object and its copy. -/
theorem C52_comparable (D : Decls) (orc : Orc) (d : DomId) (F : CmpFns) (addr : DomId → Nat) (S : Sys) (hS : Reachable D orc d S) (o o' : Nat) (ob ob' : Obj) (ho : S.h.obj? o = some ob) (ho' : S.h.obj? o' = some ob')
    (t : TypeId) (ht : ob.ty = some t) (ht' : ob'.ty = some t) (r : TypeRec) (hr : (S.W.doms d).typeAt d t = some r) :
    (r.comparable D = true → ∃ c, objCompare D F addr d S o o' = some (.ok c)) ∧
    (r.comparable D = false → o ≠ o' → (∀ m l v l' w, (D.mix m).hasCompare = true → Holds (TyEnv.ofWorld S.W d) S.h o m l v → Holds (TyEnv.ofWorld S.W d) S.h o' m l' w → F.cmp m v w = 0) →
      ∃ m ∈ r.mixins, (D.mix m).hasCompare = false ∧ objCompare D F addr d S o o' = some (.error (.missingFunc m))) := by
  have hm := ofWorld_mixins hr
  obtain ⟨x, hx, hc⟩ := C43_compare_meaning D orc d F addr S hS o o' ob ob' ho ho'
  rw [hx]
  constructor
  · intro hcmp
    cases x with
    | ok c => exact ⟨c, rfl⟩
    | error e =>
      cases hc with
      | missing t1 k m h1 h2 h3 h4 h5 h6 =>
        rw [ht] at h2; simp at h2; subst h2
        rw [hm] at h4
        have := hcmp
        simp [TypeRec.comparable] at this
        rw [this m (List.mem_of_getElem? h4)] at h5; simp at h5
  · intro hcmp hne hall
    cases hc with
    | same e => exact absurd e hne
    | types t1 t2 ms ms' c h1 h2 h3 h4 h5 h6 h7 => rw [ht] at h2; rw [ht'] at h3; simp at h2 h3; exact absurd (h2.symm.trans h3) h4
    | differ t1 k m l l' v w h1 h2 h3 h4 h5 h6 h7 h8 h9 => exact absurd (hall m l v l' w h5 h6 h7) h8
    | tie t1 h1 h2 h3 h4 =>
      rw [ht] at h2; simp at h2; subst h2
      obtain ⟨m, h5, h6⟩ := all_false hcmp
      obtain ⟨j, hj, he⟩ := List.getElem_of_mem h5
      have := (h4 j m (by rw [hm]; exact hj) (by rw [hm, List.getElem?_eq_getElem hj, he])).1
      rw [h6] at this; simp at this
    | missing t1 k m h1 h2 h3 h4 h5 h6 =>
      rw [ht] at h2; simp at h2; subst h2
      rw [hm] at h4
      exact ⟨m, List.mem_of_getElem? h4, h5, rfl⟩

/-- C52: two different objects of a type that is not `equality_comparable` are never equal; if it is, objects whose mixins have the same values are equal (if the mixins' own functions say that). -/
theorem C52_equality_comparable (D : Decls) (orc : Orc) (d : DomId) (F : CmpFns) (S : Sys) (hS : Reachable D orc d S) (o o' : Nat) (ob ob' : Obj) (ho : S.h.obj? o = some ob) (ho' : S.h.obj? o' = some ob')
    (hne : o ≠ o') (t : TypeId) (ht : ob.ty = some t) (ht' : ob'.ty = some t) (r : TypeRec) (hr : (S.W.doms d).typeAt d t = some r) :
    (r.equalityComparable D = false → objEquals D (TyEnv.ofWorld S.W d) F S.h o o' = some false) ∧
    (r.equalityComparable D = true → (∀ m v, F.eq m v v = true ∧ F.cmp m v v = 0) →
      (∀ m l v l' w, Holds (TyEnv.ofWorld S.W d) S.h o m l v → Holds (TyEnv.ofWorld S.W d) S.h o' m l' w → v = w) → objEquals D (TyEnv.ofWorld S.W d) F S.h o o' = some true) := by
  have hi := reachable_inv hS
  have hm := ofWorld_mixins hr
  obtain ⟨b, hb, hiff⟩ := C43_equals_meaning D orc d F S hS o o' ob ob' ho ho'
  rw [hb]
  constructor
  · intro hc
    cases b with
    | false => rfl
    | true =>
      rcases hiff.1 rfl with h | ⟨-, h⟩
      · exact absurd h hne
      · obtain ⟨m, h1, h2⟩ := all_false hc
        obtain ⟨j, hj, he⟩ := List.getElem_of_mem h1
        have h3 : ((TyEnv.ofWorld S.W d).mixins t)[j]? = some m := by rw [hm, List.getElem?_eq_getElem hj, he]
        obtain ⟨l, v, -, h4⟩ := uncheckedGetAt_spec hi ho ht h3
        obtain ⟨l', w, -, h5⟩ := uncheckedGetAt_spec hi ho' ht' h3
        have := h m l v l' w h4 h5
        unfold SameBy at this
        simp at h2
        rw [h2.1, h2.2] at this
        simp at this
  · intro hc hF hv
    have : b = true := by
      rw [hiff]
      refine .inr ⟨by simp [ho, ho', ht, ht'], ?_⟩
      intro m l v l' w h1 h2
      have := hv m l v l' w h1 h2
      subst this
      have hmm := holds_mem ho ht h1
      rw [hm] at hmm
      have hc' : ((D.mix m).hasEquals || (D.mix m).hasCompare) = true := by
        have := hc; unfold TypeRec.equalityComparable at this; rw [List.all_eq_true] at this; exact this m hmm
      unfold SameBy
      by_cases he : (D.mix m).hasEquals = true
      · rw [if_pos he]; exact (hF m v).1
      · rw [if_neg he]; simp [he] at hc'; exact ⟨hc', (hF m v).2⟩
    rw [this]

example : ((cmpSys.W.doms 0).typeAt 0 1).map (fun r => (r.comparable cmpDecls, r.equalityComparable cmpDecls)) = some (true, true) ∧
    ((cmpSys.W.doms 0).typeAt 0 2).map (fun r => (r.comparable cmpDecls, r.equalityComparable cmpDecls)) = some (false, true) ∧
    ((cmpSys.W.doms 0).typeAt 0 3).map (fun r => (r.comparable cmpDecls, r.equalityComparable cmpDecls)) = some (false, false) ∧
    (cmpSys.h.obj? 3).map (·.ty) = some (some 3) ∧ (cmpSys.h.obj? 7).map (·.ty) = some (some 3) ∧ ∀ m v, cmpFns.eq m v v = true ∧ cmpFns.cmp m v v = 0 :=
  ⟨by decide +kernel, by decide +kernel, by decide +kernel, by decide +kernel, by decide +kernel, by intro m v; simp [cmpFns]⟩

/-! ## C34, C35: making objects -/

/-- C34: making an object: it has all mixins of the type, each made once by its default function, in order, and nothing else changes. -/
theorem C34_new_object (D : Decls) (orc : Orc) (d : DomId) (S : Sys) (hS : Reachable D orc d S) (hf : TypesFit D S.W d) (t : TypeId) (al : Nat) (sd : Bool) (orc' : Orc) (h' : Heap)
    (hr : newOfType D (TyEnv.ofWorld S.W d) orc' false S.h t al sd = .ok h') : Made D (TyEnv.ofWorld S.W d) S.h t al sd h' := by
  have hi := reachable_inv hS
  exact newOfType_made (ofWorld_ok hi.reg hi.types hf) hi.good hr

example : (initsOf (after (newOfType cmpDecls (TyEnv.ofWorld cmpSys.W 0) objOrc false cmpSys.h 5 0 false)).log).drop (initsOf cmpSys.h.log).length = [(6, (8, 0), .dflt), (1, (8, 1), .dflt)] := by decide +kernel

/-- C35: whatever the program, only functions that the mixins have are called. -/
theorem C35_only_existing_functions (D : Decls) (orc : Orc) (d : DomId) (S : Sys) (hS : Reachable D orc d S) : ∀ e ∈ S.h.log, FuncThere D e :=
  (reachable_inv hS).log.funcs

/-! ## C60 -/

/-- C60: `has` says whether the object's type has the mixin that is asked for (by id, info or name), and `get` finds this mixin in the object (by name: the first with the name), or gives a null pointer.
Missing: mixin infos that are registered in another domain. -/
theorem C60_has_and_get_partial (D : Decls) (orc : Orc) (d : DomId) (S : Sys) (hS : Reachable D orc d S) (o : Nat) (ob : Obj) (ho : S.h.obj? o = some ob) (k : MixKey)
    (hk : ∀ m, k = .info m → S.W.mixId m = none ∨ S.W.mixDom m = some d) :
    (∃ b, objHas D d S o k = some b ∧ (b = true ↔ ∃ m ∈ ownMixins (TyEnv.ofWorld S.W d) ob, Asked D S.W m k)) ∧
    ∃ x, objGet D d S o k = some x ∧ (x = none ↔ ∀ m ∈ ownMixins (TyEnv.ofWorld S.W d) ob, ¬ Asked D S.W m k) ∧
      ∀ l, x = some l → ∃ (i : Nat) (m : Mix) (v : Nat), (ownMixins (TyEnv.ofWorld S.W d) ob)[i]? = some m ∧ Asked D S.W m k ∧ Holds (TyEnv.ofWorld S.W d) S.h o m l v ∧
        ∀ (j : Nat) (m' : Mix), j < i → (ownMixins (TyEnv.ofWorld S.W d) ob)[j]? = some m' → ¬ Asked D S.W m' k := by
  have hi := reachable_inv hS
  obtain ⟨t, ht⟩ := Option.ne_none_iff_exists'.1 (hi.good.2 o ob ho)
  obtain ⟨r, hr⟩ := hi.there o ob t ho ht
  have hm := ofWorld_mixins hr
  have hown : ownMixins (TyEnv.ofWorld S.W d) ob = r.mixins := by unfold ownMixins; rw [ht]; exact hm
  rw [hown]
  obtain ⟨k1, k2⟩ := indexOfKey_spec hi.reg hi.types hr k hk
  unfold objHas objGet
  simp only [typeOf_some ho ht hr]
  cases hx : r.indexOfKey D S.W k with
  | none =>
    have h1 := k2 hx
    refine ⟨⟨false, rfl, by simp; exact h1⟩, none, rfl, by simp; exact h1, by simp⟩
  | some i =>
    obtain ⟨m, h1, h2, h3⟩ := k1 i hx
    obtain ⟨l, v, h4, h5⟩ := uncheckedGetAt_spec hi ho ht (by rw [hm]; exact h1)
    refine ⟨⟨true, rfl, by simp; exact ⟨m, List.mem_of_getElem? h1, h2⟩⟩, some l, by simp [h4], ?_, ?_⟩
    · simp; exact ⟨m, List.mem_of_getElem? h1, h2⟩
    · rintro l' h6
      simp at h6; subst h6
      exact ⟨i, m, v, h1, h2, h5, h3⟩

example : objHas cmpDecls 0 cmpSys 3 (.info 4) = some true ∧ objHas cmpDecls 0 cmpSys 3 (.name [3]) = some false ∧ objGet cmpDecls 0 cmpSys 3 (.id (some 3)) = some (some (3, 1)) ∧
    cmpSys.h.live (3, 1) = some (4, 11) ∧ objGet cmpDecls 0 cmpSys 3 (.info 2) = some none ∧ cmpSys.W.mixDom 4 = some 0 :=
  ⟨by decide +kernel, by decide +kernel, by decide +kernel, by decide +kernel, by decide +kernel, by decide +kernel⟩

/-- C60: `get_at` gives the mixin with this index in the type, or a null pointer if there is none. -/
theorem C60_get_at (D : Decls) (orc : Orc) (d : DomId) (S : Sys) (hS : Reachable D orc d S) (o : Nat) (ob : Obj) (ho : S.h.obj? o = some ob) (i : Nat) :
    ∃ x, objGetAt d S o i = some x ∧ (x = none ↔ (ownMixins (TyEnv.ofWorld S.W d) ob).length ≤ i) ∧
      ∀ l, x = some l → ∃ m v, (ownMixins (TyEnv.ofWorld S.W d) ob)[i]? = some m ∧ Holds (TyEnv.ofWorld S.W d) S.h o m l v := by
  have hi := reachable_inv hS
  obtain ⟨t, ht⟩ := Option.ne_none_iff_exists'.1 (hi.good.2 o ob ho)
  obtain ⟨r, hr⟩ := hi.there o ob t ho ht
  have hm := ofWorld_mixins hr
  have hown : ownMixins (TyEnv.ofWorld S.W d) ob = r.mixins := by unfold ownMixins; rw [ht]; exact hm
  rw [hown]
  unfold objGetAt
  simp only [typeOf_some ho ht hr]
  by_cases hl : i < r.mixins.length
  · obtain ⟨l, v, h4, h5⟩ := uncheckedGetAt_spec hi ho ht (i := i) (m := r.mixins[i]) (by rw [hm, List.getElem?_eq_getElem hl])
    refine ⟨some l, by rw [if_pos hl, h4]; rfl, by simp; omega, ?_⟩
    intro l' h6
    simp at h6; subst h6
    exact ⟨r.mixins[i], v, List.getElem?_eq_getElem hl, h5⟩
  · exact ⟨none, by rw [if_neg hl], by simp; omega, by simp⟩

/-- C60 is false for the info of a mixin of another domain: `has` and `get` look only at the id, and find another mixin that has the same id in the domain of the object. -/
theorem C60_foreign_mixin_refuted :
    ∃ S, Reachable objDecls objOrc 0 S ∧ S.W.mixDom 2 = some 1 ∧ (S.h.obj? 0).map (ownMixins (TyEnv.ofWorld S.W 0)) = some [1] ∧
      objHas objDecls 0 S 0 (.info 2) = some true ∧ objGet objDecls 0 S 0 (.info 2) = some (some (0, 0)) ∧ (S.h.live (0, 0)).map (·.1) = some 1 := by
  let prog : List SOp := [.dom (.regMixin 0 1), .dom (.regMixin 1 2), .dom (.getType 0 [1]), .obj false (.newOfType 1 0 false)]
  let S := (srun objDecls objOrc 0 prog ⟨initWorld fun _ => {}, {}⟩).getD ⟨initWorld fun _ => {}, {}⟩
  have h1 : (srun objDecls objOrc 0 prog ⟨initWorld fun _ => {}, {}⟩).isSome = true := by decide +kernel
  refine ⟨S, ⟨fun _ => {}, prog, by decide +kernel, ?_⟩, by decide +kernel, by decide +kernel, by decide +kernel, by decide +kernel, by decide +kernel⟩
  obtain ⟨x, hx⟩ := Option.isSome_iff_exists.1 h1
  rw [hx]; simp only [S, hx]; rfl

end Dnmx.Props
