import Verif.Proofs.CrossDomains
import Verif.Props.Objects

/-!
# Objects of several domains (C88)
-/

set_option linter.unusedSimpArgs false
set_option linter.unusedVariables false

namespace Dnmx.Props
open Spec

/-! ## The example

Two domains: mixins 1, 2 (ids 0, 1) are in domain 0, mixins 7, 8 (ids 0, 1) in domain 1. -/

def crossWorld : World := run objDecls (initWorld fun _ => {})
  [.regMixin 0 1, .regMixin 0 2, .regMixin 1 7, .regMixin 1 8, .getType 0 [1, 2], .getType 1 [7], .getType 0 [1], .getType 1 [8]]

def crossEnv : TyEnv := TyEnv.ofDomains crossWorld 2

theorem cross_fits : ∀ d, d < 2 → TypesFit objDecls crossWorld d := by
  have ha : ∀ m, (objDecls.mix m).external = false → LegalAlign (objDecls.mix m).align := fun m _ => .inr ⟨3, rfl⟩
  have h0 : (typesOf crossWorld 0).map (·.mixins) = [[1, 2], [1]] := by decide +kernel
  have h1 : (typesOf crossWorld 1).map (·.mixins) = [[7], [8]] := by decide +kernel
  intro d hd r hr
  refine ⟨fun m _ => ha m, ?_⟩
  have : d = 0 ∨ d = 1 := by omega
  rcases this with rfl | rfl
  · have hm : r.mixins ∈ [[1, 2], [1]] := by rw [← h0]; exact List.mem_map_of_mem hr
    simp only [List.mem_cons, List.not_mem_nil, or_false] at hm
    rcases hm with hm | hm <;> (rw [hm]; decide +kernel)
  · have hm : r.mixins ∈ [[7], [8]] := by rw [← h1]; exact List.mem_map_of_mem hr
    simp only [List.mem_cons, List.not_mem_nil, or_false] at hm
    rcases hm with hm | hm <;> (rw [hm]; decide +kernel)

/-- Types 2 and 6 are of domain 0, types 5 and 9 of domain 1. -/
example : crossEnv.mixins 2 = [1, 2] ∧ crossEnv.mixins 5 = [7] ∧ crossEnv.mixins 6 = [1] ∧ crossEnv.mixins 9 = [8] ∧
    ¬ NoClash crossWorld.mixId [1, 2] [7] ∧ NoClash crossWorld.mixId [1] [8] := by decide +kernel

def crossOrc : Orc := ⟨fun _ => false, fun n => n + 10⟩

/-! ## C88 -/

/-- C88: a type finds the mixin that has the id of the one that is asked for, of whichever domain that is. -/
theorem C88_lookup (D : Decls) (s : DomId → Settings) (dops : List Op) (k : Nat) (t : TypeId) (m : Mix) (i : Nat) :
    let W := run D (initWorld s) dops
    (TyEnv.ofDomains W k).indexOf t m = some i ↔ ∃ m', ((TyEnv.ofDomains W k).mixins t)[i]? = some m' ∧ W.mixId m' = W.mixId m ∧ W.mixId m ≠ none :=
  domains_index (reachable_reg D s dops) (reachable_types D s dops)

/-- The mixin 7 of domain 1 is "found" in the type of domain 0 with mixins 1 and 2. -/
example : crossEnv.indexOf 2 7 = some 0 ∧ 7 ∉ crossEnv.mixins 2 := by decide +kernel

/-- C88: an operation that does not meet different mixins with the same id does what it would do if mixins were compared by
identity. The types of the environment `byIdentity` are proper, so all that is proved about objects of one domain (C35 - C47) is true of it. -/
theorem C88_operations (D : Decls) (s : DomId → Settings) (dops : List Op) (k : Nat) (hk : 0 < k) (hf : ∀ d, d < k → TypesFit D (run D (initWorld s) dops) d) (orc : Orc) (u : Bool) (h : Heap) (op : OOp) :
    let W := run D (initWorld s) dops
    EnvOk D (TyEnv.ofDomains W k).byIdentity ∧
    (Close W.mixId (TyEnv.ofDomains W k) h op → ostep D (TyEnv.ofDomains W k) orc u h op = ostep D (TyEnv.ofDomains W k).byIdentity orc u h op) :=
  ⟨byIdentity_ok hk (reachable_reg D s dops) (reachable_types D s dops) hf, fun hc =>
    (ostep_same u h op (close_finds hk (reachable_reg D s dops) (reachable_types D s dops) hf hc)).symm⟩

/-- C88: in particular operations that combine only objects and types of one domain. -/
theorem C88_within (D : Decls) (s : DomId → Settings) (dops : List Op) (k : Nat) (h : Heap) (op : OOp)
    (hw : WithinDomain (run D (initWorld s) dops) k h op) : Close (run D (initWorld s) dops).mixId (TyEnv.ofDomains (run D (initWorld s) dops) k) h op :=
  within_close (reachable_reg D s dops) (reachable_types D s dops) hw

/-- C88: programs with objects of several domains are safe and leave healthy objects, if no operation meets different mixins with
the same id. Moves of whole objects and complete copies (also to a new object next to objects of other domains) are not restricted. Missing: the other programs
(`C88_any_domains_refuted`, `C88_mutation_exactly`), and what `ProperRun` excludes (see C35). -/
theorem C88_programs_partial (D : Decls) (s : DomId → Settings) (dops : List Op) (k : Nat) (hk : 0 < k) (hf : ∀ d, d < k → TypesFit D (run D (initWorld s) dops) d) (orc : Orc) (ops : List (Bool × OOp)) :
    let W := run D (initWorld s) dops
    ProperRun D (TyEnv.ofDomains W k) orc ops {} → CloseRun W.mixId D (TyEnv.ofDomains W k) orc ops {} →
    ∃ h, orun D (TyEnv.ofDomains W k) orc ops {} = some h ∧ HeapOk D (TyEnv.ofDomains W k) h ∧ AllTyped h ∧ LogOk D h := by
  intro W hp hc
  obtain ⟨h1, h2⟩ := orun_same (orc := orc) hk (reachable_reg D s dops) (reachable_types D s dops) hf ops {} hc
  obtain ⟨h, h3, h4, h5, h6⟩ := C35_programs_are_safe_partial D _ orc (byIdentity_ok hk (reachable_reg D s dops) (reachable_types D s dops) hf) ops (h2 hp)
  exact ⟨h, by rw [← h1]; exact h3, heapOk_same.1 h4, h5, h6⟩

/-- Objects of both domains; an object of domain 0 gets a type of domain 1 without clash, and another is moved to a place where one of domain
1 was. -/
def crossProgram : List (Bool × OOp) :=
  [(false, .newOfType 2 0 false), (false, .newOfType 5 0 false), (false, .newOfType 6 0 false), (false, .reset 2 9), (false, .moveAssign 0 1), (false, .copy 0 0), (false, .destroy 0)]

example : ProperRun objDecls crossEnv crossOrc crossProgram {} := by decide +kernel

example : (∀ o ∈ [2], (orun objDecls crossEnv crossOrc (crossProgram.take 3) {}).map (fun h => decide (Close crossWorld.mixId crossEnv h (.reset o 9))) = some true) ∧
    (orun objDecls crossEnv crossOrc crossProgram {}).map (fun h => h.objs.map (fun x => x.bind (·.ty))) = some [none, some 1, some 9, some 5] := by decide +kernel

/-- C88: a mutation that ends without error gives a healthy object of the target type exactly if no mixin of the old type has the id of a different mixin
of the new type. -/
theorem C88_mutation_exactly (D : Decls) (s : DomId → Settings) (dops : List Op) (k : Nat) (hk : 0 < k) (hf : ∀ d, d < k → TypesFit D (run D (initWorld s) dops) d) (orc : Orc)
    (h : Heap) (o : Nat) (ob : Obj) (ho : h.obj? o = some ob) (told t : TypeId) (ht : ob.ty = some told) (htt : told ≠ t) (steps : List (MStep × Bool)) (hst : ∀ st ∈ steps, properStep st.1 = true) (h' : Heap) :
    let W := run D (initWorld s) dops
    let E := TyEnv.ofDomains W k
    HeapOk D E h → E.mixins t ≠ [] → withMutation D E orc false h o t steps = .ok h' →
    ((HeapOk D E h' ∧ ∃ ob', h'.obj? o = some ob' ∧ ob'.ty = some t) ↔ NoClash W.mixId (E.mixins told) (E.mixins t)) :=
  fun hh hne he => mutation_exact hk (reachable_reg D s dops) (reachable_types D s dops) hf hh ho ht hne htt hst he

/-- C88: the same for `reset_type`. -/
theorem C88_reset_exactly (D : Decls) (s : DomId → Settings) (dops : List Op) (k : Nat) (hk : 0 < k) (hf : ∀ d, d < k → TypesFit D (run D (initWorld s) dops) d) (orc : Orc)
    (h : Heap) (o : Nat) (ob : Obj) (ho : h.obj? o = some ob) (told t : TypeId) (ht : ob.ty = some told) (htt : told ≠ t) (h' : Heap) :
    let W := run D (initWorld s) dops
    let E := TyEnv.ofDomains W k
    HeapOk D E h → E.mixins t ≠ [] → resetType D E orc false h o t = .ok h' →
    ((HeapOk D E h' ∧ ∃ ob', h'.obj? o = some ob' ∧ ob'.ty = some t) ↔ NoClash W.mixId (E.mixins told) (E.mixins t)) := by
  intro W E hh hne he
  unfold resetType at he
  rw [ho] at he
  simp only at he
  split at he
  · cases he
  · rw [if_neg (by rw [ht]; intro h; injection h with h; exact htt h), if_neg (fun h => hne (List.length_eq_zero_iff.1 h))] at he
    exact mutation_exact hk (reachable_reg D s dops) (reachable_types D s dops) hf hh ho ht hne htt (by
      intro st hs
      simp only [List.mem_singleton] at hs
      rw [hs]; rfl) he

/-- The reset from a type of domain 0 to one of domain 1 ends without error, once with a clash and once without. -/
example : ((orun objDecls crossEnv crossOrc [(false, .newOfType 2 0 false)] {}).map (fun h => match resetType objDecls crossEnv crossOrc false h 0 5 with | .ok _ => true | _ => false)) = some true ∧
    ((orun objDecls crossEnv crossOrc [(false, .newOfType 6 0 false)] {}).map (fun h => match resetType objDecls crossEnv crossOrc false h 0 9 with | .ok _ => true | _ => false)) = some true := by
  decide +kernel

/-- C88: without a condition on ids the claim is wrong: an object whose type is reset to one of another domain takes its old mixin for the new one, and its
destructor destroys a mixin that is not there. -/
theorem C88_any_domains_refuted : ¬ ∀ (D : Decls) (s : DomId → Settings) (dops : List Op) (k : Nat) (orc : Orc) (ops : List (Bool × OOp)), 0 < k → (∀ d, d < k → TypesFit D (run D (initWorld s) dops) d) →
    ProperRun D (TyEnv.ofDomains (run D (initWorld s) dops) k) orc ops {} → ∃ h, orun D (TyEnv.ofDomains (run D (initWorld s) dops) k) orc ops {} = some h := by
  intro hall
  obtain ⟨h, hr⟩ := hall objDecls (fun _ => {}) [.regMixin 0 1, .regMixin 0 2, .regMixin 1 7, .regMixin 1 8, .getType 0 [1, 2], .getType 1 [7], .getType 0 [1], .getType 1 [8]] 2 crossOrc
    [(false, .newOfType 2 0 false), (false, .reset 0 5), (false, .destroy 0)] (by decide) cross_fits (by
      show ProperRun objDecls crossEnv crossOrc _ {}
      decide +kernel)
  have : (orun objDecls crossEnv crossOrc [(false, .newOfType 2 0 false), (false, .reset 0 5), (false, .destroy 0)] {}).isNone = true := by decide +kernel
  have hr : orun objDecls crossEnv crossOrc [(false, .newOfType 2 0 false), (false, .reset 0 5), (false, .destroy 0)] {} = some h := hr
  rw [hr] at this
  cases this

/-- C88: "It is not possible to create types or objects using mixins from different domains" (doc/basics/glossary.md 87) is wrong for objects: there is an object whose type is of
domain 1 while its mixin is one of domain 0. -/
theorem C88_one_domain_refuted : ¬ ∀ (D : Decls) (s : DomId → Settings) (dops : List Op) (k : Nat) (orc : Orc) (ops : List (Bool × OOp)) (h : Heap) (o i : Nat) (l : Loc) (m : Mix) (v : Nat),
    orun D (TyEnv.ofDomains (run D (initWorld s) dops) k) orc ops {} = some h → sourceAt h o i = some (l, m, v) → domainNow k h o = (run D (initWorld s) dops).mixDom m := by
  intro hall
  have h1 : (orun objDecls crossEnv crossOrc [(false, .newOfType 2 0 false), (false, .reset 0 5)] {}).map
      (fun h => (sourceAt h 0 0, domainNow 2 h 0)) = some (some ((1, 0), 1, 11), some 1) := by decide +kernel
  obtain ⟨h, h2, h3⟩ := Option.map_eq_some_iff.1 h1
  injection h3 with h3 h4
  have h5 := hall objDecls (fun _ => {}) [.regMixin 0 1, .regMixin 0 2, .regMixin 1 7, .regMixin 1 8, .getType 0 [1, 2], .getType 1 [7], .getType 0 [1], .getType 1 [8]] 2 crossOrc
    [(false, .newOfType 2 0 false), (false, .reset 0 5)] h 0 0 _ _ _ h2 h3
  have h6 : (some 1 : Option Nat) = crossWorld.mixDom 1 := by rw [← h4]; exact h5
  have h7 : crossWorld.mixDom 1 = some 0 := by decide +kernel
  rw [h7] at h6
  cases h6

/-- C88: copies between objects of different domains use the function of one mixin for another one. -/
theorem C88_copies_refuted :
    (∃ h, orun objDecls crossEnv crossOrc [(false, .newOfType 2 0 false), (false, .newOfType 5 0 false)] {} = some h ∧
      ostep objDecls crossEnv crossOrc false h (.copyFrom 0 1) = .ub ∧ ostep objDecls crossEnv crossOrc false h (.copyMatching 0 1) = .ub ∧
      ostep objDecls crossEnv crossOrc false h (.moveMatching 0 1 false) = .ub) := by
  have h1 : (orun objDecls crossEnv crossOrc [(false, .newOfType 2 0 false), (false, .newOfType 5 0 false)] {}).map
      (fun h => ((match ostep objDecls crossEnv crossOrc false h (.copyFrom 0 1) with | .ub => true | _ => false),
        (match ostep objDecls crossEnv crossOrc false h (.copyMatching 0 1) with | .ub => true | _ => false),
        (match ostep objDecls crossEnv crossOrc false h (.moveMatching 0 1 false) with | .ub => true | _ => false))) = some (true, true, true) := by decide +kernel
  obtain ⟨h, h2, h3⟩ := Option.map_eq_some_iff.1 h1
  injection h3 with h3 h4
  injection h4 with h4 h5
  refine ⟨h, h2, ?_, ?_, ?_⟩
  · split at h3 <;> first | assumption | cases h3
  · split at h4 <;> first | assumption | cases h4
  · split at h5 <;> first | assumption | cases h5

end Dnmx.Props
