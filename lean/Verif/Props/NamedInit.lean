import Verif.Proofs.NamedInitLemmas
import Verif.Props.System
import Verif.Props.Mutations

/-!
# Initializers by name or info given to `mutate_to` (C76)
-/

set_option linter.unusedSimpArgs false
set_option linter.unusedVariables false

namespace Dnmx.Props
open Spec

/-- C76: `mutate_to` in a domain, with initializers by info or by name, which are proper (`ProperInits`). A mutation to the type that the object has does nothing. Otherwise
the object gets the type with all that belongs to it (`Mutated`), each new mixin is made with the initializer that is for it, or by default; or the mutation throws and
the object stays as it is. Nothing is undefined.
Missing: names that the domain does not know (`C76_unknown_name_refuted`), infos of mixins of other domains (`C76_foreign_mixin_refuted`), two initializers for a mixin
(`C44_two_initializers_refuted`), the empty type. -/
theorem C76_initializers_partial (D : Decls) (orc : Orc) (d : DomId) (S : Sys) (hS : Reachable D orc d S) (hf : TypesFit D S.W d) (o : Nat) (ob : Obj)
    (ho : S.h.obj? o = some ob) (t : TypeId) (ms : List Mix) (hc : compositionOf S.W d t = some ms) (hne : ms ≠ [])
    (ops : List (InitKey × Nat)) (hp : ProperInits D S.W d ops) :
    Changed D d S.h o ob (MadeAsAsked D S.W d ops) (fun _ => True) S.W t (mutateToNamed D orc d false S o t ops) := by
  have hi := reachable_inv hS
  have hE := ofWorld_ok hi.reg hi.types hf
  obtain ⟨r, hr, hrm⟩ : ∃ r, (S.W.doms d).typeAt d t = some r ∧ r.mixins = ms := by
    unfold compositionOf at hc
    cases h : (S.W.doms d).typeAt d t with
    | none => rw [h] at hc; simp at hc
    | some r => rw [h] at hc; simp at hc; exact ⟨r, rfl, hc⟩
  unfold mutateToNamed
  rw [ho, hr]
  simp only
  by_cases hty : ob.ty = some t
  · left; rw [if_pos hty]; exact ⟨hty, rfl⟩
  right
  rw [if_neg hty]
  obtain ⟨l, hl⟩ := affectedAll_some (D := D) (d := d) (W := S.W) (ops := ops) (fun x hx => by obtain ⟨m, h1, -⟩ := hp.known x hx; exact ⟨m, h1⟩)
  rw [hl]
  simp only
  have hne' : (TyEnv.ofWorld S.W d).mixins t ≠ [] := by simp [TyEnv.ofWorld, hr, hrm]; exact hne
  cases hsl : ob.isSealed with
  | true =>
    right
    refine ⟨S.h, .isSealed, ?_, untouched_refl _⟩
    unfold mutateTo
    rw [ho]
    simp only [if_neg hty]
    rw [withMutation_sealed ho hsl]; rfl
  | false =>
    have := mutateTo_inits (orc := orc) hE hi.good.1 ho hsl hty hne' l (affectedAll_nodup hl hp.one) (by
      intro x hx i hxi
      obtain ⟨m, c⟩ := x
      obtain ⟨y, hy, h1, -⟩ := (affectedAll_mem hl m c).1 hx
      obtain ⟨m', h2, h3⟩ := hp.known y hy
      have h4 : m' = m := by
        have h5 := (affected_for D d S.W y.1 m).2 h1
        rw [(affected_for D d S.W y.1 m').2 h2] at h5
        simpa using h5
      subst h4
      cases hid : S.W.mixId m' with
      | none => simp [TyEnv.ofWorld, hr, hid, TypeRec.indexOf] at hxi
      | some z =>
        rcases h3 with h3 | h3
        · exact (ofWorld_index hi.reg hi.types hid h3).1 hxi
        · rw [hid] at h3; simp at h3)
    cases hr : mutateTo D (TyEnv.ofWorld S.W d) orc false S.h o t l with
    | ok h' =>
      rw [hr] at this
      refine .inl ⟨hty, h', rfl, mutated_mono this ?_⟩
      rintro m k ⟨h1, h2⟩
      refine ⟨?_, ?_⟩
      · intro x hx hxm
        exact h1 x.2 ((affectedAll_mem hl m x.2).2 ⟨x, hx, hxm, rfl⟩)
      · intro hno
        apply h2
        intro c hc
        obtain ⟨x, hx, hxm, -⟩ := (affectedAll_mem hl m c).1 hc
        exact hno x hx hxm
    | throw h' e => rw [hr] at this; exact .inr ⟨h', e, rfl, untouched_failed hE hi.good.1 ho (fun _ => rfl) this⟩
    | ub => rw [hr] at this; exact this.elim

/-- C76 is false for names: an initializer for a name that the domain does not know is undefined behaviour, whatever the object and the type are, if the type is not the one
that the object has. The null pointer that the domain gives is dereferenced. -/
theorem C76_unknown_name_refuted (D : Decls) (orc : Orc) (d : DomId) (u : Bool) (S : Sys) (o : Nat) (ob : Obj) (ho : S.h.obj? o = some ob) (t : TypeId) (hty : ob.ty ≠ some t)
    (ops : List (InitKey × Nat)) (n : List UInt8) (c : Nat) (hx : (.name n, c) ∈ ops) (hn : getMixinByName D S.W d n = none) :
    mutateToNamed D orc d u S o t ops = .ub := by
  unfold mutateToNamed
  rw [ho]
  cases (S.W.doms d).typeAt d t with
  | none => rfl
  | some r =>
    simp only
    rw [if_neg hty, affectedAll_none hx (by intro m hm; simp [IsFor, hn] at hm)]

/-- The world of `C76_foreign_mixin_refuted`: mixin 1 in domain 0, mixin 2 in domain 1, with the same id; the type of mixin 1, and an empty object. -/
def namedProg : List SOp := [.dom (.regMixin 0 1), .dom (.regMixin 0 3), .dom (.regMixin 1 2), .dom (.getType 0 [1, 3]), .obj false (.newEmpty 1 0)]

def namedSys : Sys := (srun objDecls objOrc 0 namedProg ⟨initWorld fun _ => {}, {}⟩).getD ⟨initWorld fun _ => {}, {}⟩

theorem namedSys_reachable : Reachable objDecls objOrc 0 namedSys := by
  refine ⟨fun _ => {}, namedProg, by decide +kernel, ?_⟩
  have h1 : (srun objDecls objOrc 0 namedProg ⟨initWorld fun _ => {}, {}⟩).isSome = true := by decide +kernel
  obtain ⟨x, hx⟩ := Option.isSome_iff_exists.1 h1
  unfold namedSys
  rw [hx]; rfl

/-- The log after a mutation of the object of `namedSys`. -/
def namedLog (ops : List (InitKey × Nat)) : Option (List (Mix × Loc × Kind)) :=
  match mutateToNamed objDecls objOrc 0 false namedSys 0 1 ops with
  | .ok S => some (initsOf S.h.log)
  | _ => none

example : TypesFit objDecls namedSys.W 0 ∧ compositionOf namedSys.W 0 1 = some [1, 3] ∧ (namedSys.h.obj? 0).map (·.ty) = some (some emptyTid) ∧
    getMixinByName objDecls namedSys.W 0 [3] = some 3 ∧ namedLog [(.name [3], 9), (.info 1, 7)] = some [(1, (0, 0), .custom 7), (3, (1, 0), .custom 9)] ∧
    namedLog [(.name [3], 9)] = some [(1, (0, 0), .dflt), (3, (1, 0), .custom 9)] ∧ getMixinByName objDecls namedSys.W 0 [2] = none ∧ namedLog [(.name [2], 9)] = none :=
  ⟨by decide +kernel, by decide +kernel, by decide +kernel, by decide +kernel, by decide +kernel, by decide +kernel, by decide +kernel, by decide +kernel⟩

example : ProperInits objDecls namedSys.W 0 [(.name [3], 9), (.info 1, 7)] := by
  have h3 : getMixinByName objDecls namedSys.W 0 [3] = some 3 := by decide +kernel
  refine ⟨?_, ?_⟩
  · intro x hx
    simp at hx
    rcases hx with rfl | rfl
    · exact ⟨3, h3, .inl (by decide +kernel)⟩
    · exact ⟨1, rfl, .inl (by decide +kernel)⟩
  · simp only [List.pairwise_cons]
    refine ⟨?_, by simp⟩
    intro y hy m h1 h2
    simp at hy; subst hy
    simp only [IsFor] at h1 h2
    rw [h3] at h1; subst h2; simp at h1

/-- C76 is false for infos of mixins of other domains: the initializer that was given for mixin 2 of domain 1 is called for mixin 1, which has the same id in domain 0. Its
function gets memory of another mixin. -/
theorem C76_foreign_mixin_refuted : Reachable objDecls objOrc 0 namedSys ∧ namedSys.W.mixDom 2 = some 1 ∧ compositionOf namedSys.W 0 1 = some [1, 3] ∧
    namedLog [(.info 2, 20)] = some [(1, (0, 0), .custom 20), (3, (1, 0), .dflt)] :=
  ⟨namedSys_reachable, by decide +kernel, by decide +kernel, by decide +kernel⟩

/-- C76 for `dnmx_mutate_to`: here names that nothing has and infos of other mixins do no harm. Each mixin of the type gets the functions of the first override with its
info or its name. With duplicate names (`allow_duplicate_mixin_names`) an override counts for all mixins with the name. -/
theorem C76_c_overrides (D : Decls) (E : TyEnv) (orc : Orc) (hE : EnvOk D E) (h : Heap) (hk : HeapOk D E h) (o : Nat) (ob : Obj) (ho : h.obj? o = some ob)
    (t : TypeId) (hty : ob.ty ≠ some t) (hne : E.mixins t ≠ []) (ovs : List CNamed) :
    cMutateToNamed D orc E false h o t ovs ≠ .ub ∧
    ∀ h', cMutateToNamed D orc E false h o t ovs = .ok h' →
      Mutated D E h o ob t (fun m k => k = (((overrideFor D ovs m).bind (·.initNew)).elim .dflt .custom)) (fun m => ((overrideFor D ovs m).bind (·.updateCommon)) = none) h' := by
  have he : cMutateToNamed D orc E false h o t ovs = cMutateTo D E orc false h o t (resolved D ovs (E.mixins t)) := by
    unfold cMutateToNamed cMutateTo
    rw [cNamedSteps_eq D ovs (E.mixins t) _ 0 (fun _ h => h)]
  rw [he]
  refine ⟨?_, ?_⟩
  · intro hub
    cases hsl : ob.isSealed with
    | true => unfold cMutateTo at hub; rw [withMutation_sealed ho hsl] at hub; simp at hub
    | false =>
      have := cMutateTo_ok (orc := orc) hE hk ho hsl hty hne (resolved D ovs (E.mixins t))
      rw [hub] at this; exact this
  · intro h' hr
    refine mutated_congr (C44_overrides D E orc hE h hk o ob ho t hty hne _ h' hr) ?_ ?_
    · intro m hm k hkk
      rw [hkk, resolved_find D ovs m hm, matches_overrideFor]
      cases overrideFor D ovs m <;> rfl
    · intro m hm hkk
      rw [resolved_find D ovs m hm, matches_overrideFor]
      cases ho : overrideFor D ovs m with
      | none => rfl
      | some ov => rw [ho] at hkk; exact hkk

example : (after (cMutateToNamed objDecls objOrc objEnv false initHeap 0 2 [⟨.name [9], some 1, none⟩, ⟨.name [2], some 20, none⟩, ⟨.info 2, some 21, none⟩])).log.drop initHeap.log.length =
    [.alloc 2 (.unified 2 0), .alloc 3 (.ext 3 (some 0)), .init 2 (2, 0) (.custom 20), .init 1 (2, 1) .dflt, .init 3 (3, 0) .dflt] := by decide +kernel

end Dnmx.Props
