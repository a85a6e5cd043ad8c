import Verif.Props.ObjectV1

/-! C89: exactly when `copy` of version 1 works. -/

namespace Dnmx.Props
open Spec

/-- C89: if nothing that is called or allocated fails, `copy` succeeds exactly if all mixins of the object have a copy constructor, and then makes a copy; otherwise it
reports the first that has none and leaves all as it was. -/
theorem C89_copy_exactly (D : Decls) (E : TyEnv) (orc : Orc) (hE : EnvOk D E) (t0 : TypeId) (h0 : E.mixins t0 = []) (h : Heap) (hk : HeapOk D E h) (ht : AllTyped h)
    (src : Nat) (sb : Obj) (hs : h.obj? src = some sb) (al : Nat) (hn : ∀ n, orc.fail n = false) :
    ((∃ h', v1Copy D E orc t0 al false h src = .ok h') ↔ ∀ m ∈ ownMixins E sb, (D.mix m).hasCopyInit = true) ∧
    ((∀ m ∈ ownMixins E sb, (D.mix m).hasCopyInit = true) → ∃ h', v1Copy D E orc t0 al false h src = .ok h' ∧ Copied D E h src sb al h') ∧
    (¬ (∀ m ∈ ownMixins E sb, (D.mix m).hasCopyInit = true) →
      ∃ m, FirstWithout D (ownMixins E sb) m ∧ v1Copy D E orc t0 al false h src = .throw { h with objs := h.objs ++ [none] } (.missingFunc m)) := by
  have hno : ¬ (∀ m ∈ ownMixins E sb, (D.mix m).hasCopyInit = true) →
      ∃ m, FirstWithout D (ownMixins E sb) m ∧ v1Copy D E orc t0 al false h src = .throw { h with objs := h.objs ++ [none] } (.missingFunc m) := by
    intro hx
    refine C89_missing_function D E orc hE t0 h0 h hk ht src sb hs ?_ al false
    apply Classical.byContradiction
    intro hc
    refine hx fun m hm => ?_
    cases hq : (D.mix m).hasCopyInit with
    | true => rfl
    | false => exact absurd ⟨m, hm, hq⟩ hc
  have hyes : (∀ m ∈ ownMixins E sb, (D.mix m).hasCopyInit = true) → ∃ h', v1Copy D E orc t0 al false h src = .ok h' ∧ Copied D E h src sb al h' := by
    intro hall
    rw [C89_same_as_version2 D E orc hE t0 h0 h hk ht src sb hs hall al]
    cases htp : sb.ty with
    | none => exact absurd htp (ht src sb hs)
    | some t =>
      have hown : ownMixins E sb = E.mixins t := by unfold ownMixins; rw [htp]; rfl
      rw [hown] at hall
      have hends := copyObject_ends (D := D) (E := E) (orc := orc) false h src al hs htp
      have hgood := good_copy (orc := orc) hE ⟨hk, ht⟩ (src := src) (by unfold Alive; rw [hs]; simp) al
      cases he : copyObject D E orc false h src al with
      | ok h' => exact ⟨h', rfl, copyObject_copied hE ⟨hk, ht⟩ hs al he⟩
      | ub => rw [he] at hgood; exact hgood.elim
      | throw h' e =>
        rw [he] at hends
        have hends : ErrOf D E orc False t (.copy src true) e := hends
        cases e with
        | missingFunc m => have h2 := hends.2.2; rw [hall m hends.1] at h2; simp at h2
        | user n => have h1 : orc.fail n = true := hends; rw [hn] at h1; simp at h1
        | badAlloc => obtain ⟨n, h1⟩ := hends; rw [hn] at h1; simp at h1
        | isSealed => exact hends.elim
        | outOfOrder => exact hends.elim
        | allocMismatch => exact hends.elim
        | outside => exact hends.elim
  refine ⟨⟨fun ⟨h', hx⟩ => ?_, fun hx => ?_⟩, hyes, hno⟩
  · apply Classical.byContradiction
    intro hc
    obtain ⟨m, -, he⟩ := hno hc
    rw [hx] at he; simp at he
  · obtain ⟨h', h1, -⟩ := hyes hx
    exact ⟨h', h1⟩

/-- C89: `copyable` says no where `copy` works exactly if some mixin lacks the copy assignment (which `copy` never uses) and all have a copy constructor. -/
theorem C89_copyable_exactly (D : Decls) (E : TyEnv) (orc : Orc) (hE : EnvOk D E) (t0 : TypeId) (h0 : E.mixins t0 = []) (h : Heap) (hk : HeapOk D E h) (ht : AllTyped h)
    (src : Nat) (sb : Obj) (hs : h.obj? src = some sb) (al : Nat) (hn : ∀ n, orc.fail n = false) :
    ((∃ h', v1Copy D E orc t0 al false h src = .ok h') ∧ v1Copyable D (ownMixins E sb) = false) ↔
      (∀ m ∈ ownMixins E sb, (D.mix m).hasCopyInit = true) ∧ ∃ m ∈ ownMixins E sb, (D.mix m).hasCopyAsgn = false := by
  rw [(C89_copy_exactly D E orc hE t0 h0 h hk ht src sb hs al hn).1]
  refine and_congr_right fun hall => ?_
  unfold v1Copyable
  have : (ownMixins E sb).all (fun m => (D.mix m).hasCopyInit) = true := List.all_eq_true.2 hall
  rw [this]
  simp

-- an object that can be copied though it is not `copyable`, and one that cannot
example : (∀ n, objOrc.fail n = false) ∧ finished (v1Copy objDecls objEnv objOrc 0 0 false (runOf [.newOfType 5 0 false]) 0) = true ∧
    v1Copyable objDecls (objEnv.mixins 5) = false ∧ threw (v1Copy objDecls objEnv objOrc 0 0 false uncopyable 0) = some (.missingFunc 5) :=
  ⟨fun _ => rfl, by decide +kernel, by decide +kernel, by decide +kernel⟩

end Dnmx.Props
