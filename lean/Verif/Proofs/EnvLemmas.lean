import Verif.Proofs.TypeLemmas
import Verif.Proofs.LayoutLemmas
import Verif.Spec.Types
import Verif.Spec.System
import Verif.Proofs.HeapLemmas

/-!
# The types of a domain are a proper environment for objects
-/

set_option linter.unusedSimpArgs false
set_option linter.unusedVariables false
set_option linter.unusedSectionVars false

namespace Dnmx
open Spec

theorem ofWorld_typed {D : Decls} {W : World} {d : DomId} (hi : TypesInv D W d) {t : TypeId} (hne : (TyEnv.ofWorld W d).mixins t ≠ []) :
    ∃ r ∈ (W.doms d).types, (W.doms d).typeAt d t = some r ∧ TypeOk D W.mixId W.mixDom d r := by
  cases hr : (W.doms d).typeAt d t with
  | none => exact absurd (by simp [TyEnv.ofWorld, hr]) hne
  | some r =>
    rcases typeAt_some hr with ⟨h1, h2⟩ | ⟨-, h2, h3⟩
    · exact absurd (by simp [TyEnv.ofWorld, hr, h2, emptyType]) hne
    · exact ⟨r, h2, rfl, hi.ok r h2⟩

theorem ofWorld_index {D : Decls} {W : World} {d : DomId} (hr : RegInv W) (hi : TypesInv D W d) {t : TypeId} {m : Mix} {i x : Nat} (hx : W.mixId m = some x) (hd : W.mixDom m = some d) :
    (TyEnv.ofWorld W d).indexOf t m = some i ↔ ((TyEnv.ofWorld W d).mixins t)[i]? = some m := by
  have hmx : ∀ {t : TypeId} {r : TypeRec}, (W.doms d).typeAt d t = some r → (TyEnv.ofWorld W d).mixins t = r.mixins := by
    intro t r h; simp [TyEnv.ofWorld, h]
  cases ht : (W.doms d).typeAt d t with
  | none =>
    have h4 : (TyEnv.ofWorld W d).mixins t = [] := by simp [TyEnv.ofWorld, ht]
    have h5 : (TyEnv.ofWorld W d).indexOf t m = none := by simp [TyEnv.ofWorld, ht]
    rw [h4, h5]; simp
  | some r =>
    rcases typeAt_some ht with ⟨h4, h5⟩ | ⟨-, h4, -⟩
    · have h6 : (TyEnv.ofWorld W d).mixins t = [] := by simp [TyEnv.ofWorld, ht, h5, emptyType]
      have h7 : (TyEnv.ofWorld W d).indexOf t m = none := by
        simp only [TyEnv.ofWorld, ht, Option.elim, h5, emptyType, TypeRec.indexOf, hx]; simp
      rw [h6, h7]; simp
    · have hok := hi.ok r h4
      have h6 : (TyEnv.ofWorld W d).indexOf t m = r.indexOf (W.mixId m) := by simp [TyEnv.ofWorld, ht]
      rw [hmx ht, h6, hok.indexOf hr, hx]
      constructor
      · rintro ⟨y, m', h7, h8, h9⟩
        simp at h7; subst h7
        obtain ⟨⟨z, hz⟩, hd'⟩ := hok.reg m' (List.mem_of_getElem? h8)
        obtain ⟨d1, k1, k2⟩ := hr.mixReg m x hx
        obtain ⟨d2, k3, k4⟩ := hr.mixReg m' x h9
        rw [hd] at k1; rw [hd'] at k3; simp at k1 k3; subst k1; subst k3
        rw [k2] at k4; simp at k4; subst k4
        exact h8
      · intro h8
        exact ⟨x, m, rfl, h8, hx⟩

theorem ofWorld_ok {D : Decls} {W : World} {d : DomId} (hr : RegInv W) (hi : TypesInv D W d) (hf : TypesFit D W d) : EnvOk D (TyEnv.ofWorld W d) := by
  have hmx : ∀ {t : TypeId} {r : TypeRec}, (W.doms d).typeAt d t = some r → (TyEnv.ofWorld W d).mixins t = r.mixins := by
    intro t r h; simp [TyEnv.ofWorld, h]
  refine ⟨?_, ?_, ?_, ?_⟩
  · intro t
    by_cases hne : (TyEnv.ofWorld W d).mixins t = []
    · rw [hne]; exact List.nodup_nil
    · obtain ⟨r, h1, h2, h3⟩ := ofWorld_typed hi hne
      rw [hmx h2]; exact h3.nodup
  · intro t u m i hm
    have hne : (TyEnv.ofWorld W d).mixins u ≠ [] := by intro h; rw [h] at hm; simp at hm
    obtain ⟨ru, h1, h2, h3⟩ := ofWorld_typed hi hne
    rw [hmx h2] at hm
    obtain ⟨⟨x, hx⟩, hd⟩ := h3.reg m hm
    exact ofWorld_index hr hi hx hd
  · intro t i m hm
    have hne : (TyEnv.ofWorld W d).mixins t ≠ [] := by intro h; rw [h] at hm; simp at hm
    obtain ⟨r, h1, h2, h3⟩ := ofWorld_typed hi hne
    rw [hmx h2] at hm
    obtain ⟨hl, hb⟩ := hf r h1
    have hs := layout_sound (r.mixins.map D.mix) (by
      intro x hx; rw [List.mem_map] at hx; obtain ⟨m', h4, rfl⟩ := hx; exact hl m' h4) hb
    have hlt : i < (r.mixins.map D.mix).length := by
      rw [List.length_map]; exact (List.getElem?_eq_some_iff.1 hm).1
    have hget : (r.mixins.map D.mix)[i]'hlt = D.mix m := by
      rw [List.getElem_map]; congr 1; exact (List.getElem?_eq_some_iff.1 hm).2
    have hex := hs.externals i hlt
    rw [hget] at hex
    have hlen := hs.length
    have hoff : (layout (r.mixins.map D.mix)).offsets[i]? = some ((layout (r.mixins.map D.mix)).offsets[i]'(by rw [hlen]; exact hlt)) := List.getElem?_eq_getElem _
    have : (TyEnv.ofWorld W d).internal t i = (((layout (r.mixins.map D.mix)).offsets[i]?.getD 0) != 0) := by
      simp [TyEnv.ofWorld, h2, h3.layout]
    rw [this]
    rw [hoff] at hex ⊢
    cases he : (D.mix m).external with
    | true => have := hex.1 he; simp at this; simp [this]
    | false =>
      have : ¬ (layout (r.mixins.map D.mix)).offsets[i]'(by rw [hlen]; exact hlt) = 0 := by
        intro h0; rw [h0] at hex; exact absurd (hex.2 rfl) (by rw [he]; simp)
      simpa using this
  · intro t
    show (TyEnv.ofWorld W d).mixins emptyTid = []
    rw [hmx (typeAt_empty (W.doms d) d)]; rfl

/-- An environment given by lists of mixins. -/
def envOf (D : Decls) (ms : TypeId → List Mix) : TyEnv where
  mixins := ms
  internal t i := ((ms t)[i]?).elim false (fun m => !(D.mix m).external)
  indexOf t m := (ms t).idxOf? m
  emptyOf _ := 0

theorem envOf_ok {D : Decls} {ms : TypeId → List Mix} (hn : ∀ t, (ms t).Nodup) (h0 : ms 0 = []) : EnvOk D (envOf D ms) := by
  refine ⟨hn, ?_, ?_, fun _ => h0⟩
  · intro t u m i hm
    show (ms t).idxOf? m = some i ↔ (ms t)[i]? = some m
    rw [List.idxOf?, List.findIdx?_eq_some_iff_getElem]
    constructor
    · rintro ⟨h1, h2, -⟩
      simp at h2
      rw [List.getElem?_eq_getElem h1, h2]
    · intro h
      obtain ⟨h1, h2⟩ := List.getElem?_eq_some_iff.1 h
      refine ⟨h1, by simp [h2], ?_⟩
      intro j hj
      simp only [Bool.not_eq_true, beq_eq_false_iff_ne, ne_eq]
      intro h3
      have := nodup_index (hn t) (i := j) (j := i) (x := m) (by rw [List.getElem?_eq_getElem (by omega), h3]) h
      omega
  · intro t i m hm
    show ((ms t)[i]?).elim false (fun m => !(D.mix m).external) = _
    have hm : (ms t)[i]? = some m := hm
    rw [hm]; rfl

end Dnmx
