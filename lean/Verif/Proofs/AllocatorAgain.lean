import Verif.Proofs.AllocatorSteps

/-!
# A call for a type that lacked memory is made again
-/

namespace Dnmx
open Spec

theorem unstored_same (W : World) (d : DomId) : unstored W W d = W := by
  unfold unstored
  have : W.setDom d (W.doms d) = W := by
    cases W
    simp only [World.setDom, World.mk.injEq, and_true, true_and]
    funext x
    by_cases h : x = d <;> simp [upd, h]
  exact this

theorem resolvedA_again (D : Decls) (W : World) (d : DomId) (key ms : List Mix) :
    resolvedA D (unstored W (resolvedA D W d key ms).2 d) d key ms = resolvedA D W d key ms := by
  by_cases he : ms.isEmpty = true
  · have h1 : resolvedA D W d key ms = (.ok emptyTid, W.setDom d { W.doms d with queries := storeQuery key emptyTid (W.doms d).queries }) := by simp [resolvedA, he]
    rw [h1]
    have h2 : unstored W (W.setDom d { W.doms d with queries := storeQuery key emptyTid (W.doms d).queries }) d = W := by
      refine Eq.trans ?_ (unstored_same W d)
      simp only [unstored, World.setDom, World.mk.injEq, and_true, true_and]
      funext x
      by_cases h : x = d <;> simp [upd, h]
    rw [h2, h1]
  · cases hf : findType ms (W.doms d).types with
    | some t0 =>
      have h1 : resolvedA D W d key ms = (.ok t0.tid, W.setDom d { W.doms d with queries := storeQuery key t0.tid (W.doms d).queries }) := by simp [resolvedA, he, hf]
      rw [h1]
      have h2 : unstored W (W.setDom d { W.doms d with queries := storeQuery key t0.tid (W.doms d).queries }) d = W := by
        refine Eq.trans ?_ (unstored_same W d)
        simp only [unstored, World.setDom, World.mk.injEq, and_true, true_and]
        funext x
        by_cases h : x = d <;> simp [upd, h]
      rw [h2, h1]
    | none =>
      cases hb : buildType D W d W.nextType ms with
      | error e =>
        have h1 : resolvedA D W d key ms = (.error e, W) := by simp [resolvedA, he, hf, hb]
        rw [h1]
        show resolvedA D (unstored W W d) d key ms = _
        rw [unstored_same, h1]
      | ok t =>
        have hm : t.mixins = ms := by
          unfold buildType at hb
          split at hb
          · cases hb
          · split at hb
            · cases hb
            · rw [← Except.ok.inj hb]
        have h1 : resolvedA D W d key ms = (.ok t.tid, { W.setDom d { W.doms d with types := (W.doms d).types ++ [t], queries := storeQuery key t.tid (W.doms d).queries } with nextType := W.nextType + 1 }) := by
          simp [resolvedA, he, hf, hb, emplaceSection, hm]
        rw [h1]
        have hf' : findType ms ((W.doms d).types ++ [t]) = some t := by
          unfold findType at hf ⊢
          rw [List.find?_append, hf]
          simp [hm]
        simp only [resolvedA, unstored, World.setDom, upd, if_true, he, hf', Option.map_some]
        simp only [Bool.false_eq_true, if_false, Prod.mk.injEq, World.mk.injEq, and_true, true_and]
        funext x
        by_cases h : x = d <;> simp [upd, h]

theorem view_sameA {D : Decls} {W W' : World} {d : DomId} (h1 : W'.mixId = W.mixId) (h2 : (W'.doms d).mixins = (W.doms d).mixins) : W'.view D d = W.view D d := by
  have : getMixinByName D W' d = getMixinByName D W d := by
    funext n
    simp [getMixinByName, h2]
  simp [World.view, this, h1]

theorem unstored_view (D : Decls) (W : World) (d : DomId) (key ms : List Mix) :
    (unstored W (resolvedA D W d key ms).2 d).view D d = W.view D d ∧
    rulesOf D (W.view D d) ((unstored W (resolvedA D W d key ms).2 d).doms d) = rulesOf D (W.view D d) (W.doms d) := by
  unfold resolvedA
  dsimp only
  split
  · exact ⟨view_sameA rfl (by simp [unstored, World.setDom, upd]), by simp [rulesOf, unstored, World.setDom, upd]⟩
  · split
    · rw [unstored_same]; exact ⟨rfl, rfl⟩
    · unfold emplaceSection
      split
      · exact ⟨view_sameA rfl (by simp [unstored, World.setDom, upd]), by simp [rulesOf, unstored, World.setDom, upd]⟩
      · exact ⟨view_sameA rfl (by simp [unstored, World.setDom, upd]), by simp [rulesOf, unstored, World.setDom, upd]⟩

theorem getTypeMut_again (D : Decls) (W : World) (d md : DomId) (q : List Mix) :
    getTypeMut D (unstored W (getTypeMut D W d md q).2 d) d md q = getTypeMut D W d md q := by
  by_cases hd : md = d
  · subst hd
    cases hq : findQuery q (W.doms md).queries with
    | some t =>
      have h1 : getTypeMut D W md md q = (.ok t, W) := by simp [getTypeMut, lookupSection, hq]
      rw [h1]
      show getTypeMut D (unstored W W md) md md q = _
      rw [unstored_same, h1]
    | none =>
      have h1 := getTypeMut_resolved D W md q hq
      cases hr : (applyMutationRules D (rulesOf D (W.view D md) (W.doms md)) q).result with
      | error e =>
        rw [hr] at h1
        simp only at h1
        rw [h1]
        show getTypeMut D (unstored W W md) md md q = _
        rw [unstored_same, h1]
      | ok x =>
        obtain ⟨key, ms⟩ := x
        rw [hr] at h1
        simp only at h1
        rw [h1]
        have hu := unstored_queries D W md key ms md
        obtain ⟨v1, v2⟩ := unstored_view D W md key ms
        have h2 := getTypeMut_resolved D (unstored W (resolvedA D W md key ms).2 md) md q (by rw [hu]; exact hq)
        rw [v1, v2, hr] at h2
        simp only at h2
        rw [h2, resolvedA_again]
  · have h1 : getTypeMut D W d md q = (.error .foreignMutation, W) := by simp [getTypeMut, hd]
    rw [h1]
    show getTypeMut D (unstored W W d) d md q = _
    rw [unstored_same, h1]

theorem getType_again (D : Decls) (W : World) (d : DomId) (q : List Mix) :
    getType D (unstored W (getType D W d q).2 d) d q = getType D W d q := by
  cases hq : findQuery q (W.doms d).queries with
  | some t =>
    have h1 : getType D W d q = (.ok t, W) := by simp [getType, hq]
    rw [h1]
    show getType D (unstored W W d) d q = _
    rw [unstored_same, h1]
  | none =>
    have h1 : getType D W d q = getTypeMut D W d d q := by simp [getType, hq]
    rw [h1]
    have hu : ((unstored W (getTypeMut D W d d q).2 d).doms d).queries = (W.doms d).queries := by simp [unstored, World.setDom, upd]
    have h2 : getType D (unstored W (getTypeMut D W d d q).2 d) d q = getTypeMut D (unstored W (getTypeMut D W d d q).2 d) d d q := by
      simp [getType, hu, hq]
    rw [h2, getTypeMut_again]

end Dnmx
