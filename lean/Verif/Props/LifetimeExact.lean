import Verif.Props.Lifetime

/-!
# C68, exactly

The condition of `C68_apart_partial`, that no mixin is registered in a domain when it is destroyed, is the weakest one: if a program breaks it, then right after
that a call can tell. The first mixin that was left registered gives a different error when it is registered in the new domain.
-/

namespace Dnmx

theorem scanRev_errors (nameOf : Nat → List UInt8) (n : List UInt8) : ∀ (l : List (Option Nat)) (i : Nat), scanRev nameOf n i l ≠ .error .infoHasDomain := by
  intro l
  induction l with
  | nil => intro i; simp [scanRev]
  | cons x l ih =>
    intro i h
    unfold scanRev at h
    cases hx : scanRev nameOf n (i + 1) l with
    | error e => rw [hx] at h; simp at h; subst h; exact ih _ hx
    | ok o => 
      rw [hx] at h
      cases o <;> cases x <;> simp at h <;> split at h <;> simp at h

theorem basicRegister_errors (nameOf : Nat → List UInt8) (b : Bool) (id : Option Nat) (x : Nat) (l : List (Option Nat)) : basicRegister nameOf b id x l ≠ .error .infoHasDomain := by
  unfold basicRegister
  by_cases h1 : id ≠ none
  · rw [if_pos h1]; simp
  rw [if_neg h1]
  cases h2 : b && (nameOf x).isEmpty with
  | true => rw [if_pos rfl]; simp
  | false =>
    rw [if_neg (by simp)]
    cases b with
    | false =>
      simp only [Bool.false_eq_true, if_false]
      cases scanFwd 0 l <;> simp
    | true =>
      simp only [if_true]
      cases hs : scanRev nameOf (nameOf x) 0 l with
      | error e =>
        simp only
        intro h
        simp at h
        subst h
        exact scanRev_errors _ _ _ _ hs
      | ok o => cases o <;> simp

theorem registerFeature_errors (D : Decls) (W : World) (d : DomId) (f : Feat) : (registerFeature D W d f).1 ≠ .error .infoHasDomain := by
  unfold registerFeature
  cases h : basicRegister D.featName (!(W.doms d).settings.allowDupFeat) (W.featId f) f (W.doms d).feats with
  | error e =>
    simp only
    intro h2
    simp at h2
    subst h2
    exact basicRegister_errors _ _ _ _ _ h
  | ok p => simp

theorem registerFeatures_errors (D : Decls) (d : DomId) : ∀ (fs : List Feat) (W : World), (registerFeatures D W d fs).1 ≠ .error .infoHasDomain
  | [], W => by simp [registerFeatures]
  | f :: fs, W => by
    unfold registerFeatures
    by_cases h : W.featId f ≠ none
    · rw [if_pos h]; exact registerFeatures_errors D d fs W
    · rw [if_neg h]
      have := registerFeature_errors D W d f
      rcases hr : registerFeature D W d f with ⟨e, W'⟩
      rw [hr] at this
      cases e with
      | error e => exact this
      | ok u => exact registerFeatures_errors D d fs W'

theorem registerMixin_infoHasDomain (D : Decls) (W : World) (d : DomId) (m : Mix) :
    (registerMixin D W d m).1 = .error .infoHasDomain ↔ W.mixDom m ≠ none ∧ W.mixDom m ≠ some d := by
  unfold registerMixin
  by_cases h : W.mixDom m ≠ none ∧ W.mixDom m ≠ some d
  · rw [if_pos h]; exact ⟨fun _ => h, fun _ => rfl⟩
  · rw [if_neg h]
    refine ⟨fun h2 => ?_, fun h2 => absurd h2 h⟩
    have h3 := registerFeatures_errors D d ((D.mix m).feats.map (·.feat)) W
    rcases hr : registerFeatures D W d ((D.mix m).feats.map (·.feat)) with ⟨e, W'⟩
    rw [hr] at h3
    simp only [hr] at h2
    cases e with
    | error e => exact absurd h2 h3
    | ok u =>
      cases hb : basicRegister D.mixName (!(W'.doms d).settings.allowDupMix) (W'.mixId m) m (W'.doms d).mixins with
      | error e =>
        simp only [hb] at h2
        simp at h2
        subst h2
        exact absurd hb (basicRegister_errors _ _ _ _ _)
      | ok p => simp only [hb] at h2; simp at h2

end Dnmx

namespace Dnmx.Props
open Spec

/-- Both programs have the same outcomes, the second one with domains that are placed apart. -/
def SameOutcomes (D : Decls) (ρ : DomId → DomId) (k : Nat) (W V : World) (ops : List LifeOp) : Prop :=
  lifeOutcomes D W ops = (trace D V (apart ρ k ops)).map (·.2)

/-- a program that leaves a mixin registered can be told -/
theorem apart_told (D : Decls) : ∀ (ops : List LifeOp) (ρ : DomId → DomId) (k : Nat) (W V : World),
    InjAddr ρ → SameUpTo ρ W V → Home W → RegInv V → (∀ (j : Nat), k ≤ j → ∀ d, ρ d ≠ 2 * j + 1) →
    (∀ (j : Nat) (s : Settings), (settingsOf ops)[j]? = some s → V.doms (2 * (k + j) + 1) = newDom s) →
    ¬ UnregistersMixins D W ops →
    ∃ (pre : List LifeOp) (d : DomId) (m : Mix), pre <+: ops ∧ ¬ SameOutcomes D ρ k W V (pre ++ [.call (.regMixin d m)])
  | [], ρ, k, W, V, hi, h, hh, hv, hf, hs, hu => absurd trivial hu
  | .call o :: ops, ρ, k, W, V, hi, h, hh, hv, hf, hs, hu => by
    have hst := step_moved hi D h hh o
    obtain ⟨pre, d, m, h1, h2⟩ := apart_told D ops ρ k (step D W o).2 (step D V (opAt ρ o)).2 hi hst.moved hst.home
      (step_reg D V _ hv) hf
      (fun j s hj => (hst.frame _ (hf (k + j) (Nat.le_add_right ..))).trans (hs j s hj)) hu
    refine ⟨.call o :: pre, d, m, (List.prefix_cons_inj _).2 h1, fun he => h2 ?_⟩
    unfold SameOutcomes at he ⊢
    simp only [List.cons_append, lifeOutcomes, apart, trace, List.map_cons, List.cons.injEq] at he
    exact he.2
  | .renew d s :: ops, ρ, k, W, V, hi, h, hh, hv, hf, hs, hu => by
    have hk : V.doms (2 * k + 1) = newDom s := hs 0 s rfl
    by_cases hm : mixinsOf W d = []
    · obtain ⟨hmv, hh'⟩ := renew_moved h hh d (2 * k + 1) s (by
        intro m hm'
        have he : mixinsOf V (ρ d) = [] := by unfold mixinsOf; rw [moved_mixins h]; exact hm
        exact mixDom_of_empty hv (ρ d) he m (by rw [h.mixDom, hm']; rfl)) hk
      obtain ⟨pre, d', m, h1, h2⟩ := apart_told D ops (upd ρ d (2 * k + 1)) (k + 1) (renew W d s) V
        (upd_inj hi d _ (hf k (Nat.le_refl k))) hmv hh' hv
        (by
          intro j hj d'
          unfold upd
          by_cases e : d' = d
          · rw [if_pos e]; omega
          · rw [if_neg e]; exact hf j (by omega) d')
        (by
          intro j s' hj
          have := hs (j + 1) s' hj
          rw [show k + 1 + j = k + (j + 1) by omega]
          exact this)
        (fun hx => hu ⟨hm, hx⟩)
      exact ⟨.renew d s :: pre, d', m, (List.prefix_cons_inj _).2 h1, h2⟩
    · obtain ⟨m, hm⟩ := List.exists_mem_of_ne_nil _ hm
      refine ⟨[.renew d s], d, m, (List.prefix_cons_inj _).2 (List.nil_prefix), fun he => ?_⟩
      unfold SameOutcomes at he
      simp only [List.cons_append, List.nil_append, lifeOutcomes, apart, trace, List.map_cons, List.map_nil, List.cons.injEq, and_true, opAt] at he
      -- the mixin says that it is of domain `d`
      have hdom : V.mixDom m = some (ρ d) := by
        obtain ⟨i, hi'⟩ := (mem_mixinsOf _ _ _).1 hm
        rw [← moved_mixins h] at hi'
        exact (hv.mixSlot _ i m hi').2
      have hW : W.mixDom m = some d := by
        rw [h.mixDom, option_map_ne hi] at hdom
        exact hdom
      have hr : (registerMixin D V (upd ρ d (2 * k + 1) d) m).1 = .error .infoHasDomain := by
        refine (registerMixin_infoHasDomain ..).2 ⟨by rw [hdom]; simp, ?_⟩
        rw [hdom]
        have := hf k (Nat.le_refl k) d
        simp [upd, this]
      have hl : (registerMixin D (renew W d s) d m).1 ≠ .error .infoHasDomain := by
        intro hx
        have := ((registerMixin_infoHasDomain ..).1 hx).2
        exact this hW
      have he' : (registerMixin D (renew W d s) d m).1 = (registerMixin D V (upd ρ d (2 * k + 1) d) m).1 := he
      exact hl (he'.trans hr)

theorem unregisters_prefix {D : Decls} : ∀ {pre ops : List LifeOp} {W : World} {calls : List Op}, pre <+: ops → UnregistersMixins D W ops →
    UnregistersMixins D W (pre ++ calls.map .call)
  | [], ops, W, [], _, _ => trivial
  | [], ops, W, o :: calls, _, _ => by
    show UnregistersMixins D (step D W o).2 (calls.map .call)
    exact unregisters_prefix (pre := []) (ops := []) List.nil_prefix trivial
  | x :: pre, [], W, calls, h, _ => by simp at h
  | x :: pre, y :: ops, W, calls, h, hu => by
    obtain ⟨rfl, h'⟩ := List.cons_prefix_cons.1 h
    cases x with
    | call o => exact unregisters_prefix (pre := pre) (W := (step D W o).2) h' hu
    | renew d s => exact ⟨hu.1, unregisters_prefix (pre := pre) (W := renew W d s) h' hu.2⟩

theorem settingsOf_prefix {pre ops : List LifeOp} (calls : List Op) (h : pre <+: ops) (j : Nat) (s : Settings) (hj : (settingsOf (pre ++ calls.map .call))[j]? = some s) :
    (settingsOf ops)[j]? = some s := by
  induction pre generalizing ops j with
  | nil =>
    have : ∀ calls : List Op, settingsOf (calls.map .call) = [] := by
      intro calls
      induction calls with
      | nil => rfl
      | cons o calls ih => exact ih
    rw [List.nil_append, this] at hj
    simp at hj
  | cons x pre ih =>
    cases ops with
    | nil => simp at h
    | cons y ops =>
      obtain ⟨rfl, h'⟩ := List.cons_prefix_cons.1 h
      cases x with
      | call o => exact ih h' j hj
      | renew d s' =>
        cases j with
        | zero => exact hj
        | succ j => exact ih h' j hj

/-- C68, exactly: a program destroys no domain in which a mixin is registered, if and only if at each time during the program all calls that could be made have the same outcomes
as if every domain had an address of its own and were never destroyed. -/
theorem C68_exactly (D : Decls) (s : DomId → Settings) (ops : List LifeOp) :
    UnregistersMixins D (initWorld s) ops ↔
    ∀ pre, pre <+: ops → ∀ calls : List Op,
      lifeOutcomes D (initWorld s) (pre ++ calls.map .call) =
        (trace D (initWorld (apartSettings s (settingsOf ops))) (apart (fun d => 2 * d) 0 (pre ++ calls.map .call))).map (·.2) := by
  have hin : InjAddr (fun d => 2 * d) := by intro a b e; exact Nat.eq_of_mul_eq_mul_left (by decide) e
  have hhome : Home (initWorld s) := by intro d t ht; simp [initWorld, newDom] at ht
  have hfree : ∀ (j : Nat), 0 ≤ j → ∀ d, (fun d => 2 * d) d ≠ 2 * j + 1 := by intro j _ d; show 2 * d ≠ 2 * j + 1; omega
  have hset : ∀ (j : Nat) (s' : Settings), (settingsOf ops)[j]? = some s' → (initWorld (apartSettings s (settingsOf ops))).doms (2 * (0 + j) + 1) = newDom s' := by
    intro j s' hj
    show newDom (apartSettings s (settingsOf ops) _) = _
    unfold apartSettings
    rw [if_neg (by omega), show (2 * (0 + j) + 1) / 2 = j by omega, List.getD_eq_getElem?_getD, hj]
    rfl
  constructor
  · intro h pre hp calls
    exact (apart_run D _ (fun d => 2 * d) 0 (initWorld s) _ hin (initial_moved s _) hhome (initWorld_reg _) hfree
      (fun j s' hj => hset j s' (settingsOf_prefix calls hp j s' hj)) (unregisters_prefix hp h)).2.1
  · intro h
    apply Classical.byContradiction
    intro hu
    obtain ⟨pre, d, m, hp, hne⟩ := apart_told D ops (fun d => 2 * d) 0 (initWorld s) _ hin (initial_moved s _) hhome (initWorld_reg _) hfree hset hu
    exact hne (h pre hp [.regMixin d m])

/-- Concrete cases: the program of `C68_stale_refuted` breaks the condition; a call tells right after the domain is destroyed. -/
example : ¬ UnregistersMixins regDecls (initWorld fun _ => {}) staleOps ∧
    lifeOutcomes regDecls (initWorld fun _ => {}) (staleOps.take 2 ++ [.call (.regMixin 0 1)]) = [.ok (), .error .idRegistered] ∧
    (trace regDecls (initWorld (apartSettings (fun _ => {}) (settingsOf staleOps))) (apart (fun d => 2 * d) 0 (staleOps.take 2 ++ [.call (.regMixin 0 1)]))).map (·.2) =
      [.ok (), .error .infoHasDomain] := by
  refine ⟨fun h => ?_, by decide +kernel, by decide +kernel⟩
  have : mixinsOf (step regDecls (initWorld fun _ => {}) (.regMixin 0 1)).2 0 = [] := h.1
  revert this
  decide +kernel

end Dnmx.Props
