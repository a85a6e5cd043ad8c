import Verif.Proofs.LifetimeLemmas
import Verif.Props.Registry

/-!
# C68: domains that are destroyed

A program may destroy a domain and construct another one at the same address (`Verif.Model.Lifetime`). What a user
expects is that this is the same as using a new address. This is so exactly as long as no mixin is registered in the
domain when it is destroyed.
-/

namespace Dnmx.Props
open Spec

/-! ## Examples -/

/-- Calls that leave feature 1 and 2 (of mixin 1) registered, and a new domain with canonicalization. -/
def lifeOps : List LifeOp :=
  [.call (.regMixin 0 1), .call (.regMixin 0 2), .call (.getType 0 [1, 2]), .call (.unregMixin 0 1),
   .call (.unregMixin 0 2), .renew 0 { canonicalize := true }, .call (.regMixin 0 2), .call (.regMixin 0 3),
   .call (.getType 0 [3, 2]), .call (.regMixin 1 1), .renew 2 {}, .call (.regMixin 2 4)]

/-- Calls that do not unregister mixin 1 before the domain is destroyed. -/
def staleOps : List LifeOp := [.call (.regMixin 0 1), .renew 0 {}, .call (.regMixin 0 2)]

/-! ## C68 -/

/-- C68: a domain that was just constructed is empty, whatever happened at its address before: no mixins, features,
type classes, types or stored queries, only the canonicalization rule if asked for; the other domains and all infos are
as before. -/
theorem C68_new_domain (D : Decls) (W : World) (d : DomId) (s : Settings) :
    mixinsOf (lifeStep D W (.renew d s)) d = [] ∧ featuresOf (lifeStep D W (.renew d s)) d = [] ∧
    classesOf (lifeStep D W (.renew d s)) d = [] ∧ ((lifeStep D W (.renew d s)).doms d).types = [] ∧
    ((lifeStep D W (.renew d s)).doms d).queries = [] ∧
    ((lifeStep D W (.renew d s)).doms d).rules = (if s.canonicalize then [(0, 1)] else []) ∧
    (∀ d', d' ≠ d → (lifeStep D W (.renew d s)).doms d' = W.doms d') ∧
    (lifeStep D W (.renew d s)).mixId = W.mixId ∧ (lifeStep D W (.renew d s)).mixDom = W.mixDom ∧
    (lifeStep D W (.renew d s)).featId = W.featId := by
  refine ⟨?_, ?_, ?_, ?_, ?_, ?_, ?_, rfl, rfl, rfl⟩
  all_goals first
    | (intro d' h; simp [lifeStep, renew, World.setDom, upd, h])
    | simp [mixinsOf, featuresOf, classesOf, lifeStep, renew, World.setDom, upd, newDom]

/-- Initial domains are at even addresses. -/
theorem initial_moved (s : DomId → Settings) (l : List Settings) :
    SameUpTo (fun d => 2 * d) (initWorld s) (initWorld (apartSettings s l)) := by
  refine ⟨?_, rfl, rfl, fun _ => rfl, rfl⟩
  intro d
  show newDom (apartSettings s l (2 * d)) = domAtAddr _ (newDom (s d))
  rw [newDom_atAddr]
  unfold apartSettings
  rw [if_pos (Nat.mul_mod_right 2 d), Nat.mul_div_cancel_left d (by decide)]

/-- C68 (partial: no mixin may be registered in a domain when it is destroyed): a program that destroys domains does the
same as the program that uses a new address for every new domain and never destroys one. All calls have the same
outcomes, and in the end everything is the same up to the addresses of the domains. So what is proved here about programs
that do not destroy domains holds for those that do. (Features, type classes and rules may be left behind.) -/
theorem C68_apart_partial (D : Decls) (s : DomId → Settings) (ops : List LifeOp)
    (h : UnregistersMixins D (initWorld s) ops) :
    (∀ a b, addresses (fun d => 2 * d) 0 ops a = addresses (fun d => 2 * d) 0 ops b → a = b) ∧
    lifeOutcomes D (initWorld s) ops =
      (trace D (initWorld (apartSettings s (settingsOf ops))) (apart (fun d => 2 * d) 0 ops)).map (·.2) ∧
    SameUpTo (addresses (fun d => 2 * d) 0 ops) (runLife D (initWorld s) ops)
      (run D (initWorld (apartSettings s (settingsOf ops))) (apart (fun d => 2 * d) 0 ops)) := by
  refine apart_run D ops (fun d => 2 * d) 0 (initWorld s) _ ?_ (initial_moved s _) ?_ (initWorld_reg _) ?_ ?_ h
  · intro a b e; exact Nat.eq_of_mul_eq_mul_left (by decide) e
  · intro d t ht; simp [initWorld, newDom] at ht
  · intro j _ d; show 2 * d ≠ 2 * j + 1; omega
  · intro j s' hj
    show newDom (apartSettings s (settingsOf ops) _) = _
    unfold apartSettings
    rw [if_neg (by omega), show (2 * (0 + j) + 1) / 2 = j by omega, List.getD_eq_getElem?_getD, hj]
    rfl

/-- The example program meets the hypothesis; its calls succeed. -/
example : UnregistersMixins regDecls (initWorld fun _ => {}) lifeOps := by
  refine ⟨?_, ?_, trivial⟩ <;> decide +kernel
example : lifeOutcomes regDecls (initWorld fun _ => {}) lifeOps = List.replicate 10 (.ok ()) := by decide +kernel

/-- C68 (partial: no mixin may be registered in a domain when it is destroyed): ids of mixins lead back to the mixins and
are unique in every domain. -/
theorem C68_ids_partial (D : Decls) (s : DomId → Settings) (ops : List LifeOp)
    (h : UnregistersMixins D (initWorld s) ops) (d : DomId) (m : Mix) (hm : m ∈ mixinsOf (runLife D (initWorld s) ops) d) :
    (∃ i, (runLife D (initWorld s) ops).mixId m = some i ∧ getMixinById (runLife D (initWorld s) ops) d (some i) = some m) ∧
    (runLife D (initWorld s) ops).mixDom m = some d ∧
    (∀ m' ∈ mixinsOf (runLife D (initWorld s) ops) d,
      (runLife D (initWorld s) ops).mixId m' = (runLife D (initWorld s) ops).mixId m → m' = m) := by
  obtain ⟨hi, -, hv⟩ := C68_apart_partial D s ops h
  have hr := reachable_reg D (apartSettings s (settingsOf ops)) (apart (fun d => 2 * d) 0 ops)
  have key : ∀ m' ∈ mixinsOf (runLife D (initWorld s) ops) d, ∃ i,
      (runLife D (initWorld s) ops).mixId m' = some i ∧ ((runLife D (initWorld s) ops).doms d).mixins[i]? = some (some m') ∧
      (runLife D (initWorld s) ops).mixDom m' = some d := by
    intro m' hm'
    obtain ⟨i, hs⟩ := (mem_mixinsOf _ _ _).1 hm'
    rw [← moved_mixins hv] at hs
    have h1 := hr.mixSlot _ i m' hs
    rw [hv.mixId, hv.mixDom, option_map_ne hi] at h1
    rw [moved_mixins hv] at hs
    exact ⟨i, h1.1, hs, h1.2⟩
  obtain ⟨i, h1, h2, h3⟩ := key m hm
  refine ⟨⟨i, h1, ?_⟩, h3, ?_⟩
  · exact (getById_eq _ _ _).2 ⟨i, rfl, h2⟩
  · intro m' hm' he
    obtain ⟨j, k1, k2, -⟩ := key m' hm'
    rw [k1, h1] at he
    have : j = i := by simpa using he
    subst this
    rw [h2] at k2
    simpa using k2.symm

/-- C68 (partial: no mixin may be registered in a domain when it is destroyed): the types of a domain belong to it, their
mixins are different and registered in it, no two types have the same mixins, and stored queries lead to types of the
domain. -/
theorem C68_types_partial (D : Decls) (s : DomId → Settings) (ops : List LifeOp)
    (h : UnregistersMixins D (initWorld s) ops) (d : DomId) :
    (∀ t ∈ ((runLife D (initWorld s) ops).doms d).types, t.dom = d ∧ t.mixins.Nodup ∧
      ∀ m ∈ t.mixins, m ∈ mixinsOf (runLife D (initWorld s) ops) d) ∧
    ((runLife D (initWorld s) ops).doms d).types.Pairwise (fun a b => a.mixins ≠ b.mixins) ∧
    (∀ e ∈ ((runLife D (initWorld s) ops).doms d).queries, ∃ t, ((runLife D (initWorld s) ops).doms d).typeAt d e.2 = some t) := by
  obtain ⟨hi, -, hv⟩ := C68_apart_partial D s ops h
  generalize hV : run D (initWorld (apartSettings s (settingsOf ops))) (apart (fun d => 2 * d) 0 ops) = V at hv
  have hr : RegInv V := by rw [← hV]; exact reachable_reg D _ _
  have ht : TypesInv D V (addresses (fun d => 2 * d) 0 ops d) := by rw [← hV]; exact reachable_types D _ _ _
  generalize addresses (fun d => 2 * d) 0 ops = ρ at hi hv ht
  generalize runLife D (initWorld s) ops = W at hv ⊢
  have hty : (V.doms (ρ d)).types = (W.doms d).types.map (typeAtAddr ρ) := by rw [hv.doms]; rfl
  refine ⟨?_, ?_, ?_⟩
  · intro t htm
    have hok := ht.ok (typeAtAddr ρ t) (by rw [hty]; exact List.mem_map_of_mem htm)
    refine ⟨hi _ _ hok.dom, hok.nodup, ?_⟩
    intro m hm
    obtain ⟨⟨i, h1⟩, h2⟩ := hok.reg m hm
    obtain ⟨d', h3, h4⟩ := hr.mixReg m i h1
    rw [h2] at h3
    have : d' = ρ d := by simpa using h3.symm
    subst this
    rw [moved_mixins hv] at h4
    exact (mem_mixinsOf _ _ _).2 ⟨i, h4⟩
  · have hc := ht.comps
    rw [hty, List.pairwise_map] at hc
    exact hc
  · intro e he
    obtain ⟨r, h1⟩ := ht.queries e (by rw [moved_queries hv]; exact he)
    rw [hv.doms d] at h1
    unfold Dom.typeAt at h1 ⊢
    by_cases h0 : e.2 = emptyTid
    · rw [if_pos h0]; exact ⟨_, rfl⟩
    · rw [if_neg h0] at h1 ⊢
      have hf := find_map_atAddr ρ (fun r => r.tid == e.2) (fun _ => rfl) (W.doms d).types
      have h1' : ((W.doms d).types.map (typeAtAddr ρ)).find? (fun r => r.tid == e.2) = some r := h1
      rw [hf] at h1'
      cases hx : (W.doms d).types.find? (fun r => r.tid == e.2) with
      | none => rw [hx] at h1'; simp at h1'
      | some t => exact ⟨t, rfl⟩

/-- In the example there are a type and stored queries in the second domain at address 0. -/
example : mixinsOf (runLife regDecls (initWorld fun _ => {}) lifeOps) 0 = [2, 3] ∧
    ((runLife regDecls (initWorld fun _ => {}) lifeOps).doms 0).types.length = 1 ∧
    ((runLife regDecls (initWorld fun _ => {}) lifeOps).doms 0).queries.length = 1 := by decide +kernel

/-- C68, the full statements are false: a mixin was registered in a domain when it was destroyed, and the domain now at
the same address takes it for its own. It makes types with it, although it is not registered there, gives its id to
another mixin, and makes a type of two mixins with the same id. -/
theorem C68_stale_refuted :
    ∃ (D : Decls) (s : DomId → Settings) (ops : List LifeOp) (d : DomId) (m m' : Mix),
      m ∉ mixinsOf (runLife D (initWorld s) ops) d ∧ m' ∈ mixinsOf (runLife D (initWorld s) ops) d ∧ m ≠ m' ∧
      (runLife D (initWorld s) ops).mixId m = (runLife D (initWorld s) ops).mixId m' ∧
      (∃ t, (getType D (runLife D (initWorld s) ops) d [m]).1 = .ok t) ∧
      (∃ t, (getType D (runLife D (initWorld s) ops) d [m, m']).1 = .ok t) ∧
      lifeOutcomes D (initWorld s) (ops ++ [.call (.getType d [m])]) ≠
        (trace D (initWorld (apartSettings s (settingsOf ops)))
          (apart (fun d => 2 * d) 0 (ops ++ [.call (.getType d [m])]))).map (·.2) := by
  refine ⟨regDecls, fun _ => {}, staleOps, 0, 1, 2, ?_, ?_, ?_, ?_, ⟨1, ?_⟩, ⟨1, ?_⟩, ?_⟩ <;> decide +kernel

/-- C68: a feature or mixin info that says it is registered but is in no domain can never be used again: it stays so
whatever is called and whatever domains are destroyed and constructed, registering it fails in every domain, and so does
unregistering it. -/
theorem C68_orphans (D : Decls) (W : World) (ops : List LifeOp) :
    (∀ f, OrphanFeature W f → OrphanFeature (runLife D W ops) f ∧ ∀ d,
      (step D (runLife D W ops) (.regFeature d f)).1 = .error .idRegistered ∧
      (step D (runLife D W ops) (.unregFeature d f)).1 = .error .unregForeign) ∧
    (∀ d0 m, OrphanMixin W d0 m → OrphanMixin (runLife D W ops) d0 m ∧ ∀ d,
      (∃ e, (step D (runLife D W ops) (.regMixin d m)).1 = .error e) ∧
      (∃ e, (step D (runLife D W ops) (.unregMixin d m)).1 = .error e)) := by
  have h := runLife_orphan D ops W
  generalize runLife D W ops = W' at h
  refine ⟨?_, ?_⟩
  · intro f hf
    have hf' := h.1 f hf
    refine ⟨hf', fun d => ⟨?_, ?_⟩⟩
    · show (registerFeature D W' d f).1 = _
      unfold registerFeature
      rw [basicRegister_hasId _ _ _ _ _ hf'.1]
    · show (unregisterFeature W' d f).1 = _
      unfold unregisterFeature
      rw [ownSlot_not_mem _ _ _ (fun hx => hf'.2 d ((mem_slots _ _).2 hx))]
  · intro d0 m hm
    have hm' := h.2 d0 m hm
    refine ⟨hm', fun d => ⟨?_, ?_⟩⟩
    · cases hc : (step D W' (.regMixin d m)).1 with
      | error e => exact ⟨e, rfl⟩
      | ok u =>
        exfalso
        have ho := registerFeatures_orphan D d ((D.mix m).feats.map (·.feat)) W'
        have hc' : (registerMixin D W' d m).1 = .ok u := hc
        unfold registerMixin at hc'
        by_cases hd : W'.mixDom m ≠ none ∧ W'.mixDom m ≠ some d
        · rw [if_pos hd] at hc'; simp at hc'
        rw [if_neg hd] at hc'
        rcases hr : registerFeatures D W' d ((D.mix m).feats.map (·.feat)) with ⟨e, W1⟩
        rw [hr] at ho
        simp only [hr] at hc'
        cases e with
        | error e => simp at hc'
        | ok u' =>
          simp only at hc'
          rw [basicRegister_hasId _ _ _ _ _ (ho.2 d0 m hm').1] at hc'
          simp at hc'
    · cases hc : (step D W' (.unregMixin d m)).1 with
      | error e => exact ⟨e, rfl⟩
      | ok u =>
        exfalso
        have hc' : (unregisterMixin W' d m).1 = .ok u := hc
        unfold unregisterMixin at hc'
        simp only at hc'
        rw [ownSlot_not_mem _ _ _ (fun hx => hm'.2.2 d ((mem_slots _ _).2 hx))] at hc'
        cases hp : purgeQueries (W'.doms d) d (W'.mixId m) m (W'.doms d).queries with
        | none => rw [hp] at hc'; simp at hc'
        | some qs => rw [hp] at hc'; simp at hc'

/-- C68: what is registered in a domain when it is destroyed (after any history) can never be registered again, in any
domain, whatever is done. The user has to unregister all mixins and features first. -/
theorem C68_left_registered (D : Decls) (s : DomId → Settings) (ops : List Op) (d : DomId) (s' : Settings)
    (later : List LifeOp) :
    (∀ f ∈ featuresOf (run D (initWorld s) ops) d, ∀ d',
      (step D (runLife D (renew (run D (initWorld s) ops) d s') later) (.regFeature d' f)).1 = .error .idRegistered) ∧
    (∀ m ∈ mixinsOf (run D (initWorld s) ops) d, ∀ d',
      (step D (runLife D (renew (run D (initWorld s) ops) d s') later) (.regMixin d' m)).1 ≠ .ok ()) := by
  have hl := renew_leaves (reachable_reg D s ops) d s'
  have ho := C68_orphans D (renew (run D (initWorld s) ops) d s') later
  refine ⟨fun f hf d' => ((ho.1 f (hl.1 f hf)).2 d').1, fun m hm d' he => ?_⟩
  obtain ⟨e, h⟩ := ((ho.2 d m (hl.2 m hm)).2 d').1
  rw [h] at he
  simp at he

/-- Features 1 and 2 of mixin 1 are registered in the example. -/
example : mixinsOf (run regDecls (initWorld fun _ => {}) [.regMixin 0 1]) 0 = [1] ∧
    featuresOf (run regDecls (initWorld fun _ => {}) [.regMixin 0 1]) 0 = [1, 2] := by decide +kernel

end Dnmx.Props
