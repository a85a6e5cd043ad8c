import Verif.Proofs.DomainMemoryLemmas

/-! # Histories of domains that run out of memory -/

set_option linter.unusedSimpArgs false
set_option linter.unusedVariables false
set_option linter.unusedSectionVars false

namespace Dnmx
open Spec

structure MOk (D : Decls) (M : MWorld) : Prop where
  reg : RegInv M.W
  types : ∀ d, TypesInv D M.W d
  blocks : BlocksExact M

theorem noAlloc_fst (r : Except Err Unit × World) : (noAlloc r).1 = sameOutcome r.1 := by
  obtain ⟨a, b⟩ := r; cases a <;> rfl

theorem noAlloc_snd (r : Except Err Unit × World) : (noAlloc r).2 = r.2 := rfl

/-- what a call does -/
structure StepM (D : Decls) (M : MWorld) (op : Op) (r : Except MemErr Unit × MWorld) : Prop where
  cases : (r.1 = sameOutcome (step D M.W op).1 ∧ r.2.W = (step D M.W op).2) ∨ (r.1 = .error .badAlloc ∧ LeftBehind D M.W op r.2.W)
  blocks : BlocksExact r.2

theorem StepM.elems {D : Decls} {M : MWorld} {op : Op} {r : Except MemErr Unit × World} (h : MOk D M)
    (hc : (r = noAlloc (step D M.W op)) ∨ (r.1 = .error .badAlloc ∧ LeftBehind D M.W op r.2))
    (ht : ∀ d, (r.2.doms d).types = (M.W.doms d).types) : StepM D M op (onElems M r) := by
  refine ⟨?_, BlocksExact.sameTypes h.blocks rfl ht⟩
  rcases hc with hc | hc
  · left; rw [hc]; exact ⟨noAlloc_fst _, rfl⟩
  · right; exact hc

theorem registerFeatures_sameTypes {D : Decls} {W W' : World} {d : DomId} {fs : List Feat} {r : Except Err Unit} (hr : RegInv W) (h : registerFeatures D W d fs = (r, W')) (d' : DomId) :
    (W'.doms d').types = (W.doms d').types ∧ (W'.doms d').queries = (W.doms d').queries := by
  have hg := (registerFeatures_spec D d fs W hr).2.1
  rw [h] at hg
  by_cases hd : d' = d
  · subst hd; rw [hg.dom]; exact ⟨rfl, rfl⟩
  · rw [hg.other d' hd]; exact ⟨rfl, rfl⟩

theorem setDom_types (W : World) (d : DomId) (x : Dom) (h : x.types = (W.doms d).types) (d' : DomId) : ((W.setDom d x).doms d').types = (W.doms d').types := by
  simp only [World.setDom, upd]
  split
  · rename_i e; subst e; exact h
  · rfl

theorem registerFeature_sameTypes (D : Decls) (W : World) (d : DomId) (f : Feat) (d' : DomId) :
    ((registerFeature D W d f).2.doms d').types = (W.doms d').types := by
  unfold registerFeature
  split
  · rfl
  · exact setDom_types _ _ _ (by rfl) _

theorem unregisterFeature_sameTypes (W : World) (d : DomId) (f : Feat) (d' : DomId) : ((unregisterFeature W d f).2.doms d').types = (W.doms d').types := by
  unfold unregisterFeature
  split
  · rfl
  · exact setDom_types _ _ _ (by rfl) _

theorem registerMixin_sameTypes (D : Decls) (W : World) (hr : RegInv W) (d : DomId) (m : Mix) (d' : DomId) :
    ((registerMixin D W d m).2.doms d').types = (W.doms d').types := by
  unfold registerMixin
  split
  · rfl
  · split
    · rename_i e W' h; exact (registerFeatures_sameTypes hr h d').1
    · rename_i W' h
      split
      · exact (registerFeatures_sameTypes hr h d').1
      · rw [← (registerFeatures_sameTypes hr h d').1]
        exact setDom_types _ _ _ (by rfl) _

theorem registerTypeClass_sameTypes (D : Decls) (W : World) (d : DomId) (c : Cls) (d' : DomId) :
    ((registerTypeClass D W d c).2.doms d').types = (W.doms d').types := by
  unfold registerTypeClass
  simp only
  split
  · rfl
  · split
    · rfl
    · split
      · rfl
      · split
        · rfl
        · exact setDom_types _ _ _ (by rfl) _

theorem addRule_sameTypes (D : Decls) (W : World) (d : DomId) (r : Rule) (d' : DomId) :
    ((addRule D W d r).2.doms d').types = (W.doms d').types := by
  unfold addRule
  split
  · rfl
  · simp only
    split
    · exact setDom_types _ _ _ (by rfl) _
    · exact setDom_types _ _ _ (by rfl) _

theorem removeRule_sameTypes (D : Decls) (W : World) (d : DomId) (r : Rule) (d' : DomId) :
    ((removeRule D W d r).2.doms d').types = (W.doms d').types := by
  unfold removeRule
  simp only
  split
  · rfl
  · split
    · exact setDom_types _ _ _ (by rfl) _
    · exact setDom_types _ _ _ (by rfl) _

theorem unregisterMixinM_step {D : Decls} {M : MWorld} (h : MOk D M) (d : DomId) (m : Mix) : StepM D M (.unregMixin d m) (unregisterMixinM M d m) := by
  have hs : step D M.W (.unregMixin d m) = unregisterMixin M.W d m := rfl
  have hne := (unregisterMixin_effect (h.types d) m).2.2.2.1
  have hblk : ∀ t ∈ (M.W.doms d).types, (d, t.tid) ∈ M.blocks := fun t ht => (h.blocks.exact d t.tid).2 ⟨t, ht, rfl⟩
  obtain ⟨bs', hfree, hnd, hmem⟩ := freeBlocks_spec d (((M.W.doms d).types.filter (fun t => t.hasId (M.W.mixId m))).map (·.tid)) M.blocks h.blocks.nodup
    (tids_nodup ((h.types d).tids.filter _)) (by
      intro t ht
      obtain ⟨r, hr, rfl⟩ := List.mem_map.1 ht
      exact hblk r (List.mem_filter.1 hr).1)
  have hexact : ∀ W' : World, (W'.doms d).types = (M.W.doms d).types.filter (fun t => !t.hasId (M.W.mixId m)) → (∀ d', d' ≠ d → W'.doms d' = M.W.doms d') → BlocksExact ⟨W', bs'⟩ := by
    intro W' h1 h2
    refine ⟨hnd, fun d' t => ?_⟩
    show (d', t) ∈ bs' ↔ ∃ r ∈ (W'.doms d').types, r.tid = t
    rw [hmem, h.blocks.exact]
    by_cases hd : d' = d
    · subst hd
      rw [h1]
      constructor
      · rintro ⟨⟨r, hr, rfl⟩, hn⟩
        refine ⟨r, List.mem_filter.2 ⟨hr, ?_⟩, rfl⟩
        cases hh : r.hasId (M.W.mixId m) with
        | false => rfl
        | true => exact absurd ⟨rfl, List.mem_map.2 ⟨r, List.mem_filter.2 ⟨hr, hh⟩, rfl⟩⟩ hn
      · rintro ⟨r, hr, rfl⟩
        obtain ⟨h3, h4⟩ := List.mem_filter.1 hr
        refine ⟨⟨r, h3, rfl⟩, ?_⟩
        rintro ⟨-, h5⟩
        obtain ⟨r', hr', e⟩ := List.mem_map.1 h5
        obtain ⟨h6, h7⟩ := List.mem_filter.1 hr'
        have : r' = r := by
          have a := (h.types d').typeAt_mem r' h6
          have b := (h.types d').typeAt_mem r h3
          rw [e, b] at a
          exact (Option.some.inj a).symm
        subst this
        rw [h7] at h4; cases h4
    · rw [h2 d' hd]
      constructor
      · rintro ⟨a, -⟩; exact a
      · intro a; exact ⟨a, fun b => hd b.1⟩
  unfold unregisterMixinM
  simp only [hfree]
  have hq : ∃ qs, purgeQueries (M.W.doms d) d (M.W.mixId m) m (M.W.doms d).queries = some qs := by
    cases hp : purgeQueries (M.W.doms d) d (M.W.mixId m) m (M.W.doms d).queries with
    | some qs => exact ⟨qs, rfl⟩
    | none =>
      refine absurd ?_ hne
      unfold unregisterMixin
      simp only [hp]
  obtain ⟨qs, hp⟩ := hq
  simp only [hp]
  have other : ∀ (x : Dom) (d' : DomId), d' ≠ d → (M.W.setDom d x).doms d' = M.W.doms d' := by
    intro x d' hd; simp [World.setDom, upd, hd]
  cases ho : ownSlot (M.W.doms d).mixins (M.W.mixId m) m with
  | none =>
    simp only
    refine ⟨.inl ⟨?_, ?_⟩, hexact _ (by rw [setDom_doms_self]) (other _)⟩
    · rw [hs]; unfold unregisterMixin; simp only [hp, ho]; rfl
    · rw [hs]; unfold unregisterMixin; simp only [hp, ho]
  | some i =>
    simp only
    refine ⟨.inl ⟨?_, ?_⟩, hexact _ ?_ ?_⟩
    · rw [hs]; unfold unregisterMixin; simp only [hp, ho]; rfl
    · rw [hs]; unfold unregisterMixin; simp only [hp, ho]
    · show ((M.W.setDom d _).doms d).types = _
      rw [setDom_doms_self]
    · intro d' hd
      show (M.W.setDom d _).doms d' = _
      exact other _ d' hd

theorem garbageCollectM_step {D : Decls} {M : MWorld} (h : MOk D M) (d : DomId) (num : TypeId → Nat) : StepM D M (.gc d num) (garbageCollectM M d num) := by
  have hblk : ∀ t ∈ (M.W.doms d).types, (d, t.tid) ∈ M.blocks := fun t ht => (h.blocks.exact d t.tid).2 ⟨t, ht, rfl⟩
  obtain ⟨bs', he, hnd, hmem⟩ := collectTypesM_spec num d (M.W.doms d).types (M.W.doms d).queries M.blocks h.blocks.nodup (h.types d).tids hblk
  unfold garbageCollectM
  simp only [he]
  refine ⟨.inl ⟨rfl, rfl⟩, hnd, ?_⟩
  intro d' t
  show (d', t) ∈ bs' ↔ ∃ r ∈ ((M.W.setDom d _).doms d').types, r.tid = t
  rw [hmem, h.blocks.exact]
  by_cases hd : d' = d
  · subst hd
    rw [setDom_doms_self]
    simp only [collectTypes_eq]
    constructor
    · rintro ⟨⟨r, hr, rfl⟩, hn⟩
      refine ⟨r, List.mem_filter.2 ⟨hr, ?_⟩, rfl⟩
      by_cases hg : num r.tid > 0
      · simpa using hg
      · exact absurd ⟨trivial, r, hr, rfl, hg⟩ hn
    · rintro ⟨r, hr, rfl⟩
      obtain ⟨h3, h4⟩ := List.mem_filter.1 hr
      refine ⟨⟨r, h3, rfl⟩, ?_⟩
      rintro ⟨-, r', h5, h6, h7⟩
      rw [h6] at h7
      simp at h4; omega
  · have : ∀ x, (M.W.setDom d x).doms d' = M.W.doms d' := by intro x; simp [World.setDom, upd, hd]
    rw [this]
    constructor
    · rintro ⟨a, -⟩; exact a
    · intro a; exact ⟨a, fun b => hd b.1⟩

theorem BlocksExact.cons {M : MWorld} (h : BlocksExact M) (d : DomId) (t : TypeRec) (W' : World) (hf : ∀ r ∈ (M.W.doms d).types, r.tid ≠ t.tid)
    (h1 : (W'.doms d).types = (M.W.doms d).types ++ [t]) (h2 : ∀ d', d' ≠ d → (W'.doms d').types = (M.W.doms d').types) : BlocksExact ⟨W', (d, t.tid) :: M.blocks⟩ := by
  refine ⟨?_, ?_⟩
  · refine List.nodup_cons.2 ⟨?_, h.nodup⟩
    rw [h.exact]
    rintro ⟨r, hr, e⟩
    exact hf r hr e
  · intro d' t'
    show (d', t') ∈ (d, t.tid) :: M.blocks ↔ ∃ r ∈ (W'.doms d').types, r.tid = t'
    rw [List.mem_cons, h.exact]
    by_cases hd : d' = d
    · subst hd
      rw [h1]
      simp only [Prod.mk.injEq, true_and, List.mem_append, List.mem_singleton]
      constructor
      · rintro (rfl | ⟨r, hr, rfl⟩)
        · exact ⟨t, .inr rfl, rfl⟩
        · exact ⟨r, .inl hr, rfl⟩
      · rintro ⟨r, hr | rfl, rfl⟩
        · exact .inr ⟨r, hr, rfl⟩
        · exact .inl rfl
    · rw [h2 d' hd]
      simp [hd]

theorem getM_step {D : Decls} {M : MWorld} (h : MOk D M) {op : Op} {d : DomId} {q : List Mix} {r : Except Err TypeId × World} {rm : Except MemErr TypeId × MWorld}
    (hop : op = .getType d q ∨ op = .getTypeMut d d q ∨ ∃ md, md ≠ d ∧ op = .getTypeMut d md q ∧ r = (.error .foreignMutation, M.W))
    (hs : step D M.W op = discard r) (hother : ∀ d', d' ≠ d → r.2.doms d' = M.W.doms d') (hm : GetM D M d q r rm)
    (hforeign : ∀ md, md ≠ d → op = .getTypeMut d md q → rm = (.error (.err .foreignMutation), M)) : StepM D M op (discardM rm) := by
  have hlt : ∀ r ∈ (M.W.doms d).types, r.tid ≠ M.W.nextType := fun r hr => by have := (h.types d).tidPos r hr; omega
  cases hm with
  | same M' hW hb =>
    refine ⟨.inl ⟨?_, ?_⟩, ?_⟩
    · rw [hs]; simp only [discardM, discard]; cases r.1 <;> rfl
    · rw [hs]; exact hW
    · rcases hb with ⟨b1, b2⟩ | ⟨b1, t, b2, b3⟩
      · refine BlocksExact.sameTypes h.blocks b1 ?_
        intro d'
        by_cases hd : d' = d
        · subst hd; exact b2
        · show (M'.W.doms d').types = _
          rw [hW, hother d' hd]
      · have := BlocksExact.cons h.blocks d t M'.W (fun r hr => by rw [b2]; exact hlt r hr) b3 (fun d' hd => by rw [hW, hother d' hd])
        rw [b2, ← b1] at this
        exact this
  | nothing => exact ⟨.inr ⟨rfl, .nothing op⟩, h.blocks⟩
  | type t h1 hmiss hne hn hb htid =>
    have hask : op = .getType d q ∨ op = .getTypeMut d d q := by
      rcases hop with e | e | ⟨md, hmd, e, -⟩
      · exact .inl e
      · exact .inr e
      · have := hforeign md hmd e; simp at this
    refine ⟨.inr ⟨rfl, .type op d q t hask (findQuery_none.1 hmiss) hne h1 hn hb⟩, ?_⟩
    have := BlocksExact.cons h.blocks d t ({ M.W.setDom d { M.W.doms d with types := (M.W.doms d).types ++ [t] } with nextType := M.W.nextType + 1 })
      (fun r hr => by rw [htid]; exact hlt r hr) (by show ((M.W.setDom d _).doms d).types = _; rw [setDom_doms_self])
      (fun d' hd => by show ((M.W.setDom d _).doms d').types = _; simp [World.setDom, upd, hd])
    rw [htid] at this
    exact this

theorem stepM_ok {D : Decls} {M : MWorld} (h : MOk D M) (F : Faults) (op : Op) : StepM D M op (stepM D F M op) := by
  cases op with
  | regFeature d f =>
    refine StepM.elems h ?_ ?_
    · rcases registerFeatureM_cases D (F.grow 0) M.W d f with e | ⟨-, e⟩
      · left; rw [e]; rfl
      · right; rw [e]; exact ⟨rfl, .nothing _⟩
    · intro d'
      rcases registerFeatureM_cases D (F.grow 0) M.W d f with e | ⟨-, e⟩
      · rw [e]; exact registerFeature_sameTypes D M.W d f d'
      · rw [e]
  | unregFeature d f => exact StepM.elems h (.inl rfl) (fun d' => unregisterFeature_sameTypes M.W d f d')
  | regMixin d m =>
    rcases registerMixinM_cases D F.grow M.W d m with e | ⟨-, hmi, pre, W', hp, hr, e⟩
    · exact StepM.elems h (.inl e) (fun d' => by rw [e]; exact registerMixin_sameTypes D M.W h.reg d m d')
    · exact StepM.elems h (.inr (by rw [e]; exact ⟨rfl, .features d m pre W' hmi hp hr⟩)) (fun d' => by rw [e]; exact (registerFeatures_sameTypes h.reg hr d').1)
  | unregMixin d m => exact unregisterMixinM_step h d m
  | regClass d c =>
    rcases registerTypeClassM_cases D (F.grow 0) M.W d c with e | ⟨-, e⟩
    · exact StepM.elems h (.inl e) (fun d' => by rw [e]; exact registerTypeClass_sameTypes D M.W d c d')
    · exact StepM.elems h (.inr (by rw [e]; exact ⟨rfl, .nothing _⟩)) (fun d' => by rw [e])
  | unregClass d c => exact StepM.elems h (.inl rfl) (fun d' => setDom_types _ _ _ (by rfl) _)
  | addRule d r =>
    rcases addRuleM_cases D (F.grow 0) M.W d r with e | ⟨-, e⟩
    · exact StepM.elems h (.inl e) (fun d' => by rw [e]; exact addRule_sameTypes D M.W d r d')
    · exact StepM.elems h (.inr (by rw [e]; exact ⟨rfl, .nothing _⟩)) (fun d' => by rw [e])
  | removeRule d r => exact StepM.elems h (.inl rfl) (fun d' => removeRule_sameTypes D M.W d r d')
  | getTypeMut d md q =>
    have hm := getTypeMutM_cases D F M d md q
    by_cases hmd : md = d
    · subst hmd
      exact getM_step h (.inr (.inl rfl)) rfl (fun d' hd => (getCase_other (getTypeMut_cases D M.W md q) hd).1) hm
        (fun md' hmd' e => by injection e with _ e2 _; exact absurd e2.symm hmd')
    · have hr : getTypeMut D M.W d md q = (.error .foreignMutation, M.W) := by unfold getTypeMut; rw [if_pos hmd]
      have hrm : getTypeMutM D F M d md q = (.error (.err .foreignMutation), M) := by unfold getTypeMutM; rw [if_pos hmd]
      exact getM_step h (.inr (.inr ⟨md, hmd, rfl, hr⟩)) rfl (fun d' hd => by rw [hr]) hm (fun _ _ _ => hrm)
  | getType d q =>
    exact getM_step h (.inl rfl) rfl (fun d' hd => (getCase_other (getType_cases D M.W d q) hd).1) (getTypeM_cases D F M d q) (fun _ _ e => by cases e)
  | gc d num => exact garbageCollectM_step h d num

/-! ## invariants -/

theorem TypesInv.fewer {D : Decls} {W W' : World} {d : DomId} (h : TypesInv D W d) (h1 : (W'.doms d).types = (W.doms d).types)
    (h2 : ∀ e ∈ (W'.doms d).queries, e ∈ (W.doms d).queries) (hk : (W'.doms d).queries.Pairwise (fun a b => a.1 ≠ b.1))
    (h3 : W'.mixId = W.mixId) (h3' : W'.mixDom = W.mixDom) (h4 : W'.nextType = W.nextType) : TypesInv D W' d := by
  have hat : ∀ t, (W'.doms d).typeAt d t = (W.doms d).typeAt d t := by intro t; simp [Dom.typeAt, h1]
  refine ⟨?_, ?_, by rw [h1]; exact h.tids, by rw [h1]; exact h.comps, ?_, hk, by rw [h4]; exact h.nextPos⟩
  · intro t ht; rw [h1] at ht; rw [h3, h3']; exact h.ok t ht
  · intro t ht; rw [h1] at ht; rw [h4]; exact h.tidPos t ht
  · intro e he; rw [hat]; exact h.queries e (h2 e he)

/-- the state that get_type would have reached, had it not failed at the end -/
def withQuery (W : World) (d : DomId) (q : List Mix) (r : TypeRec) : World :=
  { W.setDom d { W.doms d with types := (W.doms d).types ++ [r], queries := storeQuery q r.tid (W.doms d).queries } with nextType := W.nextType + 1 }

theorem leftType_types {D : Decls} {W : World} (ht : ∀ d, TypesInv D W d) {d : DomId} {q : List Mix} {r : TypeRec} (hne : r.mixins ≠ [])
    (h : (applyMutationRules D (rulesOf D (W.view D d) (W.doms d)) q).result = .ok (q, r.mixins))
    (hn : ∀ t ∈ (W.doms d).types, t.mixins ≠ r.mixins) (hb : buildType D W d W.nextType r.mixins = .ok r)
    (hq : ∀ e ∈ (W.doms d).queries, e.1 ≠ q) (d' : DomId) :
    TypesInv D { W.setDom d { W.doms d with types := (W.doms d).types ++ [r] } with nextType := W.nextType + 1 } d' := by
  by_cases hd : d' = d
  · subst hd
    have htid : r.tid = W.nextType := (buildType_ok D W d' W.nextType r.mixins r hne hb).2.2.1
    have hfull : TypesInv D (withQuery W d' q r) d' := (getCase_types (GetCase.built r hne h hn hb htid) (ht d')).1
    refine hfull.fewer ?_ ?_ ?_ rfl rfl rfl
    · simp [withQuery, World.setDom, upd]
    · intro e he
      simp only [withQuery, World.setDom, upd, if_true] at he ⊢
      exact storeQuery_keep _ _ _ _ he (hq e he)
    · have := (ht d').keys; simpa [World.setDom, upd] using this
  · exact (ht d').frame (by simp [World.setDom, upd, hd]) rfl rfl (by simp)

theorem LeftBehind.reg {D : Decls} {W W' : World} {op : Op} (hl : LeftBehind D W op W') (h : RegInv W) : RegInv W' := by
  cases hl with
  | nothing => exact h
  | features d m fs W' hmi hp hr => have := (registerFeatures_spec D d fs W h).1; rw [hr] at this; exact this
  | type op d q r ha hq hne h1 hn hb =>
    refine h.congr ⟨fun d' => ?_, fun d' => ?_, fun d' => ?_, rfl, rfl, rfl⟩ <;>
    · simp only [World.setDom, upd]
      split
      · rename_i e; subst e; rfl
      · rfl

theorem LeftBehind.types {D : Decls} {W W' : World} {op : Op} (hl : LeftBehind D W op W') (h : RegInv W) (ht : ∀ d, TypesInv D W d)
    (d' : DomId) : TypesInv D W' d' := by
  cases hl with
  | nothing => exact ht d'
  | features d m fs W' hmi hp hr =>
    have hg := (registerFeatures_spec D d fs W h).2.1
    rw [hr] at hg
    obtain ⟨e1, e2⟩ := registerFeatures_sameTypes h hr d'
    exact (ht d').same e1 (.inl e2) (fun m' _ _ => ⟨by rw [hg.mixId], by rw [hg.mixDom]⟩) (by rw [hg.next]; exact Nat.le_refl _)
  | type op d q r ha hq hne h1 hn hb => exact leftType_types ht hne h1 hn hb hq d'

end Dnmx
