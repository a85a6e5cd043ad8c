import Verif.Proofs.QueryLemmas
import Verif.Proofs.FeatureLemmas

namespace Dnmx
open Spec

/-! ## the feature table depends only on the ids of the features of the mixins -/

theorem ftableSize_congr (fid fid' : Feat → Option Nat) (ps : List Payload) (h : ∀ p ∈ ps, fid p.data.feat = fid' p.data.feat) :
    ftableSize fid ps = ftableSize fid' ps := by
  induction ps with
  | nil => rfl
  | cons p ps ih =>
    unfold ftableSize
    rw [h p List.mem_cons_self, ih fun x hx => h x (List.mem_cons_of_mem _ hx)]

theorem ftableCounts_congr (fid fid' : Feat → Option Nat) (ps : List Payload) (h : ∀ p ∈ ps, fid p.data.feat = fid' p.data.feat) :
    ∀ counts, ftableCounts fid ps counts = ftableCounts fid' ps counts := by
  induction ps with
  | nil => intro counts; rfl
  | cons p ps ih =>
    intro counts
    unfold ftableCounts
    rw [h p List.mem_cons_self]
    have ih' := ih fun x hx => h x (List.mem_cons_of_mem _ hx)
    cases fid' p.data.feat with
    | none => rfl
    | some i =>
      simp only
      cases counts[i]? with
      | none => rfl
      | some c => exact ih' _

theorem ftableFill_congr (fid fid' : Feat → Option Nat) (counts : List Nat) (ps : List Payload)
    (h : ∀ p ∈ ps, fid p.data.feat = fid' p.data.feat) : ∀ s, ftableFill fid counts s ps = ftableFill fid' counts s ps := by
  induction ps with
  | nil => intro s; rfl
  | cons p ps ih =>
    intro s
    have hw : ftableWrite fid counts s p = ftableWrite fid' counts s p := by
      unfold ftableWrite; rw [h p List.mem_cons_self]
    unfold ftableFill
    rw [hw]
    cases ftableWrite fid' counts s p with
    | none => rfl
    | some s' => exact ih (fun x hx => h x (List.mem_cons_of_mem _ hx)) s'

theorem buildFtable_congr (D : Decls) (fid fid' : Feat → Option Nat) (ms : List Mix)
    (h : ∀ m ∈ ms, ∀ ff ∈ (D.mix m).feats, fid ff.feat = fid' ff.feat) : buildFtable D fid ms = buildFtable D fid' ms := by
  have hs : ∀ p ∈ featStream D 0 ms, fid p.data.feat = fid' p.data.feat := by
    intro p hp
    obtain ⟨m, h1, h2⟩ := featStream_mem D ms 0 p hp
    exact h m h1 _ h2
  unfold buildFtable
  simp only [ftableSize_congr fid fid' _ hs, ftableCounts_congr fid fid' _ hs]
  simp only [ftableFill_congr fid fid' _ _ hs]

/-! ## features stay with their domain -/

/-- calls that use each feature in its home domain only and do not unregister features used by mixins -/
def Op.disciplined (D : Decls) (home : Feat → DomId) (used : Feat → Prop) : Op → Prop
  | .regMixin d m => ∀ ff ∈ (D.mix m).feats, home ff.feat = d ∧ used ff.feat
  | .regFeature d f => home f = d
  | .unregFeature _ f => ¬ used f
  | _ => True

structure HomeInv (D : Decls) (home : Feat → DomId) (used : Feat → Prop) (W : World) : Prop where
  home : ∀ (d : DomId) (i : Nat) (f : Feat), (W.doms d).feats[i]? = some (some f) → home f = d
  mixins : ∀ (d : DomId) (i : Nat) (m : Mix), (W.doms d).mixins[i]? = some (some m) → ∀ ff ∈ (D.mix m).feats,
    used ff.feat ∧ ∃ j : Nat, (W.doms d).feats[j]? = some (some ff.feat)

theorem HomeInv.same {D : Decls} {home : Feat → DomId} {used : Feat → Prop} {W W' : World} (h : HomeInv D home used W)
    (s : SameElems W W') : HomeInv D home used W' := by
  constructor
  · intro d i f hf; rw [s.feats] at hf; exact h.home d i f hf
  · intro d i m hm ff hff
    rw [s.mixins] at hm; rw [s.feats]; exact h.mixins d i m hm ff hff

theorem HomeInv.grown {D : Decls} {home : Feat → DomId} {used : Feat → Prop} {W W' : World} {d : DomId} {fs : List Feat}
    (h : HomeInv D home used W) (g : FeatsGrown D W d fs W') (hh : ∀ f ∈ fs, home f = d) : HomeInv D home used W' := by
  constructor
  · intro d' i f hf
    by_cases hd : d' = d
    · subst hd
      rcases g.newSlot i f hf with h1 | ⟨h1, -⟩
      · exact h.home _ i f h1
      · exact hh f h1
    · rw [g.other d' hd] at hf; exact h.home d' i f hf
  · intro d' i m hm ff hff
    by_cases hd : d' = d
    · subst hd
      rw [g.dom] at hm
      obtain ⟨h1, j, h2⟩ := h.mixins _ i m hm ff hff
      exact ⟨h1, j, g.keepSlot j _ h2⟩
    · rw [g.other d' hd] at hm ⊢; exact h.mixins d' i m hm ff hff

theorem step_home (D : Decls) (home : Feat → DomId) (used : Feat → Prop) (W : World) (hr : RegInv W) (op : Op)
    (hop : op.disciplined D home used) (h : HomeInv D home used W) : HomeInv D home used (step D W op).2 := by
  cases op with
  | regFeature d' g =>
    show HomeInv D home used (registerFeature D W d' g).2
    cases hres : (registerFeature D W d' g).1 with
    | error e => rw [registerFeature_error D W d' g e hres]; exact h
    | ok u =>
      cases u
      obtain ⟨id, hi⟩ := registerFeature_ok D W d' g hres
      exact h.grown (fs := [g]) ((FeatsGrown.refl D _ d' []).step hi) (by intro f hf; simp at hf; subst hf; exact hop)
  | unregFeature d' g =>
    show HomeInv D home used (unregisterFeature W d' g).2
    rcases unregisterFeature_cases W d' g with ⟨h1, -⟩ | ⟨j, h1, h2, h3⟩
    · rw [h1]; exact h
    · rw [h3]
      constructor
      · intro d i f hf
        simp only [setDom_doms] at hf
        split at hf
        · rename_i hd; subst hd
          simp only at hf
          exact h.home _ i f ((getElem?_set_none_some _ _ _ _).1 hf).2
        · exact h.home d i f hf
      · intro d i m hm ff hff
        simp only [setDom_doms] at hm ⊢
        split
        · rename_i hd; subst hd
          rw [if_pos rfl] at hm
          simp only at hm ⊢
          obtain ⟨h4, k, h5⟩ := h.mixins _ i m hm ff hff
          refine ⟨h4, k, (getElem?_set_none_some _ _ _ _).2 ⟨?_, h5⟩⟩
          intro hkj
          subst hkj
          rw [h2] at h5; simp at h5
          exact hop (by rw [h5]; exact h4)
        · rename_i hd
          rw [if_neg hd] at hm
          exact h.mixins d i m hm ff hff
  | regMixin d' m' =>
    show HomeInv D home used (registerMixin D W d' m').2
    have hh : ∀ f ∈ (D.mix m').feats.map (·.feat), home f = d' := by
      intro f hf
      rw [List.mem_map] at hf
      obtain ⟨ff, hff, rfl⟩ := hf
      exact (hop ff hff).1
    cases hres : (registerMixin D W d' m').1 with
    | error e => exact h.grown (registerMixin_error D W d' m' hr e hres).1 hh
    | ok u =>
      cases u
      obtain ⟨id, hi⟩ := registerMixin_ok D W d' m' hr hres
      obtain ⟨W1, g, hr1, e1, e2, e3⟩ := hi.feats
      have h1 := h.grown g hh
      constructor
      · intro d i f hf
        by_cases hd : d = d'
        · subst hd; rw [e1] at hf; exact h1.home _ i f hf
        · rw [hi.other d hd] at hf; exact h.home d i f hf
      · intro d i m hm ff hff
        by_cases hd : d = d'
        · subst hd
          rw [e1]
          by_cases hmm : m = m'
          · subst hmm
            refine ⟨(hop ff hff).2, ?_⟩
            obtain ⟨j, hj⟩ := Option.ne_none_iff_exists'.1 (e3 ff hff)
            obtain ⟨d2, hd2⟩ := hr1.featReg _ _ hj
            have := h1.home d2 j _ hd2
            rw [(hop ff hff).1] at this
            subst this
            exact ⟨j, hd2⟩
          · have hold : (W.doms d).mixins[i]? = some (some m) := by
              by_cases hii : i = id
              · subst hii; rw [hi.ins.slot] at hm; simp at hm; exact absurd hm.symm hmm
              · rw [hi.ins.other i hii] at hm; exact hm
            have : (W1.doms d).mixins = (W.doms d).mixins := by rw [g.dom]
            exact h1.mixins d i m (by rw [this]; exact hold) ff hff
        · rw [hi.other d hd] at hm ⊢; exact h.mixins d i m hm ff hff
  | unregMixin d' m' =>
    show HomeInv D home used (unregisterMixin W d' m').2
    cases hres : (unregisterMixin W d' m').1 with
    | error e => exact h.same (unregisterMixin_error_same W d' m' e hres)
    | ok u =>
      cases u
      obtain ⟨i, he⟩ := unregisterMixin_ok W d' m' hres
      constructor
      · intro d i f hf
        by_cases hd : d = d'
        · subst hd; rw [he.feats] at hf; exact h.home _ i f hf
        · rw [he.other d hd] at hf; exact h.home d i f hf
      · intro d i m hm ff hff
        by_cases hd : d = d'
        · subst hd
          rw [he.mixins] at hm; rw [he.feats]
          exact h.mixins d i m ((getElem?_set_none_some _ _ _ _).1 hm).2 ff hff
        · rw [he.other d hd] at hm ⊢; exact h.mixins d i m hm ff hff
  | regClass d' c => exact h.same (registerTypeClass_same D W d' c)
  | unregClass d' c => exact h.same (unregisterTypeClass_same W d' c)
  | addRule d' r => exact h.same (addRule_same D W d' r)
  | removeRule d' r => exact h.same (removeRule_same D W d' r)
  | getTypeMut d' md q => exact h.same (getTypeMut_same D W d' md q)
  | getType d' q => exact h.same (getType_same D W d' q)
  | gc d' num => exact h.same (garbageCollect_same W d' num)

/-- the feature tables of a domain are those that would be built now -/
def TablesOk (D : Decls) (W : World) (d : DomId) : Prop :=
  ∀ t ∈ (W.doms d).types, buildFtable D W.featId t.mixins = .ok t.ftable

/-- ids of features that mixins of `d` use are not changed by disciplined calls -/
theorem step_featId_used (D : Decls) (home : Feat → DomId) (used : Feat → Prop) (W : World) (hr : RegInv W) (op : Op)
    (hop : op.disciplined D home used) (d : DomId) (f : Feat) (hu : used f) (i : Nat) (hs : (W.doms d).feats[i]? = some (some f)) :
    (step D W op).2.featId f = W.featId f := by
  have hk := step_keeps_feature D W hr op d f i (by intro e; subst e; exact hop hu) hs
  rw [(step_reg D W op hr).featSlot d i f hk, hr.featSlot d i f hs]

theorem step_tables (D : Decls) (home : Feat → DomId) (used : Feat → Prop) (W : World) (hr : RegInv W) (op : Op)
    (hop : op.disciplined D home used) (h : HomeInv D home used W) (d : DomId) (hty : TypesInv D W d) (ht : TablesOk D W d) :
    TablesOk D (step D W op).2 d := by
  have old : ∀ t ∈ (W.doms d).types, buildFtable D (step D W op).2.featId t.mixins = .ok t.ftable := by
    intro t htm
    rw [← ht t htm]
    apply buildFtable_congr
    intro m hm ff hff
    obtain ⟨⟨i, hi⟩, hd⟩ := (hty.ok t htm).reg m hm
    obtain ⟨d2, h1, h2⟩ := hr.mixReg m i hi
    rw [hd] at h1; simp at h1; subst h1
    obtain ⟨hu, j, hj⟩ := h.mixins d i m h2 ff hff
    exact step_featId_used D home used W hr op hop d _ hu j hj
  have hs := step_typeStep D W hr op d hty
  intro t htm
  generalize hW' : (step D W op).2 = W' at hs htm old ⊢
  cases hs with
  | keep h1 => rw [h1] at htm; exact old t htm
  | clear h1 => rw [h1] at htm; exact old t htm
  | filter p pq h1 => rw [h1, List.mem_filter] at htm; exact old t htm.1
  | get q r hc =>
    cases hc with
    | hit => exact old t htm
    | ruleError => exact old t htm
    | buildError => exact old t htm
    | empty => simp only [setDom_same] at htm; exact old t htm
    | found => simp only [setDom_same] at htm; exact old t htm
    | built r hne hres hn hb htid =>
      simp only [setDom_same] at htm
      rcases List.mem_append.1 htm with h1 | h1
      · exact old t h1
      · simp at h1; subst h1
        exact (buildType_ok D W d W.nextType t.mixins t hne hb).2.2.2

theorem run_home (D : Decls) (home : Feat → DomId) (used : Feat → Prop) (ops : List Op) : ∀ W, RegInv W →
    (∀ op ∈ ops, op.disciplined D home used) → HomeInv D home used W → (∀ d, TypesInv D W d ∧ TablesOk D W d) →
    HomeInv D home used (run D W ops) ∧ ∀ d, TablesOk D (run D W ops) d := by
  induction ops with
  | nil => intro W _ _ h ht; exact ⟨h, fun d => (ht d).2⟩
  | cons op ops ih =>
    intro W hr hops h ht
    have hop := hops op List.mem_cons_self
    exact ih _ (step_reg D W op hr) (fun o ho => hops o (List.mem_cons_of_mem _ ho)) (step_home D home used W hr op hop h)
      (fun d => ⟨step_types D W hr op d (ht d).1, step_tables D home used W hr op hop h d (ht d).1 (ht d).2⟩)

theorem initWorld_home (D : Decls) (home : Feat → DomId) (used : Feat → Prop) (s : DomId → Settings) :
    HomeInv D home used (initWorld s) := by
  constructor <;> simp [initWorld, newDom]

theorem reachable_home (D : Decls) (home : Feat → DomId) (used : Feat → Prop) (s : DomId → Settings) (ops : List Op)
    (hops : ∀ op ∈ ops, op.disciplined D home used) :
    HomeInv D home used (run D (initWorld s) ops) ∧ ∀ d, TablesOk D (run D (initWorld s) ops) d :=
  run_home D home used ops _ (initWorld_reg s) hops (initWorld_home D home used s)
    (fun d => ⟨initWorld_types D s d, by intro t ht; simp [initWorld, newDom] at ht⟩)

/-- feature ids as seen in one domain -/
def fidIn (W : World) (d : DomId) (f : Feat) : Option Nat := if f ∈ featuresOf W d then W.featId f else none

theorem fidIn_ok {D : Decls} {home : Feat → DomId} {used : Feat → Prop} {W : World} (hr : RegInv W) (h : HomeInv D home used W)
    {d : DomId} (ms : List Mix) (hreg : ∀ m ∈ ms, m ∈ mixinsOf W d) : FeatIdsOk D (fidIn W d) ms ∧
    ∀ m ∈ ms, ∀ ff ∈ (D.mix m).feats, W.featId ff.feat = fidIn W d ff.feat := by
  have h0 : ∀ m ∈ ms, ∀ ff ∈ (D.mix m).feats, ff.feat ∈ featuresOf W d := by
    intro m hm ff hff
    obtain ⟨i, hi⟩ := (mem_mixinsOf _ _ _).1 (hreg m hm)
    obtain ⟨-, j, hj⟩ := h.mixins d i m hi ff hff
    exact (mem_featuresOf _ _ _).2 ⟨j, hj⟩
  refine ⟨⟨?_, ?_⟩, ?_⟩
  · intro m hm ff hff
    have h1 := h0 m hm ff hff
    obtain ⟨j, hj⟩ := (mem_featuresOf _ _ _).1 h1
    exact ⟨j, by rw [fidIn, if_pos h1]; exact hr.featSlot d j _ hj⟩
  · intro f g i hf hg
    unfold fidIn at hf hg
    split at hf
    · rename_i h1
      split at hg
      · rename_i h2
        obtain ⟨j, hj⟩ := (mem_featuresOf _ _ _).1 h1
        obtain ⟨k, hk⟩ := (mem_featuresOf _ _ _).1 h2
        rw [hr.featSlot d j f hj] at hf
        rw [hr.featSlot d k g hk] at hg
        simp at hf hg
        subst hf; subst hg
        rw [hj] at hk; simpa using hk
      · simp at hg
    · simp at hf
  · intro m hm ff hff
    rw [fidIn, if_pos (h0 m hm ff hff)]

end Dnmx
