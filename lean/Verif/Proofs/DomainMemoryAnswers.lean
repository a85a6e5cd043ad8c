import Verif.Proofs.DomainMemoryRuns
import Verif.Props.Answers

/-! # Answers of domains that ran out of memory -/

set_option linter.unusedSimpArgs false
set_option linter.unusedVariables false
set_option linter.unusedSectionVars false

namespace Dnmx
open Spec Props

/-- what holds in every state of the domains, however it came about -/
structure Sound (D : Decls) (W : World) : Prop where
  reg : RegInv W
  types : ∀ d, TypesInv D W d
  cls : ∀ d, ClsInv D (W.doms d)
  cache : ∀ d, CacheOk D W d

theorem Sound.step {D : Decls} {W : World} (h : Sound D W) (op : Op) : Sound D (step D W op).2 :=
  ⟨step_reg D W op h.reg, fun d => step_types D W h.reg op d (h.types d), fun d => step_cls D W h.reg op d (h.cls d),
   fun d => (step_typeStep D W h.reg op d (h.types d)).cache (h.types d) (h.cache d)⟩

theorem Sound.run {D : Decls} (ops : List Op) : ∀ {W : World}, Sound D W → Sound D (run D W ops) := by
  induction ops with
  | nil => intro W h; exact h
  | cons op ops ih => intro W h; exact ih (h.step op)

theorem sound_init (D : Decls) (s : DomId → Settings) : Sound D (initWorld s) :=
  ⟨initWorld_reg s, initWorld_types D s, initWorld_cls D s, fun d => by intro _ e he; simp [initWorld, newDom] at he⟩

theorem LeftBehind.sound {D : Decls} {W W' : World} {op : Op} (hl : LeftBehind D W op W') (h : Sound D W) : Sound D W' := by
  refine ⟨LeftBehind.reg hl h.reg, LeftBehind.types hl h.reg h.types, ?_, ?_⟩
  · intro d'
    cases hl with
    | nothing => exact h.cls d'
    | features d m fs W' hmi hp hr =>
      have hg := (registerFeatures_spec D d fs W h.reg).2.1
      rw [hr] at hg
      by_cases hd : d' = d
      · subst hd
        have := h.cls d'
        rw [hg.dom]; exact ⟨this.uniq, this.nonempty, this.nonnull⟩
      · rw [hg.other d' hd]; exact h.cls d'
    | type op d q r ha hq hne h1 hn hb =>
      have := h.cls d'
      by_cases hd : d' = d
      · subst hd
        show ClsInv D ((W.setDom d' _).doms d')
        rw [setDom_doms_self]; exact ⟨this.uniq, this.nonempty, this.nonnull⟩
      · show ClsInv D ((W.setDom d _).doms d')
        have e : ∀ x, (W.setDom d x).doms d' = W.doms d' := by intro x; simp [World.setDom, upd, hd]
        rw [e]; exact this
  · intro d'
    cases hl with
    | nothing => exact h.cache d'
    | features d m fs W' hmi hp hr =>
      have hg := (registerFeatures_spec D d fs W h.reg).2.1
      rw [hr] at hg
      refine TypeStep.cache (W := W) ?_ (h.types d') (h.cache d')
      have e : (W'.doms d').types = (W.doms d').types ∧ (W'.doms d').queries = (W.doms d').queries ∧ (W'.doms d').rules = (W.doms d').rules := by
        by_cases hd : d' = d
        · subst hd; rw [hg.dom]; exact ⟨rfl, rfl, rfl⟩
        · rw [hg.other d' hd]; exact ⟨rfl, rfl, rfl⟩
      exact .keep e.1 e.2.1 (by rw [e.2.2]) (fun m _ _ => by rw [hg.mixId, hg.mixDom]; simp) (by rw [hg.next]; exact Nat.le_refl _)
    | type op d q r ha hq hne h1 hn hb =>
      have ht' := leftType_types h.types hne h1 hn hb hq
      by_cases hd : d' = d
      · subst hd
        have hc := h.cache d'
        intro hp e he
        have hp0 : ∀ x ∈ (W.doms d').rules.map (·.1), RulePure D x := by
          intro x hx; refine hp x ?_
          simpa [World.setDom, upd] using hx
        have he0 : e ∈ (W.doms d').queries := by simpa [World.setDom, upd] using he
        obtain ⟨r', h3, h4⟩ := hc hp0 e he0
        refine ⟨r', ?_, ?_⟩
        · simp only [World.setDom, upd, if_true, Dom.typeAt] at h3 ⊢
          split at h3
          · rename_i h0; rw [if_pos h0]; exact h3
          · rename_i h0; rw [if_neg h0, List.find?_append, h3]; rfl
        · have : rulesOf D (World.view D { W.setDom d' { W.doms d' with types := (W.doms d').types ++ [r] } with nextType := W.nextType + 1 } d')
              (({ W.setDom d' { W.doms d' with types := (W.doms d').types ++ [r] } with nextType := W.nextType + 1 } : World).doms d') =
              rulesOf D (W.view D d') (W.doms d') := by
            refine rulesOf_pure ?_ hp0 _ _
            simp [World.setDom, upd]
          rw [this]; exact h4
      · refine TypeStep.cache (W := W) (.frame ?_ rfl rfl (Nat.le_succ _)) (h.types d') (h.cache d')
        simp [World.setDom, upd, hd]

/-- with each feature in its domain -/
structure Homed (D : Decls) (home : Feat → DomId) (used : Feat → Prop) (W : World) : Prop where
  home : HomeInv D home used W
  tables : ∀ d, TablesOk D W d

theorem Homed.step {D : Decls} {home : Feat → DomId} {used : Feat → Prop} {W : World} (h : Homed D home used W) (hs : Sound D W) (op : Op) (hop : op.disciplined D home used) :
    Homed D home used (step D W op).2 :=
  ⟨step_home D home used W hs.reg op hop h.home, fun d => step_tables D home used W hs.reg op hop h.home d (hs.types d) (h.tables d)⟩

theorem Homed.run {D : Decls} {home : Feat → DomId} {used : Feat → Prop} (ops : List Op) : ∀ {W : World}, Homed D home used W → Sound D W →
    (∀ op ∈ ops, op.disciplined D home used) → Homed D home used (run D W ops) := by
  induction ops with
  | nil => intro W h _ _; exact h
  | cons op ops ih =>
    intro W h hs ho
    exact ih (h.step hs op (ho op List.mem_cons_self)) (hs.step op) (fun o h' => ho o (List.mem_cons_of_mem _ h'))

theorem homed_init (D : Decls) (home : Feat → DomId) (used : Feat → Prop) (s : DomId → Settings) : Homed D home used (initWorld s) :=
  ⟨initWorld_home D home used s, fun d => by intro t ht; simp [initWorld, newDom] at ht⟩

/-! ## features that are left behind -/

theorem registerFeatures_skip (D : Decls) (d : DomId) : ∀ (fs : List Feat) (W : World), (∀ f ∈ fs, W.featId f ≠ none) → registerFeatures D W d fs = (.ok (), W)
  | [], W, _ => rfl
  | f :: fs, W, h => by
    unfold registerFeatures
    rw [if_pos (h f List.mem_cons_self)]
    exact registerFeatures_skip D d fs W (fun g hg => h g (List.mem_cons_of_mem _ hg))

theorem registerFeatures_append (D : Decls) (d : DomId) : ∀ (fs gs : List Feat) (W W' : World), registerFeatures D W d fs = (.ok (), W') →
    registerFeatures D W d (fs ++ gs) = registerFeatures D W' d gs
  | [], gs, W, W', h => by simp only [registerFeatures, Prod.mk.injEq, true_and] at h; subst h; rfl
  | f :: fs, gs, W, W', h => by
    rw [List.cons_append]
    rw [registerFeatures] at h ⊢
    by_cases hf : W.featId f ≠ none
    · rw [if_pos hf] at h ⊢
      exact registerFeatures_append D d fs gs W W' h
    · rw [if_neg hf] at h ⊢
      cases hr : registerFeature D W d f with
      | mk a W1 =>
        rw [hr] at h
        cases a with
        | error e => simp at h
        | ok u =>
          simp only at h ⊢
          exact registerFeatures_append D d fs gs W1 W' h

theorem registerFeatures_grows {D : Decls} {d : DomId} {fs : List Feat} {W W' : World} (hr : RegInv W) {r : Except Err Unit} (h : registerFeatures D W d fs = (r, W')) (f : Feat) (hf : W.featId f ≠ none) : W'.featId f = W.featId f := by
  have hg := (registerFeatures_spec D d fs W hr).2.1
  rw [h] at hg
  rcases hg.ids f with e | ⟨-, e, -⟩
  · exact e
  · exact absurd e hf

/-- registering a feature that is registered has no effect -/
theorem registerFeature_again {D : Decls} {W : World} {d : DomId} {f : Feat} (h : W.featId f ≠ none) : registerFeature D W d f = (.error .idRegistered, W) := by
  unfold registerFeature basicRegister
  simp only [if_pos h]

theorem registerFeatures_calls (D : Decls) (d : DomId) (P : Feat → Bool) (W' : World) (post : List Feat) (hpost : ∀ f ∈ post, P f = true → W'.featId f ≠ none) :
    ∀ (pre : List Feat) (W : World), RegInv W → registerFeatures D W d pre = (.ok (), W') → (∀ f, W.featId f = none → W'.featId f ≠ none → P f = true) →
      run D W (((pre ++ post).filter P).map (fun f => .regFeature d f)) = W' := by
  intro pre
  induction pre with
  | nil =>
    intro W hr h hP
    simp only [registerFeatures, Prod.mk.injEq, true_and] at h
    subst h
    rw [List.nil_append]
    induction post with
    | nil => rfl
    | cons f post ih =>
      rw [List.filter_cons]
      have ih' := ih (fun g hg => hpost g (List.mem_cons_of_mem _ hg))
      split
      · rename_i hPf
        rw [List.map_cons, Dnmx.run]
        have : (Dnmx.step D W (.regFeature d f)).2 = W := by
          show (registerFeature D W d f).2 = W
          rw [registerFeature_again (hpost f List.mem_cons_self hPf)]
        rw [this]; exact ih'
      · exact ih'
  | cons f pre ih =>
    intro W hr h hP
    rw [List.cons_append, List.filter_cons]
    unfold registerFeatures at h
    by_cases hf : W.featId f ≠ none
    · rw [if_pos hf] at h
      have ih' := ih W hr h hP
      split
      · rw [List.map_cons, Dnmx.run]
        have : (Dnmx.step D W (.regFeature d f)).2 = W := by
          show (registerFeature D W d f).2 = W
          rw [registerFeature_again hf]
        rw [this]; exact ih'
      · exact ih'
    · rw [if_neg hf] at h
      cases hrf : registerFeature D W d f with
      | mk a W1 =>
        rw [hrf] at h
        cases a with
        | error e => simp at h
        | ok u =>
          simp only at h
          have hs : (Dnmx.step D W (.regFeature d f)).2 = W1 := by
            show (registerFeature D W d f).2 = W1
            rw [hrf]
          have hr1 : RegInv W1 := by rw [← hs]; exact step_reg D W _ hr
          have hg1 : ∀ g, W1.featId g = none → W.featId g = none := by
            intro g hg
            have hins := registerFeature_ok D W d f (by rw [hrf])
            obtain ⟨id, hi⟩ := hins
            rw [hrf] at hi
            have hgr := FeatsGrown.step hi (FeatsGrown.refl D _ d [])
            rcases hgr.ids g with e | ⟨-, e, -⟩
            · rw [← e]; exact hg
            · exact e
          have hf1 : W1.featId f ≠ none := by
            have hins := registerFeature_ok D W d f (by rw [hrf])
            obtain ⟨id, hi⟩ := hins
            rw [hrf] at hi
            have hgr := FeatsGrown.step hi (FeatsGrown.refl D _ d [])
            have := (registerFeatures_spec D d [f] W hr).2.2
            have e : registerFeatures D W d [f] = (.ok (), W1) := by unfold registerFeatures; rw [if_neg hf, hrf]; rfl
            rw [e] at this
            exact this rfl f (by simp)
          have hPf : P f = true := by
            refine hP f (by simpa using hf) ?_
            rw [registerFeatures_grows hr1 h f hf1]; exact hf1
          rw [if_pos hPf, List.map_cons, Dnmx.run, hs]
          exact ih W1 hr1 h (fun g hg hg' => hP g (hg1 g hg) hg')

theorem LeftBehind.calls {D : Decls} {W W' : World} {op : Op} (hl : LeftBehind D W op W') (h : Sound D W) : SameRegistered (Dnmx.run D W (leftCalls D W W' op)) W' := by
  have refl : ∀ V : World, SameRegistered V V := fun V => ⟨fun _ => rfl, fun _ _ => Iff.rfl, fun _ _ => Iff.rfl, fun _ _ => Iff.rfl, fun _ => Iff.rfl, fun _ => rfl⟩
  cases hl with
  | nothing =>
    have : Dnmx.run D W (leftCalls D W W op) = W := by
      cases op with
      | regMixin d m =>
        have : leftCalls D W W (.regMixin d m) = [] := by
          unfold leftCalls
          simp only [List.map_eq_nil_iff, List.filter_eq_nil_iff]
          intro f _
          cases W.featId f <;> simp
        rw [this]; rfl
      | _ => rfl
    rw [this]; exact refl W
  | features d m fs W' hmi hp hr =>
    obtain ⟨post, hpost⟩ := hp
    have : Dnmx.run D W (leftCalls D W W' (.regMixin d m)) = W' := by
      rw [show leftCalls D W W' (.regMixin d m) = (((D.mix m).feats.map (·.feat)).filter (fun f => (W.featId f).isNone && (W'.featId f).isSome)).map (fun f => .regFeature d f) from rfl]
      rw [← hpost]
      refine registerFeatures_calls D d _ W' post ?_ fs W h.reg hr ?_
      · intro f _ hP
        simp only [Bool.and_eq_true] at hP
        exact Option.isSome_iff_ne_none.1 hP.2
      · intro f h1 h2
        simp only [Bool.and_eq_true]
        exact ⟨by rw [h1]; rfl, Option.isSome_iff_ne_none.2 h2⟩
    rw [this]; exact refl W'
  | type op d q r ha hq hne h1 hn hb =>
    have : leftCalls D W { W.setDom d { W.doms d with types := (W.doms d).types ++ [r] } with nextType := W.nextType + 1 } op = [] := by
      rcases ha with rfl | rfl <;> rfl
    rw [this]
    show SameRegistered W _
    have e : ∀ d' : DomId, ((W.setDom d { W.doms d with types := (W.doms d).types ++ [r] }).doms d').settings = (W.doms d').settings ∧
        ((W.setDom d { W.doms d with types := (W.doms d).types ++ [r] }).doms d').feats = (W.doms d').feats ∧
        ((W.setDom d { W.doms d with types := (W.doms d).types ++ [r] }).doms d').mixins = (W.doms d').mixins ∧
        ((W.setDom d { W.doms d with types := (W.doms d).types ++ [r] }).doms d').classes = (W.doms d').classes ∧
        ((W.setDom d { W.doms d with types := (W.doms d).types ++ [r] }).doms d').rules = (W.doms d').rules := by
      intro d'
      by_cases hd : d' = d
      · subst hd; rw [setDom_doms_self]; exact ⟨rfl, rfl, rfl, rfl, rfl⟩
      · simp [World.setDom, upd, hd]
    refine ⟨fun d' => (e d').1, fun d' f => ?_, fun d' m => ?_, fun d' c => ?_, fun d' => ?_, fun d' => (e d').2.2.2.2⟩
    · unfold featuresOf; rw [show _ = _ from (e d').2.1]
    · unfold mixinsOf; rw [show _ = _ from (e d').2.2.1]
    · unfold classesOf; rw [show _ = _ from (e d').2.2.2.1]
    · rw [show _ = _ from (e d').2.2.2.1]

theorem LeftBehind.homed {D : Decls} {home : Feat → DomId} {used : Feat → Prop} {W W' : World} {op : Op} (hl : LeftBehind D W op W') (h : Sound D W) (hh : Homed D home used W)
    (hop : op.disciplined D home used) : Homed D home used W' := by
  cases hl with
  | nothing => exact hh
  | features d m fs W' hmi hp hr =>
    have hcalls := LeftBehind.calls (.features d m fs W' hmi hp hr) h
    -- the state is that after registering features
    obtain ⟨post, hpost⟩ := hp
    have : Dnmx.run D W (leftCalls D W W' (.regMixin d m)) = W' := by
      rw [show leftCalls D W W' (.regMixin d m) = (((D.mix m).feats.map (·.feat)).filter (fun f => (W.featId f).isNone && (W'.featId f).isSome)).map (fun f => .regFeature d f) from rfl]
      rw [← hpost]
      refine registerFeatures_calls D d _ W' post ?_ fs W h.reg hr ?_
      · intro f _ hP
        simp only [Bool.and_eq_true] at hP
        exact Option.isSome_iff_ne_none.1 hP.2
      · intro f h1 h2
        simp only [Bool.and_eq_true]
        exact ⟨by rw [h1]; rfl, Option.isSome_iff_ne_none.2 h2⟩
    rw [← this]
    refine hh.run _ h ?_
    intro o ho
    unfold leftCalls at ho
    obtain ⟨f, hf, rfl⟩ := List.mem_map.1 ho
    obtain ⟨ff, hff, rfl⟩ := List.mem_map.1 (List.mem_filter.1 hf).1
    exact (hop ff hff).1
  | type op d q r ha hq hne h1 hn hb =>
    refine ⟨hh.home.same ⟨fun d' => ?_, fun d' => ?_, fun d' => ?_, rfl, rfl, rfl⟩, ?_⟩
    · simp only [World.setDom, upd]; split
      · rename_i e; subst e; rfl
      · rfl
    · simp only [World.setDom, upd]; split
      · rename_i e; subst e; rfl
      · rfl
    · simp only [World.setDom, upd]; split
      · rename_i e; subst e; rfl
      · rfl
    · intro d' t ht
      simp only [World.setDom, upd] at ht
      split at ht
      · rename_i e; subst e
        rcases List.mem_append.1 ht with h3 | h3
        · exact hh.tables _ t h3
        · simp only [List.mem_singleton] at h3; subst h3
          exact (buildType_ok D W _ W.nextType t.mixins t hne hb).2.2.2
      · exact hh.tables d' t ht

/-! ## answers -/

theorem Homed.build {D : Decls} {home : Feat → DomId} {used : Feat → Prop} {W : World} (hh : Homed D home used W) (hr : RegInv W) (d : DomId) (tid : TypeId) (ms : List Mix)
    (hc : checkMixins W.mixId W.mixDom d ms = .ok ()) :
    (buildType D W d tid ms = .error .featureClash ↔ ∃ f, (D.feat f).allowClashes = false ∧ ClashesOn D ms f) ∧
    (buildType D W d tid ms = .error .featureClash ∨ ∃ r, buildType D W d tid ms = .ok r) := by
  obtain ⟨-, hm⟩ := (checkMixins_ok _ _ _ _).1 hc
  have hm' : ∀ m ∈ ms, m ∈ mixinsOf W d := fun m h => (hr.mem_mixinsOf_iff d m).2 (hm m h)
  obtain ⟨hok, hsame⟩ := fidIn_ok hr hh.home ms hm'
  obtain ⟨h1, h2⟩ := C28_clash_iff D (fidIn W d) ms hok
  unfold buildType
  rw [hc, buildFtable_congr D W.featId (fidIn W d) ms hsame]
  simp only
  rcases h2 with h2 | ⟨ft, h2⟩
  · rw [h2]; simp; exact h1.1 h2
  · rw [h2]
    simp only [reduceCtorEq, false_iff, false_or]
    refine ⟨fun h => ?_, ⟨_, rfl⟩⟩
    rw [h1.2 h] at h2; simp at h2

theorem Homed.answer {D : Decls} {home : Feat → DomId} {used : Feat → Prop} {W : World} (hh : Homed D home used W) (hs : Sound D W) {d : DomId} (hpure : ∀ r ∈ (W.doms d).rules.map (·.1), RulePure D r)
    (q : List Mix) (res : Except Err TypeId × World) (hc : GetCase D W d q res) : Spec.answerOf d res = typeAnswer D W d q := by
  have hi := hs.types d
  have hr := hs.reg
  have hclash : ∀ (tid : TypeId) (ms : List Mix), checkMixins W.mixId W.mixDom d ms = .ok () → (∃ r, buildType D W d tid ms = .ok r) →
      ¬ ∃ f, (D.feat f).allowClashes = false ∧ ClashesOn D ms f := by
    rintro tid ms h1 ⟨r, h2⟩ h3
    have := (hh.build hr d tid ms h1).1.2 h3
    rw [h2] at this; simp at this
  have exists_ok : ∀ t r, (W.doms d).typeAt d t = some r → checkMixins W.mixId W.mixDom d r.mixins = .ok () ∧ ¬ ∃ f, (D.feat f).allowClashes = false ∧ ClashesOn D r.mixins f := by
    intro t r ht
    obtain ⟨-, -, h1, h2⟩ := hi.typeAt_ok ht
    have hc := (checkMixins_ok W.mixId W.mixDom d r.mixins).2 ⟨h1, h2⟩
    refine ⟨hc, ?_⟩
    rcases typeAt_some ht with ⟨a, b⟩ | ⟨a, b, c⟩
    · subst b
      rintro ⟨f, -, k, l, x, y, -, hx, -⟩
      simp [emptyType, allImpls] at hx
    · refine hclash 0 r.mixins hc ⟨⟨0, d, r.mixins, layout (r.mixins.map D.mix), sparseTable (r.mixins.filterMap W.mixId), r.ftable⟩, ?_⟩
      unfold buildType; rw [hc, hh.tables d r b]
  cases hc with
  | hit t h =>
    obtain ⟨r, h1, h2⟩ := hs.cache d hpure _ h
    obtain ⟨h3, h4⟩ := exists_ok t r h1
    rw [typeAnswer_ok (by simp [resolve, h2]) h3 h4]
    simp [Spec.answerOf, compositionOf, h1]
  | ruleError e h => simp [Spec.answerOf, typeAnswer, resolve, h]
  | empty h =>
    obtain ⟨h3, h4⟩ := exists_ok emptyTid (emptyType d) (typeAt_empty _ _)
    rw [typeAnswer_ok (ms := []) (by simp [resolve, h]) h3 h4]
    simp [Spec.answerOf, compositionOf, typeAt_empty, emptyType]
  | found r hne h hr hf =>
    have ht := hi.typeAt_mem r hr
    obtain ⟨h3, h4⟩ := exists_ok r.tid r ht
    rw [typeAnswer_ok (by simp [resolve, h]) h3 h4]
    have : ((W.setDom d { W.doms d with queries := storeQuery q r.tid (W.doms d).queries }).doms d).typeAt d r.tid = some r := by
      rw [setDom_same]; exact ht
    simp only [Spec.answerOf, compositionOf, this, Option.map_some]
  | buildError ms e hne h hn hb =>
    have hres : resolve D (rulesOf D (W.view D d) (W.doms d)) q = .ok ms := by simp [resolve, h]
    unfold typeAnswer; rw [hres]
    simp only [Spec.answerOf]
    cases hc : checkMixins W.mixId W.mixDom d ms with
    | error e' => unfold buildType at hb; rw [hc] at hb; simp at hb; subst hb; rfl
    | ok u =>
      obtain ⟨h1, h2⟩ := hh.build hr d W.nextType ms hc
      rcases h2 with h2 | ⟨r, h2⟩
      · rw [hb] at h2; simp at h2; subst h2
        simp only [if_pos (h1.1 hb)]
      · rw [hb] at h2; simp at h2
  | built r hne h hn hb ht =>
    have hc : checkMixins W.mixId W.mixDom d r.mixins = .ok () := by
      cases hc : checkMixins W.mixId W.mixDom d r.mixins with
      | ok u => rfl
      | error e => unfold buildType at hb; rw [hc] at hb; simp at hb
    have hcomp := getCase_composition (GetCase.built r hne h hn hb ht) hi r.tid rfl
    obtain ⟨r', h1, h2⟩ := hcomp
    have : r'.mixins = r.mixins := by
      rcases h2 with ⟨-, h3⟩ | h2
      · exfalso
        rcases typeAt_some h3 with ⟨a, b⟩ | ⟨a, b, c⟩
        · have := hi.nextPos; rw [ht] at a; simp [emptyTid] at a; omega
        · have := (hi.tidPos r' b).2; omega
      · rw [h] at h2; simp at h2; exact h2.symm
    rw [typeAnswer_ok (by simp [resolve, h]) hc (hclash _ _ hc ⟨r, hb⟩)]
    simp only [Spec.answerOf, compositionOf, h1, Option.map_some, this]

/-- the rules in force are pure -/
def PureWorld (D : Decls) (W : World) : Prop := ∀ d, ∀ r ∈ (W.doms d).rules.map (·.1), RulePure D r

theorem PureWorld.step {D : Decls} {W : World} (h : PureWorld D W) (hs : Sound D W) (op : Op) (ho : ∀ d r, op = .addRule d r → RulePure D r) : PureWorld D (step D W op).2 := by
  intro d r hr
  rcases step_ruleKeys hs.reg op d r hr with e | e
  · exact ho d r e
  · exact h d r e

theorem answers_alike {D : Decls} {home : Feat → DomId} {used : Feat → Prop} (more : List Op) : ∀ {W W' : World}, Sound D W → Sound D W' → Homed D home used W → Homed D home used W' →
    PureWorld D W → SameRegistered W W' → (∀ op ∈ more, op.disciplined D home used) → (∀ d r, .addRule d r ∈ more → RulePure D r) → answers D W' more = answers D W more := by
  induction more with
  | nil => intros; rfl
  | cons op more ih =>
    intro W W' hs hs' hh hh' hp hsame hd hpr
    have hal : Alike W W' := ⟨hs.reg, hs'.reg, hsame⟩
    obtain ⟨a, b⟩ := step_alike (D := D) hal hs.types hs'.types hs.cls hs'.cls op
    have ih := ih (hs.step op) (hs'.step op) (hh.step hs op (hd op List.mem_cons_self)) (hh'.step hs' op (hd op List.mem_cons_self))
      (hp.step hs op (fun d r e => hpr d r (by rw [e]; exact List.mem_cons_self))) a.same (fun o ho => hd o (List.mem_cons_of_mem _ ho)) (fun d r h => hpr d r (List.mem_cons_of_mem _ h))
    unfold answers
    rw [ih]
    congr 1
    cases hq : asksForTypes op with
    | false => exact answer_registration hq (b hq)
    | true =>
      have hp' : PureWorld D W' := by intro d r hr; rw [hsame.rules] at hr; exact hp d r hr
      have same : ∀ d q, typeAnswer D W' d q = typeAnswer D W d q := by
        intro d q
        unfold typeAnswer
        rw [rulesOf_pure (by rw [hsame.rules d]) (hp d) (W'.view D d) (W.view D d)]
        cases resolve D (rulesOf D (W.view D d) (W.doms d)) q with
        | error e => rfl
        | ok ms => simp only; rw [hal.check d ms]
      cases op <;> simp [asksForTypes] at hq
      · rename_i d md q
        simp only [answer]
        by_cases hm : md = d
        · subst hm
          rw [hh.answer hs (hp md) q _ (getTypeMut_cases D W md q), hh'.answer hs' (hp' md) q _ (getTypeMut_cases D W' md q), same]
        · unfold getTypeMut
          rw [if_pos hm, if_pos hm]; rfl
      · rename_i d q
        simp only [answer]
        rw [hh.answer hs (hp d) q _ (getType_cases D W d q), hh'.answer hs' (hp' d) q _ (getType_cases D W' d q), same]
      · rfl

theorem registrationAnswers_alike {D : Decls} (more : List Op) : ∀ {W W' : World}, Sound D W → Sound D W' → SameRegistered W W' →
    registrationAnswers D W' more = registrationAnswers D W more ∧ SameRegistered (Dnmx.run D W more) (Dnmx.run D W' more) := by
  induction more with
  | nil => intro W W' _ _ h; exact ⟨rfl, h⟩
  | cons op more ih =>
    intro W W' hs hs' hsame
    obtain ⟨a, b⟩ := step_alike (D := D) ⟨hs.reg, hs'.reg, hsame⟩ hs.types hs'.types hs.cls hs'.cls op
    obtain ⟨c, e⟩ := ih (hs.step op) (hs'.step op) a.same
    refine ⟨?_, e⟩
    unfold registrationAnswers
    rw [c]
    cases hq : asksForTypes op with
    | true => rfl
    | false => rw [answer_registration hq (b hq)]

/-! ## histories -/

theorem MOk.step {D : Decls} {M : MWorld} (h : MOk D M) (F : Faults) (op : Op) : MOk D (stepM D F M op).2 := by
  obtain ⟨hc, hb⟩ := stepM_ok h F op
  rcases hc with ⟨-, e⟩ | ⟨-, hl⟩
  · exact ⟨by rw [e]; exact step_reg D _ op h.reg, fun d => by rw [e]; exact step_types D _ h.reg op d (h.types d), hb⟩
  · exact ⟨LeftBehind.reg hl h.reg, LeftBehind.types hl h.reg h.types, hb⟩

theorem mok_init (D : Decls) (s : DomId → Settings) : MOk D (initM s) :=
  ⟨initWorld_reg s, initWorld_types D s, ⟨List.nodup_nil, fun d t => by simp [initM, initWorld, newDom]⟩⟩

theorem MOk.run {D : Decls} (h : List (Faults × Op)) : ∀ {M : MWorld}, MOk D M → MOk D (runM D M h) := by
  induction h with
  | nil => intro M hm; exact hm
  | cons x h ih => intro M hm; obtain ⟨F, op⟩ := x; exact ih (hm.step F op)

theorem sound_stepM {D : Decls} {M : MWorld} (h : MOk D M) (hs : Sound D M.W) (F : Faults) (op : Op) : Sound D (stepM D F M op).2.W := by
  rcases (stepM_ok h F op).cases with ⟨-, e⟩ | ⟨-, hl⟩
  · rw [e]; exact hs.step op
  · exact LeftBehind.sound hl hs

theorem sound_runM {D : Decls} (h : List (Faults × Op)) : ∀ {M : MWorld}, MOk D M → Sound D M.W → Sound D (runM D M h).W := by
  induction h with
  | nil => intro M _ hs; exact hs
  | cons x h ih => intro M hm hs; obtain ⟨F, op⟩ := x; exact ih (hm.step F op) (sound_stepM hm hs F op)

theorem homed_runM {D : Decls} {home : Feat → DomId} {used : Feat → Prop} (h : List (Faults × Op)) : ∀ {M : MWorld}, MOk D M → Sound D M.W → Homed D home used M.W →
    (∀ x ∈ h, x.2.disciplined D home used) → Homed D home used (runM D M h).W := by
  induction h with
  | nil => intro M _ _ hh _; exact hh
  | cons x h ih =>
    intro M hm hs hh hd
    obtain ⟨F, op⟩ := x
    refine ih (hm.step F op) (sound_stepM hm hs F op) ?_ (fun y hy => hd y (List.mem_cons_of_mem _ hy))
    have hop := hd (F, op) List.mem_cons_self
    rcases (stepM_ok hm F op).cases with ⟨-, e⟩ | ⟨-, hl⟩
    · rw [e]; exact hh.step hs op hop
    · exact LeftBehind.homed hl hs hh hop

theorem run_app (D : Decls) (a b : List Op) : ∀ W, Dnmx.run D W (a ++ b) = Dnmx.run D (Dnmx.run D W a) b := by
  induction a with
  | nil => intro W; rfl
  | cons op a ih => intro W; exact ih _

theorem stepM_without {D : Decls} {M : MWorld} (hm : MOk D M) (hs : Sound D M.W) {R : World} (hR : Sound D R) (hsame : SameRegistered R M.W) (F : Faults) (op : Op) :
    SameRegistered (Dnmx.run D R (withoutFailed D M [(F, op)])) (stepM D F M op).2.W := by
  have h := (stepM_ok hm F op).cases
  unfold withoutFailed
  simp only [withoutFailed, List.append_nil]
  cases hr : (stepM D F M op).1 with
  | ok u =>
    rcases h with ⟨-, e⟩ | ⟨e, -⟩
    · rw [e]; exact (registrationAnswers_alike [op] hR hs hsame).2
    · rw [hr] at e; cases e
  | error e' =>
    cases e' with
    | badAlloc =>
      rcases h with ⟨e, -⟩ | ⟨-, hl⟩
      · rw [hr] at e
        cases hx : (Dnmx.step D M.W op).1 <;> rw [hx] at e <;> simp [sameOutcome] at e
      · have h1 := LeftBehind.calls hl hs
        have h2 := (registrationAnswers_alike (leftCalls D M.W (stepM D F M op).2.W op) hR hs hsame).2
        exact ⟨fun d => (h1.settings d).trans (h2.settings d), fun d f => (h1.feats d f).trans (h2.feats d f), fun d m => (h1.mixins d m).trans (h2.mixins d m),
          fun d c => (h1.classes d c).trans (h2.classes d c), fun d => (h1.gaps d).trans (h2.gaps d), fun d => (h1.rules d).trans (h2.rules d)⟩
    | badFree =>
      rcases h with ⟨e, -⟩ | ⟨e, -⟩
      · rw [hr] at e
        cases hx : (Dnmx.step D M.W op).1 <;> rw [hx] at e <;> simp [sameOutcome] at e
      · rw [hr] at e; cases e
    | err e'' =>
      rcases h with ⟨-, e⟩ | ⟨e, -⟩
      · rw [e]; exact (registrationAnswers_alike [op] hR hs hsame).2
      · rw [hr] at e; cases e

theorem withoutFailed_cons (D : Decls) (M : MWorld) (F : Faults) (op : Op) (h : List (Faults × Op)) :
    withoutFailed D M ((F, op) :: h) = withoutFailed D M [(F, op)] ++ withoutFailed D (stepM D F M op).2 h := by
  simp [withoutFailed]

theorem runM_without {D : Decls} (h : List (Faults × Op)) : ∀ {M : MWorld} {R : World}, MOk D M → Sound D M.W → Sound D R → SameRegistered R M.W →
    SameRegistered (Dnmx.run D R (withoutFailed D M h)) (runM D M h).W := by
  induction h with
  | nil => intro M R _ _ _ hsame; exact hsame
  | cons x h ih =>
    intro M R hm hs hR hsame
    obtain ⟨F, op⟩ := x
    rw [withoutFailed_cons, run_app]
    exact ih (hm.step F op) (sound_stepM hm hs F op) (hR.run _) (stepM_without hm hs hR hsame F op)

theorem withoutFailed_mem {D : Decls} (h : List (Faults × Op)) : ∀ {M : MWorld} {o : Op}, o ∈ withoutFailed D M h →
    o ∈ h.map (·.2) ∨ ∃ d m f, .regMixin d m ∈ h.map (·.2) ∧ f ∈ (D.mix m).feats.map (·.feat) ∧ o = .regFeature d f := by
  induction h with
  | nil => intro M o ho; simp [withoutFailed] at ho
  | cons x h ih =>
    intro M o ho
    obtain ⟨F, op⟩ := x
    unfold withoutFailed at ho
    rcases List.mem_append.1 ho with h1 | h1
    · have case1 : o = op → o ∈ ((F, op) :: h).map (·.2) := by rintro rfl; simp
      have case2 : o ∈ leftCalls D M.W (stepM D F M op).2.W op → ∃ d m f, .regMixin d m ∈ ((F, op) :: h).map (·.2) ∧ f ∈ (D.mix m).feats.map (·.feat) ∧ o = .regFeature d f := by
        intro h2
        cases op with
        | regMixin d m =>
          unfold leftCalls at h2
          obtain ⟨f, hf, rfl⟩ := List.mem_map.1 h2
          exact ⟨d, m, f, by simp, (List.mem_filter.1 hf).1, rfl⟩
        | _ => simp [leftCalls] at h2
      split at h1
      · exact .inr (case2 h1)
      · exact .inl (case1 (by simpa using h1))
    · rcases ih h1 with h2 | ⟨d, m, f, h2, h3, h4⟩
      · exact .inl (by simp only [List.map_cons]; exact List.mem_cons_of_mem _ h2)
      · exact .inr ⟨d, m, f, by simp only [List.map_cons]; exact List.mem_cons_of_mem _ h2, h3, h4⟩

/-! ## trying again -/

theorem view_same {D : Decls} {W W' : World} {d : DomId} (h1 : W'.mixId = W.mixId) (h2 : (W'.doms d).mixins = (W.doms d).mixins) : W'.view D d = W.view D d := view_congr h1 h2

theorem getTypeMut_retry {D : Decls} {W : World} (ht : ∀ d, TypesInv D W d) {d : DomId} {q : List Mix} {r : TypeRec} (hq : ∀ e ∈ (W.doms d).queries, e.1 ≠ q) (hne : r.mixins ≠ [])
    (h1 : (applyMutationRules D (rulesOf D (W.view D d) (W.doms d)) q).result = .ok (q, r.mixins))
    (hn : ∀ t ∈ (W.doms d).types, t.mixins ≠ r.mixins) (hb : buildType D W d W.nextType r.mixins = .ok r) :
    getTypeMut D { W.setDom d { W.doms d with types := (W.doms d).types ++ [r] } with nextType := W.nextType + 1 } d d q = getTypeMut D W d d q := by
  have hq0 : findQuery q (W.doms d).queries = none := findQuery_none.2 hq
  have hempty : r.mixins.isEmpty = false := by simpa using hne
  have hf : findType r.mixins (W.doms d).types = none := by
    cases hff : findType r.mixins (W.doms d).types with
    | none => rfl
    | some x =>
      obtain ⟨a, b⟩ := findType_some hff
      exact absurd b (hn x a)
  have htid := (buildType_ok D W d W.nextType r.mixins r hne hb).2.2.1
  generalize hW' : ({ W.setDom d { W.doms d with types := (W.doms d).types ++ [r] } with nextType := W.nextType + 1 } : World) = W'
  have hd : W'.doms d = { W.doms d with types := (W.doms d).types ++ [r] } := by
    rw [← hW']
    show (W.setDom d _).doms d = _
    rw [setDom_doms_self]
  have hview : W'.view D d = W.view D d := view_congr (by rw [← hW']; rfl) (by rw [hd])
  have hrules : rulesOf D (W'.view D d) (W'.doms d) = rulesOf D (W.view D d) (W.doms d) := by
    rw [hview, hd]; rfl
  have hf' : findType r.mixins (W'.doms d).types = some r := by
    rw [hd]
    unfold findType at hf ⊢
    rw [List.find?_append, hf]
    simp
  rw [getTypeMut_miss D W' d q (by rw [hd]; exact hq0), getTypeMut_miss D W d q hq0, hrules, h1]
  simp only [hempty, Bool.false_eq_true, if_false, hf', hf, Option.map_some, Option.map_none, hb]
  unfold emplaceSection
  simp only [hf]
  rw [hd, ← hW']
  have hu : ∀ (f : DomId → Dom) (x y : Dom), upd (upd f d x) d y = upd f d y := by
    intro f x y; funext k; simp only [upd]; split <;> rfl
  simp only [World.setDom, hu]

theorem registerMixin_retry {D : Decls} {W W' : World} (hr : RegInv W) {d : DomId} {m : Mix} (hmi : W.mixDom m = none ∨ W.mixDom m = some d) {fs : List Feat}
    (hp : fs <+: (D.mix m).feats.map (·.feat)) (h : registerFeatures D W d fs = (.ok (), W')) :
    registerMixin D W' d m = registerMixin D W d m := by
  obtain ⟨post, hpost⟩ := hp
  have hg := (registerFeatures_spec D d fs W hr).2
  rw [h] at hg
  have e1 : registerFeatures D W d ((D.mix m).feats.map (·.feat)) = registerFeatures D W' d post := by
    rw [← hpost]; exact registerFeatures_append D d fs post W W' h
  have e2 : registerFeatures D W' d ((D.mix m).feats.map (·.feat)) = registerFeatures D W' d post := by
    rw [← hpost]; exact registerFeatures_append D d fs post W' W' (registerFeatures_skip D d fs W' (hg.2 rfl))
  have hd : ¬ (W.mixDom m ≠ none ∧ W.mixDom m ≠ some d) := by rintro ⟨a, b⟩; rcases hmi with c | c <;> contradiction
  unfold registerMixin
  rw [hg.1.mixDom, e1, e2, if_neg hd, if_neg hd]

theorem LeftBehind.retry {D : Decls} {W W' : World} {op : Op} (hl : LeftBehind D W op W') (h : Sound D W) : Dnmx.step D W' op = Dnmx.step D W op := by
  cases hl with
  | nothing => rfl
  | features d m fs W' hmi hp hr => exact registerMixin_retry h.reg hmi hp hr
  | type op d q r ha hq hne h1 hn hb =>
    have hm := getTypeMut_retry h.types hq hne h1 hn hb
    rcases ha with rfl | rfl
    · show discard (getType D _ d q) = discard (getType D W d q)
      unfold getType
      have e : (({ W.setDom d { W.doms d with types := (W.doms d).types ++ [r] } with nextType := W.nextType + 1 } : World).doms d).queries = (W.doms d).queries := by
        show ((W.setDom d _).doms d).queries = _
        rw [setDom_doms_self]
      rw [e, findQuery_none.2 hq]
      simp only
      rw [hm]
    · show discard (getTypeMut D _ d d q) = discard (getTypeMut D W d d q)
      rw [hm]

/-! ## enough memory -/

theorem storeFoundM_enough (M : MWorld) (d : DomId) (key : List Mix) (t : TypeId) : (storeFoundM {} M d key t).1 ≠ .error .badAlloc := by
  simp [storeFoundM, storeQueryM]

theorem dropTypeM_enough (M : MWorld) (d : DomId) (t : TypeId) (e : Err) : (dropTypeM M d t (.err e)).1 ≠ .error .badAlloc := by
  unfold dropTypeM
  split <;> simp

theorem emplaceM_enough (M : MWorld) (d : DomId) (key : List Mix) (t : TypeRec) : (emplaceM {} M d key t).1 ≠ .error .badAlloc := by
  unfold emplaceM
  rw [if_neg (by simp)]
  split
  · split
    · simp
    · exact storeFoundM_enough _ _ _ _
  · exact storeFoundM_enough _ _ _ _

theorem createTypeM_enough (D : Decls) (M : MWorld) (d : DomId) (key ms : List Mix) : (createTypeM D {} M d key ms).1 ≠ .error .badAlloc := by
  unfold createTypeM
  split
  · simp
  · rw [if_neg (by simp), if_neg (by simp)]
    simp only
    split
    · exact dropTypeM_enough _ _ _ _
    · exact emplaceM_enough _ _ _ _

theorem getTypeMutM_enough (D : Decls) (M : MWorld) (d md : DomId) (q : List Mix) : (getTypeMutM D {} M d md q).1 ≠ .error .badAlloc := by
  unfold getTypeMutM
  by_cases h : md ≠ d
  · rw [if_pos h]; simp
  · rw [if_neg h]
    split
    · simp
    · unfold resolveM
      simp only
      rw [if_neg (by simp)]
      split
      · simp
      · split
        · exact storeFoundM_enough _ _ _ _
        · exact createTypeM_enough _ _ _ _ _

theorem getTypeM_enough (D : Decls) (M : MWorld) (d : DomId) (q : List Mix) : (getTypeM D {} M d q).1 ≠ .error .badAlloc := by
  unfold getTypeM
  split
  · simp
  · rw [if_neg (by simp)]; exact getTypeMutM_enough _ _ _ _ _

theorem noAlloc_enough (r : Except Err Unit × World) : (noAlloc r).1 ≠ .error .badAlloc := by
  obtain ⟨a, b⟩ := r; cases a <;> simp [noAlloc]

theorem discardM_enough {r : Except MemErr TypeId × MWorld} (h : r.1 ≠ .error .badAlloc) : (discardM r).1 ≠ .error .badAlloc := by
  obtain ⟨a, b⟩ := r
  cases a with
  | ok t => simp [discardM]
  | error e => simpa [discardM] using h

theorem stepM_enough (D : Decls) (M : MWorld) (op : Op) : (stepM D {} M op).1 ≠ .error .badAlloc := by
  cases op with
  | regFeature d f =>
    show (registerFeatureM D false M.W d f).1 ≠ _
    rcases registerFeatureM_cases D false M.W d f with e | ⟨e, -⟩
    · rw [e]; exact noAlloc_enough _
    · cases e
  | unregFeature d f => exact noAlloc_enough _
  | regMixin d m =>
    show (registerMixinM D (fun _ => false) M.W d m).1 ≠ _
    rcases registerMixinM_cases D (fun _ => false) M.W d m with e | ⟨⟨j, -, e⟩, -⟩
    · rw [e]; exact noAlloc_enough _
    · cases e
  | unregMixin d m =>
    show (unregisterMixinM M d m).1 ≠ _
    unfold unregisterMixinM
    simp only
    split
    · simp
    · split
      · simp
      · split <;> simp
  | regClass d c =>
    show (registerTypeClassM D false M.W d c).1 ≠ _
    rcases registerTypeClassM_cases D false M.W d c with e | ⟨e, -⟩
    · rw [e]; exact noAlloc_enough _
    · cases e
  | unregClass d c => exact noAlloc_enough (unregisterTypeClass M.W d c)
  | addRule d r =>
    show (addRuleM D false M.W d r).1 ≠ _
    rcases addRuleM_cases D false M.W d r with e | ⟨e, -⟩
    · rw [e]; exact noAlloc_enough _
    · cases e
  | removeRule d r => exact noAlloc_enough _
  | getTypeMut d md q => exact discardM_enough (getTypeMutM_enough D M d md q)
  | getType d q => exact discardM_enough (getTypeM_enough D M d q)
  | gc d num =>
    show (garbageCollectM M d num).1 ≠ _
    unfold garbageCollectM
    simp only
    split <;> simp

end Dnmx
