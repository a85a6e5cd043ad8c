import Verif.Props.DomainFeatures

/-! C56, C27, C28: exactly which calls make features and mixins part. -/

namespace Dnmx.Props
open Spec

/-- In every domain the features of all mixins are registered there. -/
def FeatsHere (D : Decls) (W : World) : Prop :=
  ∀ d, ∀ m ∈ mixinsOf W d, ∀ ff ∈ (D.mix m).feats, ff.feat ∈ featuresOf W d

/-- The call registers a mixin with a feature of another domain, or unregisters a feature that a mixin of the domain has. -/
def Parts (D : Decls) (W : World) : Op → Prop
  | .regMixin d m => (step D W (.regMixin d m)).1 = .ok () ∧ ∃ ff ∈ (D.mix m).feats, ∃ d', d' ≠ d ∧ ff.feat ∈ featuresOf W d'
  | .unregFeature d f => f ∈ featuresOf W d ∧ ∃ m ∈ mixinsOf W d, ∃ ff ∈ (D.mix m).feats, ff.feat = f
  | _ => False

theorem FeatsHere.same {D : Decls} {W W' : World} (h : FeatsHere D W) (s : SameElems W W') : FeatsHere D W' := by
  intro d m hm ff hff
  rw [mem_mixinsOf, s.mixins] at hm
  rw [mem_featuresOf, s.feats, ← mem_featuresOf]
  exact h d m ((mem_mixinsOf _ _ _).2 hm) ff hff

theorem FeatsHere.grown {D : Decls} {W W' : World} {d : DomId} {fs : List Feat} (h : FeatsHere D W) (g : FeatsGrown D W d fs W') : FeatsHere D W' := by
  intro d' m hm ff hff
  by_cases hd : d' = d
  · subst hd
    rw [mem_mixinsOf, g.dom] at hm
    obtain ⟨j, hj⟩ := (mem_featuresOf _ _ _).1 (h d' m ((mem_mixinsOf _ _ _).2 hm) ff hff)
    exact (mem_featuresOf _ _ _).2 ⟨j, g.keepSlot j _ hj⟩
  · rw [mem_mixinsOf, g.other d' hd] at hm
    rw [mem_featuresOf, g.other d' hd, ← mem_featuresOf]
    exact h d' m ((mem_mixinsOf _ _ _).2 hm) ff hff

theorem featHome {W : World} (hr : RegInv W) {d d' : DomId} {f : Feat} (h : f ∈ featuresOf W d) (h' : f ∈ featuresOf W d') : d = d' := by
  obtain ⟨i, hi⟩ := (mem_featuresOf _ _ _).1 h
  obtain ⟨j, hj⟩ := (mem_featuresOf _ _ _).1 h'
  exact hr.featOne d d' i j f hi hj

/-- one call -/
theorem step_here (D : Decls) (W : World) (hr : RegInv W) (op : Op) (h : FeatsHere D W) : FeatsHere D (step D W op).2 ↔ ¬ Parts D W op := by
  cases op with
  | regFeature d' g =>
    refine ⟨fun _ h => h, fun _ => ?_⟩
    show FeatsHere D (registerFeature D W d' g).2
    cases hres : (registerFeature D W d' g).1 with
    | error e => rw [registerFeature_error D W d' g e hres]; exact h
    | ok u =>
      cases u
      obtain ⟨id, hi⟩ := registerFeature_ok D W d' g hres
      exact h.grown (fs := [g]) ((FeatsGrown.refl D _ d' []).step hi)
  | unregFeature d' g =>
    show FeatsHere D (unregisterFeature W d' g).2 ↔ ¬ (g ∈ featuresOf W d' ∧ ∃ m ∈ mixinsOf W d', ∃ ff ∈ (D.mix m).feats, ff.feat = g)
    rcases unregisterFeature_cases W d' g with ⟨h1, h2⟩ | ⟨j, h1, h2, h3⟩
    · rw [h1]
      refine ⟨fun _ hx => ?_, fun _ => h⟩
      obtain ⟨i, hi⟩ := (mem_featuresOf _ _ _).1 hx.1
      rw [hr.featSlot d' i g hi] at h2
      simp [ownSlot, hi] at h2
    · have hg : g ∈ featuresOf W d' := (mem_featuresOf _ _ _).2 ⟨j, h2⟩
      rw [h3]
      have hf : ∀ d f, f ∈ featuresOf ({ W.setDom d' { W.doms d' with feats := (W.doms d').feats.set j none } with featId := upd W.featId g none } : World) d ↔
          f ∈ featuresOf W d ∧ ¬ (d = d' ∧ f = g) := by
        intro d f
        rw [mem_featuresOf, mem_featuresOf]
        simp only [setDom_doms]
        by_cases hd : d = d'
        · subst hd
          simp only [if_pos]
          constructor
          · rintro ⟨i, hi⟩
            obtain ⟨a, b⟩ := (getElem?_set_none_some _ _ _ _).1 hi
            refine ⟨⟨i, b⟩, ?_⟩
            rintro ⟨-, rfl⟩
            have := hr.featSlot d i f b
            rw [h1] at this
            exact a (by simpa using this.symm)
          · rintro ⟨⟨i, hi⟩, hn⟩
            refine ⟨i, (getElem?_set_none_some _ _ _ _).2 ⟨?_, hi⟩⟩
            rintro rfl
            rw [h2] at hi
            exact hn ⟨trivial, by simpa using hi.symm⟩
        · simp [hd]
      have hm : ∀ d m, m ∈ mixinsOf ({ W.setDom d' { W.doms d' with feats := (W.doms d').feats.set j none } with featId := upd W.featId g none } : World) d ↔ m ∈ mixinsOf W d := by
        intro d m
        rw [mem_mixinsOf, mem_mixinsOf]
        simp only [setDom_doms]
        by_cases hd : d = d'
        · subst hd; simp
        · simp [hd]
      constructor
      · rintro hh ⟨-, m, h4, ff, h5, h6⟩
        exact ((hf _ _).1 (hh d' m ((hm _ _).2 h4) ff h5)).2 ⟨rfl, h6⟩
      · intro hn d m h4 ff h5
        refine (hf _ _).2 ⟨h d m ((hm _ _).1 h4) ff h5, ?_⟩
        rintro ⟨rfl, h6⟩
        exact hn ⟨hg, m, (hm _ _).1 h4, ff, h5, h6⟩
  | regMixin d' m' =>
    show FeatsHere D (registerMixin D W d' m').2 ↔ ¬ ((registerMixin D W d' m').1 = .ok () ∧ ∃ ff ∈ (D.mix m').feats, ∃ d, d ≠ d' ∧ ff.feat ∈ featuresOf W d)
    cases hres : (registerMixin D W d' m').1 with
    | error e =>
      refine ⟨fun _ hx => by simp at hx, fun _ => h.grown (registerMixin_error D W d' m' hr e hres).1⟩
    | ok u =>
      cases u
      obtain ⟨id, hi⟩ := registerMixin_ok D W d' m' hr hres
      obtain ⟨W1, g, hr1, e1, e2, e3⟩ := hi.feats
      have h1 := h.grown g
      have hfe : ∀ f, f ∈ featuresOf (registerMixin D W d' m').2 d' ↔ f ∈ featuresOf W1 d' := by
        intro f; rw [mem_featuresOf, mem_featuresOf, e1]
      have hnew : m' ∈ mixinsOf (registerMixin D W d' m').2 d' := (mem_mixinsOf _ _ _).2 ⟨id, hi.ins.slot⟩
      constructor
      · rintro hh ⟨-, ff, hff, d, hd, hx⟩
        have h2 := (hfe _).1 (hh d' m' hnew ff hff)
        have h3 : ff.feat ∈ featuresOf W1 d := by rw [mem_featuresOf, g.other d hd, ← mem_featuresOf]; exact hx
        exact hd (featHome hr1 h3 h2)
      · intro hn d m hm ff hff
        by_cases hd : d = d'
        · subst hd
          rw [hfe]
          by_cases hmm : m = m'
          · subst hmm
            obtain ⟨j, hj⟩ := Option.ne_none_iff_exists'.1 (e3 ff hff)
            obtain ⟨d2, hd2⟩ := hr1.featReg _ _ hj
            by_cases hd : d2 = d
            · subst hd; exact (mem_featuresOf _ _ _).2 ⟨j, hd2⟩
            · rw [g.other d2 hd] at hd2
              exact absurd ⟨rfl, ff, hff, d2, hd, (mem_featuresOf _ _ _).2 ⟨j, hd2⟩⟩ hn
          · obtain ⟨i, hm⟩ := (mem_mixinsOf _ _ _).1 hm
            have hold : (W.doms d).mixins[i]? = some (some m) := by
              by_cases hii : i = id
              · subst hii; rw [hi.ins.slot] at hm; simp at hm; exact absurd hm.symm hmm
              · rw [hi.ins.other i hii] at hm; exact hm
            have : (W1.doms d).mixins = (W.doms d).mixins := by rw [g.dom]
            exact h1 d m ((mem_mixinsOf _ _ _).2 ⟨i, by rw [this]; exact hold⟩) ff hff
        · rw [mem_mixinsOf, hi.other d hd] at hm
          rw [mem_featuresOf, hi.other d hd, ← mem_featuresOf]
          exact h d m ((mem_mixinsOf _ _ _).2 hm) ff hff
  | unregMixin d' m' =>
    refine ⟨fun _ h => h, fun _ => ?_⟩
    show FeatsHere D (unregisterMixin W d' m').2
    cases hres : (unregisterMixin W d' m').1 with
    | error e => exact h.same (unregisterMixin_error_same W d' m' e hres)
    | ok u =>
      cases u
      obtain ⟨i, he⟩ := unregisterMixin_ok W d' m' hres
      intro d m hm ff hff
      by_cases hd : d = d'
      · subst hd
        rw [mem_mixinsOf, he.mixins] at hm
        rw [mem_featuresOf, he.feats, ← mem_featuresOf]
        obtain ⟨k, hk⟩ := hm
        exact h d m ((mem_mixinsOf _ _ _).2 ⟨k, ((getElem?_set_none_some _ _ _ _).1 hk).2⟩) ff hff
      · rw [mem_mixinsOf, he.other d hd] at hm
        rw [mem_featuresOf, he.other d hd, ← mem_featuresOf]
        exact h d m ((mem_mixinsOf _ _ _).2 hm) ff hff
  | regClass d' c => exact ⟨fun _ h => h, fun _ => h.same (registerTypeClass_same D W d' c)⟩
  | unregClass d' c => exact ⟨fun _ h => h, fun _ => h.same (unregisterTypeClass_same W d' c)⟩
  | addRule d' r => exact ⟨fun _ h => h, fun _ => h.same (addRule_same D W d' r)⟩
  | removeRule d' r => exact ⟨fun _ h => h, fun _ => h.same (removeRule_same D W d' r)⟩
  | getTypeMut d' md q => exact ⟨fun _ h => h, fun _ => h.same (getTypeMut_same D W d' md q)⟩
  | getType d' q => exact ⟨fun _ h => h, fun _ => h.same (getType_same D W d' q)⟩
  | gc d' num => exact ⟨fun _ h => h, fun _ => h.same (garbageCollect_same W d' num)⟩

/-- No call of the history makes features and mixins part. -/
def NeverParts (D : Decls) (s : DomId → Settings) (ops : List Op) : Prop :=
  ∀ pre op post, ops = pre ++ op :: post → ¬ Parts D (run D (initWorld s) pre) op

theorem here_init (D : Decls) (s : DomId → Settings) : FeatsHere D (initWorld s) := by
  intro d m hm
  obtain ⟨i, hi⟩ := (mem_mixinsOf _ _ _).1 hm
  simp [initWorld, newDom] at hi

theorem run_snoc (D : Decls) : ∀ (pre : List Op) (W : World) (op : Op), run D W (pre ++ [op]) = (step D (run D W pre) op).2
  | [], _, _ => rfl
  | _ :: pre, _, op => run_snoc D pre _ op

/-- C56, for all histories: at all times the features of all registered mixins are registered in the mixins' domains exactly if no call registers a mixin with a feature of
another domain and none unregisters a feature that a mixin of the domain has. -/
theorem C56_exactly (D : Decls) (s : DomId → Settings) (ops : List Op) :
    (∀ pre, pre <+: ops → FeatsHere D (run D (initWorld s) pre)) ↔ NeverParts D s ops := by
  constructor
  · rintro h pre op post rfl
    rw [← step_here D _ (reachable_reg D s pre) op (h pre ⟨op :: post, rfl⟩), ← run_snoc]
    exact h _ ⟨post, by simp⟩
  · intro h
    have key : ∀ (n : Nat) (pre : List Op), pre.length = n → pre <+: ops → FeatsHere D (run D (initWorld s) pre) := by
      intro n
      induction n with
      | zero => intro pre hn _; rw [List.length_eq_zero_iff] at hn; subst hn; exact here_init D s
      | succ n ih =>
        intro pre hn hp
        obtain ⟨p, op, rfl⟩ : ∃ p op, pre = p ++ [op] :=
          ⟨pre.dropLast, pre.getLast (by rintro rfl; simp at hn), (List.dropLast_concat_getLast _).symm⟩
        obtain ⟨post, rfl⟩ := hp
        have h0 := ih p (by simpa using hn) ⟨op :: post, by simp⟩
        rw [run_snoc, step_here D _ (reachable_reg D s p) op h0]
        exact h p op post (by simp)
    exact fun pre hp => key _ pre rfl hp

/-- And one call at a time. -/
theorem C56_step_exactly (D : Decls) (s : DomId → Settings) (ops : List Op) (op : Op) (h : FeatsHere D (run D (initWorld s) ops)) :
    FeatsHere D (step D (run D (initWorld s) ops) op).2 ↔ ¬ Parts D (run D (initWorld s) ops) op :=
  step_here D _ (reachable_reg D s ops) op h

/-- one call keeps the tables -/
theorem step_tables_here (D : Decls) (W : World) (hr : RegInv W) (op : Op) (hop : ¬ Parts D W op) (h : FeatsHere D W) (d : DomId) (hty : TypesInv D W d) (ht : TablesOk D W d) :
    TablesOk D (step D W op).2 d := by
  have old : ∀ t ∈ (W.doms d).types, buildFtable D (step D W op).2.featId t.mixins = .ok t.ftable := by
    intro t htm
    rw [← ht t htm]
    apply buildFtable_congr
    intro m hm ff hff
    have hmx : m ∈ mixinsOf W d := (hr.mem_mixinsOf_iff d m).2 ((hty.ok t htm).reg m hm)
    obtain ⟨j, hj⟩ := (mem_featuresOf _ _ _).1 (h d m hmx ff hff)
    have hk := step_keeps_feature D W hr op d ff.feat j (by
      rintro rfl
      exact hop ⟨(mem_featuresOf _ _ _).2 ⟨j, hj⟩, m, hmx, ff, hff, rfl⟩) hj
    rw [(step_reg D W op hr).featSlot d j _ hk, hr.featSlot d j _ hj]
  have hs := step_typeStep D W hr op d hty
  intro t htm
  generalize hW' : (step D W op).2 = W' at hs htm old ⊢
  cases hs with
  | keep h1 => rw [h1] at htm; exact old t htm
  | clear h1 => rw [h1] at htm; exact old t htm
  | filter p pq h1 => rw [h1, List.mem_filter] at htm; exact old t htm.1
  | get q r hc =>
    cases hc with
    | hit => exact old t htm
    | ruleError => exact old t htm
    | buildError => exact old t htm
    | empty => simp only [setDom_same] at htm; exact old t htm
    | found => simp only [setDom_same] at htm; exact old t htm
    | built r hne hres hn hb htid =>
      simp only [setDom_same] at htm
      rcases List.mem_append.1 htm with h1 | h1
      · exact old t h1
      · simp at h1; subst h1
        exact (buildType_ok D W d W.nextType t.mixins t hne hb).2.2.2

theorem tables_here (D : Decls) (s : DomId → Settings) (ops : List Op) (h : NeverParts D s ops) (d : DomId) : TablesOk D (run D (initWorld s) ops) d := by
  have hall := (C56_exactly D s ops).2 h
  have key : ∀ (n : Nat) (pre : List Op), pre.length = n → pre <+: ops → TablesOk D (run D (initWorld s) pre) d := by
    intro n
    induction n with
    | zero => intro pre hn _ t ht; rw [List.length_eq_zero_iff] at hn; subst hn; simp [run, initWorld, newDom] at ht
    | succ n ih =>
      intro pre hn hp
      obtain ⟨p, op, rfl⟩ : ∃ p op, pre = p ++ [op] :=
        ⟨pre.dropLast, pre.getLast (by rintro rfl; simp at hn), (List.dropLast_concat_getLast _).symm⟩
      obtain ⟨post, rfl⟩ := hp
      have h0 := ih p (by simpa using hn) ⟨op :: post, by simp⟩
      rw [run_snoc]
      exact step_tables_here D _ (reachable_reg D s p) op (h p op post (by simp)) (hall p ⟨op :: post, by simp⟩) d (reachable_types D s p d) h0
  exact key _ ops rfl (List.prefix_refl _)

theorem fidIn_here {D : Decls} {W : World} (hr : RegInv W) (h : FeatsHere D W) {d : DomId} (ms : List Mix) (hreg : ∀ m ∈ ms, m ∈ mixinsOf W d) :
    FeatIdsOk D (fidIn W d) ms ∧ ∀ m ∈ ms, ∀ ff ∈ (D.mix m).feats, W.featId ff.feat = fidIn W d ff.feat := by
  have h0 : ∀ m ∈ ms, ∀ ff ∈ (D.mix m).feats, ff.feat ∈ featuresOf W d := fun m hm => h d m (hreg m hm)
  refine ⟨⟨?_, ?_⟩, ?_⟩
  · intro m hm ff hff
    have h1 := h0 m hm ff hff
    obtain ⟨j, hj⟩ := (mem_featuresOf _ _ _).1 h1
    exact ⟨j, by rw [fidIn, if_pos h1]; exact hr.featSlot d j _ hj⟩
  · intro f g i hf hg
    unfold fidIn at hf hg
    by_cases h1 : f ∈ featuresOf W d
    · by_cases h2 : g ∈ featuresOf W d
      · rw [if_pos h1] at hf
        rw [if_pos h2] at hg
        obtain ⟨j, hj⟩ := (mem_featuresOf _ _ _).1 h1
        obtain ⟨k, hk⟩ := (mem_featuresOf _ _ _).1 h2
        rw [hr.featSlot d j f hj] at hf
        rw [hr.featSlot d k g hk] at hg
        simp at hf hg
        subst hf; subst hg
        rw [hj] at hk; simpa using hk
      · rw [if_neg h2] at hg; cases hg
    · rw [if_neg h1] at hf; cases hf
  · intro m hm ff hff
    rw [fidIn, if_pos (h0 m hm ff hff)]

/-- A disciplined history has no call that makes features and mixins part. -/
theorem discipline_neverParts (D : Decls) (s : DomId → Settings) (ops : List Op) (h : FeatureDiscipline D ops) : NeverParts D s ops := by
  rw [← C56_exactly]
  rintro pre ⟨post, rfl⟩ d m hm ff hff
  have hd : FeatureDiscipline D pre := by
    obtain ⟨home, used, h⟩ := h
    exact ⟨home, used, fun op ho => h op (List.mem_append_left _ ho)⟩
  exact (C56_features_of_mixins_partial D s pre hd d m ((mixinRegistered_iff D s pre d m).2 hm) ff hff).1

/-- C27, for all histories in which no call makes features and mixins part (a feature may then go to another domain, and a call that fails may name any feature): in every type of a domain,
at any time, the table has for each feature of the domain exactly the implementations that the type's mixins provide, best first, and no entry if there are none. -/
theorem C27_ftable_unparted (D : Decls) (s : DomId → Settings) (ops : List Op) (hn : NeverParts D s ops) (d : DomId)
    (t : TypeId) (r : TypeRec) (ht : ((run D (initWorld s) ops).doms d).typeAt d t = some r) (f : Feat)
    (hf : f ∈ featuresOf (run D (initWorld s) ops) d) :
    match r.ftableAt ((run D (initWorld s) ops).featId f) with
    | none => allImpls D r.mixins f = []
    | some e => e.pls ≠ [] ∧ RanksImpls D r.mixins f (e.pls.map (fun p => (p.mixinIndex, p.data))) := by
  have hh := (C56_exactly D s ops).2 hn ops (List.prefix_refl _)
  have htab := tables_here D s ops hn d
  have hr := reachable_reg D s ops
  have hi := reachable_types D s ops d
  generalize run D (initWorld s) ops = W at hh htab hr hi ht hf ⊢
  obtain ⟨-, -, -, hreg⟩ := hi.typeAt_ok ht
  obtain ⟨hok, hsame⟩ := fidIn_here hr hh r.mixins (fun m hm => (hr.mem_mixinsOf_iff d m).2 (hreg m hm))
  rcases typeAt_some ht with ⟨a, b⟩ | ⟨a, b, c⟩
  · subst b
    cases W.featId f <;> simp [TypeRec.ftableAt, emptyType, allImpls]
  · have hb := htab r b
    rw [buildFtable_congr D W.featId (fidIn W d) r.mixins hsame] at hb
    have hfid : fidIn W d f = W.featId f := by simp [fidIn, hf]
    rw [← hfid]
    refine C27_ftable_contents D (fidIn W d) r.mixins hok r hb f ?_
    obtain ⟨j, hj⟩ := (mem_featuresOf _ _ _).1 hf
    rw [hfid, hr.featSlot d j f hj]; rfl

/-- C28, for the same histories: creating a type from different mixins of the domain fails exactly if some feature which does not allow clashes has two implementations with equal bid and
priority; otherwise it succeeds. -/
theorem C28_clash_unparted (D : Decls) (s : DomId → Settings) (ops : List Op) (hn : NeverParts D s ops) (d : DomId)
    (tid : TypeId) (ms : List Mix) (hnd : ms.Nodup) (hm : ∀ m ∈ ms, mixinRegistered d m (trace D (initWorld s) ops) = true) :
    (buildType D (run D (initWorld s) ops) d tid ms = .error .featureClash ↔
      ∃ f, (D.feat f).allowClashes = false ∧ ClashesOn D ms f) ∧
    (buildType D (run D (initWorld s) ops) d tid ms = .error .featureClash ∨
      ∃ r, buildType D (run D (initWorld s) ops) d tid ms = .ok r) := by
  have hh := (C56_exactly D s ops).2 hn ops (List.prefix_refl _)
  have hr := reachable_reg D s ops
  have hm' : ∀ m ∈ ms, m ∈ mixinsOf (run D (initWorld s) ops) d := fun m h => (mixinRegistered_iff D s ops d m).1 (hm m h)
  generalize run D (initWorld s) ops = W at hh hr hm' ⊢
  obtain ⟨hok, hsame⟩ := fidIn_here hr hh ms hm'
  have hc : checkMixins W.mixId W.mixDom d ms = .ok () :=
    (checkMixins_ok _ _ _ _).2 ⟨hnd, fun m h => (hr.mem_mixinsOf_iff d m).1 (hm' m h)⟩
  obtain ⟨h1, h2⟩ := C28_clash_iff D (fidIn W d) ms hok
  unfold buildType
  rw [hc, buildFtable_congr D W.featId (fidIn W d) ms hsame]
  simp only
  rcases h2 with h2 | ⟨ft, h2⟩
  · rw [h2]; simp; exact h1.1 h2
  · rw [h2]
    simp only [reduceCtorEq, false_iff, false_or]
    refine ⟨fun h => ?_, ⟨_, rfl⟩⟩
    rw [h1.2 h] at h2; simp at h2

/-- C28: and `get_type` never does anything undefined if the rules do not. -/
theorem C28_get_type_unparted (D : Decls) (s : DomId → Settings) (ops : List Op) (hn : NeverParts D s ops) (d : DomId)
    (q : List Mix) (hrules : resolve D (rulesOf D ((run D (initWorld s) ops).view D d) ((run D (initWorld s) ops).doms d)) q ≠ .error .ub) :
    (getType D (run D (initWorld s) ops) d q).1 ≠ .error .ub := by
  intro h
  rcases C16_errors D s ops d q .ub h with h1 | ⟨ms, -, h1⟩
  · exact hrules h1
  · by_cases hc : ms.Nodup ∧ ∀ m ∈ ms, mixinRegistered d m (trace D (initWorld s) ops) = true
    · rcases (C28_clash_unparted D s ops hn d _ ms hc.1 hc.2).2 with h2 | ⟨r, h2⟩ <;> rw [h1] at h2 <;> simp at h2
    · obtain ⟨e, h2, h3⟩ := (C17_composition_errors D s ops d (run D (initWorld s) ops).nextType ms).2 hc
      rw [h1] at h2; simp at h2; subst h2; simp at h3

/-- call by call -/
def NoParts (D : Decls) : World → List Op → Prop
  | _, [] => True
  | W, op :: ops => ¬ Parts D W op ∧ NoParts D (step D W op).2 ops

theorem neverParts_of (D : Decls) (s : DomId → Settings) (ops : List Op) (h : NoParts D (initWorld s) ops) : NeverParts D s ops := by
  have key : ∀ (ops : List Op) (W : World), NoParts D W ops → ∀ pre op post, ops = pre ++ op :: post → ¬ Parts D (run D W pre) op := by
    intro ops
    induction ops with
    | nil => intro W _ pre op post he; simp at he
    | cons o ops ih =>
      intro W h pre op post he
      cases pre with
      | nil => simp at he; rw [← he.1]; exact h.1
      | cons p pre => simp at he; rw [← he.1]; exact ih _ h.2 pre op post he.2
  exact key ops _ h

theorem not_parts_new (D : Decls) (s : DomId → Settings) (ops : List Op) (d : DomId) (m : Mix) (h : ∀ ff ∈ (D.mix m).feats, (run D (initWorld s) ops).featId ff.feat = none) :
    ¬ Parts D (run D (initWorld s) ops) (.regMixin d m) := by
  rintro ⟨-, ff, hff, d', -, hx⟩
  obtain ⟨i, hi⟩ := (mem_featuresOf _ _ _).1 hx
  have := (reachable_reg D s ops).featSlot d' i _ hi
  rw [h ff hff] at this
  cases this

-- a history that is not disciplined (feature 1 is used in domains 0 and 1, one after the other, and a call names it in the wrong domain and fails) without such a call
example : let ops := [Op.regMixin 0 1, .unregFeature 1 1, .regMixin 1 1, .unregMixin 0 1, .unregFeature 0 1, .unregFeature 0 2, .regMixin 1 1, .getType 1 [1]]
    NeverParts regDecls (fun _ => {}) ops ∧
    ¬ FeatureDiscipline regDecls ops ∧ (∀ d < 2, mixinRegistered d 1 (trace regDecls (initWorld fun _ => {}) ops) = (d == 1)) ∧
    (run regDecls (initWorld fun _ => {}) ops).featId 1 = some 0 := by
  refine ⟨neverParts_of _ _ _ ⟨?_, ?_, ?_, id, ?_, ?_, ?_, id, trivial⟩, ?_, by decide +kernel, by decide +kernel⟩
  · exact not_parts_new regDecls (fun _ => {}) [] 0 1 (by decide +kernel)
  · rintro ⟨h, -⟩; revert h; decide +kernel
  · rintro ⟨h, -⟩; revert h; decide +kernel
  · rintro ⟨-, m, hm, -⟩
    have hno : ∀ W : World, mixinsOf W 0 = [] → m ∈ mixinsOf W 0 → False := fun W e h => by rw [e] at h; cases h
    exact hno _ (by decide +kernel) hm
  · rintro ⟨-, m, hm, -⟩
    have hno : ∀ W : World, mixinsOf W 0 = [] → m ∈ mixinsOf W 0 → False := fun W e h => by rw [e] at h; cases h
    exact hno _ (by decide +kernel) hm
  · exact not_parts_new regDecls (fun _ => {}) [.regMixin 0 1, .unregFeature 1 1, .regMixin 1 1, .unregMixin 0 1, .unregFeature 0 1, .unregFeature 0 2] 1 1 (by decide +kernel)
  · rintro ⟨home, used, h⟩
    have h1 : ∀ ff ∈ (regDecls.mix 1).feats, home ff.feat = 0 ∧ used ff.feat := h (.regMixin 0 1) (by simp)
    have h2 : ∀ ff ∈ (regDecls.mix 1).feats, home ff.feat = 1 ∧ used ff.feat := h (.regMixin 1 1) (by simp)
    have hm : (⟨1, 10, 0, 0⟩ : FeatFor) ∈ (regDecls.mix 1).feats := by decide +kernel
    have := (h1 _ hm).1
    rw [(h2 _ hm).1] at this
    cases this

end Dnmx.Props
