import Verif.Proofs.ConcurrentLemmas
import Verif.Proofs.RegisteredLemmas
import Verif.Props.Answers
import Verif.Spec.Linear

/-! # Lemmas on overlapping calls in some order -/

set_option linter.unusedSimpArgs false
set_option linter.unusedVariables false

namespace Dnmx
open Spec

/-- Two worlds that differ in types and stored queries only. -/
structure SameBut (V W : World) : Prop where
  elems : SameElems V W
  classes : ∀ d, (W.doms d).classes = (V.doms d).classes
  rules : ∀ d, (W.doms d).rules = (V.doms d).rules

variable {D : Decls} {V W W' : World}

theorem SameBut.refl (W : World) : SameBut W W := ⟨.refl W, fun _ => rfl, fun _ => rfl⟩

theorem SameBut.trans (h : SameBut V W) (h' : SameBut W W') : SameBut V W' :=
  ⟨⟨fun d => (h'.elems.settings d).trans (h.elems.settings d), fun d => (h'.elems.feats d).trans (h.elems.feats d), fun d => (h'.elems.mixins d).trans (h.elems.mixins d),
    h'.elems.featId.trans h.elems.featId, h'.elems.mixId.trans h.elems.mixId, h'.elems.mixDom.trans h.elems.mixDom⟩,
    fun d => (h'.classes d).trans (h.classes d), fun d => (h'.rules d).trans (h.rules d)⟩

theorem SameBut.symm (h : SameBut V W) : SameBut W V :=
  ⟨⟨fun d => (h.elems.settings d).symm, fun d => (h.elems.feats d).symm, fun d => (h.elems.mixins d).symm, h.elems.featId.symm, h.elems.mixId.symm, h.elems.mixDom.symm⟩,
    fun d => (h.classes d).symm, fun d => (h.rules d).symm⟩

theorem SameBut.of_isQuery (hr : RegInv W) {op : Op} (hq : asksForTypes op = true) : SameBut W (step D W op).2 :=
  ⟨(isQuery_same hr hq).1, (isQuery_same hr hq).2.1, (isQuery_same hr hq).2.2⟩

theorem SameBut.setDom (h : SameBut V W) (d : DomId) {x y : Dom} (h1 : y.settings = x.settings) (h2 : y.feats = x.feats) (h3 : y.mixins = x.mixins)
    (h4 : y.classes = x.classes) (h5 : y.rules = x.rules) : SameBut (V.setDom d x) (W.setDom d y) := by
  refine ⟨⟨fun d' => ?_, fun d' => ?_, fun d' => ?_, h.elems.featId, h.elems.mixId, h.elems.mixDom⟩, fun d' => ?_, fun d' => ?_⟩ <;>
    rcases setDom_cases (W := V) (d := d) (x := x) d' with ⟨e, a⟩ | ⟨e, a⟩ <;> rcases setDom_cases (W := W) (d := d) (x := y) d' with ⟨e', b⟩ | ⟨e', b⟩ <;>
    first | exact absurd e e' | exact absurd e' e | skip
  all_goals rw [a, b]
  all_goals first | assumption | skip
  · exact h.elems.settings d'
  · exact h.elems.feats d'
  · exact h.elems.mixins d'
  · exact h.classes d'
  · exact h.rules d'

theorem SameBut.setDom_right (h : SameBut V W) (d : DomId) {y : Dom} (h1 : y.settings = (W.doms d).settings) (h2 : y.feats = (W.doms d).feats)
    (h3 : y.mixins = (W.doms d).mixins) (h4 : y.classes = (W.doms d).classes) (h5 : y.rules = (W.doms d).rules) : SameBut V (W.setDom d y) := by
  refine h.trans ⟨⟨fun d' => ?_, fun d' => ?_, fun d' => ?_, rfl, rfl, rfl⟩, fun d' => ?_, fun d' => ?_⟩ <;>
    rcases setDom_cases (W := W) (d := d) (x := y) d' with ⟨rfl, b⟩ | ⟨e', b⟩ <;> rw [b] <;> assumption

/-- Outcomes and elements are the same. -/
def BothSame {α : Type} (r r' : Except Err α × World) : Prop := r'.1 = r.1 ∧ SameBut r.2 r'.2

theorem registerFeature_twin (h : SameBut V W) (d : DomId) (f : Feat) : BothSame (registerFeature D V d f) (registerFeature D W d f) := by
  unfold registerFeature
  rw [h.elems.settings, h.elems.featId, h.elems.feats]
  cases basicRegister D.featName (!(V.doms d).settings.allowDupFeat) (V.featId f) f (V.doms d).feats with
  | error e => exact ⟨rfl, h⟩
  | ok p =>
    have k := h.setDom d (x := { V.doms d with feats := p.2 }) (y := { W.doms d with feats := p.2 }) (h.elems.settings d) rfl (h.elems.mixins d) (h.classes d) (h.rules d)
    exact ⟨rfl, ⟨⟨k.elems.settings, k.elems.feats, k.elems.mixins, rfl, k.elems.mixId, k.elems.mixDom⟩, k.classes, k.rules⟩⟩

theorem registerFeatures_twin (d : DomId) : ∀ (fs : List Feat) {V W : World}, SameBut V W → BothSame (registerFeatures D V d fs) (registerFeatures D W d fs)
  | [], _, _, h => ⟨rfl, h⟩
  | f :: fs, V, W, h => by
    unfold registerFeatures
    rw [h.elems.featId]
    by_cases hf : V.featId f ≠ none
    · rw [if_pos hf, if_pos hf]; exact registerFeatures_twin d fs h
    · rw [if_neg hf, if_neg hf]
      obtain ⟨h1, h2⟩ := registerFeature_twin (D := D) h d f
      rcases e1 : registerFeature D V d f with ⟨r, V1⟩
      rcases e2 : registerFeature D W d f with ⟨r', W1⟩
      rw [e1, e2] at h1 h2
      simp only at h1 h2
      subst h1
      cases r' with
      | error e => exact ⟨rfl, h2⟩
      | ok u => exact registerFeatures_twin d fs h2

theorem registerMixin_twin (h : SameBut V W) (d : DomId) (m : Mix) : BothSame (registerMixin D V d m) (registerMixin D W d m) := by
  unfold registerMixin
  rw [h.elems.mixDom]
  by_cases hm : V.mixDom m ≠ none ∧ V.mixDom m ≠ some d
  · rw [if_pos hm, if_pos hm]; exact ⟨rfl, h⟩
  · rw [if_neg hm, if_neg hm]
    obtain ⟨h1, h2⟩ := registerFeatures_twin (D := D) d ((D.mix m).feats.map (·.feat)) h
    rcases e1 : registerFeatures D V d ((D.mix m).feats.map (·.feat)) with ⟨r, V1⟩
    rcases e2 : registerFeatures D W d ((D.mix m).feats.map (·.feat)) with ⟨r', W1⟩
    rw [e1, e2] at h1 h2
    simp only at h1 h2
    subst h1
    rw [e1, e2]
    cases r' with
    | error e => exact ⟨rfl, h2⟩
    | ok u =>
      simp only
      rw [h2.elems.settings, h2.elems.mixId, h2.elems.mixins]
      cases basicRegister D.mixName (!(V1.doms d).settings.allowDupMix) (V1.mixId m) m (V1.doms d).mixins with
      | error e => exact ⟨rfl, h2⟩
      | ok p =>
        have k := h2.setDom d (x := { V1.doms d with mixins := p.2 }) (y := { W1.doms d with settings := (V1.doms d).settings, mixins := p.2 }) rfl (h2.elems.feats d) rfl (h2.classes d) (h2.rules d)
        exact ⟨rfl, ⟨⟨k.elems.settings, k.elems.feats, k.elems.mixins, k.elems.featId, rfl, by simp only [h2.elems.mixDom]⟩, k.classes, k.rules⟩⟩

theorem unregisterFeature_twin (h : SameBut V W) (d : DomId) (f : Feat) : BothSame (unregisterFeature V d f) (unregisterFeature W d f) := by
  unfold unregisterFeature
  rw [h.elems.featId, h.elems.feats]
  cases ownSlot (V.doms d).feats (V.featId f) f with
  | none => exact ⟨rfl, h⟩
  | some i =>
    have k := h.setDom d (x := { V.doms d with feats := (V.doms d).feats.set i none }) (y := { W.doms d with feats := (V.doms d).feats.set i none })
      (h.elems.settings d) rfl (h.elems.mixins d) (h.classes d) (h.rules d)
    exact ⟨rfl, ⟨⟨k.elems.settings, k.elems.feats, k.elems.mixins, rfl, k.elems.mixId, k.elems.mixDom⟩, k.classes, k.rules⟩⟩

theorem registerTypeClass_twin (h : SameBut V W) (d : DomId) (c : Cls) : BothSame (registerTypeClass D V d c) (registerTypeClass D W d c) := by
  unfold registerTypeClass
  simp only
  rw [h.classes]
  split
  · exact ⟨rfl, h⟩
  · split
    · exact ⟨rfl, h⟩
    · split
      · exact ⟨rfl, h⟩
      · split
        · exact ⟨rfl, h⟩
        · exact ⟨rfl, h.setDom d (h.elems.settings d) (h.elems.feats d) (h.elems.mixins d) rfl (h.rules d)⟩

theorem unregisterTypeClass_twin (h : SameBut V W) (d : DomId) (c : Cls) : BothSame (unregisterTypeClass V d c) (unregisterTypeClass W d c) := by
  unfold unregisterTypeClass
  refine ⟨rfl, h.setDom d (h.elems.settings d) (h.elems.feats d) (h.elems.mixins d) ?_ (h.rules d)⟩
  simp only [h.classes]

theorem addRule_twin (h : SameBut V W) (d : DomId) (r : Rule) : BothSame (addRule D V d r) (addRule D W d r) := by
  unfold addRule
  by_cases hn : (ruleOf D r).apply.isNone
  · rw [if_pos hn, if_pos hn]; exact ⟨rfl, h⟩
  · rw [if_neg hn, if_neg hn]
    simp only
    rw [h.rules]
    rcases ruleIncr D r (V.doms d).rules with ⟨rs, rc⟩
    simp only
    split
    · exact ⟨rfl, h.setDom d (h.elems.settings d) (h.elems.feats d) (h.elems.mixins d) (h.classes d) rfl⟩
    · exact ⟨rfl, h.setDom d (h.elems.settings d) (h.elems.feats d) (h.elems.mixins d) (h.classes d) rfl⟩

theorem removeRule_twin (h : SameBut V W) (d : DomId) (r : Rule) : BothSame (removeRule D V d r) (removeRule D W d r) := by
  unfold removeRule
  simp only
  rw [h.rules]
  cases ruleDecr D r (V.doms d).rules with
  | none => exact ⟨rfl, h⟩
  | some p =>
    simp only
    split
    · exact ⟨rfl, h.setDom d (h.elems.settings d) (h.elems.feats d) (h.elems.mixins d) (h.classes d) rfl⟩
    · exact ⟨rfl, h.setDom d (h.elems.settings d) (h.elems.feats d) (h.elems.mixins d) (h.classes d) rfl⟩

theorem garbageCollect_twin (h : SameBut V W) (d : DomId) (num : TypeId → Nat) : BothSame (garbageCollect V d num) (garbageCollect W d num) :=
  ⟨rfl, h.setDom d (h.elems.settings d) (h.elems.feats d) (h.elems.mixins d) (h.classes d) (h.rules d)⟩

/-- The calls which lock once. -/
theorem step_twin (h : SameBut V W) {op : Op} (ha : op.asked = none) (hu : ∀ d m, op ≠ .unregMixin d m) : BothSame (step D V op) (step D W op) := by
  cases op with
  | regFeature d f => exact registerFeature_twin h d f
  | unregFeature d f => exact unregisterFeature_twin h d f
  | regMixin d m => exact registerMixin_twin h d m
  | unregMixin d m => exact absurd rfl (hu d m)
  | regClass d c => exact registerTypeClass_twin h d c
  | unregClass d c => exact unregisterTypeClass_twin h d c
  | addRule d r => exact addRule_twin h d r
  | removeRule d r => exact removeRule_twin h d r
  | getTypeMut d md q => simp [Op.asked] at ha
  | getType d q => simp [Op.asked] at ha
  | gc d num => exact garbageCollect_twin h d num

/-- `unregister_mixin` in one step and its second part. -/
theorem removePart_twin (h : SameBut V W) (hr : RegInv V) (d : DomId) (m : Mix) (ht : TypesInv D V d) :
    (removePart W d m).1 = .done (noType (unregisterMixin V d m).1) ∧ SameBut (unregisterMixin V d m).2 (removePart W d m).2 := by
  have hdef := unregisterMixin_defined hr d m ht
  unfold removePart
  unfold unregisterMixin at hdef ⊢
  simp only at hdef ⊢
  rw [h.elems.mixins, h.elems.mixId]
  cases hp : purgeQueries (V.doms d) d (V.mixId m) m (V.doms d).queries with
  | none => rw [hp] at hdef; simp at hdef
  | some queries =>
    simp only
    cases ho : ownSlot (V.doms d).mixins (V.mixId m) m with
    | none =>
      refine ⟨rfl, ?_⟩
      exact SameBut.symm (h.symm.setDom_right d rfl rfl rfl rfl rfl)
    | some i =>
      have k := h.setDom d (x := { V.doms d with queries := queries, types := (V.doms d).types.filter (fun t => !t.hasId (V.mixId m)), mixins := (V.doms d).mixins.set i none })
        (y := { W.doms d with mixins := (V.doms d).mixins.set i none }) (h.elems.settings d) (h.elems.feats d) rfl (h.classes d) (h.rules d)
      exact ⟨rfl, ⟨⟨k.elems.settings, k.elems.feats, k.elems.mixins, k.elems.featId, rfl, by simp only [h.elems.mixDom]⟩, k.classes, k.rules⟩⟩

/-! ## Answers -/

theorem SameBut.view (h : SameBut V W) (d : DomId) : W.view D d = V.view D d := by
  unfold World.view getMixinByName
  rw [h.elems.mixins, h.elems.mixId]

theorem SameBut.rulesOf (h : SameBut V W) (d : DomId) : rulesOf D (W.view D d) (W.doms d) = rulesOf D (V.view D d) (V.doms d) := by
  unfold Dnmx.rulesOf
  rw [h.view d, h.rules d]

theorem SameBut.resolves (h : SameBut V W) {d : DomId} {q ms : List Mix} : resolvesTo D W d q ms ↔ resolvesTo D V d q ms := by
  unfold resolvesTo; rw [h.rulesOf]

theorem SameBut.build (h : SameBut V W) (d : DomId) (tid : TypeId) (ms : List Mix) : buildType D W d tid ms = buildType D V d tid ms := by
  unfold buildType
  rw [h.elems.mixId, h.elems.mixDom, h.elems.featId]

/-- An implementation clashes with another one. -/
def Clashing (D : Decls) (ms : List Mix) : Prop := ∃ f, (D.feat f).allowClashes = false ∧ ClashesOn D ms f

/-- No type has clashing implementations. -/
def NoClash (D : Decls) (W : World) : Prop := ∀ d, ∀ t ∈ (W.doms d).types, ¬ Clashing D t.mixins

/-- What is known of states that calls one after the other lead to. -/
structure Typical (D : Decls) (V : World) : Prop where
  reg : RegInv V
  types : ∀ d, TypesInv D V d
  pure : ∀ d, ∀ r ∈ (V.doms d).rules.map (·.1), RulePure D r
  ask : ∀ d q, answerOf d (getType D V d q) = Props.typeAnswer D V d q ∧ answerOf d (getTypeMut D V d d q) = Props.typeAnswer D V d q
  build : ∀ d tid ms, checkMixins V.mixId V.mixDom d ms = .ok () →
    (buildType D V d tid ms = .error .featureClash ↔ Clashing D ms) ∧ (buildType D V d tid ms = .error .featureClash ∨ ∃ r, buildType D V d tid ms = .ok r)
  noClash : NoClash D V

theorem typical_reachable (D : Decls) (s : DomId → Settings) (ops : List Op) (hd : Props.FeatureDiscipline D ops) (hp : Props.OnlyPureRules D s ops) :
    Typical D (run D (initWorld s) ops) := by
  have hr := reachable_reg D s ops
  have hb : ∀ d tid ms, checkMixins (run D (initWorld s) ops).mixId (run D (initWorld s) ops).mixDom d ms = .ok () →
      (buildType D (run D (initWorld s) ops) d tid ms = .error .featureClash ↔ Clashing D ms) ∧
      (buildType D (run D (initWorld s) ops) d tid ms = .error .featureClash ∨ ∃ r, buildType D (run D (initWorld s) ops) d tid ms = .ok r) := by
    intro d tid ms hc
    obtain ⟨h1, h2⟩ := (checkMixins_ok _ _ _ _).1 hc
    exact Props.C28_clash_in_domain_partial D s ops hd d tid ms h1 (fun m hm => (mixinRegistered_iff D s ops d m).2 ((hr.mem_mixinsOf_iff d m).2 (h2 m hm)))
  refine ⟨hr, reachable_types D s ops, hp.inForce, Props.C72_get_type_partial D s ops hd hp, hb, ?_⟩
  intro d t ht hcl
  obtain ⟨home, used, hops⟩ := hd
  have htab := (reachable_home D home used s ops hops).2 d t ht
  have hi := reachable_types D s ops d
  obtain ⟨-, -, h1, h2⟩ := hi.typeAt_ok (hi.typeAt_mem t ht)
  have hc := (checkMixins_ok (run D (initWorld s) ops).mixId (run D (initWorld s) ops).mixDom d t.mixins).2 ⟨h1, h2⟩
  have := (hb d 0 t.mixins hc).1.2 hcl
  unfold buildType at this
  rw [hc, htab] at this
  simp at this

/-- The facts on a state in which calls overlap, next to a state without overlapping calls. -/
structure Beside (D : Decls) (V W : World) : Prop where
  typical : Typical D V
  same : SameBut V W
  reg : RegInv W
  types : ∀ d, TypesInv D W d
  cache : ∀ d, CacheOk D W d
  noClash : NoClash D W

theorem Beside.pure (h : Beside D V W) (d : DomId) : ∀ r ∈ (W.doms d).rules.map (·.1), RulePure D r := by
  rw [h.same.rules d]; exact h.typical.pure d

theorem Beside.pureRules (h : Beside D V W) (d : DomId) : PureRules true D W d := ⟨rfl, h.pure d⟩

theorem Beside.resolve_eq (h : Beside D V W) (d : DomId) (q : List Mix) :
    Props.resolve D (rulesOf D (V.view D d) (V.doms d)) q = Props.resolve D (rulesOf D (W.view D d) (W.doms d)) q := by
  rw [h.same.rulesOf]

theorem Beside.found (h : Beside D V W) {d : DomId} {q : List Mix} {t : TypeId} {r : TypeRec} (ht : (W.doms d).typeAt d t = some r) (hq : resolvesTo D W d q r.mixins) :
    Props.typeAnswer D V d q = .type r.mixins := by
  obtain ⟨-, -, h1, h2⟩ := (h.types d).typeAt_ok ht
  have hc := (checkMixins_ok W.mixId W.mixDom d r.mixins).2 ⟨h1, h2⟩
  rw [h.same.elems.mixId, h.same.elems.mixDom] at hc
  refine Props.typeAnswer_ok ?_ hc ?_
  · have := h.same.resolves.1 hq
    unfold resolvesTo at this
    simp [Props.resolve, this]
  · rcases typeAt_some ht with ⟨a, b⟩ | ⟨a, b, c⟩
    · subst b
      rintro ⟨f, -, k, l, x, y, -, hx, -⟩
      simp [emptyType, allImpls] at hx
    · exact h.noClash d r b

theorem Beside.ruleError (h : Beside D V W) {d : DomId} {q : List Mix} {e : Err} (hq : (applyMutationRules D (rulesOf D (W.view D d) (W.doms d)) q).result = .error e) :
    Props.typeAnswer D V d q = .fails e := by
  unfold Props.typeAnswer
  rw [h.resolve_eq]
  simp [Props.resolve, hq]

theorem Beside.buildError (h : Beside D V W) {d : DomId} {q ms : List Mix} {tid : TypeId} {e : Err} (hq : resolvesTo D W d q ms) (hb : buildType D W d tid ms = .error e) :
    Props.typeAnswer D V d q = .fails e := by
  have hq := h.same.resolves.1 hq
  unfold resolvesTo at hq
  rw [h.same.build] at hb
  unfold Props.typeAnswer
  rw [show Props.resolve D (rulesOf D (V.view D d) (V.doms d)) q = .ok ms by simp [Props.resolve, hq]]
  simp only
  cases hc : checkMixins V.mixId V.mixDom d ms with
  | error e' => unfold buildType at hb; rw [hc] at hb; simp at hb; subst hb; rfl
  | ok u =>
    obtain ⟨h1, h2⟩ := h.typical.build d tid ms hc
    rcases h2 with h2 | ⟨r, h2⟩
    · rw [hb] at h2; simp at h2; subst h2
      have := h1.1 hb
      unfold Clashing at this
      simp only [if_pos this]
    · rw [hb] at h2; simp at h2

theorem Beside.buildOk (h : Beside D V W) {d : DomId} {q ms : List Mix} {tid : TypeId} {r : TypeRec} (hq : resolvesTo D W d q ms) (hb : buildType D W d tid ms = .ok r) :
    Props.typeAnswer D V d q = .type ms ∧ ¬ Clashing D ms := by
  have hq := h.same.resolves.1 hq
  unfold resolvesTo at hq
  rw [h.same.build] at hb
  cases hc : checkMixins V.mixId V.mixDom d ms with
  | error e' => unfold buildType at hb; rw [hc] at hb; simp at hb
  | ok u =>
    obtain ⟨h1, -⟩ := h.typical.build d tid ms hc
    have hn : ¬ Clashing D ms := by
      intro hcl
      have := h1.2 hcl
      rw [hb] at this; simp at this
    exact ⟨Props.typeAnswer_ok (by simp [Props.resolve, hq]) hc hn, hn⟩

/-! ## Parts of calls -/

/-- The place of the call in the order is known. -/
def Stage.placed : Stage → Bool
  | .found _ _ => true
  | .built _ _ => true
  | .done _ => true
  | _ => false

/-- The call is on its way to this answer. -/
def Agrees (D : Decls) (a : Answer) (W : World) (op : Op) : Stage → Prop
  | .found key t => ∃ d r, op.asked = some (d, key) ∧ (W.doms d).typeAt d t = some r ∧ a = .type r.mixins
  | .built _ t => a = .type t.mixins ∧ ¬ Clashing D t.mixins
  | .done r => reply W op r = a
  | _ => False

theorem answer_asked {op : Op} {d : DomId} {q : List Mix} (ht : Typical D V) (ha : op.asked = some (d, q)) (hmd : ∀ d md q, op = .getTypeMut d md q → md = d) :
    answer D V op = Props.typeAnswer D V d q := by
  cases op with
  | getType d' q' => simp [Op.asked] at ha; obtain ⟨rfl, rfl⟩ := ha; exact (ht.ask _ _).1
  | getTypeMut d' md q' =>
    have := hmd d' md q' rfl
    subst this
    simp [Op.asked] at ha; obtain ⟨rfl, rfl⟩ := ha; exact (ht.ask _ _).2
  | _ => simp [Op.asked] at ha

theorem asked_asks {op : Op} {d : DomId} {q : List Mix} (ha : op.asked = some (d, q)) : asksForTypes op = true := by
  cases op <;> simp [Op.asked] at ha <;> rfl

theorem Beside.after_asking (h : Beside D V W) {op : Op} {d : DomId} {q : List Mix} (ha : op.asked = some (d, q)) : SameBut (step D V op).2 W :=
  (SameBut.of_isQuery h.typical.reg (asked_asks ha)).symm.trans h.same

theorem reply_type {op : Op} {d : DomId} {q : List Mix} {t : TypeId} {r : TypeRec} (ha : op.asked = some (d, q)) (ht : (W.doms d).typeAt d t = some r) :
    reply W op (.ok (some t)) = .type r.mixins := by
  simp [reply, ha, answerOf, compositionOf, ht]

theorem reply_noType {op : Op} (ha : op.asked = none) : reply W op (noType (step D V op).1) = answer D V op := by
  have key : ∀ r : Except Err Unit, reply W op (noType r) = match r with | .ok _ => .done | .error e => .fails e := by
    intro r
    cases r with
    | ok u => rfl
    | error e => rfl
  rw [key]
  cases op <;> first | rfl | simp [Op.asked] at ha

/-- The result of a part of a call that had no place in the order before. -/
def Moved (D : Decls) (V : World) (op : Op) (p : Stage × World) : Prop :=
  (p.1.placed = false ∧ SameBut V p.2) ∨ (p.1.placed = true ∧ SameBut (step D V op).2 p.2 ∧ Agrees D (answer D V op) p.2 op p.1)

theorem Beside.lookup (h : Beside D V W) {op : Op} {d : DomId} {q : List Mix} (ha : op.asked = some (d, q)) (hmd : ∀ d md q, op = .getTypeMut d md q → md = d) :
    Moved D V op (lookupPart D W d q, W) := by
  have hans := answer_asked h.typical ha hmd
  have hafter := h.after_asking ha
  unfold lookupPart lookupSection
  cases hf : findQuery q (W.doms d).queries with
  | some t =>
    obtain ⟨r, h1, h2⟩ := h.cache d (h.pure d) _ (findQuery_some hf)
    refine .inr ⟨rfl, hafter, ?_⟩
    change reply W op (.ok (some t)) = answer D V op
    rw [reply_type ha h1, hans, h.found h1 h2]
  | none =>
    simp only
    cases hr : (applyMutationRules D (rulesOf D (W.view D d) (W.doms d)) q).result with
    | error e =>
      refine .inr ⟨rfl, hafter, ?_⟩
      change reply W op (.error e) = answer D V op
      rw [hans, h.ruleError hr]; rfl
    | ok p =>
      obtain ⟨key, ms⟩ := p
      have hkey := applyMutationRules_key D _ q key ms hr
      subst hkey
      simp only
      by_cases hms : ms = []
      · subst hms
        simp only [List.isEmpty_nil, if_true]
        refine .inr ⟨rfl, hafter, ⟨d, emptyType d, ha, typeAt_empty _ _, ?_⟩⟩
        rw [hans, h.found (typeAt_empty _ _) hr]
      · rw [if_neg (by simpa using hms)]
        cases hft : findType ms (W.doms d).types with
        | none => exact .inl ⟨rfl, h.same⟩
        | some r =>
          obtain ⟨h1, h2⟩ := findType_some hft
          have ht := (h.types d).typeAt_mem r h1
          refine .inr ⟨rfl, hafter, ⟨d, r, ha, ht, ?_⟩⟩
          rw [hans, h.found ht (by unfold resolvesTo; rw [h2]; exact hr)]

theorem Beside.purge (h : Beside D V W) (d : DomId) (m : Mix) : Moved D V (.unregMixin d m) (purgePart W d m) := by
  have hdef := unregisterMixin_defined h.reg d m (h.types d)
  unfold unregisterMixin at hdef
  unfold purgePart
  simp only at hdef ⊢
  cases hp : purgeQueries (W.doms d) d (W.mixId m) m (W.doms d).queries with
  | none => rw [hp] at hdef; simp at hdef
  | some queries => exact .inl ⟨rfl, h.same.setDom_right d rfl rfl rfl rfl rfl⟩

/-- Parts of calls that have no place in the order yet. -/
theorem Beside.unplaced (h : Beside D V W) {op : Op} {st : Stage} (hs : StageOk true D W op st) (hst : st.placed = false)
    (hmd : st.begun → ∀ d md q, op = .getTypeMut d md q → md = d) : Moved D V op (nextPart D W op st) := by
  cases st with
  | found key t => simp [Stage.placed] at hst
  | built key t => simp [Stage.placed] at hst
  | done r => simp [Stage.placed] at hst
  | todo =>
    change Moved D V op (beginPart D W op)
    cases hop : op.asked with
    | none =>
      by_cases hun : ∃ d m, op = .unregMixin d m
      · obtain ⟨d, m, rfl⟩ := hun
        exact h.purge d m
      · have hun' : ∀ d m, op ≠ .unregMixin d m := fun d m e => hun ⟨d, m, e⟩
        rw [beginPart_other hop hun']
        obtain ⟨h1, h2⟩ := step_twin (D := D) h.same hop hun'
        refine .inr ⟨rfl, h2, ?_⟩
        change reply _ op (noType (step D W op).1) = _
        rw [h1]
        exact reply_noType hop
    | some p =>
      cases op with
      | getTypeMut d md q =>
        by_cases hmd' : md = d
        · rw [show beginPart D W (.getTypeMut d md q) = (lookupPart D W d q, W) by simp [beginPart, hmd']]
          exact h.lookup rfl (fun _ _ _ e => by injection e with e1 e2; rw [← e1, ← e2]; exact hmd')
        · rw [show beginPart D W (.getTypeMut d md q) = (.done (.error .foreignMutation), W) by simp [beginPart, hmd']]
          refine .inr ⟨rfl, h.after_asking (d := d) (q := q) rfl, ?_⟩
          change Answer.fails Err.foreignMutation = answerOf d (getTypeMut D V d md q)
          unfold getTypeMut; rw [if_pos hmd']; rfl
      | getType d q =>
        cases hq : findQuery q (W.doms d).queries with
        | some t =>
          rw [show beginPart D W (.getType d q) = (.done (.ok (some t)), W) by simp [beginPart, hq]]
          obtain ⟨r, h1, h2⟩ := h.cache d (h.pure d) _ (findQuery_some hq)
          refine .inr ⟨rfl, h.after_asking (d := d) (q := q) rfl, ?_⟩
          change reply W (.getType d q) (.ok (some t)) = answer D V (.getType d q)
          rw [reply_type (d := d) (q := q) rfl h1, answer_asked h.typical rfl (by simp), h.found h1 h2]
        | none =>
          rw [show beginPart D W (.getType d q) = (.mutating, W) by simp [beginPart, hq]]
          exact .inl ⟨rfl, h.same⟩
      | _ => simp [Op.asked] at hop
  | mutating =>
    obtain ⟨d, q, rfl⟩ := hs
    exact h.lookup rfl (by simp)
  | missing key ms =>
    obtain ⟨d, ha, hne, hres⟩ := hs
    have hmd := hmd trivial
    have hres := hres (h.pureRules d)
    have hans := answer_asked h.typical ha hmd
    have hpart : nextPart D W op (.missing key ms) = getPart D W d key (.missing key ms) := by
      cases op <;> simp [Op.asked] at ha <;> (obtain ⟨rfl, rfl⟩ := ha; rfl)
    rw [hpart]
    unfold getPart
    simp only
    cases hb : buildType D W d W.nextType ms with
    | error e =>
      refine .inr ⟨rfl, h.after_asking ha, ?_⟩
      change Answer.fails e = answer D V op
      rw [hans, h.buildError hres hb]
    | ok t =>
      obtain ⟨h1, h2⟩ := h.buildOk hres hb
      have ht : t.mixins = ms := by
        unfold buildType at hb
        split at hb
        · simp at hb
        · split at hb
          · simp at hb
          · simp at hb; rw [← hb]
      have k := h.after_asking ha
      refine .inr ⟨rfl, ⟨⟨k.elems.settings, k.elems.feats, k.elems.mixins, k.elems.featId, k.elems.mixId, k.elems.mixDom⟩, k.classes, k.rules⟩, ?_⟩
      exact ⟨by rw [hans, h1, ht], by rw [ht]; exact h2⟩
  | purged =>
    obtain ⟨d, m, rfl, -⟩ := hs
    obtain ⟨h1, h2⟩ := removePart_twin (D := D) h.same h.typical.reg d m (h.typical.types d)
    refine .inr ⟨?_, h2, ?_⟩
    · change (removePart W d m).1.placed = true
      rw [h1]; rfl
    · change Agrees D _ (removePart W d m).2 _ (removePart W d m).1
      rw [h1]
      exact reply_noType (op := .unregMixin d m) rfl

/-- Parts of calls that have a place in the order already. -/
theorem Beside.finish (h : Beside D V W) {op : Op} {st : Stage} {a : Answer} (hs : StageOk true D W op st) (ha : Agrees D a W op st) (hd : ∀ r, st ≠ .done r)
    (hf : ∀ key t, st = .built key t → ∀ d, ∀ r ∈ (W.doms d).types, r.tid ≠ t.tid) :
    SameBut V (nextPart D W op st).2 ∧ ∃ r, (nextPart D W op st).1 = .done r ∧ reply (nextPart D W op st).2 op r = a := by
  cases st with
  | found key t =>
    obtain ⟨d, r, hop, ht, rfl⟩ := ha
    have hpart : nextPart D W op (.found key t) = getPart D W d key (.found key t) := by
      cases op <;> simp [Op.asked] at hop <;> (obtain ⟨rfl, rfl⟩ := hop; rfl)
    rw [hpart]
    refine ⟨h.same.setDom_right d rfl rfl rfl rfl rfl, _, rfl, ?_⟩
    refine reply_type hop ?_
    change ((W.setDom d _).doms d).typeAt d t = some r
    rw [setDom_same]
    exact ht
  | built key t =>
    obtain ⟨rfl, -⟩ := ha
    obtain ⟨d, hop, hok, h0, h1, -⟩ := hs
    have hpart : nextPart D W op (.built key t) = getPart D W d key (.built key t) := by
      cases op <;> simp [Op.asked] at hop <;> (obtain ⟨rfl, rfl⟩ := hop; rfl)
    rw [hpart]
    unfold getPart emplaceSection
    simp only
    cases hft : findType t.mixins (W.doms d).types with
    | some old =>
      obtain ⟨k1, k2⟩ := findType_some hft
      refine ⟨h.same.setDom_right d rfl rfl rfl rfl rfl, _, rfl, ?_⟩
      rw [← k2]
      refine reply_type hop ?_
      rw [setDom_same]
      exact (h.types d).typeAt_mem old k1
    | none =>
      refine ⟨h.same.setDom_right d rfl rfl rfl rfl rfl, _, rfl, ?_⟩
      refine reply_type hop ?_
      rw [setDom_same]
      have hn : ∀ x ∈ (W.doms d).types, x.mixins ≠ t.mixins := by
        intro x hx he
        unfold findType at hft
        rw [List.find?_eq_none] at hft
        exact hft x hx (by simp [he])
      have := (types_emplace (h.types d) key t hok h0 h1 (hf key t rfl d) hn).typeAt_mem t (by rw [setDom_same]; simp)
      rw [setDom_same] at this
      exact this
  | done r => exact absurd rfl (hd r)
  | todo => exact ha.elim
  | mutating => exact ha.elim
  | missing key ms => exact ha.elim
  | purged => exact ha.elim


/-! ## Schedules -/

theorem callsAt_snoc {ops : List Op} {order : List Nat} {i : Nat} {op : Op} (h : ops[i]? = some op) : callsAt ops (order ++ [i]) = callsAt ops order ++ [op] := by
  simp [callsAt, List.filterMap_append, h]

theorem callsAt_mem {ops : List Op} {order : List Nat} {op : Op} (h : op ∈ callsAt ops order) : op ∈ ops := by
  unfold callsAt at h
  rw [List.mem_filterMap] at h
  obtain ⟨i, -, h⟩ := h
  exact List.mem_of_getElem? h

/-- The invariant: the calls placed so far, made in this order, lead to the present state, up to types, queries and numbers of
uses of rules. -/
structure Lin (D : Decls) (W0 : World) (ops : List Op) (C : Threads) (tl : List Event) (order : List Nat) : Prop where
  conc : ConcInv true D C
  calls : C.threads.map (·.op) = ops
  same : SameBut (run D W0 (callsAt ops order)) C.W
  noClash : NoClash D C.W
  nodup : order.Nodup
  placed : ∀ (i : Nat) th, C.threads[i]? = some th → (i ∈ order ↔ th.stage.placed = true)
  inside : ∀ i ∈ order, ∃ th, C.threads[i]? = some th
  began : ∀ (i : Nat) th, C.threads[i]? = some th → th.stage ≠ .todo → .begins i ∈ tl
  begun : ∀ i ∈ order, .begins i ∈ tl
  owed : ∀ (i : Nat) th, C.threads[i]? = some th → th.stage.placed = true → (∀ r, th.stage ≠ .done r) →
    ∃ k : Nat, order[k]? = some i ∧ Agrees D (answer D (run D W0 (callsAt ops (order.take k))) th.op) C.W th.op th.stage
  own : ∀ (i : Nat) th, C.threads[i]? = some th → th.stage.begun → ∀ d md q, th.op = .getTypeMut d md q → md = d
  answers : ∀ i a, .ends i a ∈ tl → ∃ (k : Nat) (op : Op), order[k]? = some i ∧ ops[i]? = some op ∧ answer D (run D W0 (callsAt ops (order.take k))) op = a
  realTime : ∀ i a j l l', tl = l ++ .ends i a :: l' → .begins j ∈ l' → j ∈ order → ∃ k k' : Nat, k < k' ∧ order[k]? = some i ∧ order[k']? = some j

theorem Lin.op {D : Decls} {W0 : World} {ops : List Op} {C : Threads} {tl : List Event} {order : List Nat} (h : Lin D W0 ops C tl order) {i : Nat} {th : Thread}
    (hi : C.threads[i]? = some th) : ops[i]? = some th.op := by
  rw [← h.calls, List.getElem?_map, hi]; rfl

theorem Lin.beside {D : Decls} {W0 : World} {ops : List Op} {C : Threads} {tl : List Event} {order : List Nat} (h : Lin D W0 ops C tl order)
    (ht : Typical D (run D W0 (callsAt ops order))) : Beside D (run D W0 (callsAt ops order)) C.W :=
  ⟨ht, h.same, h.conc.reg, h.conc.types, h.conc.cache rfl, h.noClash⟩

/-- The events of a part. -/
theorem eventsOf_some {C C' : Threads} {i : Nat} {th th' : Thread} (h : C.threads[i]? = some th) (h' : C'.threads[i]? = some th') :
    eventsOf C C' i = (match th.stage with | .todo => [.begins i] | _ => []) ++
      (match th.stage, th'.stage with
        | .done _, _ => []
        | _, .done r => [.ends i (reply C'.W th'.op r)]
        | _, _ => []) := by
  unfold eventsOf; rw [h, h']; rfl

theorem eventsOf_begins {C C' : Threads} {i j : Nat} {th th' : Thread} (h : C.threads[i]? = some th) (h' : C'.threads[i]? = some th') :
    .begins j ∈ eventsOf C C' i ↔ j = i ∧ th.stage = .todo := by
  rw [eventsOf_some h h']
  cases th.stage <;> cases th'.stage <;> simp

theorem eventsOf_ends {C C' : Threads} {i j : Nat} {a : Answer} {th th' : Thread} (h : C.threads[i]? = some th) (h' : C'.threads[i]? = some th')
    (he : .ends j a ∈ eventsOf C C' i) : j = i ∧ ∃ r, th'.stage = .done r ∧ a = reply C'.W th'.op r ∧ ∀ r', th.stage ≠ .done r' := by
  rw [eventsOf_some h h'] at he
  cases hs : th.stage <;> cases hs' : th'.stage <;> rw [hs, hs'] at he <;> simp at he ⊢ <;> exact he

theorem one_event {x : Event} {l l' : List Event} {e : Event} (h : [x] = l ++ e :: l') : l' = [] := by
  cases l with
  | nil => simp at h; exact h.2
  | cons y l => simp at h

theorem two_events {x y : Event} {l l' : List Event} {e : Event} (hx : x ≠ e) (h : [x, y] = l ++ e :: l') : l' = [] := by
  cases l with
  | nil => simp at h; exact absurd h.1 hx
  | cons z l =>
    simp at h
    exact one_event h.2

theorem eventsOf_split {C C' : Threads} {i j : Nat} {a : Answer} {th th' : Thread} {l l' : List Event} (h : C.threads[i]? = some th)
    (h' : C'.threads[i]? = some th') (he : eventsOf C C' i = l ++ .ends j a :: l') : l' = [] := by
  rw [eventsOf_some h h'] at he
  cases hs : th.stage <;> cases hs' : th'.stage <;> rw [hs, hs'] at he <;>
    simp only [List.nil_append, List.append_nil, List.cons_append] at he <;>
    first | exact one_event he | exact two_events (by simp) he | simp at he

theorem append_split {l l' tl ev : List Event} {i : Nat} {a : Answer} (h : tl ++ ev = l ++ .ends i a :: l') :
    (∃ l0, tl = l ++ .ends i a :: l0 ∧ l' = l0 ++ ev) ∨ ∃ l0, ev = l0 ++ .ends i a :: l' := by
  rcases List.append_eq_append_iff.1 h with ⟨x, h1, h2⟩ | ⟨x, h1, h2⟩
  · exact .inr ⟨x, h2⟩
  · cases x with
    | nil => simp at h2; exact .inr ⟨[], h2.symm⟩
    | cons y x => simp at h2; obtain ⟨rfl, rfl⟩ := h2; exact .inl ⟨x, h1, rfl⟩

theorem Lin.step {D : Decls} {W0 : World} {ops : List Op} {C : Threads} {tl : List Event} {order : List Nat} (h : Lin D W0 ops C tl order)
    (ht : Typical D (run D W0 (callsAt ops order))) (i : Nat) (hm : mayRun true C i) :
    ∃ order', (order' = order ∨ order' = order ++ [i]) ∧ Lin D W0 ops (C.step D i) (tl ++ eventsOf C (C.step D i) i) order' := by
  cases hi : C.threads[i]? with
  | none =>
    rw [Threads.step_none hi]
    refine ⟨order, .inl rfl, ?_⟩
    rw [show eventsOf C C i = [] by simp [eventsOf, hi], List.append_nil]
    exact h
  | some th =>
    have hb := h.beside ht
    have p := h.conc.part hi
    have hc := h.conc.step i hm
    have hsi : (C.step D i).threads[i]? = some { th with stage := (nextPart D C.W th.op th.stage).1 } := by
      rw [Threads.step_some hi]
      simp only
      rw [List.getElem?_set_self (List.getElem?_eq_some_iff.1 hi).1]
    have hsW : (C.step D i).W = (nextPart D C.W th.op th.stage).2 := by rw [Threads.step_some hi]
    have hothers : ∀ (j : Nat) th', (C.step D i).threads[j]? = some th' → (j = i ∧ th' = { th with stage := (nextPart D C.W th.op th.stage).1 }) ∨ (j ≠ i ∧ C.threads[j]? = some th') := by
      intro j th' hj
      rw [Threads.step_some hi] at hj
      exact get_set hi hj
    have hops : (C.step D i).threads.map (·.op) = ops := by rw [Threads.step_ops]; exact h.calls
    have hop := h.op hi
    have hhas : ∀ j : Nat, (∃ th', C.threads[j]? = some th') → ∃ th', (C.step D i).threads[j]? = some th' := by
      intro j ⟨th', hj⟩
      by_cases hji : j = i
      · subst hji; exact ⟨_, hsi⟩
      · rw [Threads.step_some hi]
        exact ⟨th', by simp only; rw [List.getElem?_set_ne (fun e => hji e.symm)]; exact hj⟩
    have hinside : ∀ j ∈ order, ∃ th', (C.step D i).threads[j]? = some th' := fun j hj => hhas j (h.inside j hj)
    have hinside' : ∀ j ∈ order ++ [i], ∃ th', (C.step D i).threads[j]? = some th' := by
      intro j hj
      rcases List.mem_append.1 hj with hj | hj
      · exact hinside j hj
      · simp at hj; subst hj; exact ⟨_, hsi⟩
    have hNC : (∀ key t, th.stage = .built key t → ¬ Clashing D t.mixins) → NoClash D (C.step D i).W := by
      intro hh d t htt
      rw [hsW] at htt
      rcases p.new d t htt with h1 | ⟨key, h1⟩
      · exact h.noClash d t h1
      · exact hh key t h1
    -- what other threads are owed
    have howed : ∀ (j : Nat) th', j ≠ i → C.threads[j]? = some th' → th'.stage.placed = true → (∀ r, th'.stage ≠ .done r) → ∀ a,
        Agrees D a C.W th'.op th'.stage → Agrees D a (C.step D i).W th'.op th'.stage := by
      intro j th' hj hj' h1 h2 a h3
      cases hst : th'.stage with
      | found key t =>
        rw [hst] at h3
        obtain ⟨d, r, k1, k2, k3⟩ := h3
        refine ⟨d, r, k1, ?_, k3⟩
        rw [hsW]
        have hbeg : th'.stage.begun := by rw [hst]; trivial
        exact (p.mild d fun he => hm th hi j th' hj hj' hbeg ⟨d, .inl ⟨he, .inr ⟨key, k1⟩⟩⟩).typeAt k2
      | built key t => rw [hst] at h3; exact h3
      | done r => exact absurd hst (h2 r)
      | todo => rw [hst] at h1; simp [Stage.placed] at h1
      | mutating => rw [hst] at h1; simp [Stage.placed] at h1
      | missing _ _ => rw [hst] at h1; simp [Stage.placed] at h1
      | purged => rw [hst] at h1; simp [Stage.placed] at h1
    have hbegan : ∀ (j : Nat) th', (C.step D i).threads[j]? = some th' → th'.stage ≠ .todo → .begins j ∈ tl ++ eventsOf C (C.step D i) i := by
      intro j th' hj h1
      rcases hothers j th' hj with ⟨rfl, h2⟩ | ⟨h2, h3⟩
      · by_cases h4 : th.stage = .todo
        · exact List.mem_append_right _ ((eventsOf_begins hi hsi).2 ⟨rfl, h4⟩)
        · exact List.mem_append_left _ (h.began j th hi h4)
      · exact List.mem_append_left _ (h.began j th' h3 h1)
    have hown : ∀ (j : Nat) th', (C.step D i).threads[j]? = some th' → th'.stage.begun → ∀ d md q, th'.op = .getTypeMut d md q → md = d := by
      intro j th' hj h1 d md q h2
      rcases hothers j th' hj with ⟨rfl, h3⟩ | ⟨h3, h4⟩
      · subst h3
        simp only at h1 h2
        cases hst : th.stage with
        | todo =>
          apply Classical.byContradiction
          intro hmd
          rw [hst, h2] at h1
          rw [show nextPart D C.W (.getTypeMut d md q) .todo = (.done (.error .foreignMutation), C.W) by
            change beginPart D C.W (.getTypeMut d md q) = _
            simp [beginPart, hmd]] at h1
          exact h1
        | done r =>
          rw [hst] at h1
          rw [show (nextPart D C.W th.op (.done r)).1 = .done r by cases th.op <;> rfl] at h1
          exact h1.elim
        | _ => exact h.own j th hi (by rw [hst]; trivial) d md q h2
      · exact h.own j th' h4 h1 d md q h2
    -- the answers are kept, the order of calls in time as well, when a call is appended
    have happ : ∀ x : List Nat, ∀ k j : Nat, order[k]? = some j → (order ++ x)[k]? = some j ∧ (order ++ x).take k = order.take k := by
      intro x k j hk
      obtain ⟨h1, -⟩ := List.getElem?_eq_some_iff.1 hk
      exact ⟨by rw [List.getElem?_append_left h1]; exact hk, by rw [List.take_append_of_le_length (by omega)]⟩
    have hreal : ∀ x : List Nat, (∀ j, j ∈ x → j = i) → (x = [] → th.stage = .todo → i ∉ order) → (x ≠ [] → i ∉ order) → ∀ i' a j l l', tl ++ eventsOf C (C.step D i) i = l ++ .ends i' a :: l' → .begins j ∈ l' → j ∈ order ++ x →
        ∃ k k' : Nat, k < k' ∧ (order ++ x)[k]? = some i' ∧ (order ++ x)[k']? = some j := by
      intro x hx hx0 hx1 i' a j l l' hsp hj hjo
      rcases append_split hsp with ⟨l0, h1, h2⟩ | ⟨l0, h1⟩
      · by_cases hjo' : j ∈ order
        · rw [h2] at hj
          rcases List.mem_append.1 hj with h3 | h3
          · obtain ⟨k, k', k1, k2, k3⟩ := h.realTime i' a j l l0 h1 h3 hjo'
            exact ⟨k, k', k1, (happ x k _ k2).1, (happ x k' _ k3).1⟩
          · obtain ⟨rfl, h4⟩ := (eventsOf_begins hi hsi).1 h3
            have := (h.placed j th hi).1 hjo'
            rw [h4] at this; simp [Stage.placed] at this
        · have hjx : j ∈ x := by
            rcases List.mem_append.1 hjo with h3 | h3
            · exact absurd h3 hjo'
            · exact h3
          obtain ⟨k, op, k1, -, -⟩ := h.answers i' a (by rw [h1]; simp)
          obtain ⟨n, hn⟩ := List.mem_iff_getElem?.1 hjx
          refine ⟨k, order.length + n, ?_, (happ x k _ k1).1, ?_⟩
          · have := (List.getElem?_eq_some_iff.1 k1).1; omega
          · rw [List.getElem?_append_right (by omega)]; simpa using hn
      · have := eventsOf_split hi hsi h1
        subst this
        simp at hj
    have hansOld : ∀ x : List Nat, ∀ i' a, .ends i' a ∈ tl → ∃ (k : Nat) (op : Op), (order ++ x)[k]? = some i' ∧ ops[i']? = some op ∧
        answer D (run D W0 (callsAt ops ((order ++ x).take k))) op = a := by
      intro x i' a he
      obtain ⟨k, op, k1, k2, k3⟩ := h.answers i' a he
      refine ⟨k, op, (happ x k _ k1).1, k2, ?_⟩
      rw [(happ x k _ k1).2]; exact k3
    have howedOld : ∀ x : List Nat, ∀ (j : Nat) th', j ≠ i → C.threads[j]? = some th' → th'.stage.placed = true → (∀ r, th'.stage ≠ .done r) →
        ∃ k : Nat, (order ++ x)[k]? = some j ∧ Agrees D (answer D (run D W0 (callsAt ops ((order ++ x).take k))) th'.op) (C.step D i).W th'.op th'.stage := by
      intro x j th' hj hj' h1 h2
      obtain ⟨k, k1, k2⟩ := h.owed j th' hj' h1 h2
      refine ⟨k, (happ x k _ k1).1, ?_⟩
      rw [(happ x k _ k1).2]
      exact howed j th' hj hj' h1 h2 _ k2
    by_cases hpl : th.stage.placed = true
    · have hin : i ∈ order := (h.placed i th hi).2 hpl
      by_cases hdn : ∃ r, th.stage = .done r
      · -- the call is over
        obtain ⟨r, hr⟩ := hdn
        have hnp : nextPart D C.W th.op th.stage = (th.stage, C.W) := by rw [hr]; cases th.op <;> rfl
        have hC : C.step D i = C := by
          rw [Threads.step_some hi, hnp]
          have : C.threads.set i { th with stage := th.stage } = C.threads := by
            obtain ⟨hlt, rfl⟩ := List.getElem?_eq_some_iff.1 hi
            exact List.set_getElem_self hlt
          simp only [this]
        rw [hC]
        refine ⟨order, .inl rfl, ?_⟩
        rw [show eventsOf C C i = [] by rw [eventsOf_some hi hi, hr]; simp, List.append_nil]
        exact h
      · -- the last part of the call
        have hdn' : ∀ r, th.stage ≠ .done r := fun r e => hdn ⟨r, e⟩
        obtain ⟨k, k1, k2⟩ := h.owed i th hi hpl hdn'
        obtain ⟨f1, r, f2, f3⟩ := hb.finish (h.conc.stage i th hi) k2 hdn' (fun key t e => h.conc.fresh i th key t hi e)
        have hreal' := hreal [] (by simp) (by intro _ e; rw [e] at hpl; simp [Stage.placed] at hpl) (by simp)
        have hansOld' := hansOld []
        have howedOld' := howedOld []
        simp only [List.append_nil] at hreal' hansOld' howedOld'
        refine ⟨order, .inl rfl, hc, hops, by rw [hsW]; exact f1, hNC ?_, h.nodup, ?_, hinside, hbegan, ?_, ?_, hown, ?_, hreal'⟩
        · intro key t e
          rw [e] at k2
          exact k2.2
        · intro j th' hj
          rcases hothers j th' hj with ⟨rfl, h2⟩ | ⟨h2, h3⟩
          · subst h2
            simp only [f2]
            exact ⟨fun _ => rfl, fun _ => hin⟩
          · exact h.placed j th' h3
        · intro j hj
          exact List.mem_append_left _ (h.begun j hj)
        · intro j th' hj g1 g2
          rcases hothers j th' hj with ⟨rfl, h2⟩ | ⟨h2, h3⟩
          · subst h2; exact absurd f2 (g2 r)
          · exact howedOld' j th' h2 h3 g1 g2
        · intro j a he
          rcases List.mem_append.1 he with g1 | g1
          · exact hansOld' j a g1
          · obtain ⟨rfl, r', g2, g3, -⟩ := eventsOf_ends hi hsi g1
            simp only at g2 g3
            rw [f2] at g2
            injection g2 with g2
            subst g2
            refine ⟨k, th.op, k1, hop, ?_⟩
            rw [g3, hsW, f3]
    · have hpl' : th.stage.placed = false := by simpa using hpl
      have hnin : i ∉ order := fun e => hpl ((h.placed i th hi).1 e)
      have hNC' := hNC (by intro key t e; rw [e] at hpl'; simp [Stage.placed] at hpl')
      rcases hb.unplaced (h.conc.stage i th hi) hpl' (h.own i th hi) with ⟨m1, m2⟩ | ⟨m1, m2, m3⟩
      · -- the call still has no place
        have hreal' := hreal [] (by simp) (fun _ _ => hnin) (by simp)
        have hansOld' := hansOld []
        have howedOld' := howedOld []
        simp only [List.append_nil] at hreal' hansOld' howedOld'
        refine ⟨order, .inl rfl, hc, hops, by rw [hsW]; exact m2, hNC', h.nodup, ?_, hinside, hbegan, ?_, ?_, hown, ?_, hreal'⟩
        · intro j th' hj
          rcases hothers j th' hj with ⟨rfl, h2⟩ | ⟨h2, h3⟩
          · subst h2
            simp only [m1]
            exact ⟨fun e => absurd e hnin, fun e => by simp at e⟩
          · exact h.placed j th' h3
        · intro j hj
          exact List.mem_append_left _ (h.begun j hj)
        · intro j th' hj g1 g2
          rcases hothers j th' hj with ⟨rfl, h2⟩ | ⟨h2, h3⟩
          · subst h2; simp only at g1; rw [m1] at g1; simp at g1
          · exact howedOld' j th' h2 h3 g1 g2
        · intro j a he
          rcases List.mem_append.1 he with g1 | g1
          · exact hansOld' j a g1
          · obtain ⟨rfl, r', g2, g3, -⟩ := eventsOf_ends hi hsi g1
            simp only at g2
            rw [g2] at m1; simp [Stage.placed] at m1
      · -- the call gets its place
        have hnotTodo : (nextPart D C.W th.op th.stage).1 ≠ .todo := by intro e; rw [e] at m1; simp [Stage.placed] at m1
        refine ⟨order ++ [i], .inr rfl, hc, hops, ?_, hNC', ?_, ?_, hinside', hbegan, ?_, ?_, hown, ?_, hreal [i] (by simp) (by simp) (fun _ => hnin)⟩
        · rw [callsAt_snoc hop, run_snoc, hsW]
          exact m2
        · rw [List.nodup_append]
          refine ⟨h.nodup, by simp, ?_⟩
          intro x hx y hy e
          simp at hy; subst hy; subst e; exact hnin hx
        · intro j th' hj
          rcases hothers j th' hj with ⟨rfl, h2⟩ | ⟨h2, h3⟩
          · subst h2
            simp only [m1]
            simp
          · rw [← h.placed j th' h3]; simp [h2]
        · intro j hj
          rcases List.mem_append.1 hj with g1 | g1
          · exact List.mem_append_left _ (h.begun j g1)
          · simp at g1; subst g1; exact hbegan _ _ hsi hnotTodo
        · intro j th' hj g1 g2
          rcases hothers j th' hj with ⟨rfl, h2⟩ | ⟨h2, h3⟩
          · subst h2
            refine ⟨order.length, by simp, ?_⟩
            simp only [List.take_left]
            rw [hsW]; exact m3
          · exact howedOld [i] j th' h2 h3 g1 g2
        · intro j a he
          rcases List.mem_append.1 he with g1 | g1
          · exact hansOld [i] j a g1
          · obtain ⟨rfl, r', g2, g3, -⟩ := eventsOf_ends hi hsi g1
            refine ⟨order.length, th.op, by simp, hop, ?_⟩
            simp only at g2 g3
            rw [g2] at m3
            rw [List.take_left, g3, hsW]
            exact m3.symm

theorem Lin.run {D : Decls} {W0 : World} {ops : List Op} (ht : ∀ order, Typical D (run D W0 (callsAt ops order))) (is : List Nat) :
    ∀ {C : Threads} {tl : List Event} {order : List Nat}, Lin D W0 ops C tl order → Disciplined true D C is →
    ∃ order', Lin D W0 ops (C.run D is) (tl ++ timeline D C is) order' := by
  induction is with
  | nil =>
    intro C tl order h _
    refine ⟨order, ?_⟩
    rw [show timeline D C [] = [] from rfl, List.append_nil]
    exact h
  | cons i is ih =>
    intro C tl order h hd
    obtain ⟨order1, -, h1⟩ := h.step (ht order) i hd.1
    obtain ⟨order2, h2⟩ := ih h1 hd.2
    refine ⟨order2, ?_⟩
    rw [List.append_assoc] at h2
    exact h2

theorem lin_spawn {D : Decls} {W0 : World} (ht : Typical D W0) (hc : ∀ d, CacheOk D W0 d) (ops : List Op) : Lin D W0 ops (spawn W0 ops) [] [] := by
  have hst : ∀ (i : Nat) th, (spawn W0 ops).threads[i]? = some th → th.stage = .todo := by
    intro i th h
    simp [spawn] at h
    obtain ⟨op, -, rfl⟩ := h
    rfl
  refine ⟨concInv_spawn ht.reg ht.types (fun _ => hc) ops, ?_, SameBut.refl _, ht.noClash, List.nodup_nil, ?_, by simp, ?_, by simp, ?_, ?_, by simp, by simp⟩
  · simp [spawn, Function.comp_def]
  · intro i th h; rw [hst i th h]; simp [Stage.placed]
  · intro i th h h1; exact absurd (hst i th h) h1
  · intro i th h h1; rw [hst i th h] at h1; simp [Stage.placed] at h1
  · intro i th h h1; rw [hst i th h] at h1; exact h1.elim

/-- Schedules in which no rules are changed and no types removed while they are being asked for. -/
theorem linearizable_run {D : Decls} {s : DomId → Settings} {hist ops : List Op} {is : List Nat} (hd : Props.FeatureDiscipline D (hist ++ ops))
    (hp : Props.OnlyPureRules D s (hist ++ ops)) (hc : Disciplined true D (spawn (run D (initWorld s) hist) ops) is) :
    ∃ order, Lin D (run D (initWorld s) hist) ops ((spawn (run D (initWorld s) hist) ops).run D is) (timeline D (spawn (run D (initWorld s) hist) ops) is) order := by
  have ht : ∀ order, Typical D (run D (run D (initWorld s) hist) (callsAt ops order)) := by
    intro order
    rw [← run_append]
    have hsub : ∀ op ∈ hist ++ callsAt ops order, op ∈ hist ++ ops := by
      intro op hop
      rcases List.mem_append.1 hop with h | h
      · exact List.mem_append_left _ h
      · exact List.mem_append_right _ (callsAt_mem h)
    refine typical_reachable D s _ ?_ ?_
    · obtain ⟨home, used, h⟩ := hd
      exact ⟨home, used, fun op hop => h op (hsub op hop)⟩
    · exact ⟨fun d r hr => hp.1 d r (hsub _ hr), hp.2⟩
  have ht0 : Typical D (run D (initWorld s) hist) := ht []
  obtain ⟨order, h⟩ := Lin.run ht is (lin_spawn ht0 (reachable_cache D s hist) ops) hc
  exact ⟨order, by simpa using h⟩

end Dnmx
