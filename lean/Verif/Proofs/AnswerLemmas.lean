import Verif.Proofs.ConcurrentLemmas

set_option linter.unusedSimpArgs false
set_option linter.unusedVariables false
set_option linter.unusedSectionVars false

namespace Dnmx
open Spec

/-! ## a call alone -/

theorem setDom_setDom (W : World) (d : DomId) (x y : Dom) : (W.setDom d x).setDom d y = W.setDom d y := by
  unfold World.setDom
  congr 1
  funext e
  simp only [upd]
  split <;> rfl

theorem runAlone_unreg (D : Decls) (W : World) (d : DomId) (m : Mix) (n : Nat) :
    runAlone D (.unregMixin d m) (n + 2) (.todo, W) = (.done (noType (unregisterMixin W d m).1), (unregisterMixin W d m).2) := by
  show runAlone D (.unregMixin d m) (n + 1) (purgePart W d m) = _
  unfold purgePart unregisterMixin
  simp only
  cases hp : purgeQueries (W.doms d) d (W.mixId m) m (W.doms d).queries with
  | none => exact runAlone_done D _ _ _ _
  | some qs =>
    simp only
    show runAlone D (.unregMixin d m) n (removePart _ d m) = _
    unfold removePart
    simp only [setDom_same, setDom_mixId, setDom_mixDom, setDom_setDom]
    cases ho : ownSlot (W.doms d).mixins (W.mixId m) m with
    | none => exact runAlone_done D _ _ _ _
    | some i => exact runAlone_done D _ _ _ _

theorem runAlone_step (D : Decls) (W : World) (op : Op) (n : Nat) :
    runAlone D op (n + 4) (.todo, W) = (.done (alone D W op).1, (alone D W op).2) := by
  cases hop : op.asked with
  | some p =>
    obtain ⟨d, q⟩ := p
    cases op <;> simp [Op.asked] at hop
    case getTypeMut d' md q' =>
      obtain ⟨h1, h2⟩ := hop; subst h1; subst h2
      show runAlone D _ (n + 3) (beginPart D W (.getTypeMut d' md q')) = (.done (withType (getTypeMut D W d' md q').1), (getTypeMut D W d' md q').2)
      by_cases hmd : md = d'
      · subst hmd
        rw [show beginPart D W (.getTypeMut md md q') = (lookupPart D W md q', W) by simp [beginPart]]
        exact runAlone_lookup D W md q' _ (.inr ⟨md, rfl⟩) (n + 1)
      · rw [show beginPart D W (.getTypeMut d' md q') = (.done (.error .foreignMutation), W) by simp [beginPart, hmd]]
        rw [runAlone_done]
        simp [getTypeMut, hmd, withType]
    case getType d' q' =>
      obtain ⟨h1, h2⟩ := hop; subst h1; subst h2
      show runAlone D _ (n + 3) (beginPart D W (.getType d' q')) = (.done (withType (getType D W d' q').1), (getType D W d' q').2)
      cases hq : findQuery q' (W.doms d').queries with
      | some t =>
        rw [show beginPart D W (.getType d' q') = (.done (.ok (some t)), W) by simp [beginPart, hq]]
        rw [runAlone_done]
        simp [getType, hq, withType]
      | none =>
        rw [show beginPart D W (.getType d' q') = (.mutating, W) by simp [beginPart, hq]]
        show runAlone D _ (n + 2) (lookupPart D W d' q', W) = _
        rw [runAlone_lookup D W d' q' _ (.inl rfl) n]
        simp [getType, hq]
  | none =>
    by_cases hun : ∃ d m, op = .unregMixin d m
    · obtain ⟨d, m, h⟩ := hun
      subst h
      exact runAlone_unreg D W d m (n + 2)
    · have hun' : ∀ d m, op ≠ .unregMixin d m := fun d m h => hun ⟨d, m, h⟩
      show runAlone D op (n + 3) (beginPart D W op) = _
      rw [beginPart_other hop hun', runAlone_done]
      cases op <;> simp_all [Op.asked, alone]

/-! ## threads that only call get_type -/

/-- what get_type gives alone: the composition or an error -/
def answerOf (D : Decls) (W : World) (d : DomId) (q : List Mix) : Except Err (List Mix) :=
  match findQuery q (W.doms d).queries with
  | some t => match (W.doms d).typeAt d t with
    | some r => .ok r.mixins
    | none => .error .ub
  | none => match (applyMutationRules D (rulesOf D (W.view D d) (W.doms d)) q).result with
    | .error e => .error e
    | .ok (_, ms) => match typeFor D W d ms with
      | .error e => .error e
      | .ok _ => .ok ms

theorem buildType_congr {D : Decls} {W W' : World} (h1 : W'.mixId = W.mixId) (h2 : W'.mixDom = W.mixDom) (h3 : W'.featId = W.featId)
    (d : DomId) (t : TypeId) (ms : List Mix) : buildType D W' d t ms = buildType D W d t ms := by
  unfold buildType; rw [h1, h2, h3]

theorem buildType_error_tid {D : Decls} {W : World} {d : DomId} {t : TypeId} {ms : List Mix} {e : Err}
    (h : buildType D W d t ms = .error e) (t' : TypeId) : buildType D W d t' ms = .error e := by
  unfold buildType at h ⊢
  cases hc : checkMixins W.mixId W.mixDom d ms with
  | error e' => rw [hc] at h; exact h
  | ok u =>
    rw [hc] at h
    simp only at h ⊢
    cases hf : buildFtable D W.featId ms with
    | error e' => rw [hf] at h; exact h
    | ok ft => rw [hf] at h; simp at h

/-- the domains while threads call get_type, in comparison with the domains at the beginning -/
structure Shared (D : Decls) (W0 : World) (ops : List Op) (W : World) : Prop where
  mixId : W.mixId = W0.mixId
  mixDom : W.mixDom = W0.mixDom
  featId : W.featId = W0.featId
  rules : ∀ d, (W.doms d).rules = (W0.doms d).rules
  mixins : ∀ d, (W.doms d).mixins = (W0.doms d).mixins
  types : ∀ d, ∃ l, (W.doms d).types = (W0.doms d).types ++ l ∧ ∀ r ∈ l, (∃ t, typeFor D W0 d r.mixins = .ok t) ∧
    ∃ op ∈ ops, ∃ q, op.asked = some (d, q) ∧ answerOf D W0 d q = .ok r.mixins
  keep : ∀ d, ∀ e ∈ (W0.doms d).queries, e ∈ (W.doms d).queries
  queries : ∀ d, ∀ e ∈ (W.doms d).queries, ∃ r, (W.doms d).typeAt d e.2 = some r ∧ answerOf D W0 d e.1 = .ok r.mixins
  known : ∀ d, ∀ e ∈ (W.doms d).queries, e ∈ (W0.doms d).queries ∨ ∃ op ∈ ops, op.asked = some (d, e.1)

/-- what a thread knows between two parts -/
def StageAns (D : Decls) (W0 W : World) (op : Op) : Stage → Prop
  | .found key t => ∃ d, op.asked = some (d, key) ∧ findQuery key (W0.doms d).queries = none ∧
      ∃ r, (W.doms d).typeAt d t = some r ∧ answerOf D W0 d key = .ok r.mixins
  | .missing key ms => ∃ d, op.asked = some (d, key) ∧ findQuery key (W0.doms d).queries = none ∧ ms ≠ [] ∧
      findType ms (W0.doms d).types = none ∧ (applyMutationRules D (rulesOf D (W0.view D d) (W0.doms d)) key).result = .ok (key, ms)
  | .built key t => ∃ d, op.asked = some (d, key) ∧ findQuery key (W0.doms d).queries = none ∧
      (∃ u, typeFor D W0 d t.mixins = .ok u) ∧ answerOf D W0 d key = .ok t.mixins
  | .done r => ∃ d q, op.asked = some (d, q) ∧ ((∃ md, op = .getTypeMut d md q ∧ md ≠ d ∧ r = .error .foreignMutation) ∨
      (∃ e, answerOf D W0 d q = .error e ∧ r = .error e) ∨
      (∃ t x, r = .ok (some t) ∧ (W.doms d).typeAt d t = some x ∧ answerOf D W0 d q = .ok x.mixins))
  | .purged => False
  | _ => True

theorem StageAns.mild {D : Decls} {W0 W W' : World} {op : Op} {st : Stage} (h : StageAns D W0 W op st) (hm : ∀ d, Mild false W d W') :
    StageAns D W0 W' op st := by
  cases st with
  | todo => trivial
  | mutating => trivial
  | purged => exact h
  | missing key ms => exact h
  | built key t => exact h
  | found key t =>
    obtain ⟨d, h1, h2, r, h3, h4⟩ := h
    exact ⟨d, h1, h2, r, (hm d).typeAt h3, h4⟩
  | done r =>
    obtain ⟨d, q, h1, h2 | h2 | ⟨t, x, h2, h3, h4⟩⟩ := h
    · exact ⟨d, q, h1, .inl h2⟩
    · exact ⟨d, q, h1, .inr (.inl h2)⟩
    · exact ⟨d, q, h1, .inr (.inr ⟨t, x, h2, (hm d).typeAt h3, h4⟩)⟩

theorem view_congr {D : Decls} {W W' : World} {d : DomId} (h1 : W'.mixId = W.mixId) (h2 : (W'.doms d).mixins = (W.doms d).mixins) :
    W'.view D d = W.view D d := by
  unfold World.view getMixinByName
  rw [h1, h2]

theorem Shared.result {D : Decls} {W0 W : World} {ops : List Op} (h : Shared D W0 ops W) (d : DomId) (q : List Mix) :
    applyMutationRules D (rulesOf D (W.view D d) (W.doms d)) q = applyMutationRules D (rulesOf D (W0.view D d) (W0.doms d)) q := by
  have : rulesOf D (W.view D d) (W.doms d) = rulesOf D (W0.view D d) (W0.doms d) := by
    unfold rulesOf
    rw [view_congr h.mixId (h.mixins d), h.rules d]
  rw [this]

theorem findQuery_none {q : List Mix} {qs : List (List Mix × TypeId)} : findQuery q qs = none ↔ ∀ e ∈ qs, e.1 ≠ q := by
  unfold findQuery
  simp

theorem findQuery_mem {qs : List (List Mix × TypeId)} (h : qs.Pairwise (fun a b => a.1 ≠ b.1)) (e : List Mix × TypeId) (he : e ∈ qs) :
    findQuery e.1 qs = some e.2 := by
  unfold findQuery
  induction qs with
  | nil => simp at he
  | cons x xs ih =>
    rw [List.pairwise_cons] at h
    rcases List.mem_cons.1 he with h1 | h1
    · subst h1; simp
    · have := h.1 e h1
      rw [List.find?_cons_of_neg (by simpa using this)]
      exact ih h.2 h1

theorem Shared.store {D : Decls} {W0 W : World} {ops : List Op} (h : Shared D W0 ops W) {d : DomId} {key : List Mix} {t : TypeId} {r : TypeRec}
    {op : Op} (hop : op ∈ ops) (ha : op.asked = some (d, key)) (hn : findQuery key (W0.doms d).queries = none)
    (hr : (W.doms d).typeAt d t = some r) (hans : answerOf D W0 d key = .ok r.mixins) :
    Shared D W0 ops (W.setDom d { W.doms d with queries := storeQuery key t (W.doms d).queries }) := by
  have hm : ∀ d', Mild false W d' (W.setDom d { W.doms d with queries := storeQuery key t (W.doms d).queries }) := by
    intro d'
    by_cases hd : d' = d
    · subst hd; exact ⟨⟨[], by simp⟩, fun _ => by simp, fun _ _ _ => ⟨rfl, rfl⟩, Nat.le_refl _⟩
    · exact .frame (setDom_ne _ _ hd) rfl rfl (Nat.le_refl _)
  have hq : ∀ d' e, e ∈ ((W.setDom d { W.doms d with queries := storeQuery key t (W.doms d).queries }).doms d').queries →
      e ∈ (W.doms d').queries ∨ (d' = d ∧ e = (key, t)) := by
    intro d' e he
    by_cases hd : d' = d
    · subst hd
      simp only [setDom_same] at he
      rcases storeQuery_mem key t _ e he with h1 | h1
      · exact .inr ⟨rfl, h1⟩
      · exact .inl h1.1
    · rw [setDom_ne _ _ hd] at he; exact .inl he
  have hsame : ∀ d', ((W.setDom d { W.doms d with queries := storeQuery key t (W.doms d).queries }).doms d').types = (W.doms d').types ∧
      ((W.setDom d { W.doms d with queries := storeQuery key t (W.doms d).queries }).doms d').rules = (W.doms d').rules ∧
      ((W.setDom d { W.doms d with queries := storeQuery key t (W.doms d).queries }).doms d').mixins = (W.doms d').mixins := by
    intro d'
    by_cases hd : d' = d
    · subst hd; simp
    · rw [setDom_ne _ _ hd]; simp
  refine ⟨h.mixId, h.mixDom, h.featId, fun d' => (hsame d').2.1.trans (h.rules d'), fun d' => (hsame d').2.2.trans (h.mixins d'),
    fun d' => by rw [(hsame d').1]; exact h.types d', ?_, ?_, ?_⟩
  · intro d' e he
    by_cases hd : d' = d
    · subst hd
      simp only [setDom_same]
      exact storeQuery_keep key t _ e (h.keep d' e he) (findQuery_none.1 hn e he)
    · rw [setDom_ne _ _ hd]; exact h.keep d' e he
  · intro d' e he
    rcases hq d' e he with h1 | ⟨h1, h2⟩
    · obtain ⟨r', h3, h4⟩ := h.queries d' e h1
      exact ⟨r', (hm d').typeAt h3, h4⟩
    · subst h1; subst h2
      exact ⟨r, (hm d').typeAt hr, hans⟩
  · intro d' e he
    rcases hq d' e he with h1 | ⟨h1, h2⟩
    · exact h.known d' e h1
    · subst h1; subst h2
      exact .inr ⟨op, hop, ha⟩

theorem Shared.emplace {D : Decls} {W0 W : World} {ops : List Op} (h : Shared D W0 ops W) {d : DomId} {key : List Mix} {t : TypeRec}
    {op : Op} (hop : op ∈ ops) (ha : op.asked = some (d, key)) (hn : findQuery key (W0.doms d).queries = none)
    (htf : ∃ u, typeFor D W0 d t.mixins = .ok u) (hans : answerOf D W0 d key = .ok t.mixins)
    (hty : TypesInv D (W.setDom d { W.doms d with types := (W.doms d).types ++ [t], queries := storeQuery key t.tid (W.doms d).queries }) d) :
    Shared D W0 ops (W.setDom d { W.doms d with types := (W.doms d).types ++ [t], queries := storeQuery key t.tid (W.doms d).queries }) := by
  have hm : ∀ d', Mild false W d' (W.setDom d { W.doms d with types := (W.doms d).types ++ [t], queries := storeQuery key t.tid (W.doms d).queries }) := by
    intro d'
    by_cases hd : d' = d
    · subst hd; exact ⟨⟨[t], by simp⟩, fun _ => by simp, fun _ _ _ => ⟨rfl, rfl⟩, Nat.le_refl _⟩
    · exact .frame (setDom_ne _ _ hd) rfl rfl (Nat.le_refl _)
  have hq : ∀ d' e, e ∈ ((W.setDom d { W.doms d with types := (W.doms d).types ++ [t], queries := storeQuery key t.tid (W.doms d).queries }).doms d').queries →
      e ∈ (W.doms d').queries ∨ (d' = d ∧ e = (key, t.tid)) := by
    intro d' e he
    by_cases hd : d' = d
    · subst hd
      simp only [setDom_same] at he
      rcases storeQuery_mem key t.tid _ e he with h1 | h1
      · exact .inr ⟨rfl, h1⟩
      · exact .inl h1.1
    · rw [setDom_ne _ _ hd] at he; exact .inl he
  have hsame : ∀ d',
      ((W.setDom d { W.doms d with types := (W.doms d).types ++ [t], queries := storeQuery key t.tid (W.doms d).queries }).doms d').rules = (W.doms d').rules ∧
      ((W.setDom d { W.doms d with types := (W.doms d).types ++ [t], queries := storeQuery key t.tid (W.doms d).queries }).doms d').mixins = (W.doms d').mixins := by
    intro d'
    by_cases hd : d' = d
    · subst hd; simp
    · rw [setDom_ne _ _ hd]; simp
  refine ⟨h.mixId, h.mixDom, h.featId, fun d' => (hsame d').1.trans (h.rules d'), fun d' => (hsame d').2.trans (h.mixins d'), ?_, ?_, ?_, ?_⟩
  · intro d'
    obtain ⟨l, h1, h2⟩ := h.types d'
    by_cases hd : d' = d
    · subst hd
      simp only [setDom_same]
      refine ⟨l ++ [t], by rw [h1, List.append_assoc], ?_⟩
      intro r hr
      rcases List.mem_append.1 hr with h3 | h3
      · exact h2 r h3
      · simp at h3; subst h3
        exact ⟨htf, op, hop, key, ha, hans⟩
    · rw [setDom_ne _ _ hd]; exact ⟨l, h1, h2⟩
  · intro d' e he
    by_cases hd : d' = d
    · subst hd
      simp only [setDom_same]
      exact storeQuery_keep key t.tid _ e (h.keep d' e he) (findQuery_none.1 hn e he)
    · rw [setDom_ne _ _ hd]; exact h.keep d' e he
  · intro d' e he
    rcases hq d' e he with h1 | ⟨h1, h2⟩
    · obtain ⟨r', h3, h4⟩ := h.queries d' e h1
      exact ⟨r', (hm d').typeAt h3, h4⟩
    · subst h1; subst h2
      exact ⟨t, hty.typeAt_mem t (by simp), hans⟩
  · intro d' e he
    rcases hq d' e he with h1 | ⟨h1, h2⟩
    · exact h.known d' e h1
    · subst h1; subst h2
      exact .inr ⟨op, hop, ha⟩

theorem lookup_ans {D : Decls} {W0 W : World} {ops : List Op} (h : Shared D W0 ops W) (ht : ∀ d, TypesInv D W d)
    {op : Op} {d : DomId} {q : List Mix} (ha : op.asked = some (d, q)) : StageAns D W0 W op (lookupPart D W d q) := by
  unfold lookupPart lookupSection
  cases hq : findQuery q (W.doms d).queries with
  | some t =>
    obtain ⟨r, h1, h2⟩ := h.queries d _ (findQuery_some hq)
    exact ⟨d, q, ha, .inr (.inr ⟨t, r, rfl, h1, h2⟩)⟩
  | none =>
    have hq0 : findQuery q (W0.doms d).queries = none := by
      rw [findQuery_none] at hq ⊢
      exact fun e he => hq e (h.keep d e he)
    simp only
    rw [h.result]
    cases hres : (applyMutationRules D (rulesOf D (W0.view D d) (W0.doms d)) q).result with
    | error e => exact ⟨d, q, ha, .inr (.inl ⟨e, by simp [answerOf, hq0, hres], rfl⟩)⟩
    | ok p =>
      obtain ⟨key, ms⟩ := p
      have hk := applyMutationRules_key D _ q key ms hres
      subst hk
      simp only
      by_cases hms : ms = []
      · subst hms
        simp only [List.isEmpty_nil, if_true]
        exact ⟨d, ha, hq0, emptyType d, typeAt_empty _ _, by simp [answerOf, hq0, hres, typeFor, emptyType]⟩
      · rw [if_neg (by simpa using hms)]
        obtain ⟨l, hl1, hl2⟩ := h.types d
        cases hft : findType ms (W.doms d).types with
        | some r =>
          obtain ⟨h1, h2⟩ := findType_some hft
          have hav : ∃ u, typeFor D W0 d ms = .ok u := by
            rw [hl1] at h1
            rcases List.mem_append.1 h1 with h3 | h3
            · unfold typeFor
              rw [if_neg hms]
              cases hf0 : findType ms (W0.doms d).types with
              | some r' => exact ⟨_, rfl⟩
              | none => exact absurd h2 (findType_none.1 hf0 r h3)
            · rw [← h2]; exact (hl2 r h3).1
          obtain ⟨u, hu⟩ := hav
          exact ⟨d, ha, hq0, r, (ht d).typeAt_mem r h1, by rw [h2]; simp [answerOf, hq0, hres, hu]⟩
        | none =>
          refine ⟨d, ha, hq0, hms, ?_, hres⟩
          rw [findType_none] at hft ⊢
          intro r hr
          exact hft r (by rw [hl1]; exact List.mem_append_left _ hr)

/-- one part of a get_type among other get_types -/
theorem getPart_ans {D : Decls} {W0 W : World} {ops : List Op} (h : Shared D W0 ops W) (ht : ∀ d, TypesInv D W d)
    {op : Op} {st : Stage} {d : DomId} {q : List Mix} (hop : op ∈ ops) (ha : op.asked = some (d, q)) (hb : st.begun)
    (hs : StageAns D W0 W op st) (hs' : StageOk false D W op st)
    (hf : ∀ key t, st = .built key t → ∀ d, ∀ r ∈ (W.doms d).types, r.tid ≠ t.tid) :
    Shared D W0 ops (getPart D W d q st).2 ∧ StageAns D W0 (getPart D W d q st).2 op (getPart D W d q st).1 := by
  cases st with
  | todo => exact absurd hb id
  | done r => exact absurd hb id
  | purged => exact absurd hs id
  | mutating => exact ⟨h, lookup_ans h ht ha⟩
  | found key t =>
    obtain ⟨d', h1, h2, r, h3, h4⟩ := hs
    rw [ha] at h1; simp at h1; obtain ⟨h1, h1'⟩ := h1; subst h1; subst h1'
    refine ⟨h.store hop ha h2 h3 h4, d, q, ha, .inr (.inr ⟨t, r, rfl, ?_, h4⟩)⟩
    have hm : Mild false W d (getPart D W d q (.found q t)).2 := by
      refine ⟨⟨[], ?_⟩, fun _ => ?_, fun _ _ _ => ⟨rfl, rfl⟩, Nat.le_refl _⟩ <;> simp [getPart]
    exact hm.typeAt h3
  | missing key ms =>
    obtain ⟨d', h1, h2, h3, h4, h5⟩ := hs
    rw [ha] at h1; simp at h1; obtain ⟨h1, h1'⟩ := h1; subst h1; subst h1'
    have hbt := buildType_congr (D := D) h.mixId h.mixDom h.featId d W.nextType ms
    cases hbb : buildType D W d W.nextType ms with
    | error e =>
      rw [show getPart D W d q (.missing q ms) = (.done (.error e), W) by simp only [getPart, hbb]]
      rw [hbb] at hbt
      have h6 := buildType_error_tid hbt.symm W0.nextType
      exact ⟨h, d, q, ha, .inr (.inl ⟨e, by simp [answerOf, h2, h5, typeFor, h3, h4, h6], rfl⟩)⟩
    | ok t =>
      rw [show getPart D W d q (.missing q ms) = (.built q t, { W with nextType := W.nextType + 1 }) by simp only [getPart, hbb]]
      rw [hbb] at hbt
      obtain ⟨-, h7, -, -⟩ := buildType_ok D W0 d W.nextType ms t h3 hbt.symm
      have h8 : ∃ u, typeFor D W0 d ms = .ok u := by
        unfold typeFor
        rw [if_neg h3, h4]
        simp only
        cases hb0 : buildType D W0 d W0.nextType ms with
        | error e => rw [buildType_error_tid hb0 W.nextType] at hbt; simp at hbt
        | ok t' => exact ⟨_, rfl⟩
      obtain ⟨u, hu⟩ := h8
      refine ⟨⟨h.mixId, h.mixDom, h.featId, h.rules, h.mixins, h.types, h.keep, h.queries, h.known⟩, d, ha, h2, ⟨u, by rw [h7]; exact hu⟩, ?_⟩
      rw [h7]; simp [answerOf, h2, h5, hu]
  | built key t =>
    obtain ⟨d', h1, h2, h3, h4⟩ := hs
    rw [ha] at h1; simp at h1; obtain ⟨h1, h1'⟩ := h1; subst h1; subst h1'
    obtain ⟨d', g1, g2, g3, g4, -⟩ := hs'
    rw [ha] at g1; simp at g1; subst g1
    cases hft : findType t.mixins (W.doms d).types with
    | some old =>
      rw [show getPart D W d q (.built q t) = (.done (.ok (some old.tid)), W.setDom d { W.doms d with
        queries := storeQuery q old.tid (W.doms d).queries }) by simp only [getPart, emplaceSection, hft]]
      obtain ⟨h6, h7⟩ := findType_some hft
      have hat := (ht d).typeAt_mem old h6
      refine ⟨h.store hop ha h2 hat (by rw [h7]; exact h4), d, q, ha, .inr (.inr ⟨old.tid, old, rfl, ?_, by rw [h7]; exact h4⟩)⟩
      have hm : Mild false W d (W.setDom d { W.doms d with queries := storeQuery q old.tid (W.doms d).queries }) := by
        refine ⟨⟨[], ?_⟩, fun _ => ?_, fun _ _ _ => ⟨rfl, rfl⟩, Nat.le_refl _⟩ <;> simp
      exact hm.typeAt hat
    | none =>
      rw [show getPart D W d q (.built q t) = (.done (.ok (some t.tid)), W.setDom d { W.doms d with
        types := (W.doms d).types ++ [t], queries := storeQuery q t.tid (W.doms d).queries }) by simp only [getPart, emplaceSection, hft]]
      have hty := types_emplace (ht d) q t g2 g3 g4 (hf q t rfl d) (findType_none.1 hft)
      exact ⟨h.emplace hop ha h2 h3 h4 hty, d, q, ha, .inr (.inr ⟨t.tid, t, rfl, hty.typeAt_mem t (by simp), h4⟩)⟩

/-- invariant of threads that only call get_type -/
structure AskInv (D : Decls) (W0 : World) (ops : List Op) (C : Threads) : Prop where
  conc : ConcInv false D C
  shared : Shared D W0 ops C.W
  stage : ∀ (i : Nat) th, C.threads[i]? = some th → th.op ∈ ops ∧ StageAns D W0 C.W th.op th.stage

theorem not_clash_asks {b : Bool} {o o' : Op} (h : o.asked ≠ none) (h' : o'.asked ≠ none) : ¬ clash b o o' := by
  have key : ∀ o : Op, o.asked ≠ none → disturbed b o = none := by
    intro o h; cases o <;> simp_all [Op.asked, disturbed]
  rintro ⟨d, ⟨h1, -⟩ | ⟨-, h1⟩⟩
  · rw [key o h] at h1; simp at h1
  · rw [key o' h'] at h1; simp at h1

theorem AskInv.step {D : Decls} {W0 : World} {ops : List Op} {C : Threads} (h : AskInv D W0 ops C) (hops : ∀ op ∈ ops, op.asked ≠ none)
    (i : Nat) : AskInv D W0 ops (C.step D i) := by
  have hmay : mayRun false C i := fun th hi j th' _ hj _ =>
    not_clash_asks (hops _ (h.stage i th hi).1) (hops _ (h.stage j th' hj).1)
  have hconc := h.conc.step i hmay
  suffices hsuf : Shared D W0 ops (C.step D i).W ∧ ∀ (j : Nat) th, (C.step D i).threads[j]? = some th →
      th.op ∈ ops ∧ StageAns D W0 (C.step D i).W th.op th.stage from ⟨hconc, hsuf.1, hsuf.2⟩
  cases hi : C.threads[i]? with
  | none => rw [Threads.step_none hi]; exact ⟨h.shared, h.stage⟩
  | some th =>
    have p := h.conc.part hi
    obtain ⟨hmem, hst⟩ := h.stage i th hi
    have hnone : disturbed false th.op = none := by
      have := hops _ hmem
      cases hop : th.op <;> simp_all [Op.asked, disturbed]
    have hm : ∀ d, Mild false C.W d (nextPart D C.W th.op th.stage).2 := fun d => p.mild d (by rw [hnone]; simp)
    have main : Shared D W0 ops (nextPart D C.W th.op th.stage).2 ∧
        StageAns D W0 (nextPart D C.W th.op th.stage).2 th.op (nextPart D C.W th.op th.stage).1 := by
      cases hop : th.op.asked with
      | none => exact absurd hop (hops _ hmem)
      | some pq =>
        obtain ⟨d, q⟩ := pq
        by_cases hb : th.stage.begun
        · have he : nextPart D C.W th.op th.stage = getPart D C.W d q th.stage := by
            cases ho : th.op <;> rw [ho] at hop <;> simp [Op.asked] at hop
            all_goals (obtain ⟨h1, h2⟩ := hop; subst h1; subst h2; cases hs : th.stage <;> rw [hs] at hb <;> first | exact absurd hb id | rfl)
          rw [he]
          exact getPart_ans h.shared h.conc.types hmem hop hb hst (h.conc.stage i th hi) (fun key t e => h.conc.fresh i th key t hi e)
        · cases hs : th.stage with
          | done r => rw [hs] at hst; exact ⟨h.shared, hst⟩
          | todo =>
            cases ho : th.op <;> rw [ho] at hop <;> simp [Op.asked] at hop
            case getTypeMut d' md q' =>
              obtain ⟨h1, h2⟩ := hop; subst h1; subst h2
              by_cases hmd : md = d'
              · rw [show nextPart D C.W (.getTypeMut d' md q') .todo = (lookupPart D C.W d' q', C.W) by simp [nextPart, beginPart, hmd]]
                exact ⟨h.shared, lookup_ans h.shared h.conc.types rfl⟩
              · rw [show nextPart D C.W (.getTypeMut d' md q') .todo = (.done (.error .foreignMutation), C.W) by simp [nextPart, beginPart, hmd]]
                exact ⟨h.shared, d', q', rfl, .inl ⟨md, rfl, hmd, rfl⟩⟩
            case getType d' q' =>
              obtain ⟨h1, h2⟩ := hop; subst h1; subst h2
              cases hq : findQuery q' (C.W.doms d').queries with
              | some t =>
                rw [show nextPart D C.W (.getType d' q') .todo = (.done (.ok (some t)), C.W) by simp [nextPart, beginPart, hq]]
                obtain ⟨r, h1, h2⟩ := h.shared.queries d' _ (findQuery_some hq)
                exact ⟨h.shared, d', q', rfl, .inr (.inr ⟨t, r, rfl, h1, h2⟩)⟩
              | none =>
                rw [show nextPart D C.W (.getType d' q') .todo = (.mutating, C.W) by simp [nextPart, beginPart, hq]]
                exact ⟨h.shared, trivial⟩
          | _ => rw [hs] at hb; exact absurd trivial hb
    rw [Threads.step_some hi]
    refine ⟨main.1, ?_⟩
    intro j th' hj
    rcases get_set hi hj with ⟨-, h2⟩ | ⟨h1, h2⟩
    · subst h2; exact ⟨hmem, main.2⟩
    · obtain ⟨h3, h4⟩ := h.stage j th' h2
      exact ⟨h3, h4.mild hm⟩

theorem AskInv.run {D : Decls} {W0 : World} {ops : List Op} (hops : ∀ op ∈ ops, op.asked ≠ none) (is : List Nat) :
    ∀ {C : Threads}, AskInv D W0 ops C → AskInv D W0 ops (C.run D is) := by
  induction is with
  | nil => intro C h; exact h
  | cons i is ih => intro C h; exact ih (h.step hops i)

theorem askInv_spawn {D : Decls} {W : World} (hr : RegInv W) (ht : ∀ d, TypesInv D W d) (ops : List Op) : AskInv D W ops (spawn W ops) := by
  refine ⟨concInv_spawn hr ht (by simp) ops, ?_, ?_⟩
  · refine ⟨rfl, rfl, rfl, fun _ => rfl, fun _ => rfl, fun d => ⟨[], by simp [spawn], by simp⟩, fun _ _ h => h, ?_, fun _ _ h => .inl h⟩
    intro d e he
    obtain ⟨r, hr'⟩ := (ht d).queries e he
    refine ⟨r, hr', ?_⟩
    have : findQuery e.1 (W.doms d).queries = some e.2 := findQuery_mem (ht d).keys e he
    simp [answerOf, this, hr']
  · intro i th h
    simp only [spawn, List.getElem?_map, Option.map_eq_some_iff] at h
    obtain ⟨op, h1, h2⟩ := h
    subst h2
    exact ⟨List.mem_of_getElem? h1, trivial⟩

/-- `answerOf` is what get_type gives alone -/
theorem answerOf_getTypeMut {D : Decls} {W : World} (ht : ∀ d, TypesInv D W d) (d : DomId) (q : List Mix) :
    (∀ e, (getTypeMut D W d d q).1 = .error e ↔ answerOf D W d q = .error e) ∧
    (∀ ms, answerOf D W d q = .ok ms ↔ ∃ t, (getTypeMut D W d d q).1 = .ok t ∧ compositionOf (getTypeMut D W d d q).2 d t = some ms) := by
  have hc := getTypeMut_cases D W d q
  have hfq : ∀ t, (q, t) ∈ (W.doms d).queries → findQuery q (W.doms d).queries = some t → True := fun _ _ _ => trivial
  unfold getTypeMut
  rw [if_neg (by simp)]
  simp only
  unfold lookupSection answerOf
  cases hq : findQuery q (W.doms d).queries with
  | some t =>
    simp only
    obtain ⟨r, hr⟩ := (ht d).queries _ (findQuery_some hq)
    simp only at hr
    simp [hr, compositionOf]
  | none =>
    simp only
    cases hres : (applyMutationRules D (rulesOf D (W.view D d) (W.doms d)) q).result with
    | error e => simp
    | ok p =>
      obtain ⟨key, ms⟩ := p
      simp only
      by_cases hms : ms = []
      · subst hms
        simp [typeFor, compositionOf, typeAt_empty, emptyType]
      · have he' : ms.isEmpty = false := by simpa using hms
        simp only [he', Bool.false_eq_true, if_false]
        cases hft : findType ms (W.doms d).types with
        | some r =>
          obtain ⟨h1, h2⟩ := findType_some hft
          have hat := (ht d).typeAt_mem r h1
          have hat' : Dom.typeAt { W.doms d with queries := storeQuery key r.tid (W.doms d).queries } d r.tid = some r := hat
          simp [typeFor, hms, hft, compositionOf, hat', h2]
        | none =>
          simp only [Option.map_none]
          cases hb : buildType D W d W.nextType ms with
          | error e => simp [typeFor, hms, hft, hb]
          | ok r =>
            obtain ⟨hok, h2, h3, -⟩ := buildType_ok D W d W.nextType ms r hms hb
            have hn : ∀ t ∈ (W.doms d).types, t.mixins ≠ r.mixins := by rw [h2]; exact findType_none.1 hft
            have hi := (ht d).emplace key r hok h3 hn
            have hat := hi.typeAt_mem r (by simp)
            rw [h2] at hn
            simp [typeFor, hms, hft, hb, emplaceSection, h2, compositionOf]
            simp at hat
            simp [hat, h2]

theorem answerOf_getType {D : Decls} {W : World} (ht : ∀ d, TypesInv D W d) (d : DomId) (q : List Mix) :
    (∀ e, (getType D W d q).1 = .error e ↔ answerOf D W d q = .error e) ∧
    (∀ ms, answerOf D W d q = .ok ms ↔ ∃ t, (getType D W d q).1 = .ok t ∧ compositionOf (getType D W d q).2 d t = some ms) := by
  unfold getType
  cases hq : findQuery q (W.doms d).queries with
  | none => exact answerOf_getTypeMut ht d q
  | some t =>
    obtain ⟨r, hr⟩ := (ht d).queries _ (findQuery_some hq)
    simp only at hr
    simp [answerOf, hq, hr, compositionOf]

/-- a call with a mutation of another domain fails at once -/
theorem foreign_run {D : Decls} {d md : DomId} {q : List Mix} (hmd : md ≠ d) (is : List Nat) : ∀ (C : Threads),
    (∀ (i : Nat) th, C.threads[i]? = some th → th.op = .getTypeMut d md q → th.stage = .todo ∨ th.stage = .done (.error .foreignMutation)) →
    ∀ (i : Nat) th, (C.run D is).threads[i]? = some th → th.op = .getTypeMut d md q →
      th.stage = .todo ∨ th.stage = .done (.error .foreignMutation) := by
  induction is with
  | nil => intro C h; exact h
  | cons j is ih =>
    intro C h
    refine ih (C.step D j) ?_
    cases hj : C.threads[j]? with
    | none => rw [Threads.step_none hj]; exact h
    | some tj =>
      rw [Threads.step_some hj]
      intro i th hi hop
      rcases get_set hj hi with ⟨-, h2⟩ | ⟨-, h2⟩
      · subst h2
        simp only at hop ⊢
        rw [hop]
        rcases h j tj hj hop with h3 | h3 <;> rw [h3]
        · right; simp [nextPart, beginPart, hmd]
        · right; rfl
      · exact h i th h2 hop

end Dnmx
