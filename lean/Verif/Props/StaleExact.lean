import Verif.Props.Concurrent

/-! C49, exactly: in which schedules a stored query is not what the rules in force give. -/

namespace Dnmx.Props
open Spec

/-- What the rules in force give for a query. -/
def givenBy (D : Decls) (W : World) (d : DomId) (q : List Mix) : Except Err (List Mix) := resolve D (rulesOf D (W.view D d) (W.doms d)) q

/-- All stored queries of the domain lead to what the rules in force give. -/
def AsRulesGive (D : Decls) (W : World) (d : DomId) : Prop :=
  ∀ q t, (q, t) ∈ queriesOf W d → ∃ ms, compositionOf W d t = some ms ∧ givenBy D W d q = .ok ms

/-- If thread `i` is about to store a query, then with a type that has the composition which the rules give now. -/
def StoresAsGiven (D : Decls) (C : Threads) (i : Nat) : Prop :=
  ∀ th, C.threads[i]? = some th → ∀ d q, th.op.asked = some (d, q) →
    (∀ key t, th.stage = .found key t → ∃ ms, compositionOf C.W d t = some ms ∧ givenBy D C.W d q = .ok ms) ∧
    (∀ key r, th.stage = .built key r → givenBy D C.W d q = .ok r.mixins)

theorem givenBy_iff {D : Decls} {W : World} {d : DomId} {q ms : List Mix} : givenBy D W d q = .ok ms ↔ resolvesTo D W d q ms := by
  unfold givenBy resolvesTo resolve
  cases h : (applyMutationRules D (rulesOf D (W.view D d) (W.doms d)) q).result with
  | error e => simp
  | ok p =>
    obtain ⟨key, ms'⟩ := p
    have := applyMutationRules_key D _ q key ms' h
    subst this
    simp

theorem cacheOk_of {D : Decls} {W : World} {d : DomId} (h : AsRulesGive D W d) : CacheOk D W d := by
  intro _ e he
  obtain ⟨ms, h1, h2⟩ := h e.1 e.2 he
  unfold compositionOf at h1
  obtain ⟨r, h3, h4⟩ := Option.map_eq_some_iff.1 h1
  subst h4
  exact ⟨r, h3, givenBy_iff.1 h2⟩

theorem asRulesGive_of {D : Decls} {W : World} {d : DomId} (hp : ∀ r ∈ inForce W d, RulePure D r) (h : CacheOk D W d) : AsRulesGive D W d := by
  intro q t he
  obtain ⟨r, h1, h2⟩ := h hp _ he
  exact ⟨r.mixins, by simp [compositionOf, h1], givenBy_iff.2 h2⟩

/-- the parts of a `get_type` after the first -/
theorem nextPart_asked {D : Decls} {W : World} {op : Op} {st : Stage} {d : DomId} {q : List Mix} (hop : op.asked = some (d, q)) (hb : st.begun) :
    nextPart D W op st = getPart D W d q st := by
  cases op <;> simp [Op.asked] at hop
  all_goals (obtain ⟨h1, h2⟩ := hop; subst h1; subst h2; cases st <;> first | exact absurd hb id | rfl)

theorem given_mild {D : Decls} {W W' : World} {d : DomId} (h : (W'.doms d).rules = (W.doms d).rules) (hp : ∀ r ∈ inForce W d, RulePure D r) (q : List Mix) :
    givenBy D W' d q = givenBy D W d q := by
  unfold givenBy
  rw [rulesOf_pure (by rw [h]) hp (W'.view D d) (W.view D d)]

/-- one part of a call -/
theorem step_exactly {D : Decls} {C : Threads} (h : ConcInv false D C) (hp : ∀ d, ∀ r ∈ inForce C.W d, RulePure D r) (hg : ∀ d, AsRulesGive D C.W d) (i : Nat)
    (hp' : ∀ d, ∀ r ∈ inForce (C.step D i).W d, RulePure D r) : (∀ d, AsRulesGive D (C.step D i).W d) ↔ StoresAsGiven D C i := by
  cases hi : C.threads[i]? with
  | none =>
    rw [Threads.step_none hi]
    refine ⟨fun _ th hth => ?_, fun _ => hg⟩
    rw [hi] at hth; simp at hth
  | some th =>
    have hst := h.stage i th hi
    have hfresh := fun key t he => h.fresh i th key t hi he
    rw [Threads.step_some hi] at hp' ⊢
    have hcache : ∀ d, CacheOk D C.W d := fun d => cacheOk_of (hg d)
    -- with what the stage needs
    have go : StageOk true D C.W th.op th.stage → ∀ d, AsRulesGive D (nextPart D C.W th.op th.stage).2 d := fun hs d =>
      asRulesGive_of (hp' d) ((nextPart_ok (b := true) h.reg h.types (fun _ => hcache) hs hfresh).cache rfl d)
    have easy : StageOk true D C.W th.op th.stage → (∀ key t, th.stage ≠ .found key t) → (∀ key r, th.stage ≠ .built key r) →
        ((∀ d, AsRulesGive D (nextPart D C.W th.op th.stage).2 d) ↔ StoresAsGiven D C i) := by
      intro hs n1 n2
      refine ⟨fun _ th' hth d q _ => ?_, fun _ => go hs⟩
      rw [hi, Option.some.injEq] at hth
      subst hth
      exact ⟨fun key t e => absurd e (n1 key t), fun key r e => absurd e (n2 key r)⟩
    cases hs : th.stage with
    | todo => rw [hs] at easy; exact easy trivial (by simp) (by simp)
    | mutating => rw [hs] at easy hst; exact easy hst (by simp) (by simp)
    | purged => rw [hs] at easy hst; exact easy hst (by simp) (by simp)
    | done r => rw [hs] at easy; exact easy trivial (by simp) (by simp)
    | missing key ms =>
      rw [hs] at hst
      obtain ⟨d, h1, h2, -⟩ := hst
      refine ⟨fun _ th' hth d q _ => ?_, fun _ d' => ?_⟩
      · rw [hi, Option.some.injEq] at hth
        subst hth
        rw [hs]
        exact ⟨fun _ _ e => by simp at e, fun _ _ e => by simp at e⟩
      · rw [hs] at hp'
        rw [nextPart_asked (st := .missing key ms) h1 trivial] at hp' ⊢
        cases hb : buildType D C.W d C.W.nextType ms with
        | error e =>
          rw [show getPart D C.W d key (.missing key ms) = (.done (.error e), C.W) by simp only [getPart, hb]]
          exact hg d'
        | ok t =>
          rw [show getPart D C.W d key (.missing key ms) = (.built key t, { C.W with nextType := C.W.nextType + 1 }) by simp only [getPart, hb]]
          exact hg d'
    | found key t =>
      rw [hs] at hst go hp'
      obtain ⟨d, h1, r, h2, -⟩ := hst
      constructor
      · intro hall th' hth d' q' hask
        rw [hi, Option.some.injEq] at hth
        subst hth
        rw [h1, Option.some.injEq, Prod.mk.injEq] at hask
        obtain ⟨rfl, rfl⟩ := hask
        refine ⟨fun key' t' e => ?_, fun key' r' e => by rw [hs] at e; simp at e⟩
        rw [hs] at e
        simp only [Stage.found.injEq] at e
        obtain ⟨rfl, rfl⟩ := e
        have h3 := hall d
        rw [nextPart_asked (st := .found key t) h1 trivial] at h3
        obtain ⟨ms, h4, h5⟩ := h3 key t (by simp [getPart, queriesOf, storeQuery_self])
        refine ⟨r.mixins, by simp [compositionOf, h2], ?_⟩
        rw [given_mild (by simp [getPart]) (hp d)] at h5
        rw [h5]
        have : compositionOf (getPart D C.W d key (.found key t)).2 d t = some r.mixins := by
          unfold compositionOf
          simp only [getPart, setDom_same]
          rw [show Dom.typeAt { C.W.doms d with queries := storeQuery key t (C.W.doms d).queries } d t = (C.W.doms d).typeAt d t from rfl, h2]
          rfl
        rw [this] at h4
        simp at h4
        rw [h4]
      · intro hst'
        obtain ⟨ms, h3, h4⟩ := (hst' th hi d key h1).1 key t hs
        refine go ⟨d, h1, r, h2, fun _ => ?_⟩
        simp only [compositionOf, h2, Option.map_some, Option.some.injEq] at h3
        rw [h3]
        exact givenBy_iff.1 h4
    | built key t =>
      rw [hs] at hst go hp'
      obtain ⟨d, h1, h2, h3, h4, -⟩ := hst
      constructor
      · intro hall th' hth d' q' hask
        rw [hi, Option.some.injEq] at hth
        subst hth
        rw [h1, Option.some.injEq, Prod.mk.injEq] at hask
        obtain ⟨rfl, rfl⟩ := hask
        refine ⟨fun key' r' e => by rw [hs] at e; simp at e, fun key' t' e => ?_⟩
        rw [hs] at e
        simp only [Stage.built.injEq] at e
        obtain ⟨rfl, rfl⟩ := e
        have h5 := hall d
        rw [nextPart_asked (st := .built key t) h1 trivial] at h5
        cases hft : findType t.mixins (C.W.doms d).types with
        | some old =>
          rw [show getPart D C.W d key (.built key t) = (.done (.ok (some old.tid)), C.W.setDom d { C.W.doms d with
            queries := storeQuery key old.tid (C.W.doms d).queries }) by simp only [getPart, emplaceSection, hft]] at h5
          obtain ⟨h6, h7⟩ := findType_some hft
          obtain ⟨ms, h8, h9⟩ := h5 key old.tid (by simp [queriesOf, storeQuery_self])
          rw [given_mild (by simp) (hp d)] at h9
          rw [h9]
          unfold compositionOf at h8
          simp only [setDom_same] at h8
          rw [show Dom.typeAt { C.W.doms d with queries := storeQuery key old.tid (C.W.doms d).queries } d old.tid = (C.W.doms d).typeAt d old.tid from rfl,
            (h.types d).typeAt_mem old h6] at h8
          simp at h8
          rw [← h8, h7]
        | none =>
          rw [show getPart D C.W d key (.built key t) = (.done (.ok (some t.tid)), C.W.setDom d { C.W.doms d with
            types := (C.W.doms d).types ++ [t], queries := storeQuery key t.tid (C.W.doms d).queries }) by simp only [getPart, emplaceSection, hft]] at h5
          have hty := types_emplace (h.types d) key t h2 h3 h4 (hfresh key t hs d) (findType_none.1 hft)
          obtain ⟨ms, h8, h9⟩ := h5 key t.tid (by simp [queriesOf, storeQuery_self])
          rw [given_mild (by simp) (hp d)] at h9
          rw [h9]
          unfold compositionOf at h8
          rw [hty.typeAt_mem t (by simp)] at h8
          simp at h8
          rw [h8]
      · intro hst'
        exact go ⟨d, h1, h2, h3, h4, fun _ => givenBy_iff.1 ((hst' th hi d key h1).2 key t hs)⟩

/-- C49, exactly: in all schedules in which no types are removed while a `get_type` of the same domain is going on (rules may be changed at any moment; those in force do not look at the
registry), these are equivalent: at every moment every stored query of every domain leads to the type that the rules in force give; whenever a `get_type` stores its query, the rules still
give what they gave when it applied them. -/
theorem C49_exactly (D : Decls) (s : DomId → Settings) (hist ops : List Op) (is : List Nat) (hd : Disciplined false D (spawn (run D (initWorld s) hist) ops) is)
    (hp : ∀ pre, pre <+: is → ∀ d, ∀ r ∈ inForce ((spawn (run D (initWorld s) hist) ops).run D pre).W d, RulePure D r) :
    (∀ pre, pre <+: is → ∀ d, AsRulesGive D ((spawn (run D (initWorld s) hist) ops).run D pre).W d) ↔
    ∀ pre i, pre ++ [i] <+: is → StoresAsGiven D ((spawn (run D (initWorld s) hist) ops).run D pre) i := by
  have hinv : ∀ pre, pre <+: is → ConcInv false D ((spawn (run D (initWorld s) hist) ops).run D pre) := by
    rintro pre ⟨suf, rfl⟩
    exact ConcInv.run pre (concInv_spawn (reachable_reg D s hist) (fun d => reachable_types D s hist d) (fun e => Bool.noConfusion e) ops) (Disciplined.append pre suf hd).1
  have hstep : ∀ pre i, (spawn (run D (initWorld s) hist) ops).run D (pre ++ [i]) = ((spawn (run D (initWorld s) hist) ops).run D pre).step D i :=
    fun pre i => by rw [Threads.run_append]; rfl
  have key : ∀ pre i, pre ++ [i] <+: is → (∀ d, AsRulesGive D ((spawn (run D (initWorld s) hist) ops).run D pre).W d) →
      ((∀ d, AsRulesGive D ((spawn (run D (initWorld s) hist) ops).run D (pre ++ [i])).W d) ↔ StoresAsGiven D ((spawn (run D (initWorld s) hist) ops).run D pre) i) := by
    intro pre i hpre hg
    have hpre' : pre <+: is := (List.prefix_append pre [i]).trans hpre
    have := hp (pre ++ [i]) hpre
    rw [hstep] at this ⊢
    exact step_exactly (hinv pre hpre') (hp pre hpre') hg i this
  constructor
  · intro h pre i hpre
    exact (key pre i hpre (h pre ((List.prefix_append pre [i]).trans hpre))).1 (h _ hpre)
  · intro h
    have all : ∀ n, n ≤ is.length → ∀ d, AsRulesGive D ((spawn (run D (initWorld s) hist) ops).run D (is.take n)).W d := by
      intro n
      induction n with
      | zero => intro _ d; exact asRulesGive_of (hp [] List.nil_prefix d) (reachable_cache D s hist d)
      | succ n ih =>
        intro hle
        have hlt : n < is.length := by omega
        have hpre : is.take n ++ [is[n]] <+: is := by rw [← List.take_succ_eq_append_getElem hlt]; exact List.take_prefix _ _
        rw [List.take_succ_eq_append_getElem hlt]
        exact (key _ _ hpre (ih (by omega))).2 (h _ _ hpre)
    intro pre hpre
    have := all pre.length hpre.length_le
    rwa [← List.prefix_iff_eq_take.1 hpre] at this

/-- Decides `StoresAsGiven`. -/
def storesB (D : Decls) (C : Threads) (i : Nat) : Bool :=
  match C.threads[i]? with
  | none => true
  | some th =>
    match th.op.asked, th.stage with
    | some (d, q), .found _ t => match compositionOf C.W d t with
      | none => false
      | some ms => decide (givenBy D C.W d q = .ok ms)
    | some (d, q), .built _ r => decide (givenBy D C.W d q = .ok r.mixins)
    | _, _ => true

theorem storesB_iff (D : Decls) (C : Threads) (i : Nat) : storesB D C i = true ↔ StoresAsGiven D C i := by
  unfold storesB StoresAsGiven
  cases hi : C.threads[i]? with
  | none => simp
  | some th =>
    simp only [Option.some.injEq, forall_eq']
    cases ha : th.op.asked with
    | none => simp
    | some p =>
      obtain ⟨d, q⟩ := p
      cases hs : th.stage with
      | found key t =>
        simp only [Option.some.injEq, Prod.mk.injEq, Stage.found.injEq]
        cases hc : compositionOf C.W d t with
        | none =>
          constructor
          · intro h; simp at h
          · intro h
            obtain ⟨ms, h1, -⟩ := (h d q ⟨rfl, rfl⟩).1 key t ⟨rfl, rfl⟩
            rw [hc] at h1; simp at h1
        | some ms =>
          constructor
          · rintro h d' q' ⟨rfl, rfl⟩
            exact ⟨by rintro key' t' ⟨rfl, rfl⟩; exact ⟨ms, hc, of_decide_eq_true h⟩, fun _ _ e => by simp at e⟩
          · intro h
            obtain ⟨ms', h1, h2⟩ := (h d q ⟨rfl, rfl⟩).1 key t ⟨rfl, rfl⟩
            rw [hc, Option.some.injEq] at h1
            subst h1
            exact decide_eq_true h2
      | built key r =>
        simp only [Option.some.injEq, Prod.mk.injEq, Stage.built.injEq]
        constructor
        · rintro h d' q' ⟨rfl, rfl⟩
          exact ⟨fun _ _ e => by simp at e, by rintro key' r' ⟨rfl, rfl⟩; exact of_decide_eq_true h⟩
        · intro h
          exact decide_eq_true ((h d q ⟨rfl, rfl⟩).2 key r ⟨rfl, rfl⟩)
      | todo => simp
      | mutating => simp
      | missing key ms => simp
      | purged => simp
      | done r => simp

-- both sides occur: the schedule of `C49_refuted`, and one in which the rule is added between the first two parts of the same `get_type` (not allowed by the condition of
-- `C49_queries_by_rules_partial`)
example : ¬ StoresAsGiven tyDecls ((spawn ruleWorld ruleOps).run tyDecls [0, 0, 1, 0]) 0 ∧
    StoresAsGiven tyDecls ((spawn ruleWorld ruleOps).run tyDecls [0, 1, 0, 0]) 0 ∧
    disciplinedB true tyDecls (spawn ruleWorld ruleOps) [0, 1, 0, 0, 0] = false ∧ disciplinedB false tyDecls (spawn ruleWorld ruleOps) [0, 1, 0, 0, 0] = true := by
  refine ⟨?_, (storesB_iff _ _ _).1 (by decide +kernel), by decide +kernel, by decide +kernel⟩
  rw [← storesB_iff]
  decide +kernel

end Dnmx.Props
