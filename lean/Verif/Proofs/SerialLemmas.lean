import Verif.Proofs.AnswerLemmas

/-! # Lemmas: threads one after the other, and what is stored when all calls are over -/

namespace Dnmx
open Spec

set_option linter.unusedVariables false
set_option linter.unusedSimpArgs false
set_option linter.unusedSectionVars false

theorem run_replicate (D : Decls) (i : Nat) (k : Nat) : ∀ (C : Threads) (th : Thread), C.threads[i]? = some th →
    C.run D (List.replicate k i) = Threads.mk (runAlone D th.op k (th.stage, C.W)).2
      (C.threads.set i (Thread.mk th.op (runAlone D th.op k (th.stage, C.W)).1)) := by
  induction k with
  | zero =>
    intro C th h
    have : C.threads.set i th = C.threads := by
      obtain ⟨hl, he⟩ := List.getElem?_eq_some_iff.1 h
      apply List.ext_getElem?
      intro j
      by_cases hj : i = j
      · subst hj; simp [List.getElem?_set, hl, h, he]
      · simp [List.getElem?_set, hj]
    show C = _
    rw [show (runAlone D th.op 0 (th.stage, C.W)) = (th.stage, C.W) from rfl]
    simp only
    rw [this]
  | succ k ih =>
    intro C th h
    have hl := (List.getElem?_eq_some_iff.1 h).1
    have hs := Threads.step_some (D := D) h
    have hg : (C.step D i).threads[i]? = some { th with stage := (nextPart D C.W th.op th.stage).1 } := by
      rw [hs]; simp [List.getElem?_set, hl]
    rw [show C.run D (List.replicate (k + 1) i) = (C.step D i).run D (List.replicate k i) from rfl, ih _ _ hg, hs]
    simp only [List.set_set]
    rfl

/-- threads number `n` and later, one after the other -/
def blocks : Nat → Nat → List Nat
  | _, 0 => []
  | n, k + 1 => List.replicate 4 n ++ blocks (n + 1) k

theorem alone_world (D : Decls) (W : World) (op : Op) : (alone D W op).2 = (step D W op).2 := by
  cases op with
  | getType d q =>
    simp only [alone, step]
    cases h : getType D W d q with
    | mk r W' => cases r <;> simp [discard]
  | getTypeMut d md q =>
    simp only [alone, step]
    cases h : getTypeMut D W d md q with
    | mk r W' => cases r <;> simp [discard]
  | _ => rfl

theorem run_blocks (D : Decls) (ops : List Op) : ∀ (C : Threads) (pre : List Thread),
    C.threads = pre ++ ops.map (fun op => { op := op }) → (∀ th ∈ pre, ∃ r, th.stage = .done r) →
    (C.run D (blocks pre.length ops.length)).W = run D C.W ops ∧
    ∀ th ∈ (C.run D (blocks pre.length ops.length)).threads, ∃ r, th.stage = .done r := by
  induction ops with
  | nil =>
    intro C pre h hp
    simp at h
    refine ⟨rfl, ?_⟩
    intro th hth
    have : th ∈ pre := by rw [← h]; exact hth
    exact hp th this
  | cons op ops ih =>
    intro C pre h hp
    have hget : C.threads[pre.length]? = some { op := op } := by rw [h]; simp
    have hrep := run_replicate D pre.length 4 C _ hget
    have hal := runAlone_step D C.W op 0
    rw [show (0 + 4) = 4 from rfl] at hal
    simp only at hrep
    rw [hal] at hrep
    simp only [List.length_cons, blocks]
    rw [Threads.run_append, hrep]
    have hth : C.threads.set pre.length { op := op, stage := .done (alone D C.W op).1 } =
        (pre ++ [{ op := op, stage := .done (alone D C.W op).1 }]) ++ ops.map (fun op => { op := op }) := by
      rw [h]; simp
    have := ih { W := (alone D C.W op).2, threads := C.threads.set pre.length { op := op, stage := .done (alone D C.W op).1 } }
      (pre ++ [{ op := op, stage := .done (alone D C.W op).1 }]) hth (by
        intro th hm
        rw [List.mem_append] at hm
        rcases hm with hm | hm
        · exact hp th hm
        · simp at hm; subst hm; exact ⟨_, rfl⟩)
    rw [List.length_append, List.length_singleton] at this
    refine ⟨?_, this.2⟩
    rw [this.1]
    simp only
    rw [alone_world]
    rfl

/-! ## stored queries -/

/-- the query is stored -/
def stored (W : World) (d : DomId) (q : List Mix) : Prop := ∃ t, (q, t) ∈ (W.doms d).queries

theorem stored_storeQuery {key q : List Mix} {t : TypeId} {qs : List (List Mix × TypeId)} (h : ∃ t', (q, t') ∈ qs) :
    ∃ t', (q, t') ∈ storeQuery key t qs := by
  obtain ⟨t', h⟩ := h
  by_cases hq : q = key
  · subst hq; exact ⟨t, storeQuery_self q t qs⟩
  · exact ⟨t', storeQuery_keep key t qs _ h hq⟩

theorem stored_setDom {W : World} {d d' : DomId} {q key : List Mix} {t : TypeId} {x : Dom}
    (hx : x.queries = storeQuery key t (W.doms d').queries) (h : stored W d q) : stored (W.setDom d' x) d q := by
  by_cases hd : d' = d
  · subst hd
    unfold stored
    rw [show ((W.setDom d' x).doms d') = x by simp, hx]
    exact stored_storeQuery h
  · unfold stored
    rw [show ((W.setDom d' x).doms d) = W.doms d by simp [World.setDom, upd, Ne.symm hd]]
    exact h

theorem getPart_stored {D : Decls} {W : World} {d' : DomId} {q' : List Mix} {st : Stage} {d : DomId} {q : List Mix}
    (h : stored W d q) : stored (getPart D W d' q' st).2 d q := by
  cases st with
  | found key t => exact stored_setDom rfl h
  | missing key ms =>
    unfold getPart
    cases hbt : buildType D W d' W.nextType ms <;> simp only [hbt] <;> exact h
  | built key t =>
    unfold getPart emplaceSection
    cases hft : findType t.mixins (W.doms d').types with
    | none => simp only [hft]; exact stored_setDom rfl h
    | some old => simp only [hft]; exact stored_setDom rfl h
  | _ => exact h

theorem nextPart_get {D : Decls} {W : World} {op : Op} {st : Stage} {d : DomId} {q : List Mix} (hop : op.asked = some (d, q))
    (hb : st.begun) : nextPart D W op st = getPart D W d q st := by
  cases op <;> simp [Op.asked] at hop
  all_goals (obtain ⟨h1, h2⟩ := hop; subst h1; subst h2; cases st <;> first | exact absurd hb id | rfl)

theorem beginPart_asked {D : Decls} {W : World} {op : Op} {d : DomId} {q : List Mix} (hop : op.asked = some (d, q)) :
    (beginPart D W op).2 = W ∧ ((beginPart D W op).1 = .mutating ∨ (beginPart D W op).1 = lookupPart D W d q ∨
      (∃ t, findQuery q (W.doms d).queries = some t ∧ (beginPart D W op).1 = .done (.ok (some t))) ∨
      (beginPart D W op).1 = .done (.error .foreignMutation)) := by
  cases op <;> simp [Op.asked] at hop
  case getTypeMut d' md q' =>
    obtain ⟨h1, h2⟩ := hop; subst h1; subst h2
    by_cases hmd : md = d' <;> simp [beginPart, hmd]
  case getType d' q' =>
    obtain ⟨h1, h2⟩ := hop; subst h1; subst h2
    cases hq : findQuery q' (W.doms d').queries <;> simp [beginPart, hq]

theorem nextPart_stored {D : Decls} {W : World} {op : Op} {st : Stage} {d : DomId} {q : List Mix} (hop : op.asked ≠ none)
    (h : stored W d q) : stored (nextPart D W op st).2 d q := by
  cases ho : op.asked with
  | none => exact absurd ho hop
  | some p =>
    obtain ⟨d', q'⟩ := p
    by_cases hb : st.begun
    · rw [nextPart_get ho hb]; exact getPart_stored h
    · cases st with
      | done r => exact h
      | todo => rw [show nextPart D W op .todo = beginPart D W op from rfl, (beginPart_asked ho).1]; exact h
      | _ => exact absurd trivial hb

theorem lookupPart_stored {D : Decls} {W : World} {d : DomId} {q : List Mix} {t : TypeId}
    (h : lookupPart D W d q = .done (.ok (some t))) : stored W d q := by
  unfold lookupPart lookupSection at h
  cases hq : findQuery q (W.doms d).queries with
  | some t' =>
    exact ⟨t', findQuery_some hq⟩
  | none =>
    rw [hq] at h
    simp only at h
    cases hr : (applyMutationRules D (rulesOf D (W.view D d) (W.doms d)) q).result with
    | error e => rw [hr] at h; simp at h
    | ok p =>
      rw [hr] at h
      simp only at h
      cases ho : (if p.2.isEmpty then some emptyTid else (findType p.2 (W.doms d).types).map (·.tid)) <;> rw [ho] at h <;> simp at h

/-- a get_type that ends with a type has stored its query -/
theorem done_stored {b : Bool} {D : Decls} {W : World} {op : Op} {st : Stage} {d : DomId} {q : List Mix} {t : TypeId}
    (hs : StageOk b D W op st) (hop : op.asked = some (d, q)) (hnd : ∀ r, st ≠ .done r)
    (h : (nextPart D W op st).1 = .done (.ok (some t))) : stored (nextPart D W op st).2 d q := by
  by_cases hb : st.begun
  · rw [nextPart_get hop hb] at h ⊢
    cases st with
    | todo => exact absurd hb id
    | done r => exact absurd hb id
    | mutating => exact lookupPart_stored h
    | found key t' =>
      obtain ⟨d', h1, -⟩ := hs
      rw [hop] at h1; simp at h1; obtain ⟨-, h1⟩ := h1; subst h1
      refine ⟨t', ?_⟩
      simp [getPart, storeQuery_self]
    | missing key ms =>
      cases hbt : buildType D W d W.nextType ms <;> simp [getPart, hbt] at h
    | built key t' =>
      obtain ⟨d', h1, -⟩ := hs
      rw [hop] at h1; simp at h1; obtain ⟨-, h1⟩ := h1; subst h1
      cases hft : findType t'.mixins (W.doms d).types with
      | none => exact ⟨t'.tid, by simp [getPart, emplaceSection, hft, storeQuery_self]⟩
      | some old => exact ⟨old.tid, by simp [getPart, emplaceSection, hft, storeQuery_self]⟩
    | purged => obtain ⟨d', m, h', -⟩ := hs; rw [h'] at hop; simp [Op.asked] at hop
  · cases st with
    | done r => exact absurd rfl (hnd r)
    | todo =>
      rw [show nextPart D W op .todo = beginPart D W op from rfl] at h ⊢
      obtain ⟨h1, h2⟩ := beginPart_asked (D := D) (W := W) hop
      rw [h1]
      rcases h2 with h2 | h2 | ⟨t', h2, h3⟩ | h2
      · rw [h2] at h; simp at h
      · rw [h2] at h; exact lookupPart_stored h
      · exact ⟨t', findQuery_some h2⟩
      · rw [h2] at h; simp at h
    | _ => exact absurd trivial hb

/-- all successful calls have stored their queries -/
def AllStored (C : Threads) : Prop :=
  ∀ (i : Nat) th d q t, C.threads[i]? = some th → th.op.asked = some (d, q) → th.stage = .done (.ok (some t)) → stored C.W d q

theorem allStored_run {D : Decls} {W0 : World} {ops : List Op} (hops : ∀ op ∈ ops, op.asked ≠ none) (is : List Nat) :
    ∀ {C : Threads}, AskInv D W0 ops C → AllStored C → AllStored (C.run D is) := by
  induction is with
  | nil => intro C _ h; exact h
  | cons i is ih =>
    intro C hinv h
    refine ih (hinv.step hops i) ?_
    cases hi : C.threads[i]? with
    | none => rw [Threads.step_none hi]; exact h
    | some th =>
      rw [Threads.step_some hi]
      intro j th' d q t hj hop hst
      rcases get_set hi hj with ⟨-, h2⟩ | ⟨h1, h2⟩
      · subst h2
        simp only at hop hst ⊢
        by_cases hd : ∃ r, th.stage = .done r
        · obtain ⟨r, hd⟩ := hd
          rw [hd] at hst ⊢
          simp [nextPart] at hst
          subst hst
          exact h i th d q t hi hop hd
        · exact done_stored (hinv.conc.stage i th hi) hop (fun r e => hd ⟨r, e⟩) hst
      · exact nextPart_stored (hops _ (hinv.stage i th hi).1) (h j th' d q t h2 hop hst)

theorem allStored_spawn (W : World) (ops : List Op) : AllStored (spawn W ops) := by
  intro i th d q t hi _ hst
  simp [spawn] at hi
  obtain ⟨o, -, ho⟩ := hi
  subst ho
  simp at hst

/-- the mutation that is passed is one of the domain -/
def Op.own : Op → Prop
  | .getTypeMut d md _ => md = d
  | _ => True

/-- where stored queries and types come from -/
structure Origin (D : Decls) (W0 : World) (ops : List Op) (C : Threads) : Prop where
  own : ∀ (i : Nat) th, C.threads[i]? = some th → th.stage.begun → th.op.own
  queries : ∀ d q, stored C.W d q → stored W0 d q ∨ ∃ op ∈ ops, op.asked = some (d, q) ∧ op.own
  types : ∀ d, ∀ r ∈ (C.W.doms d).types, r ∈ (W0.doms d).types ∨ ∃ q, stored C.W d q ∧ answerOf D W0 d q = .ok r.mixins

theorem stored_new {W : World} {d d' : DomId} {q key : List Mix} {t : TypeId} {x : Dom}
    (hx : x.queries = storeQuery key t (W.doms d').queries) (h : stored (W.setDom d' x) d q) : stored W d q ∨ (d = d' ∧ q = key) := by
  obtain ⟨t', h⟩ := h
  by_cases hd : d' = d
  · subst hd
    rw [show ((W.setDom d' x).doms d') = x by simp, hx] at h
    rcases storeQuery_mem key t _ _ h with h1 | h1
    · simp at h1; exact .inr ⟨rfl, h1.1⟩
    · exact .inl ⟨t', h1.1⟩
  · rw [show ((W.setDom d' x).doms d) = W.doms d by simp [World.setDom, upd, Ne.symm hd]] at h
    exact .inl ⟨t', h⟩

theorem nextPart_new {b : Bool} {D : Decls} {W : World} {op : Op} {st : Stage} {d : DomId} {q : List Mix} (hop : op.asked ≠ none)
    (hs : StageOk b D W op st) (h : stored (nextPart D W op st).2 d q) :
    stored W d q ∨ (st.begun ∧ op.asked = some (d, q)) := by
  cases ho : op.asked with
  | none => exact absurd ho hop
  | some p =>
    obtain ⟨d', q'⟩ := p
    by_cases hb : st.begun
    · rw [nextPart_get ho hb] at h
      cases st with
      | found key t =>
        obtain ⟨d'', h1, -⟩ := hs
        rw [ho] at h1; simp at h1; obtain ⟨-, h1⟩ := h1; subst h1
        rcases stored_new rfl h with h2 | ⟨h2, h3⟩
        · exact .inl h2
        · subst h2; subst h3; exact .inr ⟨hb, rfl⟩
      | missing key ms =>
        cases hbt : buildType D W d' W.nextType ms <;> simp only [getPart, hbt] at h <;> exact .inl h
      | built key t =>
        obtain ⟨d'', h1, -⟩ := hs
        rw [ho] at h1; simp at h1; obtain ⟨-, h1⟩ := h1; subst h1
        have : stored W d q ∨ (d = d' ∧ q = q') := by
          cases hft : findType t.mixins (W.doms d').types with
          | none => simp only [getPart, emplaceSection, hft] at h; exact stored_new rfl h
          | some old => simp only [getPart, emplaceSection, hft] at h; exact stored_new rfl h
        rcases this with h2 | ⟨h2, h3⟩
        · exact .inl h2
        · subst h2; subst h3; exact .inr ⟨hb, rfl⟩
      | _ => exact .inl h
    · cases st with
      | done r => exact .inl h
      | todo => rw [show nextPart D W op .todo = beginPart D W op from rfl, (beginPart_asked ho).1] at h; exact .inl h
      | _ => exact absurd trivial hb

theorem nextPart_own {D : Decls} {W : World} {op : Op} {st : Stage} (hop : op.asked ≠ none) (hs : st.begun → op.own)
    (h : (nextPart D W op st).1.begun) : op.own := by
  by_cases hb : st.begun
  · exact hs hb
  · cases st with
    | done r => exact absurd h id
    | todo =>
      cases op <;> simp [Op.asked] at hop
      case getTypeMut d md q =>
        by_cases hmd : md = d
        · exact hmd
        · simp [nextPart, beginPart, hmd, Stage.begun] at h
      case getType d q => trivial
    | _ => exact absurd trivial hb

theorem nextPart_types {D : Decls} {W0 W : World} {op : Op} {st : Stage} {d : DomId} {r : TypeRec} (hop : op.asked ≠ none)
    (hs : StageAns D W0 W op st) (h : r ∈ ((nextPart D W op st).2.doms d).types) :
    r ∈ (W.doms d).types ∨ ∃ q, stored (nextPart D W op st).2 d q ∧ answerOf D W0 d q = .ok r.mixins := by
  cases ho : op.asked with
  | none => exact absurd ho hop
  | some p =>
    obtain ⟨d', q'⟩ := p
    by_cases hb : st.begun
    · rw [nextPart_get ho hb] at h ⊢
      cases st with
      | found key t =>
        by_cases hd : d = d'
        · subst hd; simp [getPart] at h; exact .inl h
        · simp only [getPart] at h; rw [setDom_ne _ _ hd] at h; exact .inl h
      | missing key ms =>
        cases hbt : buildType D W d' W.nextType ms <;> simp only [getPart, hbt] at h <;> exact .inl h
      | built key t =>
        obtain ⟨d'', h1, -, -, h4⟩ := hs
        rw [ho] at h1; simp at h1; obtain ⟨h1, h1'⟩ := h1; subst h1; subst h1'
        cases hft : findType t.mixins (W.doms d').types with
        | some old =>
          simp only [getPart, emplaceSection, hft] at h
          by_cases hd : d = d'
          · subst hd; simp at h; exact .inl h
          · rw [setDom_ne _ _ hd] at h; exact .inl h
        | none =>
          simp only [getPart, emplaceSection, hft] at h ⊢
          by_cases hd : d = d'
          · subst hd
            simp at h
            rcases h with h | h
            · exact .inl h
            · subst h
              exact .inr ⟨q', ⟨r.tid, by simp [storeQuery_self]⟩, h4⟩
          · rw [setDom_ne _ _ hd] at h; exact .inl h
      | _ => exact .inl h
    · cases st with
      | done r => exact .inl h
      | todo => rw [show nextPart D W op .todo = beginPart D W op from rfl, (beginPart_asked ho).1] at h; exact .inl h
      | _ => exact absurd trivial hb

theorem origin_run {D : Decls} {W0 : World} {ops : List Op} (hops : ∀ op ∈ ops, op.asked ≠ none) (is : List Nat) :
    ∀ {C : Threads}, AskInv D W0 ops C → Origin D W0 ops C → Origin D W0 ops (C.run D is) := by
  induction is with
  | nil => intro C _ h; exact h
  | cons i is ih =>
    intro C hinv h
    refine ih (hinv.step hops i) ?_
    cases hi : C.threads[i]? with
    | none => rw [Threads.step_none hi]; exact h
    | some th =>
      have hask := hops _ (hinv.stage i th hi).1
      rw [Threads.step_some hi]
      refine ⟨?_, ?_, ?_⟩
      · intro j th' hj hb
        rcases get_set hi hj with ⟨-, h2⟩ | ⟨-, h2⟩
        · subst h2; exact nextPart_own hask (h.own i th hi) hb
        · exact h.own j th' h2 hb
      · intro d q hq
        rcases nextPart_new hask (hinv.conc.stage i th hi) hq with h1 | ⟨h1, h2⟩
        · exact h.queries d q h1
        · exact .inr ⟨th.op, (hinv.stage i th hi).1, h2, h.own i th hi h1⟩
      · intro d r hr
        rcases nextPart_types hask (hinv.stage i th hi).2 hr with h1 | h1
        · rcases h.types d r h1 with h2 | ⟨q, h2, h3⟩
          · exact .inl h2
          · exact .inr ⟨q, nextPart_stored hask h2, h3⟩
        · exact .inr h1

theorem origin_spawn (D : Decls) (W : World) (ops : List Op) : Origin D W ops (spawn W ops) := by
  refine ⟨?_, fun d q h => .inl h, fun d r h => .inl h⟩
  intro i th hi hb
  simp [spawn] at hi
  obtain ⟨o, -, ho⟩ := hi
  subst ho
  exact absurd hb id

/-- all calls are over -/
def finished (C : Threads) : Prop := ∀ th ∈ C.threads, ∃ r, th.stage = .done r

/-- what is known when threads that call get_type are over -/
structure Outcome (D : Decls) (W0 : World) (ops : List Op) (C : Threads) : Prop where
  inv : AskInv D W0 ops C
  origin : Origin D W0 ops C
  all : AllStored C
  fin : finished C
  ops : C.threads.map (·.op) = ops

theorem Outcome.stored_le {D : Decls} {W0 : World} {ops : List Op} {C C' : Threads} (h : Outcome D W0 ops C) (h' : Outcome D W0 ops C')
    {d : DomId} {q : List Mix} (hq : stored C.W d q) : stored C'.W d q := by
  rcases h.origin.queries d q hq with ⟨t, h1⟩ | ⟨op, h1, h2, h3⟩
  · exact ⟨t, h'.inv.shared.keep d _ h1⟩
  · rw [← h'.ops, List.mem_map] at h1
    obtain ⟨th, hth, he⟩ := h1
    subst he
    obtain ⟨i, hi⟩ := List.mem_iff_getElem?.1 hth
    obtain ⟨r, hr⟩ := h'.fin th hth
    have hst := (h'.inv.stage i th hi).2
    rw [hr] at hst
    obtain ⟨d1, q1, k1, hcase⟩ := hst
    rw [h2] at k1; simp at k1; obtain ⟨k1, k1'⟩ := k1; subst k1; subst k1'
    rcases hcase with ⟨md, k2, k3, -⟩ | ⟨e, k2, -⟩ | ⟨t, x, k2, k3, k4⟩
    · rw [k2] at h3; exact absurd h3 k3
    · obtain ⟨t, ht⟩ := hq
      obtain ⟨x, -, k4⟩ := h.inv.shared.queries d _ ht
      simp only at k4
      rw [k2] at k4; simp at k4
    · subst k2
      exact h'.all i th d q t hi h2 hr

theorem Outcome.queries_le {D : Decls} {W0 : World} {ops : List Op} {C C' : Threads} (h : Outcome D W0 ops C) (h' : Outcome D W0 ops C')
    {d : DomId} {q : List Mix} {ms : List Mix} (hq : ∃ t, (q, t) ∈ queriesOf C.W d ∧ compositionOf C.W d t = some ms) :
    ∃ t, (q, t) ∈ queriesOf C'.W d ∧ compositionOf C'.W d t = some ms := by
  obtain ⟨t, h1, h2⟩ := hq
  obtain ⟨x, h3, h4⟩ := h.inv.shared.queries d _ h1
  obtain ⟨t', h5⟩ := h.stored_le h' ⟨t, h1⟩
  obtain ⟨x', h6, h7⟩ := h'.inv.shared.queries d _ h5
  simp only at h3 h4 h6 h7
  rw [h4] at h7; simp at h7
  simp [compositionOf, h3] at h2
  exact ⟨t', h5, by simp [compositionOf, h6, ← h7, h2]⟩

theorem Outcome.types_le {D : Decls} {W0 : World} {ops : List Op} {C C' : Threads} (h : Outcome D W0 ops C) (h' : Outcome D W0 ops C')
    {d : DomId} {ms : List Mix} (hm : ms ∈ (typesOf C.W d).map (·.mixins)) : ms ∈ (typesOf C'.W d).map (·.mixins) := by
  rw [List.mem_map] at hm ⊢
  obtain ⟨r, h1, h2⟩ := hm
  subst h2
  rcases h.origin.types d r h1 with h3 | ⟨q, h3, h4⟩
  · obtain ⟨l, hl, -⟩ := h'.inv.shared.types d
    exact ⟨r, by unfold typesOf; rw [hl]; exact List.mem_append.2 (.inl h3), rfl⟩
  · obtain ⟨t, h5⟩ := h.stored_le h' h3
    obtain ⟨x, h6, h7⟩ := h'.inv.shared.queries d _ h5
    simp only at h6 h7
    rw [h4] at h7; simp at h7
    have hne := ((h.inv.conc.types d).ok r h1).nonempty
    rcases typeAt_some h6 with ⟨-, h8⟩ | h8
    · subst h8
      exact absurd h7 hne
    · exact ⟨x, h8.2.1, h7.symm⟩

end Dnmx
