import Verif.Proofs.AnyScheduleLemmas
import Verif.Props.Concurrent

/-!
# C49, C50: what holds in all schedules

The theorems of Props/Concurrent.lean need calls of some kinds not to overlap. Without any such discipline, the answers of `get_type` are about some moment of the past, which is a moment of the call itself if the
query was not stored when the call looked for it.
-/

set_option linter.unusedVariables false

namespace Dnmx.Props
open Spec

theorem spawn_todo (W : World) (ops : List Op) : ∀ (i : Nat) th, (spawn W ops).threads[i]? = some th → th.stage = .todo := by
  intro i th h
  simp only [spawn, List.getElem?_map, Option.map_eq_some_iff] at h
  obtain ⟨op, -, h⟩ := h
  rw [← h]

theorem any_start (D : Decls) (s : DomId → Settings) (hist ops : List Op) : AnyInv (spawn (run D (initWorld s) hist) ops) :=
  anySpawn (fun d => reachable_types D s hist d) (reachable_types D s hist 0).nextPos ops

theorem resolve_of {D : Decls} {W : World} {d : DomId} {q ms : List Mix} (h : resolvesTo D W d q ms) : resolve D (rulesOf D (W.view D d) (W.doms d)) q = .ok ms := by
  unfold resolvesTo at h
  simp [resolve, h]

theorem comp_of {W : World} {d : DomId} {t : TypeId} {r : TypeRec} (h : (W.doms d).typeAt d t = some r) : compositionOf W d t = some r.mixins := by
  simp [compositionOf, h]

/-- C49, C50: in all schedules, the type that a `get_type` gives was stored for the query at a moment at which the call looked; or the rules gave its composition at a moment at which the call looked, and it existed at a
(maybe later) moment of the call. -/
theorem C49_during (D : Decls) (s : DomId → Settings) (hist ops : List Op) (is : List Nat) (i : Nat) (op : Op) (d : DomId) (q : List Mix) (t : TypeId) (ho : ops[i]? = some op) (ha : op.asked = some (d, q))
    (h : ((spawn (run D (initWorld s) hist) ops).run D is).outcome i = some (.ok (some t))) :
    let C := spawn (run D (initWorld s) hist) ops
    ∃ js, Executes D C is i js ∧
      ((q, t) ∈ queriesOf (C.run D js).W d ∨
        ∃ js' ms, js <+: js' ∧ InCall D C is i js' ∧ resolve D (rulesOf D ((C.run D js).W.view D d) ((C.run D js).W.doms d)) q = .ok ms ∧ compositionOf (C.run D js').W d t = some ms) := by
  intro C
  obtain ⟨th, h1, h2⟩ := outcome_some h
  have hop := spawn_op h1
  rw [ho] at hop; simp at hop; subst hop
  have hs := (seen_run (any_start D s hist ops) (spawn_todo _ ops) is).1 i th h1
  rw [h2] at hs
  obtain ⟨d', q', h3, js, h4, h5⟩ := hs
  rw [ha] at h3; simp at h3
  obtain ⟨rfl, rfl⟩ := h3
  refine ⟨js, h4, ?_⟩
  rcases h5 with h5 | ⟨js', r, h5, h6, h7, h8⟩
  · exact .inl (findQuery_some h5)
  · exact .inr ⟨js', r.mixins, h5, h6, resolve_of h7, comp_of h8⟩

/-- The rule is added in the middle of the call: the rules gave the composition when the call looked. -/
example : ((spawn ruleWorld ruleOps).run tyDecls ruleSchedule).outcome 0 = some (.ok (some 1)) ∧ compositionOf ((spawn ruleWorld ruleOps).run tyDecls ruleSchedule).W 0 1 = some [3] ∧
    resolve tyDecls (rulesOf tyDecls (((spawn ruleWorld ruleOps).run tyDecls [0]).W.view tyDecls 0) (((spawn ruleWorld ruleOps).run tyDecls [0]).W.doms 0)) [3] = .ok [3] := by decide +kernel

/-- C49: in all schedules, a `get_type` that fails was asked with a mutation of another domain; or the rules failed with this error at a moment at which the call looked; or the type could not be created (unregistered,
foreign or duplicate mixins, clashes of features) at a moment of the call, after the rules had given its composition. -/
theorem C49_errors (D : Decls) (s : DomId → Settings) (hist ops : List Op) (is : List Nat) (i : Nat) (op : Op) (d : DomId) (q : List Mix) (e : Err) (ho : ops[i]? = some op) (ha : op.asked = some (d, q))
    (h : ((spawn (run D (initWorld s) hist) ops).run D is).outcome i = some (.error e)) :
    let C := spawn (run D (initWorld s) hist) ops
    (∃ md, op = .getTypeMut d md q ∧ md ≠ d ∧ e = .foreignMutation) ∨
    ∃ js, Executes D C is i js ∧
      (resolve D (rulesOf D ((C.run D js).W.view D d) ((C.run D js).W.doms d)) q = .error e ∨
        ∃ js' ms, js <+: js' ∧ Executes D C is i js' ∧ resolve D (rulesOf D ((C.run D js).W.view D d) ((C.run D js).W.doms d)) q = .ok ms ∧
          buildType D (C.run D js').W d (C.run D js').W.nextType ms = .error e) := by
  intro C
  obtain ⟨th, h1, h2⟩ := outcome_some h
  have hop := spawn_op h1
  rw [ho] at hop; simp at hop; subst hop
  have hs := (seen_run (any_start D s hist ops) (spawn_todo _ ops) is).1 i th h1
  rw [h2] at hs
  rcases hs d q ha with h3 | ⟨js, h4, h5⟩
  · exact .inl h3
  · refine .inr ⟨js, h4, ?_⟩
    rcases h5 with h5 | ⟨js', ms, h5, h6, h7, h8⟩
    · exact .inl (by simp only [resolve]; rw [h5])
    · exact .inr ⟨js', ms, h5, h6, resolve_of h7, h8⟩

/-- The mixin is unregistered in the middle of the call. -/
example : ((spawn concWorld [.getType 0 [3, 5], .unregMixin 0 5]).run tyDecls [0, 0, 1, 1, 0]).outcome 0 = some (.error .unregistered) := by decide +kernel

/-- Two moments of a schedule. -/
theorem comps_agree {D : Decls} {C : Threads} (hI : AnyInv C) {is js js' : List Nat} (h : js <+: is) (h' : js' <+: is) {d : DomId} {t : TypeId} {ms ms' : List Mix}
    (h1 : compositionOf (C.run D js).W d t = some ms) (h2 : compositionOf (C.run D js').W d t = some ms') : ms = ms' := by
  have key : ∀ {js js' : List Nat} {ms ms' : List Mix}, js <+: js' → compositionOf (C.run D js).W d t = some ms → compositionOf (C.run D js').W d t = some ms' → ms = ms' := by
    intro js js' ms ms' hp h1 h2
    obtain ⟨k, rfl⟩ := hp
    unfold compositionOf at h1 h2
    rw [Option.map_eq_some_iff] at h1 h2
    obtain ⟨r1, a1, b1⟩ := h1
    obtain ⟨r2, a2, b2⟩ := h2
    rw [Threads.run_append] at a2
    have := same_composition (anyRun (D := D) js hI).1 k d t r1 r2 a1 a2
    rw [← b1, ← b2, this]
  rcases Nat.le_total js.length js'.length with hl | hl
  · exact key (List.prefix_of_prefix_length_le h h' hl) h1 h2
  · exact (key (List.prefix_of_prefix_length_le h' h hl) h2 h1).symm

theorem InCall.before {D : Decls} {C : Threads} {is : List Nat} {i : Nat} {js : List Nat} (h : InCall D C is i js) : js <+: is := by
  rcases h with h | ⟨ks, h, rfl⟩
  · exact Executes.before h
  · exact h.1

/-- C49: in all schedules, a type that `get_type` gives has, whenever it exists, one composition: the one which the rules gave for the query at some moment of the schedule, or, if the query was stored before the threads
began, of the history before. -/
theorem C49_composition_seen (D : Decls) (s : DomId → Settings) (hist ops : List Op) (is : List Nat) (i : Nat) (op : Op) (d : DomId) (q : List Mix) (t : TypeId) (ho : ops[i]? = some op)
    (ha : op.asked = some (d, q)) (h : ((spawn (run D (initWorld s) hist) ops).run D is).outcome i = some (.ok (some t))) :
    let C := spawn (run D (initWorld s) hist) ops
    ∃ ms, ((∃ js, js <+: is ∧ resolve D (rulesOf D ((C.run D js).W.view D d) ((C.run D js).W.doms d)) q = .ok ms) ∨
        (∃ pre, pre <+: hist ∧ resolve D (rulesOf D ((run D (initWorld s) pre).view D d) ((run D (initWorld s) hist).doms d)) q = .ok ms)) ∧
      (∃ js, js <+: is ∧ compositionOf (C.run D js).W d t = some ms) ∧
      (∀ js, js <+: is → ∀ ms', compositionOf (C.run D js).W d t = some ms' → ms' = ms) := by
  intro C
  have hI := any_start D s hist ops
  suffices hs : ∃ ms, ((∃ js, js <+: is ∧ resolve D (rulesOf D ((C.run D js).W.view D d) ((C.run D js).W.doms d)) q = .ok ms) ∨
        (∃ pre, pre <+: hist ∧ resolve D (rulesOf D ((run D (initWorld s) pre).view D d) ((run D (initWorld s) hist).doms d)) q = .ok ms)) ∧
      (∃ js, js <+: is ∧ compositionOf (C.run D js).W d t = some ms) by
    obtain ⟨ms, h1, js0, h2, h3⟩ := hs
    exact ⟨ms, h1, ⟨js0, h2, h3⟩, fun js hjs ms' hms => comps_agree hI hjs h2 hms h3⟩
  obtain ⟨js, h1, h2⟩ := C49_during D s hist ops is i op d q t ho ha h
  rcases h2 with h2 | ⟨js', ms, h3, h4, h5, h6⟩
  · have hq := (seen_run hI (spawn_todo _ ops) js).2 d (q, t) h2
    rcases hq with hq | ⟨k, ks, ks', r, g1, g2, g3, g4, g5⟩
    · obtain ⟨r, pre, hpre, g1, g2⟩ := reachable_seen D s d hist (q, t) hq
      exact ⟨r.mixins, .inr ⟨pre, hpre, by simp [resolve, g2]⟩, [], List.nil_prefix, comp_of g1⟩
    · have hb := (Executes.before h1)
      exact ⟨r.mixins, .inl ⟨ks, (Executes.before g1).trans hb, resolve_of g4⟩, ks', (InCall.before g3).trans hb, comp_of g5⟩
  · exact ⟨ms, .inl ⟨js, Executes.before h1, h5⟩, js', InCall.before h4, h6⟩

/-- C50: in all schedules, if the query was not stored for the type when the call looked, the type existed at a moment of the call. -/
theorem C50_existed (D : Decls) (s : DomId → Settings) (hist ops : List Op) (is : List Nat) (i : Nat) (op : Op) (d : DomId) (q : List Mix) (t : TypeId) (ho : ops[i]? = some op) (ha : op.asked = some (d, q))
    (h : ((spawn (run D (initWorld s) hist) ops).run D is).outcome i = some (.ok (some t)))
    (hq : ∀ js, Executes D (spawn (run D (initWorld s) hist) ops) is i js → (q, t) ∉ queriesOf ((spawn (run D (initWorld s) hist) ops).run D js).W d) :
    ∃ js, InCall D (spawn (run D (initWorld s) hist) ops) is i js ∧ compositionOf ((spawn (run D (initWorld s) hist) ops).run D js).W d t ≠ none := by
  obtain ⟨js, h1, h2⟩ := C49_during D s hist ops is i op d q t ho ha h
  rcases h2 with h2 | ⟨js', ms, h3, h4, h5, h6⟩
  · exact absurd h2 (hq js h1)
  · exact ⟨js', h4, by rw [h6]; simp⟩

/-- C50: in all schedules, types of a domain have different compositions and addresses at each moment, none is without mixins, and the type at an address keeps its composition. -/
theorem C50_registry_always (D : Decls) (s : DomId → Settings) (hist ops : List Op) (is : List Nat) (d : DomId) :
    let C := spawn (run D (initWorld s) hist) ops
    ((typesOf (C.run D is).W d).map (·.mixins)).Nodup ∧ ((typesOf (C.run D is).W d).map (·.tid)).Nodup ∧ (∀ r ∈ typesOf (C.run D is).W d, r.mixins ≠ []) ∧
    (∀ js js', js <+: is → js' <+: is → ∀ t ms ms', compositionOf (C.run D js).W d t = some ms → compositionOf (C.run D js').W d t = some ms' → ms = ms') := by
  intro C
  have hI := any_start D s hist ops
  have h := (anyRun (D := D) is hI).1
  refine ⟨?_, ?_, fun r hr => h.nonempty d r (.inl hr), fun js js' hj hj' t ms ms' h1 h2 => comps_agree hI hj hj' h1 h2⟩
  · unfold List.Nodup typesOf; rw [List.pairwise_map]; exact h.comps d
  · unfold List.Nodup typesOf; rw [List.pairwise_map]
    refine List.Pairwise.imp_of_mem ?_ (h.comps d)
    intro a b ha hb hne he
    exact hne (by rw [h.inj d a b (.inl ha) (.inl hb) he])

theorem purge_none_iff (x : Dom) (d : DomId) (id : Option Nat) (m : Mix) : ∀ qs : List (List Mix × TypeId), purgeQueries x d id m qs = none ↔ ∃ e ∈ qs, x.typeAt d e.2 = none
  | [] => by simp [purgeQueries]
  | e :: qs => by
    unfold purgeQueries
    have ih := purge_none_iff x d id m qs
    have hq : queryHas x d id e = none ↔ x.typeAt d e.2 = none := by
      unfold queryHas; simp
    cases h1 : queryHas x d id e with
    | none =>
      simp only [true_iff]
      exact ⟨e, List.mem_cons_self, hq.1 h1⟩
    | some b =>
      have hn : x.typeAt d e.2 ≠ none := fun h => by rw [hq.2 h] at h1; simp at h1
      cases h2 : purgeQueries x d id m qs with
      | none =>
        simp only [true_iff]
        obtain ⟨e', h3, h4⟩ := ih.1 h2
        exact ⟨e', List.mem_cons_of_mem _ h3, h4⟩
      | some rest =>
        simp only [reduceCtorEq, false_iff]
        rintro ⟨e', h3, h4⟩
        rcases List.mem_cons.1 h3 with rfl | h3
        · exact hn h4
        · rw [ih.2 ⟨e', h3, h4⟩] at h2; simp at h2

theorem purgePart_ub_iff (W : World) (d : DomId) (m : Mix) : (purgePart W d m).1 = .done (.error .ub) ↔ purgeQueries (W.doms d) d (W.mixId m) m (W.doms d).queries = none := by
  unfold purgePart
  simp only
  generalize hx : purgeQueries (W.doms d) d (W.mixId m) m (W.doms d).queries = x
  cases x <;> simp

theorem not_begun {D : Decls} {i : Nat} : ∀ (is : List Nat) {C : Threads} {th : Thread}, i ∉ is → C.threads[i]? = some th → (C.run D is).threads[i]? = some th
  | [], C, th, _, h => h
  | j :: is, C, th, hi, h => by
    have hij : j ≠ i := fun e => hi (by rw [e]; exact List.mem_cons_self)
    refine not_begun (D := D) is (C := C.step D j) (fun e => hi (List.mem_cons_of_mem _ e)) ?_
    cases hj : C.threads[j]? with
    | none => rw [Threads.step_none hj]; exact h
    | some th' =>
      rw [Threads.step_some hj]
      simp only
      rw [List.getElem?_set, if_neg hij]
      exact h

/-- C50: what a type that is gone does to others, exactly: `unregister_mixin`, when it begins, reads a type that is gone (undefined behaviour) if and only if a stored query of the domain leads to one. -/
theorem C50_unregister_exactly (D : Decls) (s : DomId → Settings) (hist ops : List Op) (is : List Nat) (i : Nat) (d : DomId) (m : Mix) (ho : ops[i]? = some (.unregMixin d m)) (hi : i ∉ is) :
    let C := spawn (run D (initWorld s) hist) ops
    (C.run D (is ++ [i])).outcome i = some (.error .ub) ↔ ∃ e ∈ queriesOf (C.run D is).W d, compositionOf (C.run D is).W d e.2 = none := by
  intro C
  have h0 : C.threads[i]? = some { op := .unregMixin d m } := by
    show (ops.map _)[i]? = _
    rw [List.getElem?_map, ho]; rfl
  have h1 := not_begun (D := D) is hi h0
  have hlt := (List.getElem?_eq_some_iff.1 h1).1
  have hp := purge_none_iff ((C.run D is).W.doms d) d ((C.run D is).W.mixId m) m ((C.run D is).W.doms d).queries
  have hc : (∃ e ∈ queriesOf (C.run D is).W d, compositionOf (C.run D is).W d e.2 = none) ↔ ∃ e ∈ ((C.run D is).W.doms d).queries, ((C.run D is).W.doms d).typeAt d e.2 = none := by
    unfold compositionOf queriesOf
    simp
  rw [hc, ← hp, Threads.run_last, Threads.step_some h1]
  have e1 : nextPart D (C.run D is).W (.unregMixin d m) .todo = purgePart (C.run D is).W d m := rfl
  unfold Threads.outcome
  simp only [e1]
  rw [List.getElem?_set, if_pos rfl, if_pos hlt]
  rw [← purgePart_ub_iff]
  cases hs : (purgePart (C.run D is).W d m).1 with
  | done r => simp
  | _ => simp

/-- A garbage collection in the middle of a call leaves such a query. -/
example : ((spawn gcWorld (gcOps ++ [.unregMixin 0 3])).run tyDecls [0, 0, 1, 0, 2]).outcome 2 = some (.error .ub) := by decide +kernel

end Dnmx.Props
