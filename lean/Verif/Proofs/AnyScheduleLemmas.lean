import Verif.Proofs.ConcurrentLemmas
import Verif.Proofs.RuleStateLemmas
import Verif.Proofs.BuilderLemmas
import Verif.Spec.AnySchedule

/-!
# All schedules

What holds for calls that overlap in any way.
-/

set_option linter.unusedVariables false
set_option linter.unusedSimpArgs false

namespace Dnmx
open Spec

/-! ## One part of a call -/

/-- Types and queries of all domains become fewer. -/
structure Fewer (W W' : World) : Prop where
  types : ∀ d, (W'.doms d).types.Sublist (W.doms d).types
  queries : ∀ d, ∀ e ∈ (W'.doms d).queries, e ∈ (W.doms d).queries
  next : W.nextType ≤ W'.nextType

theorem Fewer.refl (W : World) : Fewer W W := ⟨fun _ => List.Sublist.refl _, fun _ _ h => h, Nat.le_refl _⟩

theorem Fewer.setDom {W : World} {d : DomId} {x : Dom} (h1 : x.types.Sublist (W.doms d).types) (h2 : ∀ e ∈ x.queries, e ∈ (W.doms d).queries) : Fewer W (W.setDom d x) := by
  refine ⟨fun d' => ?_, fun d' => ?_, Nat.le_refl _⟩
  · rcases setDom_cases (W := W) (d := d) (x := x) d' with ⟨rfl, h⟩ | ⟨-, h⟩
    · rw [h]; exact h1
    · rw [h]; exact List.Sublist.refl _
  · rcases setDom_cases (W := W) (d := d) (x := x) d' with ⟨rfl, h⟩ | ⟨-, h⟩
    · rw [h]; exact h2
    · rw [h]; exact fun _ h => h

theorem Fewer.doms {W W' W'' : World} (h : Fewer W W') (h1 : W''.doms = W'.doms) (h2 : W''.nextType = W'.nextType) : Fewer W W'' :=
  ⟨fun d => by rw [h1]; exact h.types d, fun d => by rw [h1]; exact h.queries d, by rw [h2]; exact h.next⟩

theorem Fewer.trans {W W' W'' : World} (h : Fewer W W') (h' : Fewer W' W'') : Fewer W W'' :=
  ⟨fun d => (h'.types d).trans (h.types d), fun d e he => h.queries d e (h'.queries d e he), Nat.le_trans h.next h'.next⟩

theorem registerFeature_fewer (D : Decls) (W : World) (d : DomId) (f : Feat) : Fewer W (registerFeature D W d f).2 := by
  unfold registerFeature
  split
  · exact .refl W
  · refine Fewer.doms (Fewer.setDom (W := W) (d := d) (x := _) ?_ ?_) rfl rfl
    · exact List.Sublist.refl _
    · exact fun _ h => h

theorem registerFeatures_fewer (D : Decls) (d : DomId) : ∀ (fs : List Feat) (W : World), Fewer W (registerFeatures D W d fs).2
  | [], W => .refl W
  | x :: fs, W => by
    unfold registerFeatures
    by_cases hx : W.featId x ≠ none
    · rw [if_pos hx]; exact registerFeatures_fewer D d fs W
    · rw [if_neg hx]
      have h1 := registerFeature_fewer D W d x
      cases hy : registerFeature D W d x with
      | mk r W' =>
        rw [hy] at h1
        cases r with
        | error e => exact h1
        | ok u => exact h1.trans (registerFeatures_fewer D d fs W')

theorem registerMixin_fewer (D : Decls) (W : World) (d : DomId) (m : Mix) : Fewer W (registerMixin D W d m).2 := by
  unfold registerMixin
  by_cases hx : W.mixDom m ≠ none ∧ W.mixDom m ≠ some d
  · rw [if_pos hx]; exact .refl W
  · rw [if_neg hx]
    have h1 := registerFeatures_fewer D d ((D.mix m).feats.map (·.feat)) W
    cases hy : registerFeatures D W d ((D.mix m).feats.map (·.feat)) with
    | mk r W' =>
      rw [hy] at h1
      cases r with
      | error e => exact h1
      | ok u =>
        simp only
        split
        · exact h1
        · refine h1.trans (Fewer.doms (Fewer.setDom (W := W') (d := d) (x := _) ?_ ?_) rfl rfl)
          · exact List.Sublist.refl _
          · exact fun _ h => h

theorem step_fewer (D : Decls) (W : World) (op : Op) (hask : op.asked = none) (hun : ∀ d m, op ≠ .unregMixin d m) : Fewer W (step D W op).2 := by
  cases op with
  | regFeature d f => exact registerFeature_fewer D W d f
  | unregFeature d f =>
    simp only [step]
    rcases unregisterFeature_cases W d f with ⟨h1, -⟩ | ⟨j, h1, h2, h3⟩
    · rw [h1]; exact .refl W
    · rw [h3]
      exact Fewer.doms (Fewer.setDom (W := W) (d := d) (x := { W.doms d with feats := (W.doms d).feats.set j none }) (List.Sublist.refl _) (fun _ h => h)) rfl rfl
  | regMixin d m => exact registerMixin_fewer D W d m
  | unregMixin d m => exact absurd rfl (hun d m)
  | regClass d c =>
    simp only [step]
    rcases registerTypeClass_cases D W d c with h1 | h1 | h1 | h1 | ⟨h1, -⟩
    · rw [h1.1]; exact .refl W
    · rw [h1.1]; exact .refl W
    · rw [h1.1]; exact .refl W
    · rw [h1.1]; exact .refl W
    · rw [h1]
      exact Fewer.setDom (List.Sublist.refl _) (fun _ h => h)
  | unregClass d c =>
    simp only [step, unregisterTypeClass]
    exact Fewer.setDom (List.Sublist.refl _) (fun _ h => h)
  | addRule d r =>
    simp only [step, addRule]
    split
    · exact .refl W
    · split
      · exact Fewer.setDom (List.Sublist.refl _) (fun _ h => h)
      · exact Fewer.setDom (List.Sublist.refl _) (fun _ h => by simp at h)
  | removeRule d r =>
    simp only [step, removeRule]
    split
    · exact .refl W
    · split
      · exact Fewer.setDom (List.Sublist.refl _) (fun _ h => h)
      · exact Fewer.setDom (List.Sublist.refl _) (fun _ h => by simp at h)
  | getTypeMut d md q => simp [Op.asked] at hask
  | getType d q => simp [Op.asked] at hask
  | gc d num =>
    simp only [step, garbageCollect, collectTypes_eq]
    exact Fewer.setDom List.filter_sublist (fun e h => (List.mem_filter.1 h).1)

theorem purgeQueries_sub (x : Dom) (d : DomId) (id : Option Nat) (m : Mix) : ∀ (qs qs' : List (List Mix × TypeId)), purgeQueries x d id m qs = some qs' → ∀ e ∈ qs', e ∈ qs
  | [], qs', h => by simp [purgeQueries] at h; subst h; simp
  | q :: qs, qs', h => by
    unfold purgeQueries at h
    cases h1 : queryHas x d id q with
    | none => rw [h1] at h; simp at h
    | some b =>
      cases h2 : purgeQueries x d id m qs with
      | none => rw [h1, h2] at h; simp at h
      | some rest =>
        rw [h1, h2] at h
        simp only [Option.some.injEq] at h
        have ih := purgeQueries_sub x d id m qs rest h2
        intro e he
        subst h
        by_cases hb : (b || q.1.contains m) = true
        · rw [if_pos hb] at he; exact List.mem_cons_of_mem _ (ih e he)
        · rw [if_neg hb] at he
          rcases List.mem_cons.1 he with h | h
          · rw [h]; exact List.mem_cons_self
          · exact List.mem_cons_of_mem _ (ih e h)

/-- What one part of a call does. -/
inductive PartIs (D : Decls) (W : World) (op : Op) (st : Stage) : Stage → World → Prop
  | same (h : st.begun ∨ ∃ r, st = .done r) : PartIs D W op st st W
  | other (st' : Stage) (W' : World) (h : op.asked = none) (hs : Fewer W W') (h1 : ∀ t, st' ≠ .done (.ok (some t))) (h2 : ∀ k t, st' ≠ .found k t) (h3 : ∀ k ms, st' ≠ .missing k ms)
      (h4 : ∀ k t, st' ≠ .built k t) : PartIs D W op st st' W'
  | foreign (d md : DomId) (q : List Mix) (h : op = .getTypeMut d md q) (hd : md ≠ d) : PartIs D W op st (.done (.error .foreignMutation)) W
  | first : PartIs D W op st .mutating W
  | hit (d : DomId) (q : List Mix) (t : TypeId) (h : op.asked = some (d, q)) (hq : findQuery q (W.doms d).queries = some t) : PartIs D W op st (.done (.ok (some t))) W
  | ruleFail (d : DomId) (q : List Mix) (e : Err) (h : op.asked = some (d, q)) (hr : (applyMutationRules D (rulesOf D (W.view D d) (W.doms d)) q).result = .error e) :
      PartIs D W op st (.done (.error e)) W
  | found (d : DomId) (q : List Mix) (t : TypeId) (r : TypeRec) (h : op.asked = some (d, q)) (hr : resolvesTo D W d q r.mixins) (ht : (t = emptyTid ∧ r = emptyType d) ∨ (r ∈ (W.doms d).types ∧ r.tid = t)) :
      PartIs D W op st (.found q t) W
  | miss (d : DomId) (q ms : List Mix) (h : op.asked = some (d, q)) (hr : resolvesTo D W d q ms) (hne : ms ≠ []) : PartIs D W op st (.missing q ms) W
  | store (d : DomId) (q key : List Mix) (t : TypeId) (h : op.asked = some (d, q)) (hs : st = .found key t) :
      PartIs D W op st (.done (.ok (some t))) (W.setDom d { W.doms d with queries := storeQuery key t (W.doms d).queries })
  | buildFail (d : DomId) (q key ms : List Mix) (e : Err) (h : op.asked = some (d, q)) (hs : st = .missing key ms) (hb : buildType D W d W.nextType ms = .error e) : PartIs D W op st (.done (.error e)) W
  | build (d : DomId) (q key ms : List Mix) (r : TypeRec) (h : op.asked = some (d, q)) (hs : st = .missing key ms) (hb : buildType D W d W.nextType ms = .ok r) :
      PartIs D W op st (.built key r) { W with nextType := W.nextType + 1 }
  | emplaceOld (d : DomId) (q key : List Mix) (r old : TypeRec) (h : op.asked = some (d, q)) (hs : st = .built key r) (ho : findType r.mixins (W.doms d).types = some old) :
      PartIs D W op st (.done (.ok (some old.tid))) (W.setDom d { W.doms d with queries := storeQuery key old.tid (W.doms d).queries })
  | emplaceNew (d : DomId) (q key : List Mix) (r : TypeRec) (h : op.asked = some (d, q)) (hs : st = .built key r) (ho : findType r.mixins (W.doms d).types = none) :
      PartIs D W op st (.done (.ok (some r.tid))) (W.setDom d { W.doms d with types := (W.doms d).types ++ [r], queries := storeQuery key r.tid (W.doms d).queries })

theorem lookupPart_is {D : Decls} {W : World} {op : Op} {st : Stage} {d : DomId} {q : List Mix} (h : op.asked = some (d, q)) : PartIs D W op st (lookupPart D W d q) W := by
  unfold lookupPart lookupSection
  cases hf : findQuery q (W.doms d).queries with
  | some t => exact .hit d q t h hf
  | none =>
    simp only
    cases hr : (applyMutationRules D (rulesOf D (W.view D d) (W.doms d)) q).result with
    | error e => exact .ruleFail d q e h hr
    | ok x =>
      obtain ⟨key, ms⟩ := x
      have hk := applyMutationRules_key D _ q key ms hr
      subst hk
      simp only
      by_cases hms : ms.isEmpty = true
      · rw [if_pos hms]
        have hms' : ms = [] := by simpa using hms
        subst hms'
        exact .found d key emptyTid (emptyType d) h hr (.inl ⟨rfl, rfl⟩)
      · rw [if_neg hms]
        cases ht : findType ms (W.doms d).types with
        | none => exact .miss d key ms h hr (by simpa using hms)
        | some r =>
          obtain ⟨h1, h2⟩ := findType_some ht
          subst h2
          exact .found d key r.tid r h hr (.inr ⟨h1, rfl⟩)

theorem getPart_is {D : Decls} {W : World} {op : Op} {st : Stage} {d : DomId} {q : List Mix} (h : op.asked = some (d, q)) (hb : st.begun) :
    PartIs D W op st (getPart D W d q st).1 (getPart D W d q st).2 := by
  cases st with
  | todo => exact absurd hb id
  | mutating => exact lookupPart_is h
  | found key t => exact .store d q key t h rfl
  | missing key ms =>
    simp only [getPart]
    cases hbt : buildType D W d W.nextType ms with
    | error e => exact .buildFail d q key ms e h rfl hbt
    | ok r => exact .build d q key ms r h rfl hbt
  | built key r =>
    simp only [getPart, emplaceSection]
    cases ho : findType r.mixins (W.doms d).types with
    | none => exact .emplaceNew d q key r h rfl ho
    | some old => exact .emplaceOld d q key r old h rfl ho
  | purged => exact .same (.inl hb)
  | done r => exact absurd hb id

theorem nextPart_is (D : Decls) (W : World) (op : Op) (st : Stage) : PartIs D W op st (nextPart D W op st).1 (nextPart D W op st).2 := by
  by_cases hst : st = .todo
  · subst hst
    cases hop : op.asked with
    | some x =>
      obtain ⟨d, q⟩ := x
      cases op with
      | getType d' q' =>
        have hop' := hop
        simp [Op.asked] at hop
        obtain ⟨rfl, rfl⟩ := hop
        simp only [nextPart, beginPart]
        cases hf : findQuery q' (W.doms d').queries with
        | some t => exact .hit d' q' t rfl hf
        | none => exact .first
      | getTypeMut d' md q' =>
        simp [Op.asked] at hop
        obtain ⟨rfl, rfl⟩ := hop
        simp only [nextPart, beginPart]
        by_cases hd : md ≠ d'
        · rw [if_pos hd]; exact .foreign d' md q' rfl hd
        · rw [if_neg hd]; exact lookupPart_is rfl
      | _ => simp [Op.asked] at hop
    | none =>
      by_cases hun : ∃ d m, op = .unregMixin d m
      · obtain ⟨d, m, rfl⟩ := hun
        simp only [nextPart, beginPart, purgePart]
        cases hp : purgeQueries (W.doms d) d (W.mixId m) m (W.doms d).queries with
        | none => exact .other _ _ hop (.refl W) (by simp) (by simp) (by simp) (by simp)
        | some qs =>
          exact .other _ _ hop (Fewer.setDom List.filter_sublist (purgeQueries_sub _ _ _ _ _ _ hp)) (by simp) (by simp) (by simp) (by simp)
      · have hun' : ∀ d m, op ≠ .unregMixin d m := fun d m h => hun ⟨d, m, h⟩
        have e : nextPart D W op .todo = beginPart D W op := rfl
        rw [e, beginPart_other hop hun']
        refine .other _ _ hop (step_fewer D W op hop hun') ?_ (by simp) (by simp) (by simp)
        intro t ht
        simp only [Stage.done.injEq] at ht
        cases hx : (step D W op).1 with
        | ok u => rw [hx] at ht; simp [noType] at ht
        | error e => rw [hx] at ht; simp [noType] at ht
  · by_cases hd : ∃ r, st = .done r
    · obtain ⟨r, rfl⟩ := hd
      exact .same (.inr ⟨r, rfl⟩)
    · have hb : st.begun := by
        cases st with
        | todo => exact absurd rfl hst
        | done r => exact absurd ⟨r, rfl⟩ hd
        | _ => trivial
      have hnp : nextPart D W op st = (match op with
          | .getType d q => getPart D W d q st
          | .getTypeMut d _ q => getPart D W d q st
          | .unregMixin d m => match st with
            | .purged => removePart W d m
            | st => (st, W)
          | _ => (st, W)) := by
        cases st with
        | todo => exact absurd rfl hst
        | done r => exact absurd ⟨r, rfl⟩ hd
        | _ => cases op <;> rfl
      rw [hnp]
      cases op with
      | getType d q => exact getPart_is rfl hb
      | getTypeMut d md q => exact getPart_is rfl hb
      | unregMixin d m =>
        cases st with
        | purged =>
          simp only [removePart]
          cases ho : ownSlot (W.doms d).mixins (W.mixId m) m with
          | none => exact .other _ _ rfl (.refl W) (by simp) (by simp) (by simp) (by simp)
          | some i => exact .other _ _ rfl (Fewer.doms (Fewer.setDom (W := W) (d := d) (x := { W.doms d with mixins := (W.doms d).mixins.set i none }) (List.Sublist.refl _) (fun _ h => h)) rfl rfl) (by simp) (by simp) (by simp) (by simp)
        | _ => exact .same (.inl hb)
      | _ => exact .same (.inl hb)

/-! ## Types in all schedules -/

/-- A type that is there or is about to be put there. -/
def Old (C : Threads) (d : DomId) (r : TypeRec) : Prop :=
  r ∈ (C.W.doms d).types ∨ ∃ (i : Nat) (th : Thread) (key : List Mix), C.threads[i]? = some th ∧ asks th.op d ∧ th.stage = .built key r

/-- What is true of types in all schedules. -/
structure AnyInv (C : Threads) : Prop where
  next : 0 < C.W.nextType
  comps : ∀ d, (C.W.doms d).types.Pairwise (fun a b => a.mixins ≠ b.mixins)
  nonempty : ∀ d r, Old C d r → r.mixins ≠ []
  lt : ∀ d r, Old C d r → 0 < r.tid ∧ r.tid < C.W.nextType
  inj : ∀ d r r', Old C d r → Old C d r' → r.tid = r'.tid → r = r'
  missing : ∀ (i : Nat) (th : Thread) (key ms : List Mix), C.threads[i]? = some th → th.stage = .missing key ms → ms ≠ []

/-- How types come about. -/
structure TypesGrow (C C' : Threads) : Prop where
  next : C.W.nextType ≤ C'.W.nextType
  old : ∀ d r, Old C' d r → Old C d r ∨ C.W.nextType ≤ r.tid

theorem TypesGrow.refl (C : Threads) : TypesGrow C C := ⟨Nat.le_refl _, fun _ _ h => .inl h⟩

theorem TypesGrow.trans {C C' C'' : Threads} (h : TypesGrow C C') (h' : TypesGrow C' C'') : TypesGrow C C'' := by
  refine ⟨Nat.le_trans h.next h'.next, fun d r hr => ?_⟩
  rcases h'.old d r hr with h1 | h1
  · exact h.old d r h1
  · exact .inr (Nat.le_trans h.next h1)

/-- a step in which what a thread holds does not become more -/
theorem old_step {C : Threads} {i : Nat} {th : Thread} {st' : Stage} {W' : World} (hi : C.threads[i]? = some th) {d : DomId} {r : TypeRec}
    (h : Old { W := W', threads := C.threads.set i { th with stage := st' } } d r) :
    r ∈ (W'.doms d).types ∨ (∃ key, asks th.op d ∧ st' = .built key r) ∨ (∃ (j : Nat) (th' : Thread) (key : List Mix), C.threads[j]? = some th' ∧ asks th'.op d ∧ th'.stage = .built key r) := by
  rcases h with h | ⟨j, th', key, h1, h2, h3⟩
  · exact .inl h
  · rcases get_set hi h1 with ⟨-, rfl⟩ | ⟨-, h4⟩
    · exact .inr (.inl ⟨key, h2, h3⟩)
    · exact .inr (.inr ⟨j, th', key, h4, h2, h3⟩)

theorem anyStep {D : Decls} {C : Threads} (hI : AnyInv C) (i : Nat) : AnyInv (C.step D i) ∧ TypesGrow C (C.step D i) := by
  cases hi : C.threads[i]? with
  | none => rw [Threads.step_none hi]; exact ⟨hI, .refl C⟩
  | some th =>
    rw [Threads.step_some hi]
    have hp := nextPart_is D C.W th.op th.stage
    generalize (nextPart D C.W th.op th.stage).1 = st' at hp
    generalize (nextPart D C.W th.op th.stage).2 = W' at hp
    -- the common case: no new types
    have quiet : (∀ d, (W'.doms d).types.Sublist (C.W.doms d).types) → C.W.nextType ≤ W'.nextType → (∀ key r, st' = .built key r → th.stage = .built key r) → (∀ key ms, st' = .missing key ms → ms ≠ []) →
        AnyInv { W := W', threads := C.threads.set i { th with stage := st' } } ∧ TypesGrow C { W := W', threads := C.threads.set i { th with stage := st' } } := by
      intro h1 h2 h3 h4
      have hold : ∀ d r, Old { W := W', threads := C.threads.set i { th with stage := st' } } d r → Old C d r := by
        intro d r h
        rcases old_step hi h with h | ⟨key, ha, hs⟩ | h
        · exact .inl ((h1 d).subset h)
        · exact .inr ⟨i, th, key, hi, ha, h3 key r hs⟩
        · exact .inr h
      refine ⟨⟨Nat.lt_of_lt_of_le hI.next h2, fun d => List.Pairwise.sublist (h1 d) (hI.comps d), fun d r h => hI.nonempty d r (hold d r h), fun d r h => ?_, fun d r r' h h' => hI.inj d r r' (hold d r h) (hold d r' h'), ?_⟩,
        ⟨h2, fun d r h => .inl (hold d r h)⟩⟩
      · obtain ⟨a, b⟩ := hI.lt d r (hold d r h)
        exact ⟨a, Nat.lt_of_lt_of_le b h2⟩
      · intro j th' key ms hj hs
        rcases get_set hi hj with ⟨-, rfl⟩ | ⟨-, hj'⟩
        · exact h4 key ms hs
        · exact hI.missing j th' key ms hj' hs
    cases hp with
    | same h =>
      refine quiet (fun d => List.Sublist.refl _) (Nat.le_refl _) (fun _ _ h => h) ?_
      intro key ms hs
      exact hI.missing i th key ms hi hs
    | other _ _ h hs h1 h2 h3 h4 => exact quiet hs.types hs.next (fun k r e => absurd e (h4 k r)) (fun k ms e => absurd e (h3 k ms))
    | foreign d md q h hd => exact quiet (fun d => List.Sublist.refl _) (Nat.le_refl _) (by simp) (by simp)
    | first => exact quiet (fun d => List.Sublist.refl _) (Nat.le_refl _) (by simp) (by simp)
    | hit d q t h hq => exact quiet (fun d => List.Sublist.refl _) (Nat.le_refl _) (by simp) (by simp)
    | ruleFail d q e h hr => exact quiet (fun d => List.Sublist.refl _) (Nat.le_refl _) (by simp) (by simp)
    | found d q t r h hr ht => exact quiet (fun d => List.Sublist.refl _) (Nat.le_refl _) (by simp) (by simp)
    | miss d q ms h hr hne =>
      refine quiet (fun d => List.Sublist.refl _) (Nat.le_refl _) (by simp) ?_
      intro key ms' e; simp at e; rw [← e.2]; exact hne
    | store d q key t h hs =>
      refine quiet (fun d' => ?_) (Nat.le_refl _) (by simp) (by simp)
      rcases setDom_cases (W := C.W) (d := d) (x := { C.W.doms d with queries := storeQuery key t (C.W.doms d).queries }) d' with ⟨rfl, h⟩ | ⟨-, h⟩ <;> rw [h] <;> exact List.Sublist.refl _
    | buildFail d q key ms e h hs hb => exact quiet (fun d => List.Sublist.refl _) (Nat.le_refl _) (by simp) (by simp)
    | emplaceOld d q key r old h hs ho =>
      refine quiet (fun d' => ?_) (Nat.le_refl _) (by simp) (by simp)
      rcases setDom_cases (W := C.W) (d := d) (x := { C.W.doms d with queries := storeQuery key old.tid (C.W.doms d).queries }) d' with ⟨rfl, h⟩ | ⟨-, h⟩ <;> rw [h] <;> exact List.Sublist.refl _
    | build d q key ms r h hs hb =>
      have hne := hI.missing i th key ms hi hs
      obtain ⟨-, hm, ht, -⟩ := buildType_ok D C.W d C.W.nextType ms r hne hb
      have hold : ∀ d' r', Old { W := { C.W with nextType := C.W.nextType + 1 }, threads := C.threads.set i { th with stage := .built key r } } d' r' → Old C d' r' ∨ r' = r := by
        intro d' r' ho
        rcases old_step hi ho with h1 | ⟨key', -, h1⟩ | h1
        · exact .inl (.inl h1)
        · simp at h1; exact .inr h1.2.symm
        · exact .inl (.inr h1)
      refine ⟨⟨Nat.succ_pos _, hI.comps, ?_, ?_, ?_, ?_⟩, ⟨Nat.le_succ _, ?_⟩⟩
      · intro d' r' ho
        rcases hold d' r' ho with h1 | rfl
        · exact hI.nonempty d' r' h1
        · rw [hm]; exact hne
      · intro d' r' ho
        rcases hold d' r' ho with h1 | rfl
        · obtain ⟨a, b⟩ := hI.lt d' r' h1
          exact ⟨a, Nat.lt_succ_of_lt b⟩
        · rw [ht]; exact ⟨hI.next, Nat.lt_succ_self _⟩
      · intro d' r' r'' ho ho' he
        rcases hold d' r' ho with h1 | h1 <;> rcases hold d' r'' ho' with h2 | h2
        · exact hI.inj d' r' r'' h1 h2 he
        · subst h2
          have := (hI.lt d' r' h1).2
          rw [he, ht] at this
          exact absurd this (Nat.lt_irrefl _)
        · subst h1
          have := (hI.lt d' r'' h2).2
          rw [← he, ht] at this
          exact absurd this (Nat.lt_irrefl _)
        · rw [h1, h2]
      · intro j th' key' ms' hj hs'
        rcases get_set hi hj with ⟨-, rfl⟩ | ⟨-, hj'⟩
        · simp at hs'
        · exact hI.missing j th' key' ms' hj' hs'
      · intro d' r' ho
        rcases hold d' r' ho with h1 | rfl
        · exact .inl h1
        · exact .inr (by rw [ht]; exact Nat.le_refl _)
    | emplaceNew d q key r h hs ho =>
      have hr : Old C d r := .inr ⟨i, th, key, hi, ⟨q, h⟩, hs⟩
      have htypes : ∀ d', ((C.W.setDom d { C.W.doms d with types := (C.W.doms d).types ++ [r], queries := storeQuery key r.tid (C.W.doms d).queries }).doms d').types = (C.W.doms d').types ∨
          (d' = d ∧ ((C.W.setDom d { C.W.doms d with types := (C.W.doms d).types ++ [r], queries := storeQuery key r.tid (C.W.doms d).queries }).doms d').types = (C.W.doms d).types ++ [r]) := by
        intro d'
        rcases setDom_cases (W := C.W) (d := d) (x := { C.W.doms d with types := (C.W.doms d).types ++ [r], queries := storeQuery key r.tid (C.W.doms d).queries }) d' with ⟨rfl, h⟩ | ⟨-, h⟩
        · rw [h]; exact .inr ⟨rfl, rfl⟩
        · rw [h]; exact .inl rfl
      have hold : ∀ d' r', Old { W := C.W.setDom d { C.W.doms d with types := (C.W.doms d).types ++ [r], queries := storeQuery key r.tid (C.W.doms d).queries }, threads := C.threads.set i { th with stage := .done (.ok (some r.tid)) } } d' r' → Old C d' r' := by
        intro d' r' ho'
        rcases old_step hi ho' with h1 | ⟨key', -, h1⟩ | h1
        · rcases htypes d' with h2 | ⟨rfl, h2⟩
          · rw [h2] at h1; exact .inl h1
          · rw [h2, List.mem_append] at h1
            rcases h1 with h1 | h1
            · exact .inl h1
            · simp at h1; subst h1; exact hr
        · simp at h1
        · exact .inr h1
      refine ⟨⟨hI.next, ?_, fun d' r' h' => hI.nonempty d' r' (hold d' r' h'), fun d' r' h' => hI.lt d' r' (hold d' r' h'), fun d' r' r'' h1 h2 => hI.inj d' r' r'' (hold d' r' h1) (hold d' r'' h2), ?_⟩,
        ⟨Nat.le_refl _, fun d' r' h' => .inl (hold d' r' h')⟩⟩
      · intro d'
        simp only
        rcases htypes d' with h2 | ⟨rfl, h2⟩
        · rw [h2]; exact hI.comps d'
        · rw [h2, List.pairwise_append]
          refine ⟨hI.comps d', List.pairwise_singleton _ _, ?_⟩
          intro a ha b hb
          simp at hb; subst hb
          exact findType_none.1 ho a ha
      · intro j th' key' ms' hj hs'
        rcases get_set hi hj with ⟨-, rfl⟩ | ⟨-, hj'⟩
        · simp at hs'
        · exact hI.missing j th' key' ms' hj' hs'

theorem anyRun {D : Decls} : ∀ (is : List Nat) {C : Threads}, AnyInv C → AnyInv (C.run D is) ∧ TypesGrow C (C.run D is)
  | [], C, h => ⟨h, .refl C⟩
  | i :: is, C, h => by
    obtain ⟨h1, h2⟩ := anyStep (D := D) h i
    obtain ⟨h3, h4⟩ := anyRun is h1
    exact ⟨h3, h2.trans h4⟩

theorem anySpawn {D : Decls} {W : World} (ht : ∀ d, TypesInv D W d) (hn : 0 < W.nextType) (ops : List Op) : AnyInv (spawn W ops) := by
  have hst : ∀ (i : Nat) th, (spawn W ops).threads[i]? = some th → th.stage = .todo := by
    intro i th h
    simp only [spawn, List.getElem?_map, Option.map_eq_some_iff] at h
    obtain ⟨op, -, h⟩ := h
    rw [← h]
  have hold : ∀ d r, Old (spawn W ops) d r → r ∈ (W.doms d).types := by
    rintro d r (h | ⟨i, th, key, h1, -, h3⟩)
    · exact h
    · rw [hst i th h1] at h3; simp at h3
  refine ⟨hn, fun d => (ht d).comps, fun d r h => ((ht d).ok r (hold d r h)).nonempty, fun d r h => ?_, fun d r r' h h' he => ?_, fun i th key ms h1 h2 => ?_⟩
  · exact (ht d).tidPos r (hold d r h)
  · have h1 := find?_tid (ht d).tids r (hold d r h)
    have h2 := find?_tid (ht d).tids r' (hold d r' h')
    rw [he, h2] at h1
    simpa using h1.symm
  · rw [hst i th h1] at h2; simp at h2

/-- A type has one composition, at all times. -/
theorem same_composition {D : Decls} {C : Threads} (h : AnyInv C) (is : List Nat) (d : DomId) (t : TypeId) (r r' : TypeRec) (h1 : (C.W.doms d).typeAt d t = some r)
    (h2 : ((C.run D is).W.doms d).typeAt d t = some r') : r = r' := by
  obtain ⟨h3, h4⟩ := anyRun (D := D) is h
  rcases typeAt_some h1 with ⟨e1, e2⟩ | ⟨e1, m1, e2⟩
  · subst e1; subst e2
    rcases typeAt_some h2 with ⟨-, e2⟩ | ⟨e1, -, -⟩
    · exact e2.symm
    · exact absurd rfl e1
  · rcases typeAt_some h2 with ⟨e3, -⟩ | ⟨-, m2, e3⟩
    · exact absurd e3 e1
    · rcases h4.old d r' (.inl m2) with h5 | h5
      · exact h.inj d r r' (.inl m1) h5 (by rw [e2, e3])
      · have := (h.lt d r (.inl m1)).2
        rw [e2, ← e3] at this
        exact absurd this (Nat.not_lt.2 h5)


/-! ## What calls have seen -/

/-- What thread `i` has seen, after the schedule `is`. -/
def SeenBy (D : Decls) (C : Threads) (is : List Nat) (i : Nat) (op : Op) : Stage → Prop
  | .found key t => ∃ d, op.asked = some (d, key) ∧ ∃ js r, Executes D C is i js ∧ resolvesTo D (C.run D js).W d key r.mixins ∧ ((C.run D js).W.doms d).typeAt d t = some r
  | .missing key ms => ∃ d, op.asked = some (d, key) ∧ ∃ js, Executes D C is i js ∧ resolvesTo D (C.run D js).W d key ms
  | .built key r => ∃ d, op.asked = some (d, key) ∧ ∃ js, Executes D C is i js ∧ resolvesTo D (C.run D js).W d key r.mixins
  | .done (.ok (some t)) => ∃ d q, op.asked = some (d, q) ∧ ∃ js, Executes D C is i js ∧
      (findQuery q ((C.run D js).W.doms d).queries = some t ∨
        ∃ js' r, js <+: js' ∧ InCall D C is i js' ∧ resolvesTo D (C.run D js).W d q r.mixins ∧ ((C.run D js').W.doms d).typeAt d t = some r)
  | .done (.error e) => ∀ d q, op.asked = some (d, q) → (∃ md, op = .getTypeMut d md q ∧ md ≠ d ∧ e = .foreignMutation) ∨ ∃ js, Executes D C is i js ∧
      ((applyMutationRules D (rulesOf D ((C.run D js).W.view D d) ((C.run D js).W.doms d)) q).result = .error e ∨
        ∃ js' ms, js <+: js' ∧ Executes D C is i js' ∧ resolvesTo D (C.run D js).W d q ms ∧ buildType D (C.run D js').W d (C.run D js').W.nextType ms = .error e)
  | _ => True

/-- Where a stored query comes from. -/
def QueryFrom (D : Decls) (C : Threads) (is : List Nat) (d : DomId) (q : List Mix) (t : TypeId) : Prop :=
  (q, t) ∈ (C.W.doms d).queries ∨
    ∃ (i : Nat) (js js' : List Nat) (r : TypeRec), Executes D C is i js ∧ js <+: js' ∧ InCall D C is i js' ∧ resolvesTo D (C.run D js).W d q r.mixins ∧ ((C.run D js').W.doms d).typeAt d t = some r

theorem Executes.mono {D : Decls} {C : Threads} {is : List Nat} {i : Nat} {js : List Nat} (h : Executes D C is i js) (k : Nat) : Executes D C (is ++ [k]) i js :=
  ⟨h.1.trans (List.prefix_append _ _), h.2⟩

theorem InCall.mono {D : Decls} {C : Threads} {is : List Nat} {i : Nat} {js : List Nat} (h : InCall D C is i js) (k : Nat) : InCall D C (is ++ [k]) i js := by
  rcases h with h | ⟨ks, h, e⟩
  · exact .inl (Executes.mono h k)
  · exact .inr ⟨ks, Executes.mono h k, e⟩

theorem SeenBy.mono {D : Decls} {C : Threads} {is : List Nat} {i : Nat} {op : Op} {st : Stage} (h : SeenBy D C is i op st) (k : Nat) : SeenBy D C (is ++ [k]) i op st := by
  cases st with
  | todo => trivial
  | mutating => trivial
  | purged => trivial
  | found key t =>
    obtain ⟨d, h1, js, r, h2, h3, h4⟩ := h
    exact ⟨d, h1, js, r, Executes.mono h2 k, h3, h4⟩
  | missing key ms =>
    obtain ⟨d, h1, js, h2, h3⟩ := h
    exact ⟨d, h1, js, Executes.mono h2 k, h3⟩
  | built key r =>
    obtain ⟨d, h1, js, h2, h3⟩ := h
    exact ⟨d, h1, js, Executes.mono h2 k, h3⟩
  | done x =>
    cases x with
    | ok o =>
      cases o with
      | none => trivial
      | some t =>
        obtain ⟨d, q, h1, js, h2, h3⟩ := h
        refine ⟨d, q, h1, js, Executes.mono h2 k, ?_⟩
        rcases h3 with h3 | ⟨js', r, h3, h4, h5, h6⟩
        · exact .inl h3
        · exact .inr ⟨js', r, h3, InCall.mono h4 k, h5, h6⟩
    | error e =>
      intro d q hq
      rcases h d q hq with h | ⟨js, h2, h3⟩
      · exact .inl h
      · refine .inr ⟨js, Executes.mono h2 k, ?_⟩
        rcases h3 with h3 | ⟨js', ms, h3, h4, h5, h6⟩
        · exact .inl h3
        · exact .inr ⟨js', ms, h3, Executes.mono h4 k, h5, h6⟩

theorem QueryFrom.mono {D : Decls} {C : Threads} {is : List Nat} {d : DomId} {q : List Mix} {t : TypeId} (h : QueryFrom D C is d q t) (k : Nat) : QueryFrom D C (is ++ [k]) d q t := by
  rcases h with h | ⟨i, js, js', r, h1, h2, h3, h4, h5⟩
  · exact .inl h
  · exact .inr ⟨i, js, js', r, Executes.mono h1 k, h2, InCall.mono h3 k, h4, h5⟩

theorem Executes.before {D : Decls} {C : Threads} {is : List Nat} {i : Nat} {js : List Nat} (h : Executes D C is i js) : js <+: is :=
  (List.prefix_append js [i]).trans h.1

theorem storeQuery_new (key : List Mix) (t : TypeId) : ∀ (qs : List (List Mix × TypeId)) (e : List Mix × TypeId), e ∈ storeQuery key t qs → e ∈ qs ∨ e = (key, t)
  | [], e, h => by simp [storeQuery] at h; exact .inr h
  | x :: xs, e, h => by
    unfold storeQuery at h
    by_cases hx : (x.1 == key) = true
    · rw [if_pos hx] at h
      rcases List.mem_cons.1 h with h | h
      · exact .inr h
      · exact .inl (List.mem_cons_of_mem _ h)
    · rw [if_neg hx] at h
      rcases List.mem_cons.1 h with h | h
      · exact .inl (by rw [h]; exact List.mem_cons_self)
      · rcases storeQuery_new key t xs e h with h | h
        · exact .inl (List.mem_cons_of_mem _ h)
        · exact .inr h

theorem typeAt_of_mem {C : Threads} (hI : AnyInv C) {d : DomId} {r : TypeRec} (h : r ∈ (C.W.doms d).types) : (C.W.doms d).typeAt d r.tid = some r := by
  have hp := (hI.lt d r (.inl h)).1
  unfold Dom.typeAt
  rw [if_neg (by intro e; rw [e] at hp; exact absurd hp (Nat.lt_irrefl _))]
  cases hf : (C.W.doms d).types.find? (fun x => x.tid == r.tid) with
  | none =>
    rw [List.find?_eq_none] at hf
    exact absurd (by simp) (hf r h)
  | some x =>
    have h1 := List.find?_some hf
    have h2 := List.mem_of_find?_eq_some hf
    simp at h1
    rw [hI.inj d x r (.inl h2) (.inl h) h1]

theorem Threads.run_last (D : Decls) (C : Threads) (is : List Nat) (i : Nat) : C.run D (is ++ [i]) = (C.run D is).step D i := by
  rw [Threads.run_append]; rfl

theorem not_done {C : Threads} {i : Nat} {th : Thread} (h : C.threads[i]? = some th) (hn : ∀ r, th.stage ≠ .done r) : C.outcome i = none := by
  unfold Threads.outcome
  rw [h]
  obtain ⟨op, st⟩ := th
  cases st with
  | done r => exact absurd rfl (hn r)
  | _ => rfl

/-- What all threads have seen and where all stored queries come from, in all schedules. -/
theorem seen_run {D : Decls} {C : Threads} (hI : AnyInv C) (hC : ∀ (i : Nat) th, C.threads[i]? = some th → th.stage = .todo) (is : List Nat) :
    (∀ (i : Nat) th, (C.run D is).threads[i]? = some th → SeenBy D C is i th.op th.stage) ∧
    (∀ d, ∀ e ∈ ((C.run D is).W.doms d).queries, QueryFrom D C is d e.1 e.2) := by
  induction is using snoc_induction with
  | h0 =>
    refine ⟨fun i th h => ?_, fun d e h => .inl h⟩
    have h' : C.threads[i]? = some th := h
    rw [hC i th h']; trivial
  | h1 is i ih =>
    obtain ⟨ih1, ih2⟩ := ih
    cases hi : (C.run D is).threads[i]? with
    | none =>
      rw [Threads.run_last, Threads.step_none hi]
      exact ⟨fun j th h => SeenBy.mono (ih1 j th h) i, fun d e h => QueryFrom.mono (ih2 d e h) i⟩
    | some th =>
      have hlast := Threads.run_last D C is i
      have hI1 := (anyRun (D := D) is hI).1
      have hI2 := (anyRun (D := D) (is ++ [i]) hI).1
      by_cases hdone : ∃ r, th.stage = .done r
      · -- a call that is over does nothing
        obtain ⟨r, hr⟩ := hdone
        have hnp : nextPart D (C.run D is).W th.op th.stage = (th.stage, (C.run D is).W) := by rw [hr]; rfl
        have e1 : (C.run D is).step D i = C.run D is := by
          rw [Threads.step_some hi, hnp]
          have : (C.run D is).threads.set i { th with stage := th.stage } = (C.run D is).threads := by
            apply List.ext_getElem?
            intro j
            rw [List.getElem?_set]
            by_cases hj : i = j
            · subst hj
              have hlt := (List.getElem?_eq_some_iff.1 hi).1
              rw [if_pos rfl, if_pos hlt, hi]
            · rw [if_neg hj]
          simp only [this]
        rw [hlast, e1]
        exact ⟨fun j th h => SeenBy.mono (ih1 j th h) i, fun d e h => QueryFrom.mono (ih2 d e h) i⟩
      have hnd : ∀ r, th.stage ≠ .done r := fun r h => hdone ⟨r, h⟩
      have ex : Executes D C (is ++ [i]) i is := ⟨List.prefix_refl _, not_done hi hnd⟩
      have hend : InCall D C (is ++ [i]) i (is ++ [i]) := .inr ⟨is, ex, rfl⟩
      have hs : SeenBy D C is i th.op th.stage := ih1 i th hi
      have hp := nextPart_is D (C.run D is).W th.op th.stage
      have hW : (C.run D (is ++ [i])).W = (nextPart D (C.run D is).W th.op th.stage).2 := by rw [hlast, Threads.step_some hi]
      rw [hlast, Threads.step_some hi]
      generalize (nextPart D (C.run D is).W th.op th.stage).1 = st' at hp
      generalize (nextPart D (C.run D is).W th.op th.stage).2 = W' at hp hW
      -- it suffices to look at this thread and at new queries
      have fin : SeenBy D C (is ++ [i]) i th.op st' → (∀ d, ∀ e ∈ (W'.doms d).queries, e ∈ ((C.run D is).W.doms d).queries ∨ QueryFrom D C (is ++ [i]) d e.1 e.2) →
          (∀ (j : Nat) th', ((C.run D is).threads.set i { th with stage := st' })[j]? = some th' → SeenBy D C (is ++ [i]) j th'.op th'.stage) ∧
          (∀ d, ∀ e ∈ (W'.doms d).queries, QueryFrom D C (is ++ [i]) d e.1 e.2) := by
        intro h1 h2
        refine ⟨fun j th' hj => ?_, fun d e he => ?_⟩
        · rcases get_set hi hj with ⟨rfl, rfl⟩ | ⟨-, hj'⟩
          · exact h1
          · exact SeenBy.mono (ih1 j th' hj') i
        · rcases h2 d e he with h | h
          · exact QueryFrom.mono (ih2 d e h) i
          · exact h
      have stored : ∀ (d : DomId) (key : List Mix) (t : TypeId) (x : Dom), x.queries = storeQuery key t ((C.run D is).W.doms d).queries → QueryFrom D C (is ++ [i]) d key t →
          ∀ d', ∀ e ∈ (((C.run D is).W.setDom d x).doms d').queries, e ∈ ((C.run D is).W.doms d').queries ∨ QueryFrom D C (is ++ [i]) d' e.1 e.2 := by
        intro d key t x hx hq d' e he
        rcases setDom_cases (W := (C.run D is).W) (d := d) (x := x) d' with ⟨rfl, h⟩ | ⟨-, h⟩
        · rw [h, hx] at he
          rcases storeQuery_new _ _ _ _ he with he | he
          · exact .inl he
          · rw [he]; exact .inr hq
        · rw [h] at he; exact .inl he
      cases hp with
      | same h => exact fin (SeenBy.mono hs i) (fun d e h => .inl h)
      | other _ _ h hf h1 h2 h3 h4 =>
        refine fin ?_ (fun d e he => .inl (hf.queries d e he))
        cases st' with
        | found k t => exact absurd rfl (h2 k t)
        | missing k ms => exact absurd rfl (h3 k ms)
        | built k t => exact absurd rfl (h4 k t)
        | done x =>
          cases x with
          | ok o =>
            cases o with
            | none => trivial
            | some t => exact absurd rfl (h1 t)
          | error e => intro d q hq; rw [h] at hq; simp at hq
        | _ => trivial
      | foreign d md q h hd =>
        refine fin ?_ (fun d e he => .inl he)
        intro d' q' hq
        rw [h] at hq
        simp [Op.asked] at hq
        obtain ⟨rfl, rfl⟩ := hq
        exact .inl ⟨md, h, hd, rfl⟩
      | first => exact fin trivial (fun d e he => .inl he)
      | hit d q t h hq => exact fin ⟨d, q, h, is, ex, .inl hq⟩ (fun d e he => .inl he)
      | ruleFail d q e h hr =>
        refine fin ?_ (fun d e he => .inl he)
        intro d' q' hq
        rw [h] at hq
        simp at hq
        obtain ⟨rfl, rfl⟩ := hq
        exact .inr ⟨is, ex, .inl hr⟩
      | found d q t r h hr ht =>
        refine fin ⟨d, h, is, r, ex, hr, ?_⟩ (fun d e he => .inl he)
        rcases ht with ⟨rfl, rfl⟩ | ⟨h1, rfl⟩
        · exact typeAt_empty _ _
        · exact typeAt_of_mem hI1 h1
      | miss d q ms h hr hne => exact fin ⟨d, h, is, ex, hr⟩ (fun d e he => .inl he)
      | store d q key t h hst =>
        rw [hst] at hs
        obtain ⟨d', h1, js, r, h2, h3, h4⟩ := hs
        rw [h] at h1
        simp at h1
        obtain ⟨rfl, rfl⟩ := h1
        have h2' := Executes.mono h2 i
        exact fin ⟨d, q, h, js, h2', .inr ⟨js, r, List.prefix_refl _, .inl h2', h3, h4⟩⟩
          (stored d q t _ rfl (.inr ⟨i, js, js, r, h2', List.prefix_refl _, .inl h2', h3, h4⟩))
      | buildFail d q key ms e h hst hb =>
        rw [hst] at hs
        obtain ⟨d', h1, js, h2, h3⟩ := hs
        rw [h] at h1
        simp at h1
        obtain ⟨rfl, rfl⟩ := h1
        refine fin ?_ (fun d e he => .inl he)
        intro d' q' hq
        rw [h] at hq
        simp at hq
        obtain ⟨rfl, rfl⟩ := hq
        exact .inr ⟨js, Executes.mono h2 i, .inr ⟨is, ms, (Executes.before h2), ex, h3, hb⟩⟩
      | build d q key ms r h hst hb =>
        have hne := hI1.missing i th key ms hi hst
        rw [hst] at hs
        obtain ⟨d', h1, js, h2, h3⟩ := hs
        rw [h] at h1
        simp at h1
        obtain ⟨rfl, rfl⟩ := h1
        obtain ⟨-, hm, -⟩ := buildType_ok D _ d _ ms r hne hb
        subst hm
        exact fin ⟨d, h, js, Executes.mono h2 i, h3⟩ (fun d e he => .inl he)
      | emplaceOld d q key r old h hst ho =>
        rw [hst] at hs
        obtain ⟨d', h1, js, h2, h3⟩ := hs
        rw [h] at h1
        simp at h1
        obtain ⟨rfl, rfl⟩ := h1
        have h2' := Executes.mono h2 i
        obtain ⟨m1, m2⟩ := findType_some ho
        rw [← m2] at h3
        have hat := typeAt_of_mem hI1 m1
        exact fin ⟨d, q, h, js, h2', .inr ⟨is, old, (Executes.before h2), .inl ex, h3, hat⟩⟩ (stored d q old.tid _ rfl (.inr ⟨i, js, is, old, h2', (Executes.before h2), .inl ex, h3, hat⟩))
      | emplaceNew d q key r h hst ho =>
        rw [hst] at hs
        obtain ⟨d', h1, js, h2, h3⟩ := hs
        rw [h] at h1
        simp at h1
        obtain ⟨rfl, rfl⟩ := h1
        have h2' := Executes.mono h2 i
        have hmem : r ∈ ((C.run D (is ++ [i])).W.doms d).types := by rw [hW, setDom_same]; simp
        have hat := typeAt_of_mem hI2 hmem
        have hpre : js <+: is ++ [i] := (Executes.before h2).trans (List.prefix_append _ _)
        exact fin ⟨d, q, h, js, h2', .inr ⟨is ++ [i], r, hpre, hend, h3, hat⟩⟩ (stored d q r.tid _ rfl (.inr ⟨i, js, is ++ [i], r, h2', hpre, hend, h3, hat⟩))

end Dnmx
