import Verif.Spec.RuleState
import Verif.Proofs.TypeLemmas
import Verif.Proofs.QueryLemmas
import Verif.Proofs.RulesLemmas
import Verif.Proofs.AnswerLemmas

set_option linter.unusedVariables false
set_option linter.unusedSimpArgs false

namespace Dnmx
open Spec

variable {σ : Type}

theorem chained_append : ∀ {a b c : List Mix} {xs ys : List RuleCall}, Chained a xs b → Chained b ys c → Chained a (xs ++ ys) c
  | a, b, c, [], ys, h1, h2 => by unfold Chained at h1; subst h1; exact h2
  | a, b, c, x :: xs, ys, h1, h2 => ⟨h1.1, chained_append h1.2 h2⟩

theorem passSt_chained (fn : Rule → StFn σ) : ∀ (rs : List Rule) (s : σ) (ms : List Mix),
    Chained ms (passSt fn rs s ms).calls (passSt fn rs s ms).mixins
  | [], s, ms => rfl
  | r :: rs, s, ms => by
    unfold passSt
    cases h : fn r s ms with
    | mk e x =>
      obtain ⟨ms', s'⟩ := x
      cases e with
      | some e => exact ⟨rfl, rfl⟩
      | none => exact ⟨rfl, passSt_chained fn rs s' ms'⟩

theorem passSt_rules (fn : Rule → StFn σ) : ∀ (rs : List Rule) (s : σ) (ms : List Mix),
    (passSt fn rs s ms).calls.map (·.rule) <+: rs ∧ ((passSt fn rs s ms).err = none → (passSt fn rs s ms).calls.map (·.rule) = rs)
  | [], s, ms => ⟨List.nil_prefix, fun _ => rfl⟩
  | r :: rs, s, ms => by
    unfold passSt
    cases h : fn r s ms with
    | mk e x =>
      obtain ⟨ms', s'⟩ := x
      obtain ⟨i1, i2⟩ := passSt_rules fn rs s' ms'
      cases e with
      | some e => exact ⟨⟨rs, rfl⟩, fun h => by simp at h⟩
      | none =>
        simp only [List.map_cons]
        exact ⟨by rw [List.cons_prefix_cons]; exact ⟨rfl, i1⟩, fun h => by rw [i2 h]⟩

theorem loopSt_chained (fn : Rule → StFn σ) (rs : List Rule) : ∀ (left : Nat) (o l nt : List Mix) (s : σ),
    Chained nt (loopSt fn rs left o l nt s).calls (loopSt fn rs left o l nt s).mixins
  | left, o, l, nt, s => by
    have hc := passSt_chained fn rs s nt
    unfold loopSt
    simp only
    cases he : (passSt fn rs s nt).err with
    | some e => exact hc
    | none =>
      simp only
      by_cases hl : l = (passSt fn rs s nt).mixins
      · rw [if_pos hl]; exact hc
      · rw [if_neg hl]
        cases left with
        | zero => exact hc
        | succ left' =>
          simp only
          by_cases hi : maxDependencyDepth - (left' + 1) = rs.length
          · rw [if_pos hi]; exact hc
          · rw [if_neg hi]
            exact chained_append hc (loopSt_chained fn rs left' _ _ _ _)

theorem passSt_done (fn : Rule → StFn σ) : ∀ (rs : List Rule) (s : σ) (ms : List Mix), CallsDone fn s (passSt fn rs s ms).calls (passSt fn rs s ms).err (passSt fn rs s ms).state
  | [], s, ms => .none s
  | r :: rs, s, ms => by
    unfold passSt
    cases h : fn r s ms with
    | mk a b =>
      cases b with
      | mk ms' s' =>
        cases a with
        | some e => exact .failed (c := ⟨r, ms, ms'⟩) h
        | none => exact .more (c := ⟨r, ms, ms'⟩) h (passSt_done fn rs s' ms')

theorem callsDone_append {fn : Rule → StFn σ} {s s' s'' : σ} {xs ys : List RuleCall} {e : Option Err} (h : CallsDone fn s xs none s') (h' : CallsDone fn s' ys e s'') :
    CallsDone fn s (xs ++ ys) e s'' := by
  generalize hn : (Option.none : Option Err) = n at h
  induction h with
  | none s => exact h'
  | failed _ => simp at hn
  | more h1 _ ih => exact .more h1 (ih h' hn)

theorem loopSt_done (fn : Rule → StFn σ) (rs : List Rule) : ∀ (left : Nat) (o l nt : List Mix) (s : σ),
    ∃ eo, CallsDone fn s (loopSt fn rs left o l nt s).calls eo (loopSt fn rs left o l nt s).state ∧ (∀ e, eo = some e → (loopSt fn rs left o l nt s).result = .error e) ∧
      (∀ e, (loopSt fn rs left o l nt s).result = .error e → eo = some e ∨ (eo = none ∧ e = .cyclicRuleDeps)) := by
  intro left
  induction left with
  | zero =>
    intro o l nt s
    have hp := passSt_done fn rs s nt
    unfold loopSt
    cases he : (passSt fn rs s nt).err with
    | some e => rw [he] at hp; simp only [he]; exact ⟨some e, hp, fun x hx => by simp at hx; subst hx; rfl, fun x hx => by simp at hx; subst hx; exact .inl rfl⟩
    | none =>
      rw [he] at hp
      simp only [he]
      by_cases h1 : l = (passSt fn rs s nt).mixins
      · rw [if_pos h1]; exact ⟨none, hp, fun x hx => by simp at hx, fun x hx => by simp at hx⟩
      · rw [if_neg h1]; exact ⟨none, hp, fun x hx => by simp at hx, fun x hx => by simp at hx; exact .inr ⟨rfl, hx.symm⟩⟩
  | succ left ih =>
    intro o l nt s
    have hp := passSt_done fn rs s nt
    unfold loopSt
    cases he : (passSt fn rs s nt).err with
    | some e => rw [he] at hp; simp only [he]; exact ⟨some e, hp, fun x hx => by simp at hx; subst hx; rfl, fun x hx => by simp at hx; subst hx; exact .inl rfl⟩
    | none =>
      rw [he] at hp
      simp only [he]
      by_cases h1 : l = (passSt fn rs s nt).mixins
      · rw [if_pos h1]; exact ⟨none, hp, fun x hx => by simp at hx, fun x hx => by simp at hx⟩
      · rw [if_neg h1]
        by_cases h2 : maxDependencyDepth - (left + 1) = rs.length
        · rw [if_pos h2]; exact ⟨none, hp, fun x hx => by simp at hx, fun x hx => by simp at hx; exact .inr ⟨rfl, hx.symm⟩⟩
        · rw [if_neg h2]
          obtain ⟨eo, a, b, c⟩ := ih (if maxDependencyDepth - (left + 1) = 0 then l else o) (passSt fn rs s nt).mixins (passSt fn rs s nt).mixins (passSt fn rs s nt).state
          exact ⟨eo, callsDone_append hp a, b, c⟩

theorem replicate_flatten_cons (rs : List Rule) (k : Nat) (l : List Rule) : rs ++ ((List.replicate k rs).flatten ++ l) = (List.replicate (k + 1) rs).flatten ++ l := by
  rw [List.replicate_succ, List.flatten_cons, List.append_assoc]

theorem loopSt_passes (fn : Rule → StFn σ) (rs : List Rule) : ∀ (left : Nat) (o l nt : List Mix) (s : σ), left ≤ 5 → 5 - left ≤ rs.length →
    ∃ k part, InPasses rs k part (loopSt fn rs left o l nt s).calls ∧ k + (if part = [] then 0 else 1) + (5 - left) ≤ min 5 rs.length + 1 ∧
      (∀ key, (loopSt fn rs left o l nt s).result = .ok key → part = [] ∧ 0 < k)
  | left, o, l, nt, s, h5, hle => by
    obtain ⟨hp, hq⟩ := passSt_rules fn rs s nt
    unfold loopSt
    simp only
    cases he : (passSt fn rs s nt).err with
    | some e =>
      refine ⟨0, _, ⟨by simp, hp⟩, ?_, fun key h => by simp at h⟩
      split <;> omega
    | none =>
      have hq := hq he
      have one : InPasses rs 1 [] (passSt fn rs s nt).calls := ⟨by simp [hq], List.nil_prefix⟩
      simp only
      by_cases hl : l = (passSt fn rs s nt).mixins
      · rw [if_pos hl]
        exact ⟨1, [], one, by simp; omega, fun key h => ⟨rfl, by omega⟩⟩
      · rw [if_neg hl]
        cases left with
        | zero => exact ⟨1, [], one, by simp; omega, fun key h => ⟨rfl, by omega⟩⟩
        | succ left' =>
          simp only
          by_cases hi : maxDependencyDepth - (left' + 1) = rs.length
          · rw [if_pos hi]
            exact ⟨1, [], one, by simp; omega, fun key h => ⟨rfl, by omega⟩⟩
          · rw [if_neg hi]
            have hi' : 5 - (left' + 1) ≠ rs.length := hi
            obtain ⟨k, part, ⟨h1, h2⟩, h3, h4⟩ := loopSt_passes fn rs left' (if maxDependencyDepth - (left' + 1) = 0 then l else o) (passSt fn rs s nt).mixins (passSt fn rs s nt).mixins
              (passSt fn rs s nt).state (by omega) (by omega)
            refine ⟨k + 1, part, ⟨?_, h2⟩, by omega, fun key h => ⟨(h4 key h).1, by omega⟩⟩
            rw [List.map_append, h1, hq, replicate_flatten_cons]

/-- The last pass changes nothing, on the whole. -/
theorem loopSt_stable (fn : Rule → StFn σ) (rs : List Rule) : ∀ (left : Nat) (o nt : List Mix) (s : σ) (key : List Mix),
    (loopSt fn rs left o nt nt s).result = .ok key →
    ∃ pre fin, (loopSt fn rs left o nt nt s).calls = pre ++ fin ∧ fin.map (·.rule) = rs ∧ Chained nt pre (loopSt fn rs left o nt nt s).mixins ∧
      Chained (loopSt fn rs left o nt nt s).mixins fin (loopSt fn rs left o nt nt s).mixins
  | left, o, nt, s, key => by
    have hc := passSt_chained fn rs s nt
    obtain ⟨-, hq⟩ := passSt_rules fn rs s nt
    unfold loopSt
    simp only
    cases he : (passSt fn rs s nt).err with
    | some e => intro h; simp at h
    | none =>
      have hq := hq he
      simp only
      by_cases hl : nt = (passSt fn rs s nt).mixins
      · rw [if_pos hl]
        intro _
        refine ⟨[], _, rfl, hq, hl, ?_⟩
        simp only
        rw [← hl] at hc ⊢
        exact hc
      · rw [if_neg hl]
        cases left with
        | zero => intro h; simp at h
        | succ left' =>
          simp only
          by_cases hi : maxDependencyDepth - (left' + 1) = rs.length
          · rw [if_pos hi]; intro h; simp at h
          · rw [if_neg hi]
            intro h
            obtain ⟨pre, fin, h1, h2, h3, h4⟩ := loopSt_stable fn rs left' _ (passSt fn rs s nt).mixins (passSt fn rs s nt).state key h
            refine ⟨(passSt fn rs s nt).calls ++ pre, fin, ?_, h2, chained_append hc h3, h4⟩
            show (passSt fn rs s nt).calls ++ _ = _
            rw [h1, List.append_assoc]

theorem loopSt_key (fn : Rule → StFn σ) (rs : List Rule) : ∀ (left : Nat) (o l nt : List Mix) (s : σ) (key : List Mix), left ≤ 5 →
    (loopSt fn rs left o l nt s).result = .ok key → key = if left = 5 then l else o
  | left, o, l, nt, s, key, h5 => by
    unfold loopSt
    simp only
    cases he : (passSt fn rs s nt).err with
    | some e => intro h; simp at h
    | none =>
      simp only
      by_cases hl : l = (passSt fn rs s nt).mixins
      · rw [if_pos hl]
        intro h
        simp only [Except.ok.injEq] at h
        rw [← h]
        by_cases h5' : left = 5
        · rw [if_pos (by unfold maxDependencyDepth; omega), if_pos h5']
        · rw [if_neg (by unfold maxDependencyDepth; omega), if_neg h5']
      · rw [if_neg hl]
        cases left with
        | zero => intro h; simp at h
        | succ left' =>
          simp only
          by_cases hi : maxDependencyDepth - (left' + 1) = rs.length
          · rw [if_pos hi]; intro h; simp at h
          · rw [if_neg hi]
            intro h
            have := loopSt_key fn rs left' _ (passSt fn rs s nt).mixins (passSt fn rs s nt).mixins (passSt fn rs s nt).state key (by omega) h
            rw [if_neg (by omega)] at this
            rw [this]
            unfold maxDependencyDepth
            by_cases h5' : left' + 1 = 5
            · rw [if_pos h5', if_pos (by omega)]
            · rw [if_neg h5', if_neg (by omega)]

theorem applySt_key {D : Decls} {fn : Rule → StFn σ} {rs : List Rule} {q : List Mix} {s : σ} {key : List Mix} (h : (applySt D fn rs q s).result = .ok key) : key = q := by
  have := loopSt_key fn rs 5 [] q _ s key (by omega) h
  rw [if_pos rfl] at this
  exact this

/-- The first pass of a query. -/
theorem applySt_first (D : Decls) (fn : Rule → StFn σ) (rs : List Rule) (q : List Mix) (s : σ) (key : List Mix) (h : (applySt D fn rs q s).result = .ok key) :
    ∃ pre fin b, (applySt D fn rs q s).calls = pre ++ fin ∧ fin.map (·.rule) = rs ∧ Chained (q.filter (fun m => !(D.mix m).dependency)) pre b ∧
      Chained b fin (applySt D fn rs q s).mixins ∧ (b = (applySt D fn rs q s).mixins ∨ (pre = [] ∧ (applySt D fn rs q s).mixins = q)) := by
  unfold applySt at h ⊢
  generalize hnt : q.filter (fun m => !(D.mix m).dependency) = nt at h ⊢
  have hc := passSt_chained fn rs s nt
  obtain ⟨-, hq⟩ := passSt_rules fn rs s nt
  unfold loopSt at h ⊢
  simp only at h ⊢
  cases he : (passSt fn rs s nt).err with
  | some e => rw [he] at h; simp at h
  | none =>
    have hq := hq he
    rw [he] at h
    simp only at h ⊢
    by_cases hl : q = (passSt fn rs s nt).mixins
    · rw [if_pos hl]
      exact ⟨[], _, nt, rfl, hq, rfl, hc, .inr ⟨rfl, hl.symm⟩⟩
    · rw [if_neg hl] at h ⊢
      simp only [maxDependencyDepth] at h ⊢
      by_cases hi : 5 - (4 + 1) = rs.length
      · rw [if_pos hi] at h; simp at h
      · rw [if_neg hi] at h ⊢
        obtain ⟨pre, fin, h1, h2, h3, h4⟩ := loopSt_stable fn rs 4 _ (passSt fn rs s nt).mixins (passSt fn rs s nt).state key h
        refine ⟨(passSt fn rs s nt).calls ++ pre, fin, _, ?_, h2, chained_append hc h3, h4, .inl rfl⟩
        show (passSt fn rs s nt).calls ++ _ = _
        rw [h1, List.append_assoc]

/-! ## Rules without state -/

theorem passSt_declared {D : Decls} {f : ElemView → Rule → StFn σ} (hf : AsDeclared D f) (v : ElemView) : ∀ (rs : List Rule) (s : σ) (ms : List Mix),
    match applyPass (rs.map (ruleFn D v)) ms with
    | .ok ms' => (passSt (stRule D f v) rs s ms).err = none ∧ (passSt (stRule D f v) rs s ms).mixins = ms'
    | .error e => (passSt (stRule D f v) rs s ms).err = some e
  | [], s, ms => ⟨rfl, rfl⟩
  | r :: rs, s, ms => by
    have h0 : match ruleFn D v r ms with
      | .ok ms' => (stRule D f v r s ms).1 = none ∧ (stRule D f v r s ms).2.1 = ms'
      | .error e => (stRule D f v r s ms).1 = some e := by
      unfold stRule
      by_cases hr : r = 0
      · subst hr
        rw [if_pos rfl]
        unfold liftFn
        cases ruleFn D v 0 ms with
        | ok ms' => exact ⟨rfl, rfl⟩
        | error e => rfl
      · rw [if_neg hr]
        exact hf v r s ms
    rw [List.map_cons]
    unfold applyPass passSt
    cases hx : stRule D f v r s ms with
    | mk e x =>
      obtain ⟨ms', s'⟩ := x
      rw [hx] at h0
      cases hy : ruleFn D v r ms with
      | error e' =>
        rw [hy] at h0
        simp only at h0 ⊢
        rw [h0]
      | ok ms'' =>
        rw [hy] at h0
        simp only at h0 ⊢
        rw [h0.1]
        have := passSt_declared hf v rs s' ms'
        simp only
        rw [← h0.2]
        exact this

theorem loopSt_declared {D : Decls} {f : ElemView → Rule → StFn σ} (hf : AsDeclared D f) (v : ElemView) (rs : List Rule) : ∀ (left : Nat) (o l nt : List Mix) (s : σ),
    match (rulesLoop (rs.map (ruleFn D v)) left o l nt).result with
    | .ok x => (loopSt (stRule D f v) rs left o l nt s).result = .ok x.1 ∧ (loopSt (stRule D f v) rs left o l nt s).mixins = x.2
    | .error e => (loopSt (stRule D f v) rs left o l nt s).result = .error e
  | left, o, l, nt, s => by
    have hp := passSt_declared hf v rs s nt
    unfold rulesLoop loopSt
    simp only
    cases ha : applyPass (rs.map (ruleFn D v)) nt with
    | error e =>
      rw [ha] at hp
      simp only at hp ⊢
      rw [hp]
    | ok nt' =>
      rw [ha] at hp
      simp only at hp ⊢
      rw [hp.1, hp.2]
      simp only
      by_cases hl : l = nt'
      · rw [if_pos hl, if_pos hl]
        by_cases hi : maxDependencyDepth - left = 0
        · rw [if_pos hi, if_pos hi]; exact ⟨rfl, rfl⟩
        · rw [if_neg hi, if_neg hi]; exact ⟨rfl, rfl⟩
      · rw [if_neg hl, if_neg hl]
        cases left with
        | zero => rfl
        | succ left' =>
          simp only [List.length_map]
          by_cases hi : maxDependencyDepth - (left' + 1) = rs.length
          · rw [if_pos hi, if_pos hi]
          · rw [if_neg hi, if_neg hi]
            exact loopSt_declared hf v rs left' _ nt' nt' (passSt (stRule D f v) rs s nt).state

theorem getTypeMut_finish (D : Decls) (W : World) (d : DomId) (q : List Mix) : getTypeMut D W d d q =
    match findQuery q (W.doms d).queries with
    | some t => (.ok t, W)
    | none =>
      match (applyMutationRules D (rulesOf D (W.view D d) (W.doms d)) q).result with
      | .error e => (.error e, W)
      | .ok x => finishGet D W d x.1 x.2 := by
  unfold getTypeMut
  rw [if_neg (by simp)]
  simp only
  unfold lookupSection
  cases hq : findQuery q (W.doms d).queries with
  | some t => rfl
  | none =>
    simp only
    cases hr : (applyMutationRules D (rulesOf D (W.view D d) (W.doms d)) q).result with
    | error e => rfl
    | ok p =>
      obtain ⟨key, ms⟩ := p
      simp only
      unfold finishGet
      simp only
      cases (if ms.isEmpty = true then some emptyTid else (findType ms (W.doms d).types).map (·.tid)) with
      | some t => rfl
      | none => rfl

/-! ## Domains -/

/-- All that `finishGet` does. -/
inductive FinCase (D : Decls) (W : World) (d : DomId) (q ms : List Mix) : Except Err TypeId × World → Prop
  | empty (h : ms = []) : FinCase D W d q ms (.ok emptyTid, W.setDom d { W.doms d with queries := storeQuery q emptyTid (W.doms d).queries })
  | found (r : TypeRec) (hne : ms ≠ []) (h : r.mixins = ms) (hr : r ∈ (W.doms d).types) :
      FinCase D W d q ms (.ok r.tid, W.setDom d { W.doms d with queries := storeQuery q r.tid (W.doms d).queries })
  | buildError (e : Err) (hne : ms ≠ []) (hb : buildType D W d W.nextType ms = .error e) : FinCase D W d q ms (.error e, W)
  | built (r : TypeRec) (hne : ms ≠ []) (h : r.mixins = ms) (hn : ∀ t ∈ (W.doms d).types, t.mixins ≠ r.mixins) (hb : buildType D W d W.nextType ms = .ok r) (ht : r.tid = W.nextType) :
      FinCase D W d q ms (.ok r.tid, { W.setDom d { W.doms d with types := (W.doms d).types ++ [r], queries := storeQuery q r.tid (W.doms d).queries } with nextType := W.nextType + 1 })

theorem finishGet_cases (D : Decls) (W : World) (d : DomId) (q ms : List Mix) : FinCase D W d q ms (finishGet D W d q ms) := by
  unfold finishGet
  simp only
  by_cases he : ms = []
  · subst he
    simp only [List.isEmpty_nil, if_true]
    exact .empty rfl
  · have he' : ms.isEmpty = false := by simpa using he
    simp only [he', Bool.false_eq_true, if_false]
    cases hf : findType ms (W.doms d).types with
    | some r =>
      obtain ⟨h1, h2⟩ := findType_some hf
      simp only [Option.map_some]
      exact .found r he h2 h1
    | none =>
      simp only [Option.map_none]
      cases hb : buildType D W d W.nextType ms with
      | error e => exact .buildError e he hb
      | ok r =>
        obtain ⟨-, h2, h3, -⟩ := buildType_ok D W d W.nextType ms r he hb
        subst h2
        simp only [emplaceSection, hf]
        exact .built r he rfl (findType_none.1 hf) hb h3

theorem finCase_types {D : Decls} {W : World} {d : DomId} {q ms : List Mix} {res : Except Err TypeId × World} (hc : FinCase D W d q ms res) (h : TypesInv D W d) :
    TypesInv D res.2 d ∧ ∀ t, res.1 = .ok t → (∃ r, (res.2.doms d).typeAt d t = some r ∧ r.mixins = ms) ∧ (q, t) ∈ (res.2.doms d).queries := by
  cases hc with
  | empty he =>
    refine ⟨h.store q emptyTid ⟨_, typeAt_empty _ _⟩, fun t ht => ?_⟩
    simp at ht; subst ht
    refine ⟨⟨_, typeAt_empty _ _, by subst he; rfl⟩, ?_⟩
    simp only [setDom_same]
    exact storeQuery_self _ _ _
  | found r hne hm hr =>
    refine ⟨h.store q r.tid ⟨r, h.typeAt_mem r hr⟩, fun t ht => ?_⟩
    simp at ht; subst ht
    simp only [setDom_same]
    exact ⟨⟨r, h.typeAt_mem r hr, hm⟩, storeQuery_self _ _ _⟩
  | buildError e _ _ => exact ⟨h, by simp⟩
  | built r hne hm hn hb ht =>
    obtain ⟨hok, -, -, -⟩ := buildType_ok D W d W.nextType ms r hne hb
    have hi := h.emplace q r hok ht hn
    refine ⟨hi, fun t he => ?_⟩
    simp at he; subst he
    exact ⟨⟨r, hi.typeAt_mem r (by simp), hm⟩, by simp only [setDom_same]; exact storeQuery_self _ _ _⟩

/-- What a call with such rules leaves alone. -/
theorem finCase_frame {D : Decls} {W : World} {d : DomId} {q ms : List Mix} {res : Except Err TypeId × World} (hc : FinCase D W d q ms res) :
    SameElems W res.2 ∧ (∀ d', d' ≠ d → res.2.doms d' = W.doms d') ∧ W.nextType ≤ res.2.nextType ∧ (∀ e, res.1 = .error e → res.2 = W) := by
  cases hc with
  | empty => exact ⟨SameElems.setDom W d _ rfl rfl rfl, fun d' hd => setDom_ne _ _ hd, Nat.le_refl _, by simp⟩
  | found => exact ⟨SameElems.setDom W d _ rfl rfl rfl, fun d' hd => setDom_ne _ _ hd, Nat.le_refl _, by simp⟩
  | buildError => exact ⟨SameElems.refl _, fun _ _ => rfl, Nat.le_refl _, by simp⟩
  | built r hne hm hn hb ht =>
    have h := SameElems.setDom W d { W.doms d with types := (W.doms d).types ++ [r], queries := storeQuery q r.tid (W.doms d).queries } rfl rfl rfl
    exact ⟨⟨h.settings, h.feats, h.mixins, rfl, rfl, rfl⟩, fun d' hd => setDom_ne _ _ hd, by simp, by simp⟩

/-- All that `get_type` does with such rules. -/
inductive StCase (D : Decls) (f : ElemView → Rule → StFn σ) (W : World) (s : σ) (d : DomId) (q : List Mix) : GetOut σ → Prop
  | hit (t : TypeId) (h : findQuery q (W.doms d).queries = some t) : StCase D f W s d q ⟨.ok t, W, q, s, []⟩
  | ruleError (e : Err) (hq : findQuery q (W.doms d).queries = none)
      (h : (applySt D (stRule D f (W.view D d)) ((W.doms d).rules.map (·.1)) q s).result = .error e) :
      StCase D f W s d q ⟨.error e, W, (applySt D (stRule D f (W.view D d)) ((W.doms d).rules.map (·.1)) q s).mixins,
        (applySt D (stRule D f (W.view D d)) ((W.doms d).rules.map (·.1)) q s).state, (applySt D (stRule D f (W.view D d)) ((W.doms d).rules.map (·.1)) q s).calls⟩
  | resolved (r : Except Err TypeId × World) (hq : findQuery q (W.doms d).queries = none)
      (h : (applySt D (stRule D f (W.view D d)) ((W.doms d).rules.map (·.1)) q s).result = .ok q)
      (hr : r = finishGet D W d q (applySt D (stRule D f (W.view D d)) ((W.doms d).rules.map (·.1)) q s).mixins) :
      StCase D f W s d q ⟨r.1, r.2, (applySt D (stRule D f (W.view D d)) ((W.doms d).rules.map (·.1)) q s).mixins,
        (applySt D (stRule D f (W.view D d)) ((W.doms d).rules.map (·.1)) q s).state, (applySt D (stRule D f (W.view D d)) ((W.doms d).rules.map (·.1)) q s).calls⟩

theorem getMutSt_cases (D : Decls) (f : ElemView → Rule → StFn σ) (W : World) (s : σ) (d : DomId) (q : List Mix) : StCase D f W s d q (getMutSt D f W s d d q) := by
  unfold getMutSt
  rw [if_neg (by simp)]
  cases hq : findQuery q (W.doms d).queries with
  | some t => exact .hit t hq
  | none =>
    simp only
    cases ha : (applySt D (stRule D f (W.view D d)) ((W.doms d).rules.map (·.1)) q s).result with
    | error e => exact .ruleError e hq ha
    | ok key =>
      have := applySt_key ha
      subst this
      exact .resolved _ hq ha rfl

theorem getSpanSt_cases (D : Decls) (f : ElemView → Rule → StFn σ) (W : World) (s : σ) (d : DomId) (q : List Mix) : StCase D f W s d q (getSpanSt D f W s d q) := by
  unfold getSpanSt
  cases hq : findQuery q (W.doms d).queries with
  | some t => exact .hit t hq
  | none => exact getMutSt_cases D f W s d q

/-- The two functions give the same. -/
theorem getSpanSt_eq (D : Decls) (f : ElemView → Rule → StFn σ) (W : World) (s : σ) (d : DomId) (q : List Mix) : getSpanSt D f W s d q = getMutSt D f W s d d q := by
  unfold getSpanSt
  cases hq : findQuery q (W.doms d).queries with
  | none => rfl
  | some t =>
    unfold getMutSt
    rw [if_neg (by simp), hq]

theorem stCase_frame {D : Decls} {f : ElemView → Rule → StFn σ} {W : World} {s : σ} {d : DomId} {q : List Mix} {g : GetOut σ} (hc : StCase D f W s d q g) :
    SameElems W g.W ∧ (∀ d', d' ≠ d → g.W.doms d' = W.doms d') ∧ W.nextType ≤ g.W.nextType ∧ (∀ e, g.result = .error e → g.W = W) := by
  cases hc with
  | hit t h => exact ⟨SameElems.refl _, fun _ _ => rfl, Nat.le_refl _, fun _ _ => rfl⟩
  | ruleError e hq h => exact ⟨SameElems.refl _, fun _ _ => rfl, Nat.le_refl _, fun _ _ => rfl⟩
  | resolved r hq h hr =>
    subst hr
    exact finCase_frame (finishGet_cases D W d q _)

theorem stCase_types {D : Decls} {f : ElemView → Rule → StFn σ} {W : World} {s : σ} {d : DomId} {q : List Mix} {g : GetOut σ} (hc : StCase D f W s d q g) (h : TypesInv D W d) :
    TypesInv D g.W d ∧ ∀ t, g.result = .ok t → (∃ r, (g.W.doms d).typeAt d t = some r) ∧ findQuery q (g.W.doms d).queries = some t ∧
      (findQuery q (W.doms d).queries = none → compositionOf g.W d t = some g.mixins) := by
  cases hc with
  | hit t ht =>
    refine ⟨h, fun t' he => ?_⟩
    simp at he; subst he
    exact ⟨h.queries _ (findQuery_some ht), ht, fun hn => by rw [ht] at hn; simp at hn⟩
  | ruleError e hq _ => exact ⟨h, fun t he => by simp at he⟩
  | resolved r hq ha hr =>
    subst hr
    obtain ⟨h1, h2⟩ := finCase_types (finishGet_cases D W d q (applySt D (stRule D f (W.view D d)) ((W.doms d).rules.map (·.1)) q s).mixins) h
    refine ⟨h1, fun t he => ?_⟩
    obtain ⟨⟨r, h3, h4⟩, h5⟩ := h2 t he
    refine ⟨⟨r, h3⟩, findQuery_mem h1.keys _ h5, fun _ => ?_⟩
    unfold compositionOf
    simp only
    rw [h3, ← h4]; rfl

/-! ## Programs -/

theorem stCase_inv {D : Decls} {f : ElemView → Rule → StFn σ} {W : World} {s : σ} {d : DomId} {q : List Mix} {g : GetOut σ} (hc : StCase D f W s d q g) (hr : RegInv W)
    (hi : ∀ d, TypesInv D W d) : RegInv g.W ∧ ∀ d, TypesInv D g.W d := by
  obtain ⟨h1, h2, h3, -⟩ := stCase_frame hc
  refine ⟨hr.congr h1, fun d' => ?_⟩
  by_cases hd : d' = d
  · subst hd; exact (stCase_types hc (hi d')).1
  · exact (hi d').frame (h2 d' hd) h1.mixId h1.mixDom h3

theorem stepSt_inv (D : Decls) (f : ElemView → Rule → StFn σ) (x : World × σ) (op : StOp σ) (hr : RegInv x.1) (hi : ∀ d, TypesInv D x.1 d) :
    RegInv (stepSt D f x op).1 ∧ ∀ d, TypesInv D (stepSt D f x op).1 d := by
  have other : ∀ op, RegInv (step D x.1 op).2 ∧ ∀ d, TypesInv D (step D x.1 op).2 d := fun op => ⟨step_reg D x.1 op hr, fun d => step_types D x.1 hr op d (hi d)⟩
  cases op with
  | set s => exact ⟨hr, hi⟩
  | call op =>
    cases op with
    | getTypeMut d md q =>
      by_cases hd : md = d
      · subst hd
        exact stCase_inv (getMutSt_cases D f x.1 x.2 md q) hr hi
      · unfold stepSt getMutSt
        simp only
        rw [if_pos hd]
        exact ⟨hr, hi⟩
    | getType d q => exact stCase_inv (getSpanSt_cases D f x.1 x.2 d q) hr hi
    | _ => exact other _

theorem runSt_inv (D : Decls) (f : ElemView → Rule → StFn σ) : ∀ (ops : List (StOp σ)) (x : World × σ), RegInv x.1 → (∀ d, TypesInv D x.1 d) →
    RegInv (runSt D f x ops).1 ∧ ∀ d, TypesInv D (runSt D f x ops).1 d
  | [], x, hr, hi => ⟨hr, hi⟩
  | op :: ops, x, hr, hi => by
    obtain ⟨h1, h2⟩ := stepSt_inv D f x op hr hi
    exact runSt_inv D f ops _ h1 h2

theorem reachableSt (D : Decls) (f : ElemView → Rule → StFn σ) (st : DomId → Settings) (s : σ) (ops : List (StOp σ)) :
    RegInv (runSt D f (initWorld st, s) ops).1 ∧ ∀ d, TypesInv D (runSt D f (initWorld st, s) ops).1 d :=
  runSt_inv D f ops _ (initWorld_reg st) (fun d => initWorld_types D st d)

theorem setDom_queries (W : World) (d' : DomId) (x : Dom) (hx : x.queries = (W.doms d').queries) (d : DomId) : ((W.setDom d' x).doms d).queries = (W.doms d).queries := by
  by_cases hd : d = d'
  · subst hd; rw [setDom_same]; exact hx
  · rw [setDom_ne _ _ hd]

theorem registerFeature_queries (D : Decls) (W : World) (d' : DomId) (x : Feat) (d : DomId) : ((registerFeature D W d' x).2.doms d).queries = (W.doms d).queries := by
  unfold registerFeature
  split
  · rfl
  · refine setDom_queries W d' _ ?_ d
    rfl

theorem registerFeatures_queries (D : Decls) (d' d : DomId) : ∀ (fs : List Feat) (W : World), ((registerFeatures D W d' fs).2.doms d).queries = (W.doms d).queries
  | [], W => rfl
  | x :: fs, W => by
    unfold registerFeatures
    by_cases hx : W.featId x ≠ none
    · rw [if_pos hx]; exact registerFeatures_queries D d' d fs W
    · rw [if_neg hx]
      have h1 := registerFeature_queries D W d' x d
      cases hy : registerFeature D W d' x with
      | mk r W' =>
        rw [hy] at h1
        cases r with
        | error e => exact h1
        | ok u => exact (registerFeatures_queries D d' d fs W').trans h1

theorem registerMixin_queries (D : Decls) (W : World) (d' : DomId) (m : Mix) (d : DomId) : ((registerMixin D W d' m).2.doms d).queries = (W.doms d).queries := by
  unfold registerMixin
  by_cases hx : W.mixDom m ≠ none ∧ W.mixDom m ≠ some d'
  · rw [if_pos hx]
  · rw [if_neg hx]
    have h1 := registerFeatures_queries D d' d ((D.mix m).feats.map (·.feat)) W
    cases hy : registerFeatures D W d' ((D.mix m).feats.map (·.feat)) with
    | mk r W' =>
      rw [hy] at h1
      cases r with
      | error e => exact h1
      | ok u =>
        simp only
        split
        · exact h1
        · refine Eq.trans (setDom_queries W' d' _ ?_ d) h1
          rfl

/-- What is stored stays, except for some calls. -/
theorem stepSt_keeps (D : Decls) (f : ElemView → Rule → StFn σ) (x : World × σ) (op : StOp σ) (d : DomId) (hop : ∀ o, op = .call o → mayForget d o = false) (q : List Mix) (t : TypeId)
    (hk : (x.1.doms d).queries.Pairwise (fun a b => a.1 ≠ b.1)) (h : (q, t) ∈ (x.1.doms d).queries) : (q, t) ∈ ((stepSt D f x op).1.doms d).queries := by
  have get : ∀ (d' : DomId) (q' : List Mix) (g : GetOut σ), StCase D f x.1 x.2 d' q' g → (q, t) ∈ (g.W.doms d).queries := by
    intro d' q' g hc
    by_cases hd : d = d'
    · subst hd
      cases hc with
      | hit => exact h
      | ruleError => exact h
      | resolved r hq ha hr =>
        have hne : q ≠ q' := by
          rintro rfl
          rw [findQuery_mem hk _ h] at hq; simp at hq
        have hc2 := finishGet_cases D x.1 d q' (applySt D (stRule D f (x.1.view D d)) ((x.1.doms d).rules.map (·.1)) q' x.2).mixins
        rw [← hr] at hc2
        cases hc2 with
        | empty => simp only [setDom_same]; exact storeQuery_keep _ _ _ _ h hne
        | found => simp only [setDom_same]; exact storeQuery_keep _ _ _ _ h hne
        | buildError => exact h
        | built => simp only [setDom_same]; exact storeQuery_keep _ _ _ _ h hne
    · rw [(stCase_frame hc).2.1 d hd]; exact h
  have same : ∀ W' : World, (W'.doms d).queries = (x.1.doms d).queries → (q, t) ∈ (W'.doms d).queries := fun W' hw => by rw [hw]; exact h
  have far : ∀ (d' : DomId) (y : Dom), (d' == d) = false → (q, t) ∈ ((x.1.setDom d' y).doms d).queries := by
    intro d' y hd
    rw [setDom_ne _ _ (by intro e; subst e; simp at hd)]; exact h
  cases op with
  | set s => exact h
  | call op =>
    have hop := hop op rfl
    cases op with
    | getTypeMut d' md q' =>
      by_cases hd : md = d'
      · subst hd
        exact get md q' _ (getMutSt_cases D f x.1 x.2 md q')
      · unfold stepSt getMutSt
        simp only
        rw [if_pos hd]
        exact h
    | getType d' q' => exact get d' q' _ (getSpanSt_cases D f x.1 x.2 d' q')
    | regFeature d' x' => exact same _ (registerFeature_queries D x.1 d' x' d)
    | unregFeature d' x' =>
      refine same _ ?_
      show ((unregisterFeature x.1 d' x').2.doms d).queries = _
      unfold unregisterFeature
      split
      · rfl
      · refine setDom_queries x.1 d' _ ?_ d
        rfl
    | regMixin d' m => exact same _ (registerMixin_queries D x.1 d' m d)
    | unregMixin d' m =>
      simp only [mayForget] at hop
      show (q, t) ∈ ((unregisterMixin x.1 d' m).2.doms d).queries
      unfold unregisterMixin
      simp only
      split
      · exact h
      · split
        · exact far d' _ hop
        · exact far d' _ hop
    | regClass d' c =>
      refine same _ ?_
      show ((registerTypeClass D x.1 d' c).2.doms d).queries = _
      unfold registerTypeClass
      simp only
      repeat' split
      all_goals first | rfl | (refine setDom_queries x.1 d' _ ?_ d; rfl)
    | unregClass d' c =>
      refine same _ ?_
      show ((unregisterTypeClass x.1 d' c).2.doms d).queries = _
      refine setDom_queries x.1 d' _ ?_ d
      rfl
    | addRule d' r =>
      simp only [mayForget] at hop
      show (q, t) ∈ ((addRule D x.1 d' r).2.doms d).queries
      unfold addRule
      simp only
      split
      · exact h
      · split
        · exact far d' _ hop
        · exact far d' _ hop
    | removeRule d' r =>
      simp only [mayForget] at hop
      show (q, t) ∈ ((removeRule D x.1 d' r).2.doms d).queries
      unfold removeRule
      simp only
      split
      · exact h
      · split
        · exact far d' _ hop
        · exact far d' _ hop
    | gc d' num =>
      simp only [mayForget] at hop
      exact far d' _ hop

theorem runSt_keeps (D : Decls) (f : ElemView → Rule → StFn σ) (d : DomId) (q : List Mix) (t : TypeId) : ∀ (ops : List (StOp σ)) (x : World × σ), RegInv x.1 → (∀ d, TypesInv D x.1 d) →
    (∀ o, StOp.call o ∈ ops → mayForget d o = false) → (q, t) ∈ (x.1.doms d).queries → (q, t) ∈ ((runSt D f x ops).1.doms d).queries
  | [], x, hr, hi, ho, h => h
  | op :: ops, x, hr, hi, ho, h => by
    obtain ⟨h1, h2⟩ := stepSt_inv D f x op hr hi
    exact runSt_keeps D f d q t ops _ h1 h2 (fun o hx => ho o (by simp [hx])) (stepSt_keeps D f x op d (fun o e => ho o (by simp [e])) q t (hi d).keys h)

end Dnmx
