import Verif.Props.Standard
import Verif.Props.OrderExact
import Verif.Props.Unparted

/-! C93, exactly: when the choice of `std::sort` does not matter, and the whole domain under the weakest conditions on names and features that the other claims have. -/

namespace Dnmx.Props
open Spec

/-! ## Sorting -/

/-- `a` and `x` are not distinguished. -/
def alike {α : Type} (lt : α → α → Bool) (a x : α) : Bool := !lt a x && !lt x a

theorem alike_iff {α : Type} {lt : α → α → Bool} {a x : α} : alike lt a x = true ↔ lt a x = false ∧ lt x a = false := by
  simp [alike]

/-- The sort of the models keeps what the comparator does not distinguish in order. -/
theorem insertBy_alike {α : Type} {L : List α} {lt : α → α → Bool} (h : WeakOrderOn L lt) {a x : α} (ha : a ∈ L) (hx : x ∈ L) :
    ∀ (l : List α), (∀ y ∈ l, y ∈ L) → (insertBy lt x l).filter (alike lt a) = (x :: l).filter (alike lt a)
  | [], _ => rfl
  | y :: ys, hl => by
    have hy := hl y List.mem_cons_self
    unfold insertBy
    by_cases hlt : lt y x = true
    · rw [if_pos hlt, List.filter_cons, insertBy_alike h ha hx ys (fun z hz => hl z (List.mem_cons_of_mem _ hz))]
      by_cases e : alike lt a x = true
      · have ey : alike lt a y = false := by
          rw [Bool.eq_false_iff]
          intro hay
          obtain ⟨e1, e2⟩ := alike_iff.1 e
          obtain ⟨e3, e4⟩ := alike_iff.1 hay
          have := h.same y hy a ha x hx e4 e3 e1 e2
          rw [hlt] at this
          exact Bool.noConfusion this
        simp [List.filter_cons, ey, e]
      · simp [List.filter_cons, e]
    · rw [if_neg hlt]

theorem sortBy_alike {α : Type} {L : List α} {lt : α → α → Bool} (h : WeakOrderOn L lt) {a : α} (ha : a ∈ L) :
    ∀ (l : List α), (∀ y ∈ l, y ∈ L) → (sortBy lt l).filter (alike lt a) = l.filter (alike lt a)
  | [], _ => rfl
  | x :: xs, hl => by
    have hxs := fun y hy => hl y (List.mem_cons_of_mem x hy)
    show (insertBy lt x (sortBy lt xs)).filter (alike lt a) = _
    rw [insertBy_alike h ha (hl x List.mem_cons_self) _ (fun y hy => hxs y ((sortBy_perm lt xs).mem_iff.1 hy)), List.filter_cons, List.filter_cons,
      sortBy_alike h ha xs hxs]

/-- A conforming sort that gives `out` for `l` with the comparator `lt`, and otherwise what the sort of the models gives. -/
theorem sort_giving {α : Type} {lt : α → α → Bool} {l out : List α} (hp : WeakOrderOn l lt → out.Perm l)
    (hs : WeakOrderOn l lt → out.Pairwise (fun a b => lt b a = false)) : ∃ S : StdSort, S.sort lt l = out := by
  classical
  let f : {β : Type} → (β → β → Bool) → List β → List β := fun {β} lt' l' =>
    if h : ∃ e : α = β, e ▸ lt = lt' ∧ e ▸ l = l' then h.1 ▸ out else sortBy lt' l'
  have hf : ∀ {β : Type} (lt' : β → β → Bool) (l' : List β), WeakOrderOn l' lt' → (f lt' l').Perm l' ∧ (f lt' l').Pairwise (fun a b => lt' b a = false) := by
    intro β lt' l' hw
    by_cases h : ∃ e : α = β, e ▸ lt = lt' ∧ e ▸ l = l'
    · obtain ⟨e, h1, h2⟩ := h
      subst e
      simp only at h1 h2
      subst h1 h2
      have e : f lt l = out := dif_pos ⟨rfl, rfl, rfl⟩
      rw [e]
      exact ⟨hp hw, hs hw⟩
    · have e : f lt' l' = sortBy lt' l' := dif_neg h
      rw [e]
      exact sortBy_conforms lt' l' l' (.refl l') hw
  exact ⟨⟨f, fun lt' l' hw => (hf lt' l' hw).1, fun lt' l' hw => (hf lt' l' hw).2⟩, dif_pos ⟨rfl, rfl, rfl⟩⟩

/-- C93, exactly: for any comparator and list, all conforming implementations of `std::sort` give the same result exactly if the comparator is a strict weak order on the elements and
elements that it does not distinguish are equal. -/
theorem C93_sort_exactly {α : Type} (lt : α → α → Bool) (l : List α) :
    (∀ S S' : StdSort, S.sort lt l = S'.sort lt l) ↔ WeakOrderOn l lt ∧ ∀ a ∈ l, ∀ b ∈ l, lt a b = false → lt b a = false → a = b := by
  constructor
  · intro h
    have hw : WeakOrderOn l lt := by
      refine Classical.byContradiction fun hn => ?_
      obtain ⟨S, hS⟩ := sort_giving (lt := lt) (l := l) (out := []) (fun h => absurd h hn) (fun h => absurd h hn)
      have h1 := h S keepingSort
      rw [hS] at h1
      have h2 : l = [] := by
        have := (sortBy_perm lt l).length_eq
        rw [show sortBy lt l = [] from h1.symm] at this
        exact List.length_eq_zero_iff.1 this.symm
      subst h2
      exact hn ⟨fun _ h => by simp at h, fun _ h => by simp at h, fun _ h => by simp at h⟩
    refine ⟨hw, fun a ha b hb h1 h2 => ?_⟩
    classical
    refine Classical.byContradiction fun hne => ?_
    have hb' : b ∈ l.erase a := (List.mem_erase_of_ne (fun e => hne e.symm)).2 hb
    have p1 : (a :: b :: (l.erase a).erase b).Perm l := ((List.perm_cons_erase hb').symm.cons a).trans (List.perm_cons_erase ha).symm
    have p2 : (b :: a :: (l.erase a).erase b).Perm l := (List.Perm.swap a b _).trans p1
    obtain ⟨S1, e1⟩ := sort_giving (fun hw => (sortBy_conforms lt l _ p1 hw).1) (fun hw => (sortBy_conforms lt l _ p1 hw).2)
    obtain ⟨S2, e2⟩ := sort_giving (fun hw => (sortBy_conforms lt l _ p2 hw).1) (fun hw => (sortBy_conforms lt l _ p2 hw).2)
    have e3 := h S1 S2
    rw [e1, e2] at e3
    have e4 := congrArg (List.filter (alike lt a)) e3
    rw [sortBy_alike hw ha _ (fun y hy => p1.mem_iff.1 hy), sortBy_alike hw ha _ (fun y hy => p2.mem_iff.1 hy)] at e4
    have c1 : alike lt a a = true := alike_iff.2 ⟨hw.irrefl a ha, hw.irrefl a ha⟩
    have c2 : alike lt a b = true := alike_iff.2 ⟨h1, h2⟩
    simp only [List.filter_cons, c1, c2, if_true, List.cons.injEq] at e4
    exact hne e4.1
  · rintro ⟨hw, hd⟩ S S'
    have := fun S => stdSort_distinct S lt l hw (fun a ha b hb hne => by
      refine Classical.byContradiction fun hc => ?_
      rw [not_or, Bool.not_eq_true, Bool.not_eq_true] at hc
      exact hne (hd a ha b hb hc.1 hc.2))
    rw [this S, this S']

/-- C93, exactly: all conforming implementations sort mixins by canonical order in the same way exactly if no three of them are in a cycle, whatever their names. -/
theorem C93_canonical_exactly (D : Decls) (ids : Mix → Option Nat) (ms : List Mix) :
    (∀ S S' : StdSort, S.sort (canonicalOrder D ids) ms = S'.sort (canonicalOrder D ids) ms) ↔ NoCycleOf (· ∈ ms) (canonicalOrder D ids) := by
  have hd := canonicalOrder_decides D ids (· ∈ ms)
  rw [C93_sort_exactly, ← strictTotal_iff_noCycle hd]
  constructor
  · rintro ⟨h, -⟩
    exact ⟨hd.irrefl, fun a b c ha hb hc => h.trans a ha b hb c hc, hd.total⟩
  · intro h
    refine ⟨WeakOrderOn.of_total h ms (fun _ h => h), fun a ha b hb h1 h2 => ?_⟩
    refine Classical.byContradiction fun hne => ?_
    rcases hd.total a b ha hb hne with h3 | h3
    · rw [h1] at h3; exact Bool.noConfusion h3
    · rw [h2] at h3; exact Bool.noConfusion h3

/-- C93, exactly: the initializers given to `mutate` are used in the same order by all conforming implementations exactly if no two different ones are for the same place of the type. -/
theorem C93_initializers_exactly (E : TyEnv) (t : TypeId) (ops : List InitOp) :
    (∀ S S' : StdSort, sortedOpsS S E t ops = sortedOpsS S' E t ops) ↔
    ∀ x ∈ ops, ∀ y ∈ ops, ∀ i, E.indexOf t x.1 = some i → E.indexOf t y.1 = some i → x.2 = y.2 := by
  unfold sortedOpsS
  rw [C93_sort_exactly]
  constructor
  · rintro ⟨-, h⟩ ⟨m, k⟩ hx ⟨m', k'⟩ hy i h1 h2
    simp only at h1 h2 ⊢
    have := h (i, k) (List.mem_filterMap.2 ⟨(m, k), hx, by simp [h1]⟩) (i, k') (List.mem_filterMap.2 ⟨(m', k'), hy, by simp [h2]⟩) (by simp) (by simp)
    simp at this
    exact this
  · intro h
    refine ⟨⟨?_, ?_, ?_⟩, ?_⟩
    · intro a _; simp
    · intro a _ b _ c _; simp only [decide_eq_true_eq]; omega
    · intro a _ b _ c _; simp only [decide_eq_false_iff_not]; omega
    · rintro ⟨i, k⟩ ha ⟨j, k'⟩ hb h1 h2
      simp only [decide_eq_false_iff_not] at h1 h2
      have hij : i = j := by omega
      subst hij
      obtain ⟨⟨m, a⟩, h3, h4⟩ := List.mem_filterMap.1 ha
      obtain ⟨⟨m', b⟩, h5, h6⟩ := List.mem_filterMap.1 hb
      simp only [Option.map_eq_some_iff, Prod.mk.injEq] at h4 h6
      obtain ⟨_, h7, rfl, rfl⟩ := h4
      obtain ⟨_, h8, rfl, rfl⟩ := h6
      exact congrArg (Prod.mk _) (h _ h3 _ h5 _ h7 h8)

/-- C93, exactly: one entry of a feature table comes out the same with all conforming implementations exactly if no two different payloads of it have the same bid, priority and mixin. -/
theorem C93_payloads_exactly (pls : List Payload) :
    (∀ S S' : StdSort, S.sort payloadLt pls = S'.sort payloadLt pls) ↔ ∀ p ∈ pls, ∀ q ∈ pls, rankOf p = rankOf q → p = q := by
  rw [C93_sort_exactly]
  constructor
  · rintro ⟨-, h⟩ p hp q hq e
    apply h p hp q hq <;> rw [payloadLt_rank, e] <;> exact rankLt_total.irrefl _ trivial
  · intro h
    refine ⟨payloadLt_weak pls, fun p hp q hq h1 h2 => h p hp q hq ?_⟩
    rw [payloadLt_rank] at h1 h2
    refine Classical.byContradiction fun hne => ?_
    rcases rankLt_total.total _ _ trivial trivial hne with h3 | h3
    · rw [h1] at h3; exact Bool.noConfusion h3
    · rw [h2] at h3; exact Bool.noConfusion h3

-- both sides occur: payloads of different mixins, and two of one mixin with equal bid and priority
example : (∀ p ∈ [Payload.mk 0 ⟨7, 100, 0, 0⟩, ⟨1, ⟨7, 101, 0, 0⟩⟩], ∀ q ∈ [Payload.mk 0 ⟨7, 100, 0, 0⟩, ⟨1, ⟨7, 101, 0, 0⟩⟩], rankOf p = rankOf q → p = q) ∧
    ¬ ∀ p ∈ [Payload.mk 0 ⟨7, 100, 0, 0⟩, ⟨0, ⟨7, 101, 0, 0⟩⟩], ∀ q ∈ [Payload.mk 0 ⟨7, 100, 0, 0⟩, ⟨0, ⟨7, 101, 0, 0⟩⟩], rankOf p = rankOf q → p = q := by
  constructor <;> decide +kernel

-- the mixins of `C22_canonical_order_refuted` are in a cycle; two of them are not
example : ¬ NoCycleOf (· ∈ [1, 0, 2]) (canonicalOrder exDecls exIds) ∧ NoCycleOf (· ∈ [1, 0]) (canonicalOrder exDecls exIds) := by
  constructor
  · intro h
    exact h ⟨1, 0, 2, by decide, by decide, by decide, by decide +kernel, by decide +kernel, by decide +kernel⟩
  · rintro ⟨a, b, c, ha, hb, hc, h1, h2, h3⟩
    simp only [List.mem_cons, List.not_mem_nil, or_false] at ha hb hc
    rcases ha with rfl | rfl <;> rcases hb with rfl | rfl <;> rcases hc with rfl | rfl <;> first | (revert h1; decide +kernel) | (revert h2; decide +kernel) | (revert h3; decide +kernel)

/-! ## The whole domain -/

/-- C93, for all rules of which no three are in a cycle, whatever their names: at any time the binary search finds what a search from the start finds. -/
theorem C93_rules_nocycle (D : Decls) (T : Rule → Prop) (hT : NoCycleOf T (ruleLt D)) (s : DomId → Settings) (ops : List Op) (hops : ∀ op ∈ ops, op.rulesIn T) (d : DomId)
    (h0 : (s d).canonicalize = true → T 0) (r : Rule) (hr : T r) :
    ruleIncrB D r ((run D (initWorld s) ops).doms d).rules = ruleIncr D r ((run D (initWorld s) ops).doms d).rules ∧
    ruleDecrB D r ((run D (initWorld s) ops).doms d).rules = ruleDecr D r ((run D (initWorld s) ops).doms d).rules := by
  have ho := (strictTotal_iff_noCycle (ruleLt_decides D T)).2 hT
  have h1 := (run_ruleMap ho d ops _ (initWorld_reg s) hops (initWorld_ruleMap D T s d h0).1).1
  exact ⟨ruleIncrB_same ho h1 r hr, ruleDecrB_same ho h1 r hr⟩

theorem runS_append (S : StdSort) (D : Decls) : ∀ (ops ops' : List Op) (W : World), runS S D W (ops ++ ops') = runS S D (runS S D W ops) ops'
  | [], _, _ => rfl
  | _ :: ops, ops', _ => runS_append S D ops ops' _

/-- C93 for the whole domain, with conditions that are the weakest ones of the claims they come from: no three rules and no three mixins in a cycle (C14, C22), no call makes features and
mixins part (`NeverParts`, C56), no mixin lists a feature twice with the same bid and priority (`C93_payloads_exactly`). Every history leads to the same state with every `std::sort` and
with binary search, and the next call has the same outcome. -/
theorem C93_domain_unparted (S : StdSort) (D : Decls) (T : Rule → Prop) (hT : NoCycleOf T (ruleLt D)) (hn : ∀ ids, NoCycleOf (fun _ => True) (canonicalOrder D ids)) (hd : NoDoubles D)
    (s : DomId → Settings) (h0 : ∀ d, (s d).canonicalize = true → T 0) (ops : List Op) (op : Op) (hops : ∀ o ∈ ops ++ [op], o.rulesIn T) (hf : NeverParts D s ops) :
    runS S D (initWorld s) ops = run D (initWorld s) ops ∧ stepS S D (run D (initWorld s) ops) op = step D (run D (initWorld s) ops) op ∧
    ∀ d q, getTypeS S D (run D (initWorld s) ops) d q = getType D (run D (initWorld s) ops) d q := by
  have ho := (strictTotal_iff_noCycle (ruleLt_decides D T)).2 hT
  have hc : CanonTotal D := fun ids => (strictTotal_iff_noCycle (canonicalOrder_decides D ids _)).2 (hn ids)
  have hhere := (C56_exactly D s ops).2 hf
  have key : ∀ pre, pre <+: ops → ∀ o, o.rulesIn T → stepS S D (run D (initWorld s) pre) o = step D (run D (initWorld s) pre) o := by
    intro pre hpre o hoT
    obtain ⟨home, used, hh⟩ := here_home (reachable_reg D s pre) (hhere pre hpre)
    exact stepS_same S ho (reachable_reg D s pre) hh hd hc
      (fun d => (run_ruleMap ho d pre _ (initWorld_reg s) (fun o h => hops o (List.mem_append_left _ (hpre.subset h))) (initWorld_ruleMap D T s d (h0 d)).1).1) o hoT
  refine ⟨?_, key ops (List.prefix_refl _) op (hops op (by simp)), ?_⟩
  · have all : ∀ n, n ≤ ops.length → runS S D (initWorld s) (ops.take n) = run D (initWorld s) (ops.take n) := by
      intro n
      induction n with
      | zero => intro _; rfl
      | succ n ih =>
        intro hle
        have hlt : n < ops.length := by omega
        rw [List.take_succ_eq_append_getElem hlt, runS_append, ih (by omega), run_append]
        show (stepS S D _ ops[n]).2 = (step D _ ops[n]).2
        rw [key (ops.take n) (List.take_prefix _ _) ops[n] (hops _ (List.mem_append_left _ (List.getElem_mem hlt)))]
    have := all ops.length (Nat.le_refl _)
    rwa [List.take_length] at this
  · intro d q
    obtain ⟨home, used, hh⟩ := here_home (reachable_reg D s ops) (hhere ops (List.prefix_refl _))
    unfold getTypeS getType
    rw [getTypeMutS_same S (reachable_reg D s ops) hh hd hc]
    cases findQuery q ((run D (initWorld s) ops).doms d).queries <;> rfl

/-- Names that all begin at the same address and have different lengths, so that they are not compared as they should be; but all order priorities are different. -/
def prioDecls : Decls where
  mem := fun a => UInt8.ofNat a
  mix := fun m => { name := ⟨5, 5 + m⟩, orderPriority := m, feats := if m = 1 then [⟨7, 100, 0, 0⟩, ⟨7, 101, 1, 0⟩] else [] }
  feat := fun f => { name := ⟨f, f + 1⟩, allowClashes := true }
  canonName := ⟨5, 6⟩
  userRule := fun r => { name := ⟨5, 5 + r⟩, orderPriority := r, apply := some fun _ ms => .ok ms }
  cls := fun _ => ⟨⟨0, 0⟩, false, fun _ => true⟩

def prioOps : List Op := [.addRule 0 3, .regMixin 0 1, .regMixin 0 2, .addRule 0 1, .getType 0 [2, 1], .addRule 0 3, .removeRule 0 1, .unregMixin 0 2]

example : NoCycleOf (· < 10) (ruleLt prioDecls) ∧ (∀ ids, NoCycleOf (fun _ => True) (canonicalOrder prioDecls ids)) ∧ NoDoubles prioDecls ∧ (∀ o ∈ prioOps, o.rulesIn (· < 10)) ∧
    NeverParts prioDecls (fun _ => { canonicalize := true }) prioOps ∧ ¬ MixNamesOk prioDecls ∧
    (typesOf (run prioDecls (initWorld fun _ => { canonicalize := true }) (prioOps.take 7)) 0).map (fun t => t.mixins) = [[1, 2]] := by
  refine ⟨?_, ?_, ?_, ?_, ?_, ?_, by decide +kernel⟩
  · have hp : ∀ r, r < 10 → (ruleOf prioDecls r).orderPriority = if r = 0 then 2147483647 else (r : Int) := by
      intro r _; unfold ruleOf; split <;> rfl
    have hl : ∀ a b, a < 10 → b < 10 → ruleLt prioDecls a b = true → a ≠ b → (ruleOf prioDecls a).orderPriority < (ruleOf prioDecls b).orderPriority := by
      intro a b ha hb h hne
      unfold ruleLt ruleCompare at h
      rw [if_pos] at h
      · exact of_decide_eq_true h
      · rw [hp a ha, hp b hb]
        split <;> split <;> omega
    rintro ⟨a, b, c, ha, hb, hc, h1, h2, h3⟩
    have hd := cycle_distinct (ruleLt_decides prioDecls (· < 10)) ha hb hc h1 h2 h3
    have e1 := hl a b ha hb h1 hd.1
    have e2 := hl b c hb hc h2 hd.2.1
    have e3 := hl c a hc ha h3 (fun e => hd.2.2 e)
    omega
  · rintro ids ⟨a, b, c, ha, hb, hc, h1, h2, h3⟩
    have hd := cycle_distinct (canonicalOrder_decides prioDecls ids (fun _ => True)) ha hb hc h1 h2 h3
    have hl : ∀ a b, canonicalOrder prioDecls ids a b = true → a ≠ b → a < b := by
      intro a b h hne
      unfold canonicalOrder at h
      rw [if_pos (by simp [prioDecls]; omega)] at h
      have := of_decide_eq_true h
      simp [prioDecls] at this
      exact this
    have e1 := hl a b h1 hd.1
    have e2 := hl b c h2 hd.2.1
    have e3 := hl c a h3 (fun e => hd.2.2 e)
    omega
  · intro m
    by_cases h : m = 1
    · subst h
      show List.Pairwise _ [_, _]
      simp
    · simp [prioDecls, h]
  · intro o ho
    simp only [prioOps, List.mem_cons, List.not_mem_nil, or_false] at ho
    rcases ho with rfl | rfl | rfl | rfl | rfl | rfl | rfl | rfl <;> simp [Op.rulesIn]
  · apply discipline_neverParts
    refine ⟨fun _ => 0, fun _ => True, ?_⟩
    intro o ho
    simp only [prioOps, List.mem_cons, List.not_mem_nil, or_false] at ho
    rcases ho with rfl | rfl | rfl | rfl | rfl | rfl | rfl | rfl <;> simp [Op.disciplined]
  · rintro ⟨-, h⟩
    have := h 1 2 rfl
    simp [prioDecls, Sv.len] at this

end Dnmx.Props
