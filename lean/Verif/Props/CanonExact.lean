import Verif.Props.Canon
import Verif.Props.OrderExact
import Verif.Proofs.StandardLemmas

/-! C21, exactly: the order of the mixins in a query does not matter exactly if no three of them are in a cycle of the canonical order, whatever their names. -/

namespace Dnmx.Props
open Spec

/-- In a domain with the canonicalization rule only, a query whose sorted form stays as it is when sorted again. -/
theorem canon_resolve (D : Decls) (W : World) (d : DomId) (hk : (W.doms d).rules.map (·.1) = [0]) (q : List Mix)
    (h : sortBy (canonicalOrder D W.mixId) (sortBy (canonicalOrder D W.mixId) (stripDeps D q)) = sortBy (canonicalOrder D W.mixId) (stripDeps D q)) :
    (applyMutationRules D (rulesOf D (W.view D d) (W.doms d)) q).result = .ok (q, sortBy (canonicalOrder D W.mixId) (stripDeps D q)) := by
  rw [rulesOf_canon D _ _ hk]
  exact applyMutationRules_sort_ok D _ q h

theorem canon_getType (D : Decls) (W : World) (d : DomId) (hi : TypesInv D W d) (hcan : CanonOk D W d) (hk : (W.doms d).rules.map (·.1) = [0]) (q : List Mix)
    (h : sortBy (canonicalOrder D W.mixId) (sortBy (canonicalOrder D W.mixId) (stripDeps D q)) = sortBy (canonicalOrder D W.mixId) (stripDeps D q)) :
    (getType D W d q).1 = typeFor D W d (sortBy (canonicalOrder D W.mixId) (stripDeps D q)) := by
  have hf : freshOutcome D W d q = typeFor D W d (sortBy (canonicalOrder D W.mixId) (stripDeps D q)) := by
    unfold freshOutcome
    rw [canon_resolve D W d hk q h]
  rw [← hf]
  refine getCase_fresh (getType_cases D W d q) hi fun t ht => ?_
  obtain ⟨r, h1, h2⟩ := hcan hk _ ht
  exact ⟨r, h1, by rw [hf, h2]⟩

theorem canon_composition (D : Decls) (W : World) (d : DomId) (hi : TypesInv D W d) (hcan : CanonOk D W d) (hk : (W.doms d).rules.map (·.1) = [0]) (q : List Mix)
    (h : sortBy (canonicalOrder D W.mixId) (sortBy (canonicalOrder D W.mixId) (stripDeps D q)) = sortBy (canonicalOrder D W.mixId) (stripDeps D q)) (t : TypeId)
    (ht : (getType D W d q).1 = .ok t) :
    ∃ r, ((getType D W d q).2.doms d).typeAt d t = some r ∧ r.mixins = sortBy (canonicalOrder D W.mixId) (stripDeps D q) := by
  obtain ⟨r, h4, h5⟩ := getCase_composition (getType_cases D W d q) hi t ht
  refine ⟨r, h4, ?_⟩
  rcases h5 with ⟨h5, h6⟩ | h5
  · obtain ⟨r', h7, h8⟩ := hcan hk _ h5
    rw [h6] at h7; simp at h7; subst h7; exact h8
  · rw [canon_resolve D W d hk q h] at h5
    simp at h5
    exact h5.symm

/-- sorted twice -/
theorem sortBy_twice {lt : Mix → Mix → Bool} {T : Mix → Prop} (ho : StrictTotalOn T lt) (l : List Mix) (hl : ∀ m ∈ l, T m) : sortBy lt (sortBy lt l) = sortBy lt l :=
  sortBy_of_sorted _ _ (sortBy_conforms lt l l (.refl l) (WeakOrderOn.of_total ho l hl)).2

theorem sortBy_same {lt : Mix → Mix → Bool} {T : Mix → Prop} (ho : StrictTotalOn T lt) {l l' : List Mix} (hl : ∀ m ∈ l, T m) (hp : l.Perm l') : sortBy lt l' = sortBy lt l := by
  have hl' : ∀ m ∈ l', T m := fun m hm => hl m (hp.mem_iff.2 hm)
  refine sorted_perm_unique lt T ho.total _ _ (fun m hm => hl' m ((sortBy_perm _ _).mem_iff.1 hm)) (((sortBy_perm _ _).trans hp.symm).trans (sortBy_perm _ _).symm)
    (sortBy_conforms lt l' l' (.refl _) (WeakOrderOn.of_total ho l' hl')).2 (sortBy_conforms lt l l (.refl _) (WeakOrderOn.of_total ho l hl)).2

/-- three mixins in a cycle -/
theorem cycle_sorted {lt : Mix → Mix → Bool} {T : Mix → Prop} (hd : Decides T lt) {a b c : Mix} (ha : T a) (hb : T b) (hc : T c) (h1 : lt a b = true) (h2 : lt b c = true) :
    sortBy lt [a, b, c] = [a, b, c] := by
  simp [sortBy, insertBy, hd.asymm _ _ hb hc h2, hd.asymm _ _ ha hb h1]

/-- C21, exactly: in a domain with canonical types and no other rules, at any time, for any set `T` of mixins that are no dependencies and any three of which make a type: a query and one that
has the same mixins in another order have the same outcome, for all queries whose mixins, except dependencies, are from `T`, exactly if no three mixins of `T` are in a cycle of the
canonical order. -/
theorem C21_exactly (D : Decls) (s : DomId → Settings) (ops : List Op) (d : DomId) (hs : (s d).canonicalize = true) (hno : ∀ r, .addRule d r ∉ ops ∧ .removeRule d r ∉ ops) (T : Mix → Prop)
    (hdep : ∀ m, T m → (D.mix m).dependency = false)
    (hok : ∀ a b c, T a → T b → T c → a ≠ b → b ≠ c → c ≠ a → ∃ t, (getType D (run D (initWorld s) ops) d [a, b, c]).1 = .ok t) :
    (∀ q1 q2 : List Mix, q1.Perm q2 → (∀ m ∈ q1, (D.mix m).dependency = false → T m) →
      (getType D (getType D (run D (initWorld s) ops) d q1).2 d q2).1 = (getType D (run D (initWorld s) ops) d q1).1) ↔
    NoCycleOf T (canonicalOrder D (run D (initWorld s) ops).mixId) := by
  have hk := canonical_rules D s ops d hs hno
  have hi := reachable_types D s ops d
  have hcan := reachable_canon D s ops d
  generalize run D (initWorld s) ops = W at hk hi hcan hok ⊢
  have hd := canonicalOrder_decides D W.mixId T
  have after : ∀ q, TypesInv D (getType D W d q).2 d ∧ CanonOk D (getType D W d q).2 d ∧ (((getType D W d q).2).doms d).rules.map (·.1) = [0] ∧ (getType D W d q).2.mixId = W.mixId := by
    intro q
    have hc := getType_cases D W d q
    refine ⟨(getCase_types hc hi).1, ?_, by rw [getCase_rules hc]; exact hk, (getCase_elems hc).1⟩
    exact (TypeStep.get q _ hc : TypeStep D W d (getType D W d q).2).canon hi hcan
  constructor
  · rintro h ⟨a, b, c, ha, hb, hc, h1, h2, h3⟩
    obtain ⟨n1, n2, n3⟩ := cycle_distinct hd ha hb hc h1 h2 h3
    obtain ⟨t, ht⟩ := hok a b c ha hb hc n1 n2 (fun e => n3 e)
    have hp : [a, b, c].Perm [b, c, a] := by
      have := List.perm_append_comm (l₁ := [a]) (l₂ := [b, c])
      simpa using this
    have hin : ∀ m ∈ [a, b, c], (D.mix m).dependency = false → T m := by
      intro m hm _
      simp only [List.mem_cons, List.not_mem_nil, or_false] at hm
      rcases hm with rfl | rfl | rfl <;> assumption
    have h4 := h [a, b, c] [b, c, a] hp hin
    obtain ⟨i1, i2, i3, i4⟩ := after [a, b, c]
    have s1 : stripDeps D [a, b, c] = [a, b, c] := by simp [stripDeps, hdep a ha, hdep b hb, hdep c hc]
    have s2 : stripDeps D [b, c, a] = [b, c, a] := by simp [stripDeps, hdep a ha, hdep b hb, hdep c hc]
    have e1 := cycle_sorted hd ha hb hc h1 h2
    have e2 := cycle_sorted hd hb hc ha h2 h3
    obtain ⟨r, k1, k2⟩ := canon_composition D W d hi hcan hk [a, b, c] (by rw [s1, e1, e1]) t ht
    obtain ⟨r', k3, k4⟩ := canon_composition D _ d i1 i2 i3 [b, c, a] (by rw [i4, s2, e2, e2]) t (by rw [h4, ht])
    rw [getCase_keeps (getType_cases D _ d [b, c, a]) t r k1] at k3
    simp only [Option.some.injEq] at k3
    subst k3
    rw [i4, s2, e2] at k4
    rw [s1, e1, k4] at k2
    simp only [List.cons.injEq] at k2
    exact n1 k2.1.symm
  · intro hn q1 q2 hp hq
    have ho := (strictTotal_iff_noCycle hd).2 hn
    have hT1 : ∀ m ∈ stripDeps D q1, T m := by
      intro m hm
      obtain ⟨m1, m2⟩ := List.mem_filter.1 hm
      exact hq m m1 (by simpa using m2)
    have hps : (stripDeps D q1).Perm (stripDeps D q2) := hp.filter _
    have hT2 : ∀ m ∈ stripDeps D q2, T m := fun m hm => hT1 m (hps.mem_iff.2 hm)
    have h1 := canon_getType D W d hi hcan hk q1 (sortBy_twice ho _ hT1)
    have h2 := canon_getType D W d hi hcan hk q2 (sortBy_twice ho _ hT2)
    rw [sortBy_same ho hT1 hps] at h2
    cases hr : (getType D W d q1).1 with
    | error e => rw [getCase_error_same (getType_cases D W d q1) e hr, h2, ← h1, hr]
    | ok t =>
      obtain ⟨i1, i2, i3, i4⟩ := after q1
      have h3 := canon_getType D _ d i1 i2 i3 q2 (by rw [i4]; exact sortBy_twice ho _ hT2)
      rw [h3, i4, sortBy_same ho hT1 hps]
      obtain ⟨r, k1, k2⟩ := canon_composition D W d hi hcan hk q1 (sortBy_twice ho _ hT1) t hr
      rw [← k2, typeFor_at i1 k1]

/-- C21, whatever the names: the type for a query without cycles has exactly the query's mixins, except dependencies, each before those that come after it in the comparison of the library. -/
theorem C21_composition_nocycle (D : Decls) (s : DomId → Settings) (ops : List Op) (d : DomId) (hs : (s d).canonicalize = true) (hno : ∀ r, .addRule d r ∉ ops ∧ .removeRule d r ∉ ops)
    (q : List Mix) (hn : NoCycleOf (fun m => m ∈ q ∧ (D.mix m).dependency = false) (canonicalOrder D (run D (initWorld s) ops).mixId)) (t : TypeId)
    (h : (getType D (run D (initWorld s) ops) d q).1 = .ok t) :
    ∃ ms, compositionOf (getType D (run D (initWorld s) ops) d q).2 d t = some ms ∧ ms.Perm (q.filter (fun m => !(D.mix m).dependency)) ∧
      ms.Pairwise (fun a b => canonicalOrder D (run D (initWorld s) ops).mixId b a = false) := by
  have hk := canonical_rules D s ops d hs hno
  have hi := reachable_types D s ops d
  have hcan := reachable_canon D s ops d
  generalize run D (initWorld s) ops = W at hk hi hcan hn h ⊢
  have ho := (strictTotal_iff_noCycle (canonicalOrder_decides D W.mixId _)).2 hn
  have hT : ∀ m ∈ stripDeps D q, m ∈ q ∧ (D.mix m).dependency = false := by
    intro m hm
    obtain ⟨m1, m2⟩ := List.mem_filter.1 hm
    exact ⟨m1, by simpa using m2⟩
  obtain ⟨r, h1, h2⟩ := canon_composition D W d hi hcan hk q (sortBy_twice ho _ hT) t h
  refine ⟨r.mixins, by simp [compositionOf, h1], by rw [h2]; exact sortBy_perm _ _, ?_⟩
  rw [h2]
  exact (sortBy_conforms _ _ _ (.refl _) (WeakOrderOn.of_total ho _ hT)).2

def cycleOps : List Op := [.regMixin 0 1, .regMixin 0 0, .regMixin 0 2]

-- both sides occur: the mixins of `C22_canonical_order_refuted`, where the order of the query matters, and two of them
example : (getType exDecls (run exDecls (initWorld fun _ => { canonicalize := true }) cycleOps) 0 [1, 0, 2]).1 = .ok 1 ∧
    (getType exDecls (getType exDecls (run exDecls (initWorld fun _ => { canonicalize := true }) cycleOps) 0 [1, 0, 2]).2 0 [0, 2, 1]).1 = .ok 2 ∧
    ¬ NoCycleOf (fun m => m < 3) (canonicalOrder exDecls (run exDecls (initWorld fun _ => { canonicalize := true }) cycleOps).mixId) ∧
    NoCycleOf (fun m => m < 2) (canonicalOrder exDecls (run exDecls (initWorld fun _ => { canonicalize := true }) cycleOps).mixId) := by
  refine ⟨by decide +kernel, by decide +kernel, ?_, ?_⟩
  · intro h
    exact h ⟨1, 0, 2, by decide, by decide, by decide, by decide +kernel, by decide +kernel, by decide +kernel⟩
  · rintro ⟨a, b, c, ha, hb, hc, h1, h2, h3⟩
    have hd := cycle_distinct (canonicalOrder_decides exDecls _ (fun m => m < 2)) ha hb hc h1 h2 h3
    omega

end Dnmx.Props
