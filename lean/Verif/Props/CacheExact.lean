import Verif.Props.Types
import Verif.Proofs.AnswerLemmas

/-! C16: exactly when a stored query is harmless. -/

namespace Dnmx.Props
open Spec

/-- what the rules in force make of a list of mixins now -/
def nowComposed (D : Decls) (W : World) (d : DomId) (q : List Mix) : Except Err (List Mix) :=
  resolve D (rulesOf D (W.view D d) (W.doms d)) q

theorem getCase_keeps_typeAt {D : Decls} {W : World} {d : DomId} {q : List Mix} {res : Except Err TypeId × World}
    (hc : GetCase D W d q res) (t : TypeId) (r : TypeRec) (h : (W.doms d).typeAt d t = some r) :
    (res.2.doms d).typeAt d t = some r := by
  cases hc with
  | hit | ruleError | buildError => exact h
  | empty | found => simpa [Dom.typeAt] using h
  | built r' hne he hn hb ht =>
    by_cases h0 : t = emptyTid
    · subst h0; rw [typeAt_empty] at h ⊢; exact h
    · simp only [Dom.typeAt, h0, if_false] at h
      simp [Dom.typeAt, h0, List.find?_append, h]

/-- C16, without a hypothesis on the rules: the answer of `get_type` is the one that a domain without stored queries would
give exactly if the list was not asked for before, or the type that was given then has the composition that the rules in
force give now. -/
theorem C16_exactly (D : Decls) (s : DomId → Settings) (ops : List Op) (d : DomId) (q : List Mix) :
    (getType D (run D (initWorld s) ops) d q).1 = (getType D (forgetQueries (run D (initWorld s) ops) d) d q).1 ↔
      ∀ t, (q, t) ∈ ((run D (initWorld s) ops).doms d).queries →
        ∃ ms, compositionOf (run D (initWorld s) ops) d t = some ms ∧ nowComposed D (run D (initWorld s) ops) d q = .ok ms := by
  have h := reachable_types D s ops d
  generalize run D (initWorld s) ops = W at h
  have hc := getType_cases D W d q
  have hc' := getType_cases D (forgetQueries W d) d q
  have hf := getCase_fresh hc' (forget_types h) (by intro t ht; simp [forgetQueries] at ht)
  rw [forget_fresh] at hf
  constructor
  · intro he t ht
    obtain ⟨r, hr⟩ := h.queries _ ht
    refine ⟨r.mixins, by simp only at hr; simp [compositionOf, hr], ?_⟩
    have ha : (getType D W d q).1 = .ok t := by
      unfold getType
      rw [findQuery_mem h.keys _ ht]
    rw [ha] at he
    obtain ⟨r', h1, h2⟩ := getCase_composition hc' (forget_types h) t he.symm
    have hk := getCase_keeps_typeAt hc' t r (by simpa [forgetQueries, Dom.typeAt] using hr)
    rw [hk] at h1
    simp at h1; subst h1
    rcases h2 with ⟨h2, -⟩ | h2
    · simp [forgetQueries] at h2
    · have e1 : rulesOf D ((forgetQueries W d).view D d) ((forgetQueries W d).doms d) = rulesOf D (W.view D d) (W.doms d) := by
        rw [forget_view]; simp [rulesOf, forgetQueries]
      rw [e1] at h2
      simp [nowComposed, resolve, h2]
  · intro hh
    rw [hf]
    refine getCase_fresh hc h fun t ht => ?_
    obtain ⟨ms, h1, h2⟩ := hh t ht
    obtain ⟨r, hr⟩ := h.queries _ ht
    simp only at hr
    simp [compositionOf, hr] at h1
    subst h1
    refine ⟨r, hr, ?_⟩
    unfold nowComposed resolve at h2
    unfold freshOutcome
    cases hx : (applyMutationRules D (rulesOf D (W.view D d) (W.doms d)) q).result with
    | error e => rw [hx] at h2; simp at h2
    | ok p =>
      obtain ⟨k, ms⟩ := p
      rw [hx] at h2
      simp at h2
      subst h2
      rfl

-- both sides hold for a list that was not asked for, and fail for the stored query of `C16_cache_refuted`
example : ∃ W, W = run tyDecls (initWorld fun _ => {}) [.regMixin 0 3, .addRule 0 2, .getType 0 [3], .regMixin 0 4] ∧
    ([3], 1) ∈ (W.doms 0).queries ∧ compositionOf W 0 1 = some [3] ∧ nowComposed tyDecls W 0 [3] = .ok [3, 4] ∧
    findQuery [4] (W.doms 0).queries = none := by
  refine ⟨_, rfl, ?_⟩
  decide +kernel

end Dnmx.Props
