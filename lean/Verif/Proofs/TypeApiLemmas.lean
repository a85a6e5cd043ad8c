import Verif.Proofs.HomeLemmas
import Verif.Spec.Types

namespace Dnmx
open Spec

theorem getCase_stored {D : Decls} {W : World} {d : DomId} {q : List Mix} {res : Except Err TypeId × World}
    (hc : GetCase D W d q res) (t : TypeId) (h : res.1 = .ok t) : (q, t) ∈ (res.2.doms d).queries := by
  cases hc with
  | hit t' ht => simp at h; subst h; exact ht
  | ruleError => simp at h
  | buildError => simp at h
  | empty => simp at h; subst h; simp only [setDom_same]; exact storeQuery_self ..
  | found r => simp at h; subst h; simp only [setDom_same]; exact storeQuery_self ..
  | built r => simp at h; subst h; simp only [setDom_same]; exact storeQuery_self ..

theorem getCase_error_same {D : Decls} {W : World} {d : DomId} {q : List Mix} {res : Except Err TypeId × World}
    (hc : GetCase D W d q res) (e : Err) (h : res.1 = .error e) : res.2 = W := by
  cases hc <;> first | rfl | simp at h

theorem getCase_rules {D : Decls} {W : World} {d : DomId} {q : List Mix} {res : Except Err TypeId × World}
    (hc : GetCase D W d q res) : (res.2.doms d).rules = (W.doms d).rules := by
  cases hc <;> simp

/-- types are never removed by get_type -/
theorem getCase_keeps {D : Decls} {W : World} {d : DomId} {q : List Mix} {res : Except Err TypeId × World}
    (hc : GetCase D W d q res) (tid : TypeId) (r : TypeRec) (h : (W.doms d).typeAt d tid = some r) :
    (res.2.doms d).typeAt d tid = some r := by
  cases hc with
  | hit => exact h
  | ruleError => exact h
  | buildError => exact h
  | empty => simp only [setDom_same]; exact h
  | found => simp only [setDom_same]; exact h
  | built r' =>
    simp only [setDom_same]
    unfold Dom.typeAt at h ⊢
    split
    · rename_i hz; rw [if_pos hz] at h; exact h
    · rename_i hz; rw [if_neg hz] at h; exact find?_append_fresh _ _ _ _ h

theorem TypesInv.typeAt_inj {D : Decls} {W : World} {d : DomId} (h : TypesInv D W d) {t1 t2 : TypeId} {r1 r2 : TypeRec}
    (h1 : (W.doms d).typeAt d t1 = some r1) (h2 : (W.doms d).typeAt d t2 = some r2) (he : r1.mixins = r2.mixins) : t1 = t2 := by
  rcases typeAt_some h1 with ⟨a1, b1⟩ | ⟨a1, b1, c1⟩
  · rcases typeAt_some h2 with ⟨a2, b2⟩ | ⟨a2, b2, c2⟩
    · rw [a1, a2]
    · have := (h.ok r2 b2).nonempty
      subst b1
      rw [← he] at this; simp [emptyType] at this
  · rcases typeAt_some h2 with ⟨a2, b2⟩ | ⟨a2, b2, c2⟩
    · have := (h.ok r1 b1).nonempty
      subst b2
      rw [he] at this; simp [emptyType] at this
    · have f1 := findType_mem h.comps r1 b1
      have f2 := findType_mem h.comps r2 b2
      rw [he, f2] at f1
      simp at f1; subst f1
      rw [← c1, ← c2]

theorem TypesInv.typeAt_ok {D : Decls} {W : World} {d : DomId} (h : TypesInv D W d) {t : TypeId} {r : TypeRec}
    (h1 : (W.doms d).typeAt d t = some r) :
    r.tid = t ∧ r.dom = d ∧ r.mixins.Nodup ∧ ∀ m ∈ r.mixins, (∃ i, W.mixId m = some i) ∧ W.mixDom m = some d := by
  refine ⟨typeAt_tid h1, ?_⟩
  rcases typeAt_some h1 with ⟨a1, b1⟩ | ⟨a1, b1, c1⟩
  · subst b1; simp [emptyType]
  · have := h.ok r b1
    exact ⟨this.dom, this.nodup, this.reg⟩

theorem RegInv.mem_mixinsOf_iff {W : World} (h : RegInv W) (d : DomId) (m : Mix) :
    m ∈ mixinsOf W d ↔ (∃ i, W.mixId m = some i) ∧ W.mixDom m = some d := by
  rw [mem_mixinsOf]
  constructor
  · rintro ⟨i, hi⟩; exact ⟨⟨i, (h.mixSlot d i m hi).1⟩, (h.mixSlot d i m hi).2⟩
  · rintro ⟨⟨i, hi⟩, hd⟩
    obtain ⟨d', h1, h2⟩ := h.mixReg m i hi
    rw [hd] at h1; simp at h1; subst h1
    exact ⟨i, h2⟩

theorem getType_reg {D : Decls} {W : World} (h : RegInv W) (d : DomId) (q : List Mix) : RegInv (getType D W d q).2 :=
  h.congr (getType_same D W d q)

theorem run_rules_same (D : Decls) (d : DomId) (ops : List Op) : ∀ W, RegInv W →
    (∀ r, .addRule d r ∉ ops ∧ .removeRule d r ∉ ops) → ((run D W ops).doms d).rules = (W.doms d).rules := by
  induction ops with
  | nil => intro W _ _; rfl
  | cons op ops ih =>
    intro W hr hno
    rw [run, ih _ (step_reg D W op hr) (fun r => ⟨fun h => (hno r).1 (List.mem_cons_of_mem _ h), fun h => (hno r).2 (List.mem_cons_of_mem _ h)⟩)]
    exact step_rules_same D W hr op d (fun r e => (hno r).1 (by rw [e]; simp)) (fun r e => (hno r).2 (by rw [e]; simp))

theorem indexOfNameFrom_spec (D : Decls) (name : List UInt8) (ms : List Mix) : ∀ (k i : Nat),
    indexOfNameFrom D name k ms = some i ↔ ∃ (j : Nat) (m : Mix), i = k + j ∧ ms[j]? = some m ∧ D.mixName m = name ∧
      ∀ (j' : Nat) (m' : Mix), j' < j → ms[j']? = some m' → D.mixName m' ≠ name := by
  induction ms with
  | nil => intro k i; simp [indexOfNameFrom]
  | cons m ms ih =>
    intro k i
    unfold indexOfNameFrom
    by_cases h : D.mixName m = name
    · rw [if_pos h]
      constructor
      · intro e; simp at e; exact ⟨0, m, by omega, by simp, h, by intro j' m' hj; omega⟩
      · rintro ⟨j, m', h1, h2, h3, h4⟩
        cases j with
        | zero => simp; omega
        | succ j => exact absurd h (h4 0 m (by omega) (by simp))
    · rw [if_neg h, ih]
      constructor
      · rintro ⟨j, m', h1, h2, h3, h4⟩
        refine ⟨j + 1, m', by omega, by simpa using h2, h3, ?_⟩
        intro j' m'' hj hm
        cases j' with
        | zero => simp at hm; subst hm; exact h
        | succ j' => exact h4 j' m'' (by omega) (by simpa using hm)
      · rintro ⟨j, m', h1, h2, h3, h4⟩
        cases j with
        | zero => simp at h2; subst h2; exact absurd h3 h
        | succ j =>
          refine ⟨j, m', by omega, by simpa using h2, h3, ?_⟩
          intro j' m'' hj hm
          exact h4 (j' + 1) m'' (by omega) (by simpa using hm)

/-! ## what get_type does for an empty cache -/

/-- outcome of get_type once the mixins are known -/
def typeFor (D : Decls) (W : World) (d : DomId) (ms : List Mix) : Except Err TypeId :=
  if ms = [] then .ok emptyTid
  else match findType ms (W.doms d).types with
    | some r => .ok r.tid
    | none => match buildType D W d W.nextType ms with
      | .error e => .error e
      | .ok _ => .ok W.nextType

theorem typeFor_at {D : Decls} {W : World} {d : DomId} (h : TypesInv D W d) {t : TypeId} {r : TypeRec}
    (ht : (W.doms d).typeAt d t = some r) : typeFor D W d r.mixins = .ok t := by
  unfold typeFor
  rcases typeAt_some ht with ⟨a, b⟩ | ⟨a, b, c⟩
  · subst b; simp [emptyType, a]
  · rw [if_neg (h.ok r b).nonempty, findType_mem h.comps r b]
    simp [c]

/-- outcome of get_type for an empty cache -/
def freshOutcome (D : Decls) (W : World) (d : DomId) (q : List Mix) : Except Err TypeId :=
  match (applyMutationRules D (rulesOf D (W.view D d) (W.doms d)) q).result with
  | .error e => .error e
  | .ok (_, ms) => typeFor D W d ms

theorem getCase_fresh {D : Decls} {W : World} {d : DomId} {q : List Mix} {res : Except Err TypeId × World}
    (hc : GetCase D W d q res) (h : TypesInv D W d)
    (hq : ∀ t, (q, t) ∈ (W.doms d).queries → ∃ r, (W.doms d).typeAt d t = some r ∧ freshOutcome D W d q = typeFor D W d r.mixins) :
    res.1 = freshOutcome D W d q := by
  cases hc with
  | hit t ht =>
    obtain ⟨r, h1, h2⟩ := hq t ht
    rw [h2, typeFor_at h h1]
  | ruleError e he => simp [freshOutcome, he]
  | empty he => simp [freshOutcome, he, typeFor]
  | found r hne he hr hf => simp [freshOutcome, he, typeFor, hne, hf]
  | buildError ms e hne he hn hb => simp [freshOutcome, he, typeFor, hne, findType_none.2 hn, hb]
  | built r hne he hn hb ht => simp [freshOutcome, he, typeFor, hne, findType_none.2 hn, hb, ht]

/-- on success the resulting world has the type -/
theorem getCase_composition {D : Decls} {W : World} {d : DomId} {q : List Mix} {res : Except Err TypeId × World}
    (hc : GetCase D W d q res) (h : TypesInv D W d) (t : TypeId) (ht : res.1 = .ok t) :
    (∃ r, (res.2.doms d).typeAt d t = some r ∧ ((q, t) ∈ (W.doms d).queries ∧ (W.doms d).typeAt d t = some r ∨
      (applyMutationRules D (rulesOf D (W.view D d) (W.doms d)) q).result = .ok (q, r.mixins))) := by
  have hinv := (getCase_types hc h).1
  cases hc with
  | hit t' ht' =>
    simp at ht; subst ht
    obtain ⟨r, hr⟩ := h.queries _ ht'
    exact ⟨r, hr, .inl ⟨ht', hr⟩⟩
  | ruleError => simp at ht
  | buildError => simp at ht
  | empty he => simp at ht; subst ht; exact ⟨emptyType d, typeAt_empty _ _, .inr he⟩
  | found r hne he hr hf =>
    simp at ht; subst ht
    refine ⟨r, ?_, .inr he⟩
    simp only [setDom_same]; exact h.typeAt_mem r hr
  | built r hne he hn hb htid =>
    simp at ht; subst ht
    refine ⟨r, ?_, .inr he⟩
    have := hinv.typeAt_mem r (by simp)
    simpa using this

theorem getCase_cached {D : Decls} {W : World} {d : DomId} {q : List Mix} {res : Except Err TypeId × World}
    (hc : GetCase D W d q res) (h : TypesInv D W d) (hk : CacheOk D W d) (hp : ∀ r ∈ (W.doms d).rules.map (·.1), RulePure D r) :
    res.1 = freshOutcome D W d q := by
  refine getCase_fresh hc h fun t ht => ?_
  obtain ⟨r, h1, h2⟩ := hk hp _ ht
  exact ⟨r, h1, by simp only at h2; simp [freshOutcome, h2]⟩

theorem forget_types {D : Decls} {W : World} {d : DomId} (h : TypesInv D W d) : TypesInv D (forgetQueries W d) d :=
  h.same (by simp [forgetQueries]) (.inr (by simp [forgetQueries])) (fun m _ _ => by simp [forgetQueries, World.setDom]) (by simp [forgetQueries, World.setDom])

theorem forget_view (D : Decls) (W : World) (d : DomId) : (forgetQueries W d).view D d = W.view D d := by
  simp [World.view, forgetQueries, World.setDom, upd, getMixinByName, funext_iff]

theorem forget_fresh (D : Decls) (W : World) (d : DomId) (q : List Mix) : freshOutcome D (forgetQueries W d) d q = freshOutcome D W d q := by
  unfold freshOutcome rulesOf typeFor
  rw [forget_view]
  have h1 : ((forgetQueries W d).doms d).rules = (W.doms d).rules := by simp [forgetQueries]
  have h2 : ((forgetQueries W d).doms d).types = (W.doms d).types := by simp [forgetQueries]
  have h3 : ∀ ms, buildType D (forgetQueries W d) d (forgetQueries W d).nextType ms = buildType D W d W.nextType ms := fun ms => rfl
  rw [h1, h2]
  simp only [h3]
  rfl

theorem finishAll_error (D : Decls) (buf : List (Option Payload)) (es : List (Option (Nat × Nat))) (e : Err)
    (h : finishAll D buf es = .error e) : e = .featureClash := by
  induction es with
  | nil => simp [finishAll] at h
  | cons x xs ih =>
    unfold finishAll at h
    cases hf : finishEntry D (entryPayloads buf x) with
    | error e' =>
      rw [hf] at h; simp at h; subst h
      unfold finishEntry at hf
      split at hf
      · simp at hf
      · split at hf
        · simp at hf; exact hf.symm
        · simp at hf
    | ok fe =>
      rw [hf] at h
      simp only at h
      cases ha : finishAll D buf xs with
      | error e' => rw [ha] at h; simp at h; subst h; exact ih ha
      | ok r => rw [ha] at h; simp at h

end Dnmx
