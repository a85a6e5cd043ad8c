import Verif.Spec.Builder
import Verif.Proofs.QueryLemmas
import Verif.Proofs.SystemLemmas

namespace Dnmx
open Spec

set_option linter.unusedSimpArgs false
set_option linter.unusedVariables false

def isDigit (c : UInt8) : Bool := decide (48 ≤ c.toNat) && decide (c.toNat < 58)

theorem digit_toNat (n : Nat) (h : n < 10) : (UInt8.ofNat (48 + n)).toNat = 48 + n := by
  rw [UInt8.toNat_ofNat']
  omega

theorem decimal_small (n : Nat) (h : n < 10) : decimal n = [UInt8.ofNat (48 + n)] := by
  rw [decimal, if_pos h]

theorem decimal_large (n : Nat) (h : ¬ n < 10) : decimal n = decimal (n / 10) ++ [UInt8.ofNat (48 + n % 10)] := by
  rw [decimal, if_neg h]

theorem decimal_ne_nil (n : Nat) : decimal n ≠ [] := by
  by_cases h : n < 10
  · rw [decimal_small n h]; simp
  · rw [decimal_large n h]; simp

theorem decimal_digits : ∀ (n : Nat), ∀ c ∈ decimal n, isDigit c = true := by
  intro n
  induction n using Nat.strongRecOn with
  | _ n ih =>
    intro c hc
    by_cases h : n < 10
    · rw [decimal_small n h] at hc
      rw [List.mem_singleton.1 hc]
      unfold isDigit
      rw [digit_toNat n h]
      simp; omega
    · rw [decimal_large n h] at hc
      rcases List.mem_append.1 hc with hc | hc
      · exact ih (n / 10) (by omega) c hc
      · rw [List.mem_singleton.1 hc]
        unfold isDigit
        rw [digit_toNat _ (Nat.mod_lt _ (by omega))]
        simp; omega

theorem digit_inj {a b : Nat} (ha : a < 10) (hb : b < 10) (h : UInt8.ofNat (48 + a) = UInt8.ofNat (48 + b)) : a = b := by
  have := congrArg UInt8.toNat h
  rw [digit_toNat a ha, digit_toNat b hb] at this
  omega

theorem append_last_inj {α : Type} {a b : List α} {x y : α} (h : a ++ [x] = b ++ [y]) : a = b ∧ x = y := by
  have := List.append_inj' h rfl
  exact ⟨this.1, by simpa using this.2⟩

theorem decimal_inj : ∀ (n m : Nat), decimal n = decimal m → n = m := by
  intro n
  induction n using Nat.strongRecOn with
  | _ n ih =>
    intro m h
    by_cases hn : n < 10 <;> by_cases hm : m < 10
    · rw [decimal_small n hn, decimal_small m hm] at h
      exact digit_inj hn hm (by simpa using h)
    · rw [decimal_small n hn, decimal_large m hm] at h
      have := congrArg List.length h
      have h2 := List.length_pos_iff.2 (decimal_ne_nil (m / 10))
      rw [List.length_append, List.length_singleton, List.length_singleton] at this
      omega
    · rw [decimal_large n hn, decimal_small m hm] at h
      have := congrArg List.length h
      have h2 := List.length_pos_iff.2 (decimal_ne_nil (n / 10))
      rw [List.length_append, List.length_singleton, List.length_singleton] at this
      omega
    · rw [decimal_large n hn, decimal_large m hm] at h
      obtain ⟨h1, h2⟩ := append_last_inj h
      have h3 := ih (n / 10) (by omega) _ h1
      have h4 := digit_inj (Nat.mod_lt n (by omega)) (Nat.mod_lt m (by omega)) h2
      omega

/-- Two digit strings behind texts that do not end with digits. -/
theorem digits_inj {a b : List UInt8} {c c' : UInt8} {n m : Nat} (hc : isDigit c = false) (hc' : isDigit c' = false)
    (h : a ++ [c] ++ decimal n = b ++ [c'] ++ decimal m) : a = b ∧ c = c' ∧ n = m := by
  have key : ∀ (x : List UInt8) (e : UInt8) (k : Nat), isDigit e = false → (x ++ [e] ++ decimal k).reverse.takeWhile isDigit = (decimal k).reverse := by
    intro x e k he
    rw [List.reverse_append, List.takeWhile_append_of_pos (fun c hc => decimal_digits k c (List.mem_reverse.1 hc)), List.reverse_append]
    simp [he]
  have h1 := key a c n hc
  rw [h, key b c' m hc'] at h1
  have h2 : decimal n = decimal m := by simpa using h1.symm
  have h3 := decimal_inj _ _ h2
  subst h3
  have h4 := List.append_cancel_right h
  obtain ⟨h5, h6⟩ := append_last_inj h4
  exact ⟨h5, h6, rfl⟩

theorem append_bytes_inj {a b x : List UInt8} (h : a ++ x = b ++ x) : a = b := List.append_cancel_right h

theorem unnamedName_inj {a b : List UInt8} {i j : Nat} (h : unnamedName a i = unnamedName b j) : a = b ∧ i = j := by
  have e : ∀ (a : List UInt8) (i : Nat), unnamedName a i = (a ++ bytesOf " rule") ++ [32] ++ decimal i := by
    intro a i
    unfold unnamedName
    congr 1
    rw [List.append_assoc]
    rfl
  rw [e, e] at h
  obtain ⟨h1, -, h2⟩ := digits_inj (by decide) (by decide) h
  exact ⟨append_bytes_inj h1, h2⟩

theorem commonName_shape (a : List UInt8) (c : CommonRule) (i : Nat) : commonName a c i = ((a ++ bytesOf " " ++ c.name) ++ [60] ++ decimal i) ++ [62] := rfl

theorem unnamed_ne_common (a b : List UInt8) (c : CommonRule) (i j : Nat) : unnamedName a i ≠ commonName b c j := by
  intro h
  rw [commonName_shape] at h
  unfold unnamedName at h
  obtain ⟨l, x, hl⟩ : ∃ l x, decimal i = l ++ [x] := by
    rcases List.eq_nil_or_concat (decimal i) with h' | ⟨l, x, h'⟩
    · exact absurd h' (decimal_ne_nil i)
    · exact ⟨l, x, by simpa using h'⟩
  have hx := decimal_digits i x (by rw [hl]; simp)
  rw [hl, ← List.append_assoc] at h
  obtain ⟨-, h2⟩ := append_last_inj h
  subst h2
  exact absurd hx (by decide)

theorem commonName_inj {a b : List UInt8} {c c' : CommonRule} {i j : Nat} (h : commonName a c i = commonName b c' j) :
    a ++ bytesOf " " ++ c.name = b ++ bytesOf " " ++ c'.name ∧ i = j := by
  rw [commonName_shape, commonName_shape] at h
  obtain ⟨h1, -⟩ := append_last_inj h
  obtain ⟨h2, -, h3⟩ := digits_inj (by decide) (by decide) h1
  exact ⟨h2, h3⟩

theorem kinds_differ (a b : List UInt8) : a ++ bytesOf " " ++ bytesOf "attaches_to" ≠ b ++ bytesOf " " ++ bytesOf "also_adds" := by
  intro h
  have e1 : a ++ bytesOf " " ++ bytesOf "attaches_to" = (a ++ bytesOf " attaches_t") ++ [111] := by simp [bytesOf]
  have e2 : b ++ bytesOf " " ++ bytesOf "also_adds" = (b ++ bytesOf " also_add") ++ [115] := by simp [bytesOf]
  rw [e1, e2] at h
  exact absurd (append_last_inj h).2 (by decide)

theorem genName_inj {a b : List UInt8} {k k' : GenKind} {i j : Nat} (h : genName a k i = genName b k' j) : a = b ∧ k = k' ∧ i = j := by
  cases k <;> cases k' <;> simp only [genName] at h
  · obtain ⟨h1, h2⟩ := unnamedName_inj h
    exact ⟨h1, rfl, h2⟩
  · exact absurd h (unnamed_ne_common _ _ _ _ _)
  · exact absurd h (unnamed_ne_common _ _ _ _ _)
  · exact absurd h.symm (unnamed_ne_common _ _ _ _ _)
  · obtain ⟨h1, h2⟩ := commonName_inj h
    exact ⟨append_bytes_inj (append_bytes_inj h1), rfl, h2⟩
  · obtain ⟨h1, h2⟩ := commonName_inj h
    exact absurd h1 (kinds_differ _ _)
  · exact absurd h.symm (unnamed_ne_common _ _ _ _ _)
  · obtain ⟨h1, h2⟩ := commonName_inj h
    exact absurd h1.symm (kinds_differ _ _)
  · obtain ⟨h1, h2⟩ := commonName_inj h
    exact ⟨append_bytes_inj (append_bytes_inj h1), rfl, h2⟩

theorem buildDef_snoc (m : Mix) (name : List UInt8) (ops : List BuildOp) (op : BuildOp) :
    buildDef m name (ops ++ [op]) = buildStep m (buildDef m name ops) op := by
  unfold buildDef; rw [List.foldl_append]; rfl

theorem snoc_induction {α : Type} {P : List α → Prop} (h0 : P []) (h1 : ∀ l x, P l → P (l ++ [x])) : ∀ l, P l := by
  intro l
  have : ∀ n (l : List α), l.length = n → P l := by
    intro n
    induction n with
    | zero => intro l hl; rw [List.length_eq_zero_iff.1 hl]; exact h0
    | succ n ih =>
      intro l hl
      rcases List.eq_nil_or_concat l with h | ⟨l', x, h⟩
      · rw [h] at hl; simp at hl
      · rw [List.concat_eq_append] at h
        subst h
        simp at hl
        exact h1 l' x (ih l' hl)
  exact this _ l rfl

theorem nameAfter_snoc (ops : List BuildOp) (op : BuildOp) : ∀ name, nameAfter name (ops ++ [op]) = nameAfter (nameAfter name ops) [op] := by
  induction ops with
  | nil => intro name; rfl
  | cons o ops ih => intro name; cases o <;> simp only [List.cons_append, nameAfter, ih]

theorem buildDef_name (m : Mix) (name : List UInt8) (ops : List BuildOp) : (buildDef m name ops).name = nameAfter name ops := by
  induction ops using snoc_induction with
  | h0 => rfl
  | h1 l x ih =>
    rw [buildDef_snoc, nameAfter_snoc, ← ih]
    cases x <;> rfl

theorem buildDef_feats (m : Mix) (name : List UInt8) (ops : List BuildOp) : (buildDef m name ops).feats = ops.filterMap featureOf := by
  induction ops using snoc_induction with
  | h0 => rfl
  | h1 l x ih =>
    rw [buildDef_snoc, List.filterMap_append, ← ih]
    cases x with
    | implements f pl a b =>
      cases ha : a.bid <;> cases hb : b.bid <;> cases ha' : a.priority <;> cases hb' : b.priority <;>
        simp [buildStep, featureOf, ha, hb, ha', hb']
    | _ => simp [buildStep, featureOf]

theorem buildDef_dependency (m : Mix) (name : List UInt8) (ops : List BuildOp) :
    (buildDef m name ops).dependency = (ops.filterMap dependencyOf).getLastD false := by
  induction ops using snoc_induction with
  | h0 => rfl
  | h1 l x ih =>
    rw [buildDef_snoc, List.filterMap_append]
    cases x with
    | onMutation c p => cases c <;> simp [buildStep, dependencyOf, CommonRule.ruleFor, ih]
    | _ => simp [buildStep, dependencyOf, ih]

theorem buildDef_allocator (m : Mix) (name : List UInt8) (ops : List BuildOp) :
    (buildDef m name ops).hasAllocator = true ↔ .usesAllocator ∈ ops := by
  induction ops using snoc_induction with
  | h0 => simp [buildDef]
  | h1 l x ih =>
    rw [buildDef_snoc, List.mem_append, ← ih]
    cases x <;> simp [buildStep]

theorem buildDef_rules_snoc (m : Mix) (name : List UInt8) (l : List BuildOp) (op : BuildOp) :
    (buildDef m name (l ++ [op])).rules =
      (buildDef m name l).rules ++ (ruleFrom m (nameAfter name l) (buildDef m name l).rules.length op).toList := by
  rw [buildDef_snoc, ← buildDef_name m]
  cases op with
  | onMutation c p => cases c <;> rfl
  | name n => simp [buildStep, ruleFrom]
  | usesAllocator => simp [buildStep, ruleFrom]
  | dependency b => simp [buildStep, ruleFrom]
  | implements f pl a b => simp [buildStep, ruleFrom]
  | rule r => rfl
  | namedRule n k p => rfl
  | unnamedRule k p => rfl

theorem ruleFrom_adds (m : Mix) (n : List UInt8) (i : Nat) (op : BuildOp) : (ruleFrom m n i op).isSome = AddsRule op := by
  cases op with
  | onMutation c p => cases c <;> rfl
  | _ => rfl

theorem buildDef_rules_length (m : Mix) (name : List UInt8) (ops : List BuildOp) :
    (buildDef m name ops).rules.length = (ops.filter AddsRule).length := by
  induction ops using snoc_induction with
  | h0 => rfl
  | h1 l x ih =>
    rw [buildDef_rules_snoc, List.length_append, ih, List.filter_append, List.length_append]
    have := ruleFrom_adds m (nameAfter name l) (l.filter AddsRule).length x
    cases hb : AddsRule x with
    | false =>
      rw [hb] at this
      cases hr : ruleFrom m (nameAfter name l) (l.filter AddsRule).length x with
      | none => simp [hb]
      | some y => rw [hr] at this; simp at this
    | true =>
      rw [hb] at this
      cases hr : ruleFrom m (nameAfter name l) (l.filter AddsRule).length x with
      | none => rw [hr] at this; simp at this
      | some y => simp [hb]

theorem buildDef_rules_prefix (m : Mix) (name : List UInt8) (a b : List BuildOp) :
    ∃ more, (buildDef m name (a ++ b)).rules = (buildDef m name a).rules ++ more := by
  induction b using snoc_induction with
  | h0 => exact ⟨[], by simp⟩
  | h1 l x ih =>
    obtain ⟨more, h⟩ := ih
    rw [← List.append_assoc, buildDef_rules_snoc, h]
    exact ⟨_, List.append_assoc ..⟩

theorem buildDef_rule_at (m : Mix) (name : List UInt8) (a b : List BuildOp) (op : BuildOp) (y : DefRule)
    (h : ruleFrom m (nameAfter name a) (a.filter AddsRule).length op = some y) :
    (buildDef m name (a ++ op :: b)).rules[(a.filter AddsRule).length]? = some y := by
  obtain ⟨more, h1⟩ := buildDef_rules_prefix m name (a ++ [op]) b
  rw [List.append_assoc, List.singleton_append] at h1
  rw [h1, buildDef_rules_snoc, buildDef_rules_length, h]
  rw [List.getElem?_append_left (by simp [buildDef_rules_length]),
    List.getElem?_append_right (by rw [buildDef_rules_length]; exact Nat.le_refl _)]
  simp [buildDef_rules_length]

/-! ## rules over histories -/

theorem run_snoc (D : Decls) (W : World) (ops : List Op) (op : Op) : run D W (ops ++ [op]) = (step D (run D W ops) op).2 := by
  rw [run_append]; rfl

/-- every stored query leads to the type that the rules in force gave at some time -/
theorem reachable_seen (D : Decls) (s : DomId → Settings) (d : DomId) (ops : List Op) :
    ∀ e ∈ ((run D (initWorld s) ops).doms d).queries, ∃ r pre, pre <+: ops ∧ ((run D (initWorld s) ops).doms d).typeAt d e.2 = some r ∧
      (applyMutationRules D (rulesOf D ((run D (initWorld s) pre).view D d) ((run D (initWorld s) ops).doms d)) e.1).result = .ok (e.1, r.mixins) := by
  induction ops using snoc_induction with
  | h0 => intro e he; simp [run, initWorld, newDom] at he
  | h1 ops op ih =>
    intro e he
    have hr := reachable_reg D s ops
    have ht := reachable_types D s ops d
    have hs := step_typeStep D _ hr op d ht
    rw [run_snoc] at he ⊢
    rcases hs.query ht e he with ⟨h1, ⟨r, h2, h3, -⟩, h4⟩ | ⟨r, h2, h3, h4, h5⟩
    · obtain ⟨r', pre, hpre, h5, h6⟩ := ih e h1
      rw [h2] at h5; simp at h5; subst h5
      refine ⟨r, pre, hpre.trans (List.prefix_append _ _), h3, ?_⟩
      rw [rulesOf_keys, h4, ← rulesOf_keys]; exact h6
    · refine ⟨r, ops, List.prefix_append _ _, h2, ?_⟩
      rw [rulesOf_keys, h4, ← rulesOf_keys]; exact h3

theorem applyPass_keeps : ∀ (rules : List RuleFn), (∀ f ∈ rules, ∀ ms ms', f ms = .ok ms' → ∀ m ∈ ms, m ∈ ms') →
    ∀ ms ms', applyPass rules ms = .ok ms' → ∀ m ∈ ms, m ∈ ms' := by
  intro rules
  induction rules with
  | nil => intro _ ms ms' h m hm; simp [applyPass] at h; subst h; exact hm
  | cons f fs ih =>
    intro hk ms ms' h m hm
    unfold applyPass at h
    cases hf : f ms with
    | error e => rw [hf] at h; simp at h
    | ok y =>
      rw [hf] at h
      exact ih (fun g hg => hk g (List.mem_cons_of_mem _ hg)) y ms' h m (hk f List.mem_cons_self ms y hf m hm)

theorem applyPass_dep (rules : List RuleFn) (hk : ∀ f ∈ rules, ∀ ms ms', f ms = .ok ms' → ∀ m ∈ ms, m ∈ ms') (p x : Mix)
    (hd : (fun ms => Except.ok (if p ∈ ms then (if x ∈ ms then ms else ms ++ [x]) else ms) : RuleFn) ∈ rules) :
    ∀ ms ms', applyPass rules ms = .ok ms' → p ∈ ms → x ∈ ms' := by
  induction rules with
  | nil => simp at hd
  | cons f fs ih =>
    intro ms ms' h hp
    have hkf := fun g hg => hk g (List.mem_cons_of_mem f hg)
    unfold applyPass at h
    cases hf : f ms with
    | error e => rw [hf] at h; simp at h
    | ok y =>
      rw [hf] at h
      simp only at h
      rcases List.mem_cons.1 hd with h1 | h1
      · subst h1
        simp only [Except.ok.injEq] at hf
        rw [if_pos hp] at hf
        have : x ∈ y := by
          by_cases hx : x ∈ ms
          · rw [if_pos hx] at hf; rw [← hf]; exact hx
          · rw [if_neg hx] at hf; rw [← hf]; simp
        exact applyPass_keeps fs hkf y ms' h x this
      · exact ih hkf h1 y ms' h (hk f List.mem_cons_self ms y hf p hp)

theorem rulesLoop_keeps (rules : List RuleFn) (hk : ∀ f ∈ rules, ∀ ms ms', f ms = .ok ms' → ∀ m ∈ ms, m ∈ ms') :
    ∀ (left : Nat) (o l nt k r : List Mix), (rulesLoop rules left o l nt).result = .ok (k, r) → ∀ m ∈ nt, m ∈ r := by
  intro left
  induction left with
  | zero =>
    intro o l nt k r h m hm
    rw [rulesLoop_step] at h
    cases hp : applyPass rules nt with
    | error e => rw [hp] at h; simp at h
    | ok nt' =>
      have := applyPass_keeps rules hk nt nt' hp m hm
      rw [hp] at h
      by_cases hl : l = nt'
      · simp [hl] at h; rw [← h.2]; exact this
      · simp [hl] at h
  | succ left ih =>
    intro o l nt k r h m hm
    rw [rulesLoop_step] at h
    cases hp : applyPass rules nt with
    | error e => rw [hp] at h; simp at h
    | ok nt' =>
      have := applyPass_keeps rules hk nt nt' hp m hm
      rw [hp] at h
      simp only at h
      by_cases hl : l = nt'
      · rw [if_pos hl] at h; simp at h; rw [← h.2]; exact this
      · rw [if_neg hl] at h
        by_cases hc : left + 1 = 0 ∨ 5 - (left + 1) = rules.length
        · rw [if_pos hc] at h; simp at h
        · rw [if_neg hc] at h
          exact ih _ _ _ _ _ h m this

theorem bodyFn_dep (fns : Nat → ElemView → List Mix → Except Err (List Mix)) (p x : Mix) (v : ElemView) :
    bodyFn fns (.dep p x) v = basicDepRule p x := by
  funext ms
  unfold bodyFn basicDepRule tmHas tmAddIfLacking
  by_cases hp : p ∈ ms <;> by_cases hx : x ∈ ms <;> simp [hp, hx, tmHas, tmAdd]

theorem ruleFn_isRule {D : Decls} {fns : Nat → ElemView → List Mix → Except Err (List Mix)} {r : Rule} {n : List UInt8} {b : RuleBody} {p : Int}
    (h : IsRule D fns r (.stored n b p)) (v : ElemView) : ruleFn D v r = bodyFn fns b v := by
  unfold ruleFn; rw [h.2.1]

theorem ruleFn_keeps {D : Decls} {r : Rule} (h : KeepsMixins D r) (v : ElemView) (ms ms' : List Mix) (hf : ruleFn D v r ms = .ok ms') :
    ∀ m ∈ ms, m ∈ ms' := by
  unfold ruleFn at hf
  cases ha : (ruleOf D r).apply with
  | none => rw [ha] at hf; simp at hf
  | some f => rw [ha] at hf; exact h v ms ms' f ha hf

theorem dep_keeps {D : Decls} {fns : Nat → ElemView → List Mix → Except Err (List Mix)} {r : Rule} {n : List UInt8} {p x : Mix} {pr : Int}
    (h : IsRule D fns r (.stored n (.dep p x) pr)) : KeepsMixins D r := by
  intro v ms ms' f hf hm m hmem
  rw [h.2.1] at hf
  simp at hf
  subst hf
  simp only [bodyFn, Except.ok.injEq] at hm
  rw [← hm]
  by_cases hp : p ∈ ms <;> by_cases hx : x ∈ ms <;> simp [hp, hx, hmem]

theorem canon_keeps (D : Decls) : KeepsMixins D 0 := by
  intro v ms ms' f hf hm m hmem
  simp [ruleOf] at hf
  subst hf
  simp [sortByCanonicalOrder] at hm
  rw [← hm]
  exact (sortBy_perm _ _).mem_iff.2 hmem

/-! ## the order of generated names -/

theorem lexBefore_digits (p s : List UInt8) {i j : Nat} (h : i < j) (hj : j < 10) : LexBefore (p ++ decimal i ++ s) (p ++ decimal j ++ s) := by
  rw [decimal_small i (by omega), decimal_small j hj, List.append_assoc, List.append_assoc]
  apply lexBefore_append
  refine .head _ _ ?_
  rw [UInt8.lt_iff_toNat_lt, digit_toNat i (by omega), digit_toNat j hj]
  omega

theorem genName_before (n : List UInt8) (k : GenKind) {i j : Nat} (h : i < j) (hj : j < 10) : LexBefore (genName n k i) (genName n k j) := by
  cases k with
  | unnamed =>
    have := lexBefore_digits (n ++ bytesOf " rule ") [] h hj
    simpa [genName, unnamedName] using this
  | attachesTo => exact lexBefore_digits (n ++ bytesOf " " ++ bytesOf "attaches_to" ++ bytesOf "<") (bytesOf ">") h hj
  | alsoAdds => exact lexBefore_digits (n ++ bytesOf " " ++ bytesOf "also_adds" ++ bytesOf "<") (bytesOf ">") h hj

end Dnmx
