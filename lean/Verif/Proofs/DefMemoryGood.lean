import Verif.Proofs.DefMemoryCalls

set_option linter.unusedSimpArgs false
set_option linter.unusedVariables false
set_option linter.unusedSectionVars false

namespace Dnmx
open Spec

/-- A definition in memory that means `v`. -/
structure GoodDef (M : DefMem) (d : DefData) (v : MixinDef) : Prop where
  mem : MemOk M
  ok : DefOk M d
  name : NameOk M d
  reads : Reads M d v

theorem CallGood.good {c : DefCall} {M M' : DefMem} {d d' : DefData} {v v' : MixinDef} (h : CallGood c M d M' d' v') (hg : GoodDef M d v) : GoodDef M' d' v' :=
  ⟨h.moves.ok, h.moves.once hg.ok h.holds, h.name, h.reads⟩

theorem CallGood.trans {c : DefCall} {M M1 M2 : DefMem} {d d1 d2 : DefData} {v1 v2 : MixinDef} (h1 : CallGood c M d M1 d1 v1) (h2 : CallGood c M1 d1 M2 d2 v2) :
    CallGood c M d M2 d2 v2 where
  moves := h1.moves.trans (h2.moves.weaken (by
    intro a ha
    simp only [List.mem_append] at *
    rcases ha with ha | ha
    · exact .inl (h1.grows.2.2.subset ha)
    · exact .inr (h1.grows.2.1.subset ha)))
  holds := h2.holds
  name := h2.name
  reads := h2.reads
  vec := fun hc u hu => by
    obtain ⟨e1, e2⟩ := h1.vec hc u hu
    obtain ⟨e3, e4⟩ := h2.vec hc u e2
    exact ⟨by rw [e3, e1], e4⟩
  grows := ⟨h1.grows.1.trans h2.grows.1, h1.grows.2.1.trans h2.grows.2.1, h1.grows.2.2.trans h2.grows.2.2⟩

theorem good_refl {M : DefMem} {d : DefData} {v : MixinDef} (hg : GoodDef M d v) (c : DefCall) : CallGood c M d M d v :=
  CallGood.of_kept hg.ok hg.name hg.reads (Moves.same hg.mem rfl rfl rfl) hg.ok.holds rfl rfl rfl rfl rfl (List.prefix_refl _) (List.prefix_refl _) [] [] (by simp)
    (by simp) (by simp [hg.reads.alloc, hg.reads.dep])

theorem good_dep {M : DefMem} {d : DefData} {v : MixinDef} (hg : GoodDef M d v) (c : DefCall) (b : Bool) :
    CallGood c M d M { d with dependency := b } { v with dependency := b } :=
  CallGood.of_kept hg.ok hg.name hg.reads (Moves.same hg.mem rfl rfl rfl)
    ⟨hg.ok.holds.stored, hg.ok.holds.vec, hg.ok.holds.names, hg.ok.holds.rules, hg.ok.holds.infos⟩ rfl rfl rfl rfl rfl (List.prefix_refl _) (List.prefix_refl _) [] []
    (by simp) (by simp) (by simp [hg.reads.alloc])

theorem good_name {M : DefMem} {d : DefData} {v : MixinDef} (hg : GoodDef M d v) (c : DefCall) (s : List UInt8) :
    CallGood c M d (M.new (.chars s)) { d with nameStorage := d.nameStorage ++ [M.next] } v := by
  have hlt := own_lt hg.mem hg.ok
  have hm := Moves.newName (K := ownCells d) (d := d) hg.mem hlt s
  have hk := hg.ok.holds.kept hm.keep
  refine CallGood.of_kept hg.ok hg.name hg.reads hm ⟨hk.stored, hk.vec, ?_, ?_, hk.infos⟩ rfl rfl rfl rfl rfl (List.prefix_refl _) (List.prefix_append _ _) [] []
    (by simp) (by simp) (by simp [hg.reads.alloc, hg.reads.dep])
  · intro a ha
    rcases List.mem_append.1 ha with ha | ha
    · exact hk.names a ha
    · simp at ha; subst ha; exact ⟨s, new_self M _⟩
  · intro a ha
    obtain ⟨n, b, p, h1, h2⟩ := hk.rules a ha
    exact ⟨n, b, p, h1, List.mem_append_left _ h2⟩

theorem good_rule {M : DefMem} {d : DefData} {v : MixinDef} (hg : GoodDef M d v) (c : DefCall) (n : Nat) (hn : n ∈ d.nameStorage) (b : RuleBody) (p : Int) :
    CallGood c M d (M.new (.ruleInfo n b p)) { d with ruleStorage := d.ruleStorage ++ [M.next] } v := by
  have hlt := own_lt hg.mem hg.ok
  have hm := Moves.newRule (K := ownCells d) (d := d) hg.mem hlt n b p
  have hk := hg.ok.holds.kept hm.keep
  refine CallGood.of_kept hg.ok hg.name hg.reads hm ⟨hk.stored, hk.vec, hk.names, ?_, ?_⟩ rfl rfl rfl rfl rfl (List.prefix_append _ _) (List.prefix_refl _) [] []
    (by simp) (by simp) (by simp [hg.reads.alloc, hg.reads.dep])
  · intro a ha
    rcases List.mem_append.1 ha with ha | ha
    · exact hk.rules a ha
    · simp at ha; subst ha; exact ⟨n, b, p, new_self M _, hn⟩
  · intro a ha
    exact List.mem_append_left _ (hk.infos a ha)

theorem good_push {M : DefMem} {d : DefData} {v : MixinDef} (hg : GoodDef M d v) (c : DefCall) (r : RulePtr) (x : DefRule) (hr : readRule M r = some x)
    (hs : ∀ a, r = .stored a → a ∈ d.ruleStorage) :
    CallGood c M d M { d with ruleInfos := d.ruleInfos ++ [r] } { v with rules := v.rules ++ [x] } := by
  have hk := hg.ok.holds
  refine CallGood.of_kept hg.ok hg.name hg.reads (Moves.same hg.mem rfl rfl rfl) ⟨hk.stored, hk.vec, hk.names, hk.rules, ?_⟩ rfl rfl rfl rfl rfl
    (List.prefix_refl _) (List.prefix_refl _) [r] [x] rfl (fun ys h => readRules_append h hr) (by simp [hg.reads.alloc, hg.reads.dep])
  intro a ha
  rcases List.mem_append.1 ha with ha | ha
  · exact hk.infos a ha
  · simp at ha; exact hs a ha.symm

theorem good_payload {M : DefMem} {d : DefData} {v : MixinDef} (hg : GoodDef M d v) (c : DefCall) (p : AnyPtr) (hp : ∀ c, p.owner = some c → IsShared M c) :
    ∃ M1, M.retain p.owner = some M1 ∧ CallGood c M d M1 { d with payloadStorage := d.payloadStorage ++ [p] } v := by
  obtain ⟨M1, r1, r2, r3, r4, r5, r6⟩ := retain_ok hg.mem p.owner hp
  refine ⟨M1, r1, ?_⟩
  have hm : Moves (ownCells d) M d M1 { d with payloadStorage := d.payloadStorage ++ [p] } := by
    refine ⟨r2, by omega, ?_, ?_, fun a ha _ => r6 a ha, fun a ha => r6 a (hg.ok.live ha), rfl⟩
    · intro a; rw [r4]; rfl
    · intro a
      have e1 := r5 a
      simp only [ownShares, List.map_append, List.map_cons, List.map_nil, List.count_append, List.count_cons, List.count_nil, beq_iff_eq]
      omega
  have hk := hg.ok.holds.kept hm.keep
  refine CallGood.of_kept hg.ok hg.name hg.reads hm ⟨hk.stored, ?_, hk.names, hk.rules, hk.infos⟩ rfl rfl rfl rfl rfl
    (List.prefix_refl _) (List.prefix_refl _) [] [] (by simp) (by simp) (by simp [hg.reads.alloc, hg.reads.dep])
  rcases hk.vec with h1 | ⟨u, l, h1, h2, h3, h4, h5⟩
  · exact .inl h1
  · refine .inr ⟨u, l, h1, h2, h3, h4, ?_⟩
    intro x hx
    obtain ⟨q, hq, hq'⟩ := h5 x hx
    exact ⟨q, List.mem_append_left _ hq, hq'⟩

/-- What is needed for a call. -/
def LegalAt (M : DefMem) (d : DefData) : DefCall → Prop
  | .name a => (∃ s, M.chars? a = some s) ∧ (a = d.storedName ∨ a ∉ ownCells d)
  | .storeName a => ∃ s, M.chars? a = some s
  | .usesAllocator p => ∃ q, p = some q ∧ ∀ c, q.owner = some c → IsShared M c
  | .implements _ p _ _ => ∀ c, p.owner = some c → IsShared M c
  | _ => True

/-- The outcome of a call, in all cases. -/
def OutGood (c : DefCall) (M : DefMem) (d : DefData) (v : MixinDef) : DefOut → Prop
  | .ok M' d' => CallGood c M d M' d' (buildStep d.mixin v (opOf M c))
  | .threw M' d' => CallGood c M d M' d' (failedCall v c)
  | .ub => False

theorem good_set_name {M : DefMem} {d : DefData} {v : MixinDef} (hg : GoodDef M d v) (a : Nat) (s : List UInt8) (hs : M.chars? a = some s)
    (ha : a = d.storedName ∨ a ∉ ownCells d) : CallGood (.name a) M d M { d with name := a } { v with name := s } where
  moves := Moves.same hg.mem rfl rfl rfl
  holds := ⟨hg.ok.holds.stored, hg.ok.holds.vec, hg.ok.holds.names, hg.ok.holds.rules, hg.ok.holds.infos⟩
  name := by
    rcases ha with ha | ha
    · exact .inl ha
    · exact .inr ⟨liveAt_chars (chars?_eq.1 hs), ha⟩
  reads := ⟨hs, hg.reads.alloc, hg.reads.dep, hg.reads.feats, hg.reads.rules⟩
  vec := fun _ u hu => ⟨rfl, hu⟩
  grows := ⟨List.prefix_refl _, List.prefix_refl _, List.prefix_refl _⟩

/-- What is left of a named rule that was not added. -/
theorem addNamedRule_good {M : DefMem} {d : DefData} {v : MixinDef} (hg : GoodDef M d v) (c : DefCall) (n : List UInt8) (k : Nat) (p : Perks) (g1 g2 g3 : Growth) :
    match addNamedRule M d n k p g1 g2 g3 with
    | .ok M' d' => CallGood c M d M' d' { v with rules := v.rules ++ [.stored n (.user k) (p.priority.getD 0)], dependency := true }
    | .threw M' d' => CallGood c M d M' d' v
    | .ub => False := by
  unfold addNamedRule
  by_cases h1 : g1 = .fails
  · rw [if_pos h1]; exact good_refl hg c
  rw [if_neg h1]
  have s1 := good_name hg c n
  have hg1 := s1.good hg
  by_cases h2 : g2 = .fails
  · simp only [if_pos h2]; exact s1
  simp only [if_neg h2]
  have s2 := good_rule hg1 c M.next (by simp) (.user k) (p.priority.getD 0)
  have hg2 := s2.good hg1
  unfold pushRule
  by_cases h3 : g3 = .fails
  · simp only [if_pos h3]; exact s1.trans s2
  simp only [if_neg h3]
  have hread : readRule ((M.new (.chars n)).new (.ruleInfo M.next (.user k) (p.priority.getD 0))) (.stored (M.new (.chars n)).next) =
      some (.stored n (.user k) (p.priority.getD 0)) := by
    simp only [readRule, new_self]
    have : ((M.new (.chars n)).new (.ruleInfo M.next (.user k) (p.priority.getD 0))).chars? M.next = some n := by
      rw [chars?_eq, new_other _ _ (by rw [new_next]; omega), new_self]
    rw [this]; rfl
  have s3 := good_push hg2 c (.stored (M.new (.chars n)).next) _ hread (by intro a ha; simp at ha; subst ha; simp)
  have hg3 := s3.good hg2
  have s4 := good_dep hg3 c true
  exact ((s1.trans s2).trans s3).trans s4

theorem addCommonRule_good {M : DefMem} {d : DefData} {v : MixinDef} (hg : GoodDef M d v) (c : CommonRule) (p : Perks) (g : Growths) :
    OutGood (.onMutation c p) M d v (addCommonRule M d c p g) := by
  have s0 := good_dep hg (.onMutation c p) (if (c.ruleFor d.mixin).2 then true else d.dependency)
  have hg0 := s0.good hg
  have hf : failedCall v (.onMutation c p) = { v with dependency := if (c.ruleFor d.mixin).2 then true else d.dependency } := by
    rw [hg.reads.dep]
    cases c <;> simp [failedCall, CommonRule.ruleFor]
  have hname := hg.reads.name
  unfold addCommonRule
  by_cases h1 : g.first = .fails
  · simp only [if_pos h1, OutGood, hf]; exact s0
  simp only [if_neg h1, hname]
  by_cases h2 : g.second = .fails
  · simp only [if_pos h2, OutGood, hf]
    exact s0.trans (good_name hg0 _ [])
  simp only [if_neg h2]
  have s1 := good_name hg0 (.onMutation c p) (commonName v.name c d.ruleInfos.length)
  have hg1 := s1.good hg0
  by_cases h3 : g.third = .fails
  · simp only [if_pos h3, OutGood, hf]; exact s0.trans s1
  simp only [if_neg h3]
  have s2 := good_rule hg1 (.onMutation c p) M.next (by simp) (c.ruleFor d.mixin).1 (p.priority.getD 0)
  have hg2 := s2.good hg1
  by_cases h4 : g.fourth = .fails
  · simp only [if_pos h4, OutGood, hf]; exact (s0.trans s1).trans s2
  simp only [if_neg h4, OutGood]
  have hread : readRule ((M.new (.chars (commonName v.name c d.ruleInfos.length))).new (.ruleInfo M.next (c.ruleFor d.mixin).1 (p.priority.getD 0)))
      (.stored (M.new (.chars (commonName v.name c d.ruleInfos.length))).next) = some (.stored (commonName v.name c d.ruleInfos.length) (c.ruleFor d.mixin).1 (p.priority.getD 0)) := by
    simp only [readRule, new_self]
    have : ((M.new (.chars (commonName v.name c d.ruleInfos.length))).new (.ruleInfo M.next (c.ruleFor d.mixin).1 (p.priority.getD 0))).chars? M.next =
        some (commonName v.name c d.ruleInfos.length) := by
      rw [chars?_eq, new_other _ _ (by rw [new_next]; omega), new_self]
    rw [this]; rfl
  have s3 := good_push hg2 (.onMutation c p) (.stored (M.new (.chars (commonName v.name c d.ruleInfos.length))).next) _ hread
    (by intro a ha; simp at ha; subst ha; simp)
  have hv' : buildStep d.mixin v (opOf M (.onMutation c p)) =
      { v with dependency := if (c.ruleFor d.mixin).2 then true else d.dependency,
               rules := v.rules ++ [.stored (commonName v.name c d.ruleInfos.length) (c.ruleFor d.mixin).1 (p.priority.getD 0)] } := by
    rw [hg.reads.dep]
    simp only [opOf, buildStep, readRules_length hg.reads.rules]
  rw [hv']
  exact ((s0.trans s1).trans s2).trans s3

/-- Every call that is made properly does what the model without memory says. -/
theorem defCall_good {M : DefMem} {d : DefData} {v : MixinDef} (hg : GoodDef M d v) (g : Growths) (c : DefCall) (hl : LegalAt M d c) :
    OutGood c M d v (defCall M d g c) := by
  cases c with
  | name a =>
    obtain ⟨⟨s, hs⟩, ha⟩ := hl
    have := good_set_name hg a s hs ha
    simp only [defCall, OutGood, opOf, hs, Option.getD_some, buildStep]
    exact this
  | storeName a =>
    obtain ⟨s, hs⟩ := hl
    simp only [defCall, storeName, hs]
    cases hgf : g.first with
    | fails => exact good_refl hg _
    | inPlace =>
      simp only [OutGood, opOf, hs, Option.getD_some, buildStep]
      exact storeName_inPlace hg.mem hg.ok hg.reads a s
    | moved =>
      simp only [OutGood, opOf, hs, Option.getD_some, buildStep]
      exact storeName_moved hg.mem hg.ok hg.reads a s
  | usesAllocator p =>
    obtain ⟨q, rfl, hq⟩ := hl
    obtain ⟨M', d', h1, h2⟩ := setAllocator_ok hg.mem hg.ok hg.name hg.reads q hq
    simp only [defCall, h1, OutGood, opOf, buildStep]
    exact h2
  | dependency b => exact good_dep hg _ b
  | implements f p a b =>
    obtain ⟨M1, h1, h2⟩ := good_payload hg (.implements f p a b) p hl
    simp only [defCall, addFeature, h1]
    by_cases hf : g.first = .fails
    · simp only [if_pos hf]; exact good_refl hg _
    · simp only [if_neg hf]
      have hg1 := h2.good hg
      have := pushFeature_ok hg1.mem hg1.ok hg1.name hg1.reads ⟨f, p.ptr, a.bid.getD (b.bid.getD 0), a.priority.getD (b.priority.getD 0)⟩
        ⟨p, by simp, rfl⟩ f p a b g.second
      cases hr : pushFeature M1 { d with payloadStorage := d.payloadStorage ++ [p] }
          ⟨f, p.ptr, a.bid.getD (b.bid.getD 0), a.priority.getD (b.priority.getD 0)⟩ g.second with
      | ok M' d' => rw [hr] at this; exact h2.trans this
      | threw M' d' =>
        rw [hr] at this
        obtain ⟨rfl, rfl⟩ := this
        exact h2
      | ub => rw [hr] at this; exact this
  | rule r =>
    simp only [defCall, pushRule]
    by_cases hf : g.first = .fails
    · rw [if_pos hf]; exact good_refl hg _
    · rw [if_neg hf]
      have s1 := good_push hg (.rule r) (.user r) (.given r) rfl (by simp)
      exact s1.trans (good_dep (s1.good hg) _ true)
  | namedRule n k p =>
    have := addNamedRule_good hg (.namedRule n k p) n k p g.first g.second g.third
    simp only [defCall]
    cases hr : addNamedRule M d n k p g.first g.second g.third with
    | ok M' d' => rw [hr] at this; exact this
    | threw M' d' => rw [hr] at this; exact this
    | ub => rw [hr] at this; exact this
  | unnamedRule k p =>
    simp only [defCall, hg.reads.name]
    by_cases hf : g.first = .fails
    · rw [if_pos hf]; exact good_refl hg _
    · rw [if_neg hf]
      have := addNamedRule_good hg (.unnamedRule k p) (unnamedName v.name d.ruleInfos.length) k p g.second g.third g.fourth
      cases hr : addNamedRule M d (unnamedName v.name d.ruleInfos.length) k p g.second g.third g.fourth with
      | ok M' d' =>
        rw [hr] at this
        simp only [OutGood, opOf, buildStep, readRules_length hg.reads.rules]
        exact this
      | threw M' d' => rw [hr] at this; exact this
      | ub => rw [hr] at this; exact this
  | onMutation c p => exact addCommonRule_good hg c p g

/-- Destroying a definition gives back everything. -/
theorem defDestroy_good {M : DefMem} {d : DefData} (hM : MemOk M) (hd : DefOk M d) :
    ∃ M', defDestroy M d = some M' ∧ MemOk M' ∧ M'.next = M.next ∧ (∀ a, liveAt M' a + (ownCells d).count a = liveAt M a) ∧
      (∀ c, refAt M' c + (ownShares d).count (some c) = refAt M c) ∧ (∀ a, liveAt M a = 1 → a ∉ ownCells d → M'.cells a = M.cells a) := by
  have honce := hd.once
  have hsh := hd.shares
  simp only [ownCells, ownShares, List.count_append] at honce hsh
  obtain ⟨M1, a1, a2, a3, a4, a5, a6⟩ := freeAll_ok d.nameStorage hM (fun a => by have := honce a; omega)
  obtain ⟨M2, b1, b2, b3, b4, b5, b6⟩ := freeAll_ok d.ruleStorage a2 (fun a => by have := honce a; have := a4 a; omega)
  obtain ⟨M3, c1, c2, c3, c4, c5, c6⟩ := releaseAll_ok d.payloadStorage b2 (fun c => by rw [b5, a5]; have := hsh c; omega)
  obtain ⟨M4, d1, d2, d3, d4, d5, d6⟩ := freeAll_ok d.payloadVec.toList c2 (fun a => by
    rw [c4]; have := honce a; have := a4 a; have := b4 a; omega)
  obtain ⟨M5, e1, e2, e3, e4, e5, e6⟩ := release_ok d2 (d.storedAlloc.bind AnyPtr.owner) (fun c hc => by
    rw [d5]
    have h1 := hsh c
    have h2 := c5 c
    rw [b5, a5] at h2
    rw [hc] at h1
    simp at h1
    omega)
  obtain ⟨M6, f1, f2, f3, f4, f5, f6⟩ := freeAll_ok [d.storedName] e2 (fun a => by
    rw [e4]; have := honce a; have := a4 a; have := b4 a; have := c4 a; have := d4 a; omega)
  refine ⟨M6, by simp [defDestroy, a1, b1, c1, d1, e1, f1], f2, by omega, ?_, ?_, ?_⟩
  · intro a
    simp only [ownCells, List.count_append]
    have := a4 a; have := b4 a; have := c4 a; have := d4 a; have := e4 a; have := f4 a
    omega
  · intro c
    simp only [ownShares, List.count_append, List.count_cons, List.count_nil, beq_iff_eq]
    have := a5 c; have := b5 c; have := c5 c; have := d5 c; have := e5 c; have := f5 c
    omega
  · intro a ha hn
    simp only [ownCells, List.mem_append, not_or] at hn
    obtain ⟨⟨⟨n1, n2⟩, n3⟩, n4⟩ := hn
    have l1 : M1.cells a = M.cells a := a6 a n1
    have l2 : M2.cells a = M.cells a := by rw [b6 a n2, l1]
    have l3 : M3.cells a = M.cells a := by rw [c6 a (by rw [liveAt_congr l2]; exact ha), l2]
    have l4 : M4.cells a = M.cells a := by rw [d6 a n3, l3]
    have l5 : M5.cells a = M.cells a := by rw [e6 a (by rw [liveAt_congr l4]; exact ha), l4]
    rw [f6 a n4, l5]

end Dnmx
