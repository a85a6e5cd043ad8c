import Verif.Proofs.DefMemoryLemmas

set_option linter.unusedSimpArgs false
set_option linter.unusedVariables false
set_option linter.unusedSectionVars false

namespace Dnmx
open Spec

/-- What the members of a definition lead to. -/
structure DefHolds (M : DefMem) (d : DefData) : Prop where
  stored : ∃ s, M.cells d.storedName = some (.chars s)
  vec : (d.payloadVec = none ∧ d.features = none ∧ d.numFeatures = 0) ∨
    ∃ v l, d.payloadVec = some v ∧ M.cells v = some (.feats l) ∧ d.features = some v ∧ d.numFeatures = l.length ∧
      ∀ x ∈ l, ∃ p ∈ d.payloadStorage, p.ptr = x.payload
  names : ∀ a ∈ d.nameStorage, ∃ s, M.cells a = some (.chars s)
  rules : ∀ a ∈ d.ruleStorage, ∃ n b p, M.cells a = some (.ruleInfo n b p) ∧ n ∈ d.nameStorage
  infos : ∀ a, .stored a ∈ d.ruleInfos → a ∈ d.ruleStorage

structure DefOk (M : DefMem) (d : DefData) : Prop where
  holds : DefHolds M d
  once : ∀ a, (ownCells d).count a ≤ liveAt M a
  shares : ∀ c, (ownShares d).count (some c) ≤ refAt M c

theorem DefOk.live {M : DefMem} {d : DefData} (h : DefOk M d) {a : Nat} (ha : a ∈ ownCells d) : liveAt M a = 1 := by
  have h1 := h.once a
  have h2 := List.count_pos_iff.2 ha
  have h3 := liveAt_le M a
  omega

theorem Moves.once {K : List Nat} {M M' : DefMem} {d d' : DefData} (h : Moves K M d M' d') (hd : DefOk M d) (hh : DefHolds M' d') : DefOk M' d' where
  holds := hh
  once := fun a => by have := h.live a; have := hd.once a; omega
  shares := fun c => by have := h.ref c; have := hd.shares c; omega

theorem Moves.weaken {K K' : List Nat} {M M' : DefMem} {d d' : DefData} (h : Moves K M d M' d') (hK : ∀ a ∈ K', a ∈ K) : Moves K' M d M' d' :=
  { h with keep := fun a ha => h.keep a (hK a ha) }

/-- The name of the definition can be read: it is stored in it or somewhere else. -/
def NameOk (M : DefMem) (d : DefData) : Prop := d.name = d.storedName ∨ (liveAt M d.name = 1 ∧ d.name ∉ ownCells d)

theorem Moves.not_mem {K : List Nat} {M M' : DefMem} {d d' : DefData} (h : Moves K M d M' d') {a : Nat} (ha : liveAt M a = 1) (hn : a ∉ ownCells d) :
    liveAt M' a = 1 ∧ a ∉ ownCells d' := by
  have he := h.frame a ha hn
  have hl : liveAt M' a = 1 := by rw [liveAt_congr he]; exact ha
  refine ⟨hl, ?_⟩
  have := h.live a
  rw [hl, ha, List.count_eq_zero_of_not_mem hn] at this
  exact List.count_eq_zero.1 (by omega)

/-- What is read. -/
structure Reads (M : DefMem) (d : DefData) (v : MixinDef) : Prop where
  name : M.chars? d.name = some v.name
  alloc : d.allocator.isSome = v.hasAllocator
  dep : d.dependency = v.dependency
  feats : readFeats M d = some v.feats
  rules : readRules M d.ruleInfos = some v.rules

theorem readDef_iff (M : DefMem) (d : DefData) (v : MixinDef) : readDef M d = some v ↔ Reads M d v := by
  unfold readDef
  constructor
  · intro h
    split at h
    · next n fs rs h1 h2 h3 =>
      simp only [Option.some.injEq] at h
      subst h
      exact ⟨h1, rfl, rfl, h2, h3⟩
    · simp at h
  · rintro ⟨h1, h2, h3, h4, h5⟩
    simp only [h1, h4, h5, h2, h3]

theorem readRules_append {M : DefMem} : ∀ {l : List RulePtr} {xs : List DefRule} {r : RulePtr} {x : DefRule}, readRules M l = some xs → readRule M r = some x →
    readRules M (l ++ [r]) = some (xs ++ [x])
  | [], xs, r, x, h, hr => by simp [readRules] at h; subst h; simp [readRules, hr]
  | r0 :: l, xs, r, x, h, hr => by
    simp only [readRules] at h
    split at h
    · next y ys h1 h2 =>
      simp only [Option.some.injEq] at h
      subst h
      simp [readRules, h1, readRules_append h2 hr]
    · simp at h

theorem readRules_congr {M M' : DefMem} : ∀ {l : List RulePtr}, (∀ r ∈ l, readRule M' r = readRule M r) → readRules M' l = readRules M l
  | [], _ => rfl
  | r :: l, h => by
    simp only [readRules]
    rw [h r (by simp), readRules_congr (fun r hr => h r (by simp [hr]))]

theorem readRules_length {M : DefMem} : ∀ {l : List RulePtr} {xs : List DefRule}, readRules M l = some xs → xs.length = l.length
  | [], xs, h => by simp [readRules] at h; subst h; rfl
  | r :: l, xs, h => by
    simp only [readRules] at h
    split at h
    · next y ys h1 h2 =>
      simp only [Option.some.injEq] at h
      subst h
      simp [readRules_length h2]
    · simp at h

/-- Rules of a definition are still read the same if its rules and names are kept. -/
theorem DefHolds.rules_kept {M M' : DefMem} {d : DefData} (h : DefHolds M d) (hk : ∀ a ∈ d.nameStorage ++ d.ruleStorage, M'.cells a = M.cells a)
    {r : RulePtr} (hr : r ∈ d.ruleInfos) : readRule M' r = readRule M r := by
  cases r with
  | user r => rfl
  | stored a =>
    have ha := h.infos a hr
    obtain ⟨n, b, p, hc, hn⟩ := h.rules a ha
    have h1 := hk a (by simp [ha])
    have h2 := hk n (by simp [hn])
    simp only [readRule, h1, hc, chars?_congr h2]

theorem readFeats_congr {M M' : DefMem} {d : DefData} (h : ∀ v, d.features = some v → M'.cells v = M.cells v) : readFeats M' d = readFeats M d := by
  unfold readFeats
  cases hf : d.features with
  | none => rfl
  | some v => simp only [h v hf]

theorem DefHolds.features_vec {M : DefMem} {d : DefData} (h : DefHolds M d) : d.features = d.payloadVec := by
  rcases h.vec with ⟨h1, h2, -⟩ | ⟨v, l, h1, -, h2, -⟩ <;> rw [h1, h2]

/-- Nothing in the definition changes place and nothing of it is overwritten. -/
theorem Reads.kept {M M' : DefMem} {d d' : DefData} {v : MixinDef} (hd : DefOk M d) (hm : Moves (ownCells d) M d M' d') (hn : NameOk M d) (h : Reads M d v)
    (h1 : d'.name = d.name) (h2 : d'.features = d.features) (h3 : d'.numFeatures = d.numFeatures) :
    M'.chars? d'.name = some v.name ∧ readFeats M' d' = some v.feats ∧ readRules M' d.ruleInfos = some v.rules := by
  refine ⟨?_, ?_, ?_⟩
  · rw [h1, ← h.name]
    apply chars?_congr
    rcases hn with hn | ⟨hn1, hn2⟩
    · rw [hn]; exact hm.keep _ (by simp [ownCells])
    · exact hm.frame _ hn1 hn2
  · rw [← h.feats]
    have : readFeats M' d' = readFeats M' d := by unfold readFeats; rw [h2, h3]
    rw [this]
    apply readFeats_congr
    intro u hu
    refine hm.keep u ?_
    rw [hd.holds.features_vec] at hu
    simp [ownCells, hu]
  · rw [← h.rules]
    exact readRules_congr (fun r hr => hd.holds.rules_kept (fun a ha => hm.keep a (by
      simp only [ownCells, List.mem_append] at *; rcases ha with h | h <;> simp [h])) hr)

theorem NameOk.kept {K : List Nat} {M M' : DefMem} {d d' : DefData} (hm : Moves K M d M' d') (hn : NameOk M d) (h1 : d'.name = d.name) (h2 : d'.storedName = d.storedName) :
    NameOk M' d' := by
  rcases hn with hn | ⟨hn1, hn2⟩
  · exact .inl (by rw [h1, h2, hn])
  · right; rw [h1]; exact hm.not_mem hn1 hn2

/-- Members that lead to cells which are kept. -/
theorem DefHolds.kept {M M' : DefMem} {d : DefData} (h : DefHolds M d) (hk : ∀ a ∈ ownCells d, M'.cells a = M.cells a) : DefHolds M' d where
  stored := by rw [hk _ (by simp [ownCells])]; exact h.stored
  vec := by
    rcases h.vec with h1 | ⟨v, l, h1, h2, h3⟩
    · exact .inl h1
    · exact .inr ⟨v, l, h1, by rw [hk v (by simp [ownCells, h1])]; exact h2, h3⟩
  names := fun a ha => by rw [hk a (by simp [ownCells, ha])]; exact h.names a ha
  rules := fun a ha => by rw [hk a (by simp [ownCells, ha])]; exact h.rules a ha
  infos := h.infos

/-- The outcome of a call. -/
structure CallGood (c : DefCall) (M : DefMem) (d : DefData) (M' : DefMem) (d' : DefData) (v' : MixinDef) : Prop where
  moves : Moves (d.nameStorage ++ d.ruleStorage) M d M' d'
  holds : DefHolds M' d'
  name : NameOk M' d'
  reads : Reads M' d' v'
  vec : (∀ f p a b, c ≠ .implements f p a b) → ∀ u, d.payloadVec = some u → M'.cells u = M.cells u ∧ d'.payloadVec = some u
  grows : d.ruleInfos <+: d'.ruleInfos ∧ d.ruleStorage <+: d'.ruleStorage ∧ d.nameStorage <+: d'.nameStorage

theorem sub_own (d : DefData) : ∀ a ∈ d.nameStorage ++ d.ruleStorage, a ∈ ownCells d := by
  intro a ha
  simp only [ownCells, List.mem_append] at *
  rcases ha with h | h <;> simp [h]

theorem vec_own {d : DefData} {u : Nat} (h : d.payloadVec = some u) : u ∈ ownCells d := by simp [ownCells, h]

theorem own_lt {M : DefMem} {d : DefData} (hM : MemOk M) (hd : DefOk M d) : ∀ a ∈ ownCells d, a < M.next := fun a ha => lt_of_live hM (hd.live ha)

/-! ### `store_name` -/

theorem stored_once {M : DefMem} {d : DefData} (hd : DefOk M d) : d.storedName ∉ d.nameStorage ++ d.ruleStorage ∧ d.payloadVec ≠ some d.storedName := by
  have h1 := hd.once d.storedName
  have h2 := liveAt_le M d.storedName
  simp only [ownCells, List.count_append, List.count_cons, List.count_nil, beq_self_eq_true, if_true] at h1
  refine ⟨?_, ?_⟩
  · intro h
    have := List.count_pos_iff.2 h
    rw [List.count_append] at this
    omega
  · intro h
    rw [h] at h1
    simp at h1
    omega

theorem vec_once {M : DefMem} {d : DefData} (hd : DefOk M d) {u : Nat} (hu : d.payloadVec = some u) : u ∉ d.nameStorage ++ d.ruleStorage ∧ u ≠ d.storedName := by
  have h1 := hd.once u
  have h2 := liveAt_le M u
  simp only [ownCells, List.count_append, hu, Option.toList_some, List.count_cons, List.count_nil, beq_self_eq_true, if_true] at h1
  refine ⟨?_, ?_⟩
  · intro h
    have := List.count_pos_iff.2 h
    rw [List.count_append] at this
    omega
  · intro h
    rw [h] at h1 h2
    simp at h1
    omega

theorem storeName_inPlace {M : DefMem} {d : DefData} {v : MixinDef} (hM : MemOk M) (hd : DefOk M d) (hv : Reads M d v) (a : Nat) (s : List UInt8) :
    CallGood (.storeName a) M d (M.put d.storedName (some (.chars s))) { d with name := d.storedName } { v with name := s } := by
  obtain ⟨s0, hs0⟩ := hd.holds.stored
  obtain ⟨ho1, ho2⟩ := stored_once hd
  have hne : ∀ b, b ≠ d.storedName → (M.put d.storedName (some (.chars s))).cells b = M.cells b := fun b hb => put_other M _ _ hb
  have hl : ∀ b, liveAt (M.put d.storedName (some (.chars s))) b = liveAt M b := by
    intro b
    by_cases hb : b = d.storedName
    · subst hb; simp [liveAt, put_self, hs0]
    · exact liveAt_congr (hne b hb)
  have hr : ∀ b, refAt (M.put d.storedName (some (.chars s))) b = refAt M b := by
    intro b
    by_cases hb : b = d.storedName
    · subst hb; simp [refAt, put_self, hs0]
    · exact refAt_congr (hne b hb)
  have hkeep : ∀ b ∈ d.nameStorage ++ d.ruleStorage, (M.put d.storedName (some (.chars s))).cells b = M.cells b :=
    fun b hb => hne b (fun e => ho1 (e ▸ hb))
  have hvec : ∀ u, d.payloadVec = some u → (M.put d.storedName (some (.chars s))).cells u = M.cells u :=
    fun u hu => hne u (fun e => ho2 (e ▸ hu))
  refine ⟨⟨hM.put (by simp) (by simp [hs0]), Nat.le_refl _, ?_, ?_, ?_, hkeep, rfl⟩, ?_, .inl rfl, ?_, ?_, ?_⟩
  · intro b; rw [hl]; rfl
  · intro b; rw [hr]; rfl
  · intro b _ hb; exact hne b (fun e => hb (by simp [ownCells, e]))
  · refine ⟨⟨s, put_self M _ _⟩, ?_, fun b hb => ?_, fun b hb => ?_, hd.holds.infos⟩
    · rcases hd.holds.vec with h1 | ⟨u, l, h1, h2, h3⟩
      · exact .inl h1
      · exact .inr ⟨u, l, h1, by rw [hvec u h1]; exact h2, h3⟩
    · rw [hkeep b (by simp [show b ∈ d.nameStorage from hb])]; exact hd.holds.names b hb
    · rw [hkeep b (by simp [show b ∈ d.ruleStorage from hb])]; exact hd.holds.rules b hb
  · refine ⟨by rw [chars?_eq]; exact put_self M _ _, hv.alloc, hv.dep, ?_, ?_⟩
    · have : readFeats (M.put d.storedName (some (.chars s))) d = readFeats M d :=
        readFeats_congr (fun u hu => hvec u (by rw [← hd.holds.features_vec]; exact hu))
      exact this.trans hv.feats
    · exact (readRules_congr (fun r hr => hd.holds.rules_kept hkeep hr)).trans hv.rules
  · intro _ u hu; exact ⟨hvec u hu, hu⟩
  · exact ⟨List.prefix_refl _, List.prefix_refl _, List.prefix_refl _⟩

theorem storeName_moved {M : DefMem} {d : DefData} {v : MixinDef} (hM : MemOk M) (hd : DefOk M d) (hv : Reads M d v) (a : Nat) (s : List UInt8) :
    CallGood (.storeName a) M d ((M.new (.chars s)).put d.storedName none) { d with storedName := M.next, name := M.next } { v with name := s } := by
  obtain ⟨s0, hs0⟩ := hd.holds.stored
  obtain ⟨ho1, ho2⟩ := stored_once hd
  have hlt : d.storedName < M.next := own_lt hM hd _ (by simp [ownCells])
  obtain ⟨hn1, hn2⟩ := new_live hM (x := .chars s) (by simp)
  have hcell : (M.new (.chars s)).cells d.storedName = some (.chars s0) := by rw [new_other M _ (by omega), hs0]
  obtain ⟨hf1, hf2⟩ := free_effect (liveAt_chars hcell)
  have hne : ∀ b, b ≠ d.storedName → b < M.next → ((M.new (.chars s)).put d.storedName none).cells b = M.cells b :=
    fun b hb hl => by rw [put_other _ _ _ hb, new_other M _ (by omega)]
  have hself : ((M.new (.chars s)).put d.storedName none).cells M.next = some (.chars s) := by
    rw [put_other _ _ _ (by omega), new_self]
  have hkeep : ∀ b ∈ d.nameStorage ++ d.ruleStorage, ((M.new (.chars s)).put d.storedName none).cells b = M.cells b :=
    fun b hb => hne b (fun e => ho1 (e ▸ hb)) (own_lt hM hd b (sub_own d b hb))
  have hvec : ∀ u, d.payloadVec = some u → ((M.new (.chars s)).put d.storedName none).cells u = M.cells u :=
    fun u hu => hne u (fun e => ho2 (e ▸ hu)) (own_lt hM hd u (vec_own hu))
  refine ⟨⟨(hM.new (by simp)).put (by simp) (by simp [hcell]), by rw [put_next, new_next]; omega, ?_, ?_, ?_, hkeep, rfl⟩, ?_, .inl rfl, ?_, ?_, ?_⟩
  · intro b
    have e1 := hn1 b
    have e2 := hf1 b
    simp only [ownCells, List.count_append, List.count_cons, List.count_nil, beq_iff_eq]
    omega
  · intro b; rw [hf2, hn2]; rfl
  · intro b hl hb; exact hne b (fun e => hb (by simp [ownCells, e])) (lt_of_live hM hl)
  · refine ⟨⟨s, hself⟩, ?_, fun b hb => ?_, fun b hb => ?_, hd.holds.infos⟩
    · rcases hd.holds.vec with h1 | ⟨u, l, h1, h2, h3⟩
      · exact .inl h1
      · exact .inr ⟨u, l, h1, by rw [hvec u h1]; exact h2, h3⟩
    · rw [hkeep b (by simp [show b ∈ d.nameStorage from hb])]; exact hd.holds.names b hb
    · rw [hkeep b (by simp [show b ∈ d.ruleStorage from hb])]; exact hd.holds.rules b hb
  · refine ⟨by rw [chars?_eq]; exact hself, hv.alloc, hv.dep, ?_, ?_⟩
    · have : readFeats ((M.new (.chars s)).put d.storedName none) d = readFeats M d :=
        readFeats_congr (fun u hu => hvec u (by rw [← hd.holds.features_vec]; exact hu))
      exact this.trans hv.feats
    · exact (readRules_congr (fun r hr => hd.holds.rules_kept hkeep hr)).trans hv.rules
  · intro _ u hu; exact ⟨hvec u hu, hu⟩
  · exact ⟨List.prefix_refl _, List.prefix_refl _, List.prefix_refl _⟩

/-! ### Calls that do not touch the cells of the definition -/

/-- From a move that keeps all cells of the definition. -/
theorem CallGood.of_kept {c : DefCall} {M M' : DefMem} {d d' : DefData} {v v' : MixinDef} (hd : DefOk M d) (hn : NameOk M d) (hv : Reads M d v)
    (hm : Moves (ownCells d) M d M' d') (hh : DefHolds M' d') (h1 : d'.name = d.name) (h2 : d'.storedName = d.storedName) (h3 : d'.payloadVec = d.payloadVec)
    (h4 : d'.features = d.features) (h5 : d'.numFeatures = d.numFeatures) (h6 : d.ruleStorage <+: d'.ruleStorage) (h7 : d.nameStorage <+: d'.nameStorage)
    (r : List RulePtr) (xs : List DefRule) (h8 : d'.ruleInfos = d.ruleInfos ++ r) (h9 : ∀ ys, readRules M' d.ruleInfos = some ys → readRules M' d'.ruleInfos = some (ys ++ xs))
    (hv' : v' = { v with hasAllocator := d'.allocator.isSome, dependency := d'.dependency, rules := v.rules ++ xs }) : CallGood c M d M' d' v' where
  moves := hm.weaken (sub_own d)
  holds := hh
  name := NameOk.kept hm hn h1 h2
  reads := by
    obtain ⟨k1, k2, k3⟩ := Reads.kept hd hm hn hv h1 h4 h5
    subst hv'
    exact ⟨k1, rfl, rfl, k2, h9 _ k3⟩
  vec := fun _ u hu => ⟨hm.keep u (vec_own hu), by rw [h3, hu]⟩
  grows := ⟨by rw [h8]; exact List.prefix_append _ _, h6, h7⟩

/-! ### `uses_allocator` -/

theorem setAllocator_ok {M : DefMem} {d : DefData} {v : MixinDef} (hM : MemOk M) (hd : DefOk M d) (hn : NameOk M d) (hv : Reads M d v) (q : AnyPtr)
    (hq : ∀ c, q.owner = some c → IsShared M c) :
    ∃ M' d', setAllocator M d (some q) = .ok M' d' ∧ CallGood (.usesAllocator (some q)) M d M' d' { v with hasAllocator := true } := by
  obtain ⟨M1, r1, r2, r3, r4, r5, r6⟩ := retain_ok hM q.owner hq
  have hrel : ∀ c, d.storedAlloc.bind AnyPtr.owner = some c → 0 < refAt M1 c := by
    intro c hc
    have h1 := hd.shares c
    have h2 := r5 c
    simp only [ownShares, List.count_append, List.count_cons, List.count_nil, hc, beq_self_eq_true, if_true] at h1
    omega
  obtain ⟨M2, s1, s2, s3, s4, s5, s6⟩ := release_ok r2 (d.storedAlloc.bind AnyPtr.owner) hrel
  refine ⟨M2, { d with storedAlloc := some q, allocator := some q.ptr }, by simp [setAllocator, r1, s1], ?_⟩
  have hkeep : ∀ a, liveAt M a = 1 → M2.cells a = M.cells a := fun a ha => by rw [s6 a (by rw [r4]; exact ha), r6 a ha]
  have hm : Moves (ownCells d) M d M2 { d with storedAlloc := some q, allocator := some q.ptr } := by
    refine ⟨s2, by omega, ?_, ?_, fun a ha _ => hkeep a ha, fun a ha => hkeep a (hd.live ha), rfl⟩
    · intro a; rw [s4, r4]; rfl
    · intro a
      have e1 := r5 a
      have e2 := s5 a
      simp only [ownShares, List.count_append, List.count_cons, List.count_nil, Option.bind_some, beq_iff_eq]
      omega
  refine CallGood.of_kept hd hn hv hm ?_ rfl rfl rfl rfl rfl (List.prefix_refl _) (List.prefix_refl _) [] [] (by simp) (by simp) (by simp [← hv.dep])
  have := hd.holds.kept (fun a ha => hkeep a (hd.live ha))
  exact ⟨this.stored, this.vec, this.names, this.rules, this.infos⟩

/-! ### Features -/

theorem pushFeature_ok {M : DefMem} {d : DefData} {v : MixinDef} (hM : MemOk M) (hd : DefOk M d) (hn : NameOk M d) (hv : Reads M d v) (x : FeatFor)
    (hx : ∃ p ∈ d.payloadStorage, p.ptr = x.payload) (f : Feat) (p : AnyPtr) (a b : Perks) (g : Growth) :
    match pushFeature M d x g with
    | .ok M' d' => CallGood (.implements f p a b) M d M' d' { v with feats := v.feats ++ [x] }
    | .threw M' d' => M' = M ∧ d' = d
    | .ub => False := by
  have hnew : ∀ (l : List FeatFor) (M' : DefMem) (d' : DefData), Moves (d.nameStorage ++ d.ruleStorage ++ [d.storedName]) M d M' d' →
      d' = { d with payloadVec := d'.payloadVec, features := d'.features, numFeatures := d'.numFeatures } →
      (∃ u, d'.payloadVec = some u ∧ d'.features = some u ∧ d'.numFeatures = (l ++ [x]).length ∧ M'.cells u = some (.feats (l ++ [x]))) → v.feats = l →
      (∀ y ∈ l, ∃ p ∈ d.payloadStorage, p.ptr = y.payload) →
      CallGood (.implements f p a b) M d M' d' { v with feats := v.feats ++ [x] } := by
    intro l M' d' hm hd' hu hl hpay
    obtain ⟨u, hu1, hu2, hu3, hu4⟩ := hu
    have hkeep : ∀ c ∈ d.nameStorage ++ d.ruleStorage, M'.cells c = M.cells c := fun c hc => hm.keep c (by simp only [List.mem_append] at *; exact .inl hc)
    have hsn : d'.storedName = d.storedName := by rw [hd']
    have hnm : d'.name = d.name := by rw [hd']
    refine ⟨hm.weaken (fun c hc => by simp only [List.mem_append] at *; exact .inl hc), ⟨?_, ?_, ?_, ?_, ?_⟩, NameOk.kept hm hn hnm hsn, ⟨?_, ?_, ?_, ?_, ?_⟩, ?_, ?_⟩
    · rw [hsn, hm.keep _ (by simp)]; exact hd.holds.stored
    · refine .inr ⟨u, l ++ [x], hu1, hu4, hu2, hu3, ?_⟩
      intro y hy
      have : d'.payloadStorage = d.payloadStorage := by rw [hd']
      rw [this]
      rcases List.mem_append.1 hy with hy | hy
      · exact hpay y hy
      · simp at hy; subst hy; exact hx
    · intro c hc
      have hc' : c ∈ d.nameStorage := by rw [hd'] at hc; exact hc
      rw [hkeep c (by simp [hc'])]; exact hd.holds.names c hc'
    · intro c hc
      have hc' : c ∈ d.ruleStorage := by rw [hd'] at hc; exact hc
      rw [hkeep c (by simp [hc'])]
      have : d'.nameStorage = d.nameStorage := by rw [hd']
      rw [this]; exact hd.holds.rules c hc'
    · intro c hc
      have h1 : d'.ruleInfos = d.ruleInfos := by rw [hd']
      have h2 : d'.ruleStorage = d.ruleStorage := by rw [hd']
      rw [h2]; exact hd.holds.infos c (h1 ▸ hc)
    · rw [hnm, ← hv.name]
      apply chars?_congr
      rcases hn with hn | ⟨hn1, hn2⟩
      · rw [hn]; exact hm.keep _ (by simp)
      · exact hm.frame _ hn1 hn2
    · have : d'.allocator = d.allocator := by rw [hd']
      rw [this]; exact hv.alloc
    · have : d'.dependency = d.dependency := by rw [hd']
      rw [this]; exact hv.dep
    · simp only [readFeats, hu2, hu4, hu3, Nat.le_refl, if_true, List.take_length, hl]
    · have : d'.ruleInfos = d.ruleInfos := by rw [hd']
      rw [this]
      exact (readRules_congr (fun r hr => hd.holds.rules_kept hkeep hr)).trans hv.rules
    · intro h; exact absurd rfl (h f p a b)
    · have h1 : d'.ruleInfos = d.ruleInfos := by rw [hd']
      have h2 : d'.ruleStorage = d.ruleStorage := by rw [hd']
      have h3 : d'.nameStorage = d.nameStorage := by rw [hd']
      rw [h1, h2, h3]
      exact ⟨List.prefix_refl _, List.prefix_refl _, List.prefix_refl _⟩
  have hown := own_lt hM hd
  have hKlt : ∀ c ∈ d.nameStorage ++ d.ruleStorage ++ [d.storedName], c < M.next := by
    intro c hc
    refine hown c ?_
    simp only [ownCells, List.mem_append, List.mem_singleton] at *
    rcases hc with (h | h) | h <;> simp [h]
  have hfresh : d.payloadVec = none → CallGood (.implements f p a b) M d (M.new (.feats [x]))
      { d with payloadVec := some M.next, features := some M.next, numFeatures := 1 } { v with feats := v.feats ++ [x] } := by
    intro hnone
    obtain ⟨n1, n2⟩ := new_live hM (x := .feats [x]) (by simp)
    refine hnew [] _ _ ⟨hM.new (by simp), by rw [new_next]; omega, ?_, fun c => by rw [n2]; rfl, ?_, ?_, rfl⟩ rfl
      ⟨M.next, rfl, rfl, rfl, new_self M _⟩ ?_ (by simp)
    · intro c
      have e1 := n1 c
      simp only [ownCells, List.count_append, List.count_cons, List.count_nil, beq_iff_eq, hnone, Option.toList_none, Option.toList_some]
      omega
    · intro c hc _
      exact new_other M _ (by have := lt_of_live hM hc; omega)
    · intro c hc
      exact new_other M _ (by have := hKlt c hc; omega)
    · have := hv.feats
      rcases hd.holds.vec with ⟨-, h2, h3⟩ | ⟨u, l, h1, -⟩
      · simp [readFeats, h2, h3] at this; exact this
      · rw [hnone] at h1; simp at h1
  cases hvec : d.payloadVec with
  | none =>
    cases g with
    | fails => simp [pushFeature]
    | inPlace => simp only [pushFeature, hvec]; exact hfresh hvec
    | moved => simp only [pushFeature, hvec]; exact hfresh hvec
  | some u =>
    obtain ⟨l, hul, hfe, hnum, hpay⟩ : ∃ l, M.cells u = some (.feats l) ∧ d.features = some u ∧ d.numFeatures = l.length ∧
        ∀ y ∈ l, ∃ p ∈ d.payloadStorage, p.ptr = y.payload := by
      rcases hd.holds.vec with ⟨h1, -⟩ | ⟨u', l, h1, h2, h3⟩
      · rw [hvec] at h1; simp at h1
      · rw [hvec] at h1; simp only [Option.some.injEq] at h1; subst h1; exact ⟨l, h2, h3⟩
    have hvl : v.feats = l := by
      have := hv.feats
      simp only [readFeats, hfe, hul, hnum, Nat.le_refl, if_true, List.take_length, Option.some.injEq] at this
      exact this.symm
    obtain ⟨vo1, vo2⟩ := vec_once hd hvec
    have hKne : ∀ c ∈ d.nameStorage ++ d.ruleStorage ++ [d.storedName], c ≠ u := by
      rintro c hc rfl
      simp only [List.mem_append, List.mem_singleton, not_or] at hc vo1
      rcases hc with (h | h) | h
      · exact vo1.1 h
      · exact vo1.2 h
      · exact vo2 h
    cases g with
    | fails => simp [pushFeature]
    | inPlace =>
      simp only [pushFeature, hvec, hul]
      have hl : ∀ c, liveAt (M.put u (some (.feats (l ++ [x])))) c = liveAt M c := by
        intro c
        by_cases hc : c = u
        · subst hc; simp [liveAt, put_self, hul]
        · exact liveAt_congr (put_other M _ _ hc)
      have hr : ∀ c, refAt (M.put u (some (.feats (l ++ [x])))) c = refAt M c := by
        intro c
        by_cases hc : c = u
        · subst hc; simp [refAt, put_self, hul]
        · exact refAt_congr (put_other M _ _ hc)
      refine hnew l _ _ ⟨hM.put (by simp) (by simp [hul]), Nat.le_refl _, ?_, ?_, ?_, ?_, rfl⟩ rfl ⟨u, rfl, rfl, by simp, put_self M _ _⟩ hvl hpay
      · intro c; rw [hl]; simp only [ownCells, hvec]
      · intro c; rw [hr]; rfl
      · intro c hc hcn; exact put_other M _ _ (fun e => hcn (e ▸ vec_own hvec))
      · intro c hc; exact put_other M _ _ (hKne c hc)
    | moved =>
      simp only [pushFeature, hvec, hul]
      have hlt := hown u (vec_own hvec)
      obtain ⟨n1, n2⟩ := new_live hM (x := .feats (l ++ [x])) (by simp)
      have hcell : (M.new (.feats (l ++ [x]))).cells u = some (.feats l) := by rw [new_other M _ (by omega), hul]
      obtain ⟨f1, f2⟩ := free_effect (liveAt_feats hcell)
      refine hnew l _ _ ⟨(hM.new (by simp)).put (by simp) (by simp [hcell]), by rw [put_next, new_next]; omega, ?_, ?_, ?_, ?_, rfl⟩ rfl
        ⟨M.next, rfl, rfl, by simp, by rw [put_other _ _ _ (by omega), new_self]⟩ hvl hpay
      · intro c
        have e1 := n1 c
        have e2 := f1 c
        simp only [ownCells, List.count_append, List.count_cons, List.count_nil, beq_iff_eq, hvec, Option.toList_some]
        omega
      · intro c; rw [f2, n2]; rfl
      · intro c hc hcn
        rw [put_other _ _ _ (show c ≠ u from fun e => hcn (e ▸ vec_own hvec)), new_other M _ (by have := lt_of_live hM hc; omega)]
      · intro c hc
        rw [put_other _ _ _ (hKne c hc), new_other M _ (by have := hKlt c hc; omega)]

end Dnmx
