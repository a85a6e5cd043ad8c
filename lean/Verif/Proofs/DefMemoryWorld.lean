import Verif.Proofs.DefMemoryGood

set_option linter.unusedSimpArgs false
set_option linter.unusedVariables false
set_option linter.unusedSectionVars false

namespace Dnmx
open Spec

/-! ## Sums over definitions -/

theorem sum_set {α : Type} (f : α → Nat) : ∀ {l : List α} {i : Nat} {x : α} (y : α), l[i]? = some x → ((l.set i y).map f).sum + f x = (l.map f).sum + f y
  | [], i, x, y, h => by simp at h
  | z :: l, 0, x, y, h => by simp at h; subst h; simp [List.set]; omega
  | z :: l, i + 1, x, y, h => by
    simp at h
    have := sum_set f y h
    show ((z :: l.set i y).map f).sum + f x = _
    simp only [List.map_cons, List.sum_cons]; omega

theorem sum_get {α : Type} (f : α → Nat) : ∀ {l : List α} {i : Nat} {x : α}, l[i]? = some x → f x ≤ (l.map f).sum
  | [], i, x, h => by simp at h
  | z :: l, 0, x, h => by simp at h; subst h; simp
  | z :: l, i + 1, x, h => by
    simp at h
    have := sum_get f h
    simp; omega

theorem sum_get_two {α : Type} (f : α → Nat) : ∀ {l : List α} {i j : Nat} {x y : α}, i ≠ j → l[i]? = some x → l[j]? = some y → f x + f y ≤ (l.map f).sum
  | [], i, j, x, y, _, h, _ => by simp at h
  | z :: l, 0, 0, x, y, h0, _, _ => by simp at h0
  | z :: l, 0, j + 1, x, y, _, h, h' => by
    simp at h h'; subst h
    have := sum_get f h'
    simp; omega
  | z :: l, i + 1, 0, x, y, _, h, h' => by
    simp at h h'; subst h'
    have := sum_get f h
    simp; omega
  | z :: l, i + 1, j + 1, x, y, h0, h, h' => by
    simp at h h'
    have := sum_get_two f (by omega) h h'
    simp; omega

theorem sum_pos {α : Type} (f : α → Nat) : ∀ {l : List α}, 0 < (l.map f).sum → ∃ (i : Nat) (x : α), l[i]? = some x ∧ 0 < f x
  | [], h => by simp at h
  | z :: l, h => by
    by_cases hz : 0 < f z
    · exact ⟨0, z, rfl, hz⟩
    · simp at h
      obtain ⟨i, x, h1, h2⟩ := sum_pos f (l := l) (by omega)
      exact ⟨i + 1, x, by simpa using h1, h2⟩

def cellsOf (x : Option DefData) : List Nat := x.elim [] ownCells
def sharesOf (x : Option DefData) : List (Option Nat) := x.elim [] ownShares

/-- The state of a program: everything is accounted for, definition number `i` means `val i`. -/
structure WorldOk (W : DefWorld) (val : Nat → Option MixinDef) : Prop where
  mem : MemOk W.mem
  own : ∀ a, liveAt W.mem a = W.strings.count a + (W.defs.map (fun x => (cellsOf x).count a)).sum
  ref : ∀ c, refAt W.mem c = W.held.count c + (W.defs.map (fun x => (sharesOf x).count (some c))).sum
  str : ∀ a ∈ W.strings, ∃ s, W.mem.cells a = some (.chars s)
  each : ∀ i d, W.def? i = some d → DefHolds W.mem d
  name : ∀ i d, W.def? i = some d → d.name = d.storedName ∨ d.name ∈ W.strings
  value : ∀ i d, W.def? i = some d → ∃ v, val i = some v ∧ Reads W.mem d v
  absent : ∀ i, W.def? i = none → val i = none

theorem def?_eq {W : DefWorld} {i : Nat} {d : DefData} : W.def? i = some d ↔ W.defs[i]? = some (some d) := by
  unfold DefWorld.def?
  cases h : W.defs[i]? with
  | none => simp
  | some x => simp

variable {W : DefWorld} {val : Nat → Option MixinDef}

theorem WorldOk.defOk (h : WorldOk W val) {i : Nat} {d : DefData} (hd : W.def? i = some d) : DefOk W.mem d where
  holds := h.each i d hd
  once := fun a => by
    have h1 := h.own a
    have h2 := sum_get (fun x => (cellsOf x).count a) (def?_eq.1 hd)
    simp only [cellsOf, Option.elim_some] at h2
    simp only [cellsOf] at h1
    omega
  shares := fun c => by
    have h1 := h.ref c
    have h2 := sum_get (fun x => (sharesOf x).count (some c)) (def?_eq.1 hd)
    simp only [sharesOf, Option.elim_some] at h2
    simp only [sharesOf] at h1
    omega

theorem WorldOk.string_apart (h : WorldOk W val) {i : Nat} {d : DefData} (hd : W.def? i = some d) {a : Nat} (ha : a ∈ W.strings) : a ∉ ownCells d := by
  intro hin
  have h1 := h.own a
  have h2 := sum_get (fun x => (cellsOf x).count a) (def?_eq.1 hd)
  simp only [cellsOf, Option.elim_some] at h2
  simp only [cellsOf] at h1
  have h3 := List.count_pos_iff.2 ha
  have h4 := List.count_pos_iff.2 hin
  have h5 := liveAt_le W.mem a
  omega

theorem WorldOk.string_once (h : WorldOk W val) (a : Nat) : W.strings.count a ≤ 1 := by
  have h1 := h.own a
  have h5 := liveAt_le W.mem a
  omega

theorem WorldOk.apart (h : WorldOk W val) {i j : Nat} {d d' : DefData} (hij : i ≠ j) (hd : W.def? i = some d) (hd' : W.def? j = some d') {a : Nat}
    (ha : a ∈ ownCells d') : a ∉ ownCells d := by
  intro hin
  have h1 := h.own a
  have h2 := sum_get_two (fun x => (cellsOf x).count a) hij (def?_eq.1 hd) (def?_eq.1 hd')
  simp only [cellsOf, Option.elim_some] at h2
  simp only [cellsOf] at h1
  have h3 := List.count_pos_iff.2 ha
  have h4 := List.count_pos_iff.2 hin
  have h5 := liveAt_le W.mem a
  omega

theorem WorldOk.nameOk (h : WorldOk W val) {i : Nat} {d : DefData} (hd : W.def? i = some d) : NameOk W.mem d := by
  rcases h.name i d hd with h1 | h1
  · exact .inl h1
  · obtain ⟨s, hs⟩ := h.str _ h1
    exact .inr ⟨liveAt_chars hs, h.string_apart hd h1⟩

theorem WorldOk.good (h : WorldOk W val) {i : Nat} {d : DefData} (hd : W.def? i = some d) {v : MixinDef} (hv : Reads W.mem d v) : GoodDef W.mem d v :=
  ⟨h.mem, h.defOk hd, h.nameOk hd, hv⟩

/-- A definition that was not involved. -/
theorem Reads.frame {M M' : DefMem} {d : DefData} {v : MixinDef} (hh : DefHolds M d) (h : Reads M d v) (hk : ∀ a ∈ ownCells d, M'.cells a = M.cells a)
    (hn : M'.cells d.name = M.cells d.name) : Reads M' d v where
  name := by rw [chars?_congr hn]; exact h.name
  alloc := h.alloc
  dep := h.dep
  feats := by
    rw [← h.feats]
    exact readFeats_congr (fun u hu => hk u (vec_own (by rw [← hh.features_vec]; exact hu)))
  rules := by
    rw [← h.rules]
    exact readRules_congr (fun r hr => hh.rules_kept (fun a ha => hk a (sub_own d a ha)) hr)


theorem WorldOk.keep_all (h : WorldOk W val) {W' : DefWorld} (hM : MemOk W'.mem) (hdefs : W'.defs = W.defs) (hstr : ∀ a ∈ W.strings, a ∈ W'.strings)
    (hstr' : ∀ a ∈ W'.strings, ∃ s, W'.mem.cells a = some (.chars s))
    (hk : ∀ a, liveAt W.mem a = 1 → W'.mem.cells a = W.mem.cells a)
    (hown : ∀ a, liveAt W'.mem a + W.strings.count a = liveAt W.mem a + W'.strings.count a)
    (href : ∀ c, refAt W'.mem c + W.held.count c = refAt W.mem c + W'.held.count c) : WorldOk W' val := by
  have hdef : ∀ i, W'.def? i = W.def? i := fun i => by unfold DefWorld.def?; rw [hdefs]
  refine ⟨hM, ?_, ?_, hstr', ?_, ?_, ?_, ?_⟩
  · intro a
    have := h.own a; have := hown a
    rw [hdefs]; omega
  · intro c
    have := h.ref c; have := href c
    rw [hdefs]; omega
  · intro i d hd
    rw [hdef] at hd
    exact (h.each i d hd).kept (fun a ha => hk a ((h.defOk hd).live ha))
  · intro i d hd
    rw [hdef] at hd
    rcases h.name i d hd with h1 | h1
    · exact .inl h1
    · exact .inr (hstr _ h1)
  · intro i d hd
    rw [hdef] at hd
    obtain ⟨v, h1, h2⟩ := h.value i d hd
    refine ⟨v, h1, Reads.frame (h.each i d hd) h2 (fun a ha => hk a ((h.defOk hd).live ha)) (hk _ ?_)⟩
    exact liveAt_chars (chars?_eq.1 h2.name)
  · intro i hi
    rw [hdef] at hi
    exact h.absent i hi

/-- Definition number `i` was changed or destroyed. -/
theorem WorldOk.change (h : WorldOk W val) {i : Nat} {d : DefData} (hd : W.def? i = some d) {M' : DefMem} {d' : Option DefData} {v' : Option MixinDef} (hM : MemOk M')
    (hlive : ∀ a, liveAt M' a + (ownCells d).count a = liveAt W.mem a + (cellsOf d').count a)
    (href : ∀ c, refAt M' c + (ownShares d).count (some c) = refAt W.mem c + (sharesOf d').count (some c))
    (hframe : ∀ a, liveAt W.mem a = 1 → a ∉ ownCells d → M'.cells a = W.mem.cells a)
    (hnew : ∀ x, d' = some x → DefHolds M' x ∧ (x.name = x.storedName ∨ x.name ∈ W.strings) ∧ ∃ v, v' = some v ∧ Reads M' x v)
    (hnone : d' = none → v' = none) :
    WorldOk { W with mem := M', defs := W.defs.set i d' } (fun j => if i = j then v' else val j) := by
  have hget := def?_eq.1 hd
  have hi : i < W.defs.length := by
    rw [List.getElem?_eq_some_iff] at hget; exact hget.1
  have hself : ({ W with mem := M', defs := W.defs.set i d' } : DefWorld).def? i = d' := by
    simp [DefWorld.def?, hi]
  have hother : ∀ j, i ≠ j → ({ W with mem := M', defs := W.defs.set i d' } : DefWorld).def? j = W.def? j := by
    intro j hj; simp [DefWorld.def?, List.getElem?_set_ne hj]
  have hkeep : ∀ j e, i ≠ j → W.def? j = some e → ∀ a ∈ ownCells e, M'.cells a = W.mem.cells a :=
    fun j e hj he a ha => hframe a ((h.defOk he).live ha) (h.apart hj hd he ha)
  refine ⟨hM, ?_, ?_, ?_, ?_, ?_, ?_, ?_⟩
  · intro a
    have h1 := h.own a; have h2 := hlive a
    have h3 := sum_set (fun x => (cellsOf x).count a) d' hget
    have h4 : (cellsOf (some d)).count a = (ownCells d).count a := rfl
    simp only [h4] at h3
    show liveAt M' a = W.strings.count a + ((W.defs.set i d').map (fun x => (cellsOf x).count a)).sum
    have h5 := sum_get (fun x => (cellsOf x).count a) hget
    simp only [h4] at h5
    omega
  · intro c
    have h1 := h.ref c; have h2 := href c
    have h3 := sum_set (fun x => (sharesOf x).count (some c)) d' hget
    have h4 : (sharesOf (some d)).count (some c) = (ownShares d).count (some c) := rfl
    simp only [h4] at h3
    show refAt M' c = W.held.count c + ((W.defs.set i d').map (fun x => (sharesOf x).count (some c))).sum
    omega
  · intro a ha
    obtain ⟨s, hs⟩ := h.str a ha
    exact ⟨s, by
      show M'.cells a = _
      rw [hframe a (liveAt_chars hs) (h.string_apart hd ha)]; exact hs⟩
  · intro j e he
    by_cases hj : i = j
    · subst hj; rw [hself] at he; exact (hnew e he).1
    · rw [hother j hj] at he
      exact (h.each j e he).kept (hkeep j e hj he)
  · intro j e he
    by_cases hj : i = j
    · subst hj; rw [hself] at he; exact (hnew e he).2.1
    · rw [hother j hj] at he; exact h.name j e he
  · intro j e he
    by_cases hj : i = j
    · subst hj; rw [hself] at he
      simp only [if_true]
      exact (hnew e he).2.2
    · rw [hother j hj] at he
      obtain ⟨v, h1, h2⟩ := h.value j e he
      refine ⟨v, by simp only [if_neg hj]; exact h1, Reads.frame (h.each j e he) h2 (hkeep j e hj he) ?_⟩
      rcases h.name j e he with h3 | h3
      · rw [h3]; exact hkeep j e hj he _ (by simp [ownCells])
      · obtain ⟨s, hs⟩ := h.str _ h3
        exact hframe _ (liveAt_chars hs) (h.string_apart hd h3)
  · intro j hj'
    by_cases hj : i = j
    · subst hj; rw [hself] at hj'; simp only [if_true]; exact hnone hj'
    · rw [hother j hj] at hj'; simp only [if_neg hj]; exact h.absent j hj'

theorem legalAt {i : Nat} {d : DefData} {c : DefCall} (h : WorldOk W val) (hd : W.def? i = some d) (hl : LegalCall W d c) : LegalAt W.mem d c := by
  cases c with
  | name a =>
    rcases hl with hl | rfl
    · obtain ⟨s, hs⟩ := h.str a hl
      exact ⟨⟨s, chars?_eq.2 hs⟩, .inr (h.string_apart hd hl)⟩
    · obtain ⟨s, hs⟩ := (h.each i d hd).stored
      exact ⟨⟨s, chars?_eq.2 hs⟩, .inl rfl⟩
  | storeName a => exact hl
  | usesAllocator p => exact hl
  | implements f p a b => exact hl
  | dependency b => trivial
  | rule r => trivial
  | namedRule n k p => trivial
  | unnamedRule k p => trivial
  | onMutation c p => trivial

/-- The name after a call: stored, or given with this call, or as before. -/
theorem defCall_name {M M' : DefMem} {d d' : DefData} {g : Growths} {c : DefCall} (h : defCall M d g c = .ok M' d' ∨ defCall M d g c = .threw M' d') :
    d'.name = d'.storedName ∨ (∃ a, c = .name a ∧ d'.name = a ∧ d'.storedName = d.storedName) ∨ (d'.name = d.name ∧ d'.storedName = d.storedName) := by
  cases c with
  | name a =>
    simp only [defCall] at h
    rcases h with h | h
    · injection h with h1 h2; subst h2; exact .inr (.inl ⟨a, rfl, rfl, rfl⟩)
    · simp at h
  | storeName a =>
    simp only [defCall, storeName] at h
    split at h
    · simp at h
    · cases hg : g.first <;> rw [hg] at h <;> rcases h with h | h <;> simp at h
      · obtain ⟨-, rfl⟩ := h; exact .inl rfl
      · obtain ⟨-, rfl⟩ := h; exact .inl rfl
      · obtain ⟨-, rfl⟩ := h; exact .inr (.inr ⟨rfl, rfl⟩)
  | usesAllocator p =>
    cases p with
    | none => simp [defCall, setAllocator] at h
    | some p =>
      simp only [defCall, setAllocator] at h
      split at h
      · simp at h
      · split at h
        · simp at h
        · simp at h; obtain ⟨-, rfl⟩ := h; exact .inr (.inr ⟨rfl, rfl⟩)
  | dependency b => simp [defCall] at h; obtain ⟨-, rfl⟩ := h; exact .inr (.inr ⟨rfl, rfl⟩)
  | implements f p a b =>
    refine .inr (.inr ?_)
    simp only [defCall, addFeature] at h
    split at h
    · simp at h
    · by_cases hf : g.first = .fails
      · rw [if_pos hf] at h; simp at h; obtain ⟨-, rfl⟩ := h; exact ⟨rfl, rfl⟩
      · rw [if_neg hf] at h
        unfold pushFeature at h
        split at h
        · simp at h; obtain ⟨-, rfl⟩ := h; exact ⟨rfl, rfl⟩
        · simp at h; obtain ⟨-, rfl⟩ := h; exact ⟨rfl, rfl⟩
        · split at h
          · simp at h; obtain ⟨-, rfl⟩ := h; exact ⟨rfl, rfl⟩
          · simp at h
        · split at h
          · simp at h; obtain ⟨-, rfl⟩ := h; exact ⟨rfl, rfl⟩
          · simp at h
  | rule r =>
    refine .inr (.inr ?_)
    simp only [defCall, pushRule] at h
    by_cases hf : g.first = .fails
    · rw [if_pos hf] at h; simp at h; obtain ⟨-, rfl⟩ := h; exact ⟨rfl, rfl⟩
    · rw [if_neg hf] at h; simp at h; obtain ⟨-, rfl⟩ := h; exact ⟨rfl, rfl⟩
  | namedRule n k p =>
    refine .inr (.inr ?_)
    simp only [defCall, addNamedRule, pushRule] at h
    by_cases h1 : g.first = .fails
    · rw [if_pos h1] at h; simp at h; obtain ⟨-, rfl⟩ := h; exact ⟨rfl, rfl⟩
    rw [if_neg h1] at h
    by_cases h2 : g.second = .fails
    · rw [if_pos h2] at h; simp at h; obtain ⟨-, rfl⟩ := h; exact ⟨rfl, rfl⟩
    rw [if_neg h2] at h
    by_cases h3 : g.third = .fails
    · rw [if_pos h3] at h; simp at h; obtain ⟨-, rfl⟩ := h; exact ⟨rfl, rfl⟩
    · rw [if_neg h3] at h; simp at h; obtain ⟨-, rfl⟩ := h; exact ⟨rfl, rfl⟩
  | unnamedRule k p =>
    refine .inr (.inr ?_)
    simp only [defCall, addNamedRule, pushRule] at h
    split at h
    · simp at h
    by_cases h0 : g.first = .fails
    · rw [if_pos h0] at h; simp at h; obtain ⟨-, rfl⟩ := h; exact ⟨rfl, rfl⟩
    rw [if_neg h0] at h
    by_cases h1 : g.second = .fails
    · rw [if_pos h1] at h; simp at h; obtain ⟨-, rfl⟩ := h; exact ⟨rfl, rfl⟩
    rw [if_neg h1] at h
    by_cases h2 : g.third = .fails
    · rw [if_pos h2] at h; simp at h; obtain ⟨-, rfl⟩ := h; exact ⟨rfl, rfl⟩
    rw [if_neg h2] at h
    by_cases h3 : g.fourth = .fails
    · rw [if_pos h3] at h; simp at h; obtain ⟨-, rfl⟩ := h; exact ⟨rfl, rfl⟩
    · rw [if_neg h3] at h; simp at h; obtain ⟨-, rfl⟩ := h; exact ⟨rfl, rfl⟩
  | onMutation c p =>
    refine .inr (.inr ?_)
    simp only [defCall, addCommonRule] at h
    by_cases h0 : g.first = .fails
    · rw [if_pos h0] at h; simp at h; obtain ⟨-, rfl⟩ := h; exact ⟨rfl, rfl⟩
    rw [if_neg h0] at h
    split at h
    · simp at h
    by_cases h1 : g.second = .fails
    · rw [if_pos h1] at h; simp at h; obtain ⟨-, rfl⟩ := h; exact ⟨rfl, rfl⟩
    rw [if_neg h1] at h
    by_cases h2 : g.third = .fails
    · rw [if_pos h2] at h; simp at h; obtain ⟨-, rfl⟩ := h; exact ⟨rfl, rfl⟩
    rw [if_neg h2] at h
    by_cases h3 : g.fourth = .fails
    · rw [if_pos h3] at h; simp at h; obtain ⟨-, rfl⟩ := h; exact ⟨rfl, rfl⟩
    · rw [if_neg h3] at h; simp at h; obtain ⟨-, rfl⟩ := h; exact ⟨rfl, rfl⟩

theorem WorldOk.after_call (h : WorldOk W val) {i : Nat} {d : DefData} (hd : W.def? i = some d) {g : Growths} {c : DefCall} (hl : LegalCall W d c) {M' : DefMem}
    {d' : DefData} {v v' : MixinDef} (hcall : defCall W.mem d g c = .ok M' d' ∨ defCall W.mem d g c = .threw M' d')
    (hc : CallGood c W.mem d M' d' v') : WorldOk { W with mem := M', defs := W.defs.set i (some d') } (fun j => if i = j then some v' else val j) := by
  refine h.change hd hc.moves.ok ?_ ?_ hc.moves.frame ?_ (by simp)
  · intro a; exact hc.moves.live a
  · intro a; exact hc.moves.ref a
  · intro x hx
    simp at hx; subst hx
    refine ⟨hc.holds, ?_, v', rfl, hc.reads⟩
    rcases defCall_name hcall with h1 | ⟨a, rfl, h2, h3⟩ | ⟨h1, h2⟩
    · exact .inl h1
    · rw [h2, h3]
      rcases hl with hl | hl
      · exact .inr hl
      · exact .inl hl
    · rw [h1, h2]; exact h.name i d hd

/-- Every proper event is defined and keeps the state in order. -/
theorem WorldOk.step (h : WorldOk W val) (e : DefEvent) (hl : LegalEvent W e) :
    ∃ W', (defStep W e).world = some W' ∧ WorldOk W' (fun i => valueStep i W (val i) e) := by
  cases e with
  | newString s =>
    obtain ⟨n1, n2⟩ := new_live h.mem (x := .chars s) (by simp)
    refine ⟨{ W with mem := W.mem.new (.chars s), strings := W.mem.next :: W.strings }, rfl, ?_⟩
    refine h.keep_all (h.mem.new (by simp)) rfl (fun a ha => List.mem_cons_of_mem _ ha) ?_ ?_ ?_ ?_
    · intro a ha
      rcases List.mem_cons.1 ha with rfl | ha
      · exact ⟨s, new_self _ _⟩
      · obtain ⟨s', hs'⟩ := h.str a ha
        refine ⟨s', ?_⟩
        show (W.mem.new _).cells a = _
        rw [new_other _ _ (by have := lt_of_live h.mem (liveAt_chars hs'); omega), hs']
    · intro a ha
      exact new_other _ _ (by have := lt_of_live h.mem ha; omega)
    · intro a
      have := n1 a
      simp only [List.count_cons, beq_iff_eq]
      omega
    · intro c
      show refAt (W.mem.new _) c + _ = _
      rw [n2]
  | freeString a =>
    obtain ⟨h1, h2⟩ := hl
    obtain ⟨s, hs⟩ := h.str a h1
    obtain ⟨M', f1, f2, f3, f4, f5, f6⟩ := freeAll_ok [a] h.mem (by
      intro b
      simp only [List.count_cons, List.count_nil, beq_iff_eq]
      split
      · next e => subst e; rw [liveAt_chars hs]; omega
      · omega)
    refine ⟨{ W with mem := M', strings := W.strings.erase a }, by simp [defStep, f1, DefResult.world], ?_⟩
    have hcount := h.string_once a
    have hna : a ∉ W.strings.erase a := by
      intro hm
      have := List.count_pos_iff.2 hm
      rw [List.count_erase_self] at this
      omega
    have hdef : ∀ i, ({ W with mem := M', strings := W.strings.erase a } : DefWorld).def? i = W.def? i := fun i => rfl
    refine ⟨f2, ?_, ?_, ?_, ?_, ?_, ?_, fun i hi => h.absent i hi⟩
    · intro b
      have e1 := h.own b; have e2 := f4 b
      show liveAt M' b = (W.strings.erase a).count b + _
      by_cases hb : a = b
      · subst hb
        rw [List.count_erase_self]
        simp at e2
        have := List.count_pos_iff.2 h1
        show liveAt M' a = W.strings.count a - 1 + (W.defs.map (fun x => (cellsOf x).count a)).sum
        omega
      · rw [List.count_erase_of_ne (fun e => hb (by simpa using e.symm))]
        simp [hb] at e2
        show liveAt M' b = W.strings.count b + (W.defs.map (fun x => (cellsOf x).count b)).sum
        omega
    · intro c
      show refAt M' c = _
      rw [f5]; exact h.ref c
    · intro b hb
      have hb' := List.mem_of_mem_erase hb
      obtain ⟨s', hs'⟩ := h.str b hb'
      refine ⟨s', ?_⟩
      show M'.cells b = _
      rw [f6 b (by simp; rintro rfl; exact hna hb), hs']
    · intro i d hd
      exact (h.each i d hd).kept (fun b hb => f6 b (by simp; rintro rfl; exact h.string_apart hd h1 hb))
    · intro i d hd
      rcases h.name i d hd with h3 | h3
      · exact .inl h3
      · exact .inr ((List.mem_erase_of_ne (h2 i d hd)).2 h3)
    · intro i d hd
      obtain ⟨v, v1, v2⟩ := h.value i d hd
      refine ⟨v, v1, Reads.frame (h.each i d hd) v2 (fun b hb => f6 b (by simp; rintro rfl; exact h.string_apart hd h1 hb)) (f6 _ (by simp; exact h2 i d hd))⟩
  | newShared =>
    refine ⟨{ W with mem := W.mem.new (.shared 1), held := W.mem.next :: W.held }, rfl, ?_⟩
    have hl' : ∀ a, liveAt (W.mem.new (.shared 1)) a = liveAt W.mem a := by
      intro a
      by_cases ha : a = W.mem.next
      · subst ha; rw [liveAt_fresh h.mem (Nat.le_refl _)]; simp [liveAt, new_self]
      · exact liveAt_congr (new_other _ _ ha)
    have hr' : ∀ a, refAt (W.mem.new (.shared 1)) a = refAt W.mem a + if W.mem.next = a then 1 else 0 := by
      intro a
      by_cases ha : a = W.mem.next
      · subst ha; simp [refAt, new_self, h.mem.fresh _ (Nat.le_refl _)]
      · rw [refAt_congr (new_other _ _ ha), if_neg (fun e => ha e.symm)]; rfl
    refine h.keep_all (h.mem.new (by simp)) rfl (fun a ha => ha) ?_ ?_ ?_ ?_
    · intro a ha
      obtain ⟨s', hs'⟩ := h.str a ha
      refine ⟨s', ?_⟩
      show (W.mem.new _).cells a = _
      rw [new_other _ _ (by have := lt_of_live h.mem (liveAt_chars hs'); omega), hs']
    · intro a ha
      exact new_other _ _ (by have := lt_of_live h.mem ha; omega)
    · intro a
      show liveAt (W.mem.new _) a + _ = _
      rw [hl']
    · intro c
      have := hr' c
      simp only [List.count_cons, beq_iff_eq]
      omega
  | copyShared c =>
    obtain ⟨M', r1, r2, r3, r4, r5, r6⟩ := retain_ok h.mem (some c) (by intro c' hc; simp at hc; subst hc; exact hl)
    refine ⟨{ W with mem := M', held := c :: W.held }, by simp [defStep, r1, DefResult.world], ?_⟩
    refine h.keep_all r2 rfl (fun a ha => ha) ?_ r6 ?_ ?_
    · intro a ha
      obtain ⟨s', hs'⟩ := h.str a ha
      exact ⟨s', by show M'.cells a = _; rw [r6 a (liveAt_chars hs'), hs']⟩
    · intro a; show liveAt M' a + _ = _; rw [r4]
    · intro a
      have := r5 a
      simp only [List.count_cons, beq_iff_eq, Option.some.injEq] at *
      omega
  | dropShared c =>
    have hpos : 0 < refAt W.mem c := by
      have e1 := h.ref c; have e2 := List.count_pos_iff.2 hl; omega
    obtain ⟨M', r1, r2, r3, r4, r5, r6⟩ := release_ok h.mem (some c) (by intro c' hc; simp at hc; subst hc; exact hpos)
    refine ⟨{ W with mem := M', held := W.held.erase c }, by simp [defStep, r1, DefResult.world], ?_⟩
    refine h.keep_all r2 rfl (fun a ha => ha) ?_ r6 ?_ ?_
    · intro a ha
      obtain ⟨s', hs'⟩ := h.str a ha
      exact ⟨s', by show M'.cells a = _; rw [r6 a (liveAt_chars hs'), hs']⟩
    · intro a; show liveAt M' a + _ = _; rw [r4]
    · intro a
      have e1 := r5 a
      show refAt M' a + _ = _ + (W.held.erase c).count a
      by_cases ha : c = a
      · subst ha
        rw [List.count_erase_self]
        have := List.count_pos_iff.2 hl
        simp at e1
        omega
      · rw [List.count_erase_of_ne (fun e => ha (by simpa using e.symm))]
        simp [ha] at e1
        omega
  | construct m a =>
    obtain ⟨n1, n2⟩ := new_live h.mem (x := .chars []) (by simp)
    have hlt : ∀ b, liveAt W.mem b = 1 → (W.mem.new (.chars [])).cells b = W.mem.cells b :=
      fun b hb => new_other _ _ (by have := lt_of_live h.mem hb; omega)
    refine ⟨{ W with mem := W.mem.new (.chars []), defs := W.defs ++ [some { mixin := m, name := a, storedName := W.mem.next }] }, rfl, ?_⟩
    have hold : ∀ i, i < W.defs.length → ({ W with mem := W.mem.new (.chars []), defs := W.defs ++ [some { mixin := m, name := a, storedName := W.mem.next }] } : DefWorld).def? i = W.def? i := by
      intro i hi; simp [DefWorld.def?, List.getElem?_append_left hi]
    have hnew : ({ W with mem := W.mem.new (.chars []), defs := W.defs ++ [some { mixin := m, name := a, storedName := W.mem.next }] } : DefWorld).def? W.defs.length =
        some { mixin := m, name := a, storedName := W.mem.next } := by
      simp [DefWorld.def?]
    have hbig : ∀ i, W.defs.length < i → ({ W with mem := W.mem.new (.chars []), defs := W.defs ++ [some { mixin := m, name := a, storedName := W.mem.next }] } : DefWorld).def? i = none := by
      intro i hi
      simp only [DefWorld.def?]
      rw [List.getElem?_eq_none (by simp; omega)]; rfl
    have hlive : ∀ i d, W.def? i = some d → i < W.defs.length := by
      intro i d hd
      have := def?_eq.1 hd
      rw [List.getElem?_eq_some_iff] at this; exact this.1
    obtain ⟨sa, hsa⟩ := h.str a hl
    refine ⟨h.mem.new (by simp), ?_, ?_, ?_, ?_, ?_, ?_, ?_⟩
    · intro b
      have e1 := n1 b; have e2 := h.own b
      show liveAt (W.mem.new _) b = W.strings.count b + ((W.defs ++ [_]).map _).sum
      simp only [List.map_append, List.sum_append, List.map_cons, List.map_nil, List.sum_cons, List.sum_nil, cellsOf, Option.elim_some, ownCells,
        Option.toList_none, List.nil_append, List.count_cons, List.count_nil, beq_iff_eq] at *
      omega
    · intro c
      have e2 := h.ref c
      show refAt (W.mem.new _) c = W.held.count c + ((W.defs ++ [_]).map _).sum
      rw [n2]
      simp only [List.map_append, List.sum_append, List.map_cons, List.map_nil, List.sum_cons, List.sum_nil, sharesOf, Option.elim_some, ownShares,
        List.nil_append, List.count_cons, List.count_nil, Option.bind_none] at *
      simp
      omega
    · intro b hb
      obtain ⟨s', hs'⟩ := h.str b hb
      exact ⟨s', by show (W.mem.new _).cells b = _; rw [hlt b (liveAt_chars hs'), hs']⟩
    · intro i d hd
      by_cases hi : i < W.defs.length
      · rw [hold i hi] at hd
        exact (h.each i d hd).kept (fun b hb => hlt b ((h.defOk hd).live hb))
      · by_cases hi' : i = W.defs.length
        · subst hi'
          rw [hnew] at hd; simp at hd; subst hd
          exact ⟨⟨[], new_self _ _⟩, .inl ⟨rfl, rfl, rfl⟩, by simp, by simp, by simp⟩
        · rw [hbig i (by omega)] at hd; simp at hd
    · intro i d hd
      by_cases hi : i < W.defs.length
      · rw [hold i hi] at hd; exact h.name i d hd
      · by_cases hi' : i = W.defs.length
        · subst hi'
          rw [hnew] at hd; simp at hd; subst hd
          exact .inr hl
        · rw [hbig i (by omega)] at hd; simp at hd
    · intro i d hd
      by_cases hi : i < W.defs.length
      · rw [hold i hi] at hd
        obtain ⟨v, v1, v2⟩ := h.value i d hd
        refine ⟨v, by simp only [valueStep]; rw [if_neg (by omega)]; exact v1,
          Reads.frame (h.each i d hd) v2 (fun b hb => hlt b ((h.defOk hd).live hb)) (hlt _ (liveAt_chars (chars?_eq.1 v2.name)))⟩
      · by_cases hi' : i = W.defs.length
        · subst hi'
          rw [hnew] at hd; simp at hd; subst hd
          refine ⟨{ name := sa }, by simp [valueStep, chars?_eq.2 hsa], ?_, rfl, rfl, rfl, rfl⟩
          rw [chars?_eq]
          show (W.mem.new _).cells a = _
          rw [hlt a (liveAt_chars hsa), hsa]
        · rw [hbig i (by omega)] at hd; simp at hd
    · intro i hi
      by_cases hi1 : i < W.defs.length
      · rw [hold i hi1] at hi
        simp only [valueStep]; rw [if_neg (by omega)]; exact h.absent i hi
      · by_cases hi' : i = W.defs.length
        · subst hi'; rw [hnew] at hi; simp at hi
        · simp only [valueStep]; rw [if_neg (by omega)]
          refine h.absent i ?_
          simp only [DefWorld.def?]
          rw [List.getElem?_eq_none (by omega)]; rfl
  | call i c g =>
    obtain ⟨d, hd, hlc⟩ := hl
    obtain ⟨v, v1, v2⟩ := h.value i d hd
    have hgood := defCall_good (h.good hd v2) g c (legalAt h hd hlc)
    cases hcall : defCall W.mem d g c with
    | ub => rw [hcall] at hgood; exact hgood.elim
    | ok M' d' =>
      rw [hcall] at hgood
      have hstep : defStep W (.call i c g) = .ok { W with mem := M', defs := W.defs.set i (some d') } := by simp [defStep, hd, hcall]
      refine ⟨_, by rw [hstep]; rfl, ?_⟩
      have := h.after_call (v := v) hd hlc (.inl hcall) hgood
      have heq : (fun j => valueStep j W (val j) (.call i c g)) = fun j => if i = j then some (buildStep d.mixin v (opOf W.mem c)) else val j := by
        funext j
        by_cases hj : i = j
        · subst hj; simp [valueStep, hstep, hd, v1]
        · simp [valueStep, hj]
      rw [heq]; exact this
    | threw M' d' =>
      rw [hcall] at hgood
      have hstep : defStep W (.call i c g) = .threw { W with mem := M', defs := W.defs.set i (some d') } := by simp [defStep, hd, hcall]
      refine ⟨_, by rw [hstep]; rfl, ?_⟩
      have := h.after_call (v := v) hd hlc (.inr hcall) hgood
      have heq : (fun j => valueStep j W (val j) (.call i c g)) = fun j => if i = j then some (failedCall v c) else val j := by
        funext j
        by_cases hj : i = j
        · subst hj; simp [valueStep, hstep, hd, v1]
        · simp [valueStep, hj]
      rw [heq]; exact this
  | destroy i =>
    obtain ⟨d, hd⟩ := hl
    obtain ⟨M', d1, d2, d3, d4, d5, d6⟩ := defDestroy_good h.mem (h.defOk hd)
    refine ⟨{ W with mem := M', defs := W.defs.set i none }, by simp [defStep, hd, d1, DefResult.world], ?_⟩
    have := h.change hd (d' := none) (v' := none) d2 (by intro a; have := d4 a; simp [cellsOf]; omega) (by intro c; have := d5 c; simp [sharesOf]; omega) d6
      (by simp) (fun _ => rfl)
    have heq : (fun j => valueStep j W (val j) (.destroy i)) = fun j => if i = j then none else val j := by
      funext j; simp [valueStep]
    rw [heq]; exact this
  | makeType is =>
    exact ⟨{ W with tables := W.table is :: W.tables }, rfl, h.mem, h.own, h.ref, h.str, h.each, h.name, h.value, h.absent⟩

theorem WorldOk.start : WorldOk defStart (fun _ => none) where
  mem := ⟨fun _ _ => rfl, fun _ => by simp [defStart]⟩
  own := fun a => by simp [defStart, liveAt]
  ref := fun c => by simp [defStart, refAt]
  str := by simp [defStart]
  each := by simp [defStart, DefWorld.def?]
  name := by simp [defStart, DefWorld.def?]
  value := by simp [defStart, DefWorld.def?]
  absent := by simp

theorem WorldOk.run : ∀ (es : List DefEvent) {W : DefWorld} {val : Nat → Option MixinDef}, WorldOk W val → LegalRun W es →
    ∃ W', defRun W es = some W' ∧ WorldOk W' (fun i => valueAfter i W (val i) es)
  | [], W, val, h, _ => ⟨W, rfl, h⟩
  | e :: es, W, val, h, hl => by
    obtain ⟨hl1, hl2⟩ := hl
    obtain ⟨W1, h1, h2⟩ := h.step e hl1
    obtain ⟨W2, h3, h4⟩ := WorldOk.run es h2 (hl2 W1 h1)
    refine ⟨W2, by simp [defRun, h1, h3], ?_⟩
    have heq : (fun i => valueAfter i W (val i) (e :: es)) = fun i => valueAfter i W1 (valueStep i W (val i) e) es := by
      funext i; simp [valueAfter, h1]
    rw [heq]; exact h4

/-! ## What stays -/

structure DefStays (M : DefMem) (d : DefData) (M' : DefMem) (d' : DefData) : Prop where
  rules : d.ruleInfos <+: d'.ruleInfos
  storage : d.ruleStorage <+: d'.ruleStorage
  names : d.nameStorage <+: d'.nameStorage
  keep : ∀ a ∈ d.nameStorage ++ d.ruleStorage, M'.cells a = M.cells a

theorem DefStays.rfl' {M M' : DefMem} {d : DefData} (h : ∀ a ∈ ownCells d, M'.cells a = M.cells a) : DefStays M d M' d :=
  ⟨List.prefix_refl _, List.prefix_refl _, List.prefix_refl _, fun a ha => h a (sub_own d a ha)⟩

theorem DefStays.trans {M M1 M2 : DefMem} {d d1 d2 : DefData} (h1 : DefStays M d M1 d1) (h2 : DefStays M1 d1 M2 d2) : DefStays M d M2 d2 where
  rules := h1.rules.trans h2.rules
  storage := h1.storage.trans h2.storage
  names := h1.names.trans h2.names
  keep := fun a ha => by
    rw [h2.keep a, h1.keep a ha]
    simp only [List.mem_append] at *
    rcases ha with ha | ha
    · exact .inl (h1.names.subset ha)
    · exact .inr (h1.storage.subset ha)

/-- What an event leaves of a definition that is not destroyed. -/
theorem WorldOk.step_stays (h : WorldOk W val) (e : DefEvent) (hl : LegalEvent W e) {i : Nat} {d : DefData} (hd : W.def? i = some d) (he : e ≠ .destroy i) {W' : DefWorld}
    (hW : (defStep W e).world = some W') :
    ∃ d', W'.def? i = some d' ∧ DefStays W.mem d W'.mem d' ∧
      (touchesDef [i] e = false → ∀ u, d.payloadVec = some u → W'.mem.cells u = W.mem.cells u ∧ d'.payloadVec = some u) := by
  have hlive : ∀ a ∈ ownCells d, liveAt W.mem a = 1 := fun a ha => (h.defOk hd).live ha
  have same : ∀ {M' : DefMem} {W' : DefWorld}, W'.mem = M' → W'.def? i = some d → (∀ a ∈ ownCells d, M'.cells a = W.mem.cells a) →
      ∃ d', W'.def? i = some d' ∧ DefStays W.mem d W'.mem d' ∧
        (touchesDef [i] e = false → ∀ u, d.payloadVec = some u → W'.mem.cells u = W.mem.cells u ∧ d'.payloadVec = some u) := by
    intro M' W' hM hd' hk
    subst hM
    exact ⟨d, hd', DefStays.rfl' hk, fun _ u hu => ⟨hk u (vec_own hu), hu⟩⟩
  have hlt : ∀ x a, a ∈ ownCells d → (W.mem.new x).cells a = W.mem.cells a :=
    fun x a ha => new_other _ _ (by have := lt_of_live h.mem (hlive a ha); omega)
  cases e with
  | newString s =>
    simp only [defStep, DefResult.world, Option.some.injEq] at hW; subst hW
    exact same rfl hd (hlt _)
  | freeString a =>
    obtain ⟨h1, h2⟩ := hl
    obtain ⟨s, hs⟩ := h.str a h1
    simp only [defStep, DefMem.freeAll, hs, DefResult.world, Option.some.injEq] at hW; subst hW
    exact same rfl hd (fun b hb => put_other _ _ _ (show b ≠ a from fun e => h.string_apart hd h1 (e ▸ hb)))
  | newShared =>
    simp only [defStep, DefResult.world, Option.some.injEq] at hW; subst hW
    exact same rfl hd (hlt _)
  | copyShared c =>
    obtain ⟨M', r1, r2, r3, r4, r5, r6⟩ := retain_ok h.mem (some c) (by intro c' hc; simp at hc; subst hc; exact hl)
    simp only [defStep, r1, DefResult.world, Option.some.injEq] at hW; subst hW
    exact same rfl hd (fun b hb => r6 b (hlive b hb))
  | dropShared c =>
    have hpos : 0 < refAt W.mem c := by
      have e1 := h.ref c; have e2 := List.count_pos_iff.2 hl; omega
    obtain ⟨M', r1, r2, r3, r4, r5, r6⟩ := release_ok h.mem (some c) (by intro c' hc; simp at hc; subst hc; exact hpos)
    simp only [defStep, r1, DefResult.world, Option.some.injEq] at hW; subst hW
    exact same rfl hd (fun b hb => r6 b (hlive b hb))
  | construct m a =>
    simp only [defStep, DefResult.world, Option.some.injEq] at hW; subst hW
    refine same rfl ?_ (hlt _)
    have := def?_eq.1 hd
    have hi : i < W.defs.length := by rw [List.getElem?_eq_some_iff] at this; exact this.1
    rw [def?_eq]
    show (W.defs ++ _)[i]? = _
    rw [List.getElem?_append_left hi]; exact this
  | call j c g =>
    obtain ⟨e, hde, hlc⟩ := hl
    obtain ⟨v, v1, v2⟩ := h.value j e hde
    have hgood := defCall_good (h.good hde v2) g c (legalAt h hde hlc)
    have key : ∀ {M' : DefMem} {e' : DefData} {v' : MixinDef}, CallGood c W.mem e M' e' v' → W' = { W with mem := M', defs := W.defs.set j (some e') } →
        ∃ d', W'.def? i = some d' ∧ DefStays W.mem d W'.mem d' ∧
        (touchesDef [i] (.call j c g) = false → ∀ u, d.payloadVec = some u → W'.mem.cells u = W.mem.cells u ∧ d'.payloadVec = some u) := by
      intro M' e' v' hc hW'
      subst hW'
      have hget := def?_eq.1 hde
      have hj : j < W.defs.length := by rw [List.getElem?_eq_some_iff] at hget; exact hget.1
      by_cases hij : j = i
      · subst hij
        rw [hd] at hde; simp at hde; subst hde
        refine ⟨e', by simp [DefWorld.def?, hj], ⟨hc.grows.1, hc.grows.2.1, hc.grows.2.2, hc.moves.keep⟩, ?_⟩
        intro ht u hu
        refine hc.vec ?_ u hu
        rintro f p a b rfl
        simp [touchesDef] at ht
      · refine same rfl (by simp [DefWorld.def?, List.getElem?_set_ne hij]; exact hd) (fun a ha => hc.moves.frame a (hlive a ha) (h.apart hij hde hd ha))
    cases hcall : defCall W.mem e g c with
    | ub => rw [hcall] at hgood; exact hgood.elim
    | ok M' e' =>
      rw [hcall] at hgood
      simp only [defStep, hde, hcall, DefResult.world, Option.some.injEq] at hW
      exact key hgood hW.symm
    | threw M' e' =>
      rw [hcall] at hgood
      simp only [defStep, hde, hcall, DefResult.world, Option.some.injEq] at hW
      exact key hgood hW.symm
  | destroy j =>
    obtain ⟨e, hde⟩ := hl
    have hij : j ≠ i := fun e => he (by rw [e])
    obtain ⟨M', d1, d2, d3, d4, d5, d6⟩ := defDestroy_good h.mem (h.defOk hde)
    simp only [defStep, hde, d1, DefResult.world, Option.some.injEq] at hW; subst hW
    exact same rfl (by simp [DefWorld.def?, List.getElem?_set_ne hij]; exact hd) (fun a ha => d6 a (hlive a ha) (h.apart hij hde hd ha))
  | makeType is =>
    simp only [defStep, DefResult.world, Option.some.injEq] at hW; subst hW
    exact same rfl hd (fun a ha => rfl)

theorem WorldOk.run_stays : ∀ (es : List DefEvent) {W : DefWorld} {val : Nat → Option MixinDef}, WorldOk W val → LegalRun W es → ∀ {i : Nat} {d : DefData},
    W.def? i = some d → .destroy i ∉ es → ∀ {W' : DefWorld}, defRun W es = some W' →
    ∃ d', W'.def? i = some d' ∧ DefStays W.mem d W'.mem d' ∧
      ((∀ e ∈ es, touchesDef [i] e = false) → ∀ u, d.payloadVec = some u → W'.mem.cells u = W.mem.cells u ∧ d'.payloadVec = some u)
  | [], W, val, h, _, i, d, hd, _, W', hW => by
    simp [defRun] at hW; subst hW
    exact ⟨d, hd, DefStays.rfl' (fun _ _ => rfl), fun _ u hu => ⟨rfl, hu⟩⟩
  | e :: es, W, val, h, hl, i, d, hd, hn, W', hW => by
    obtain ⟨hl1, hl2⟩ := hl
    obtain ⟨W1, h1, h2⟩ := h.step e hl1
    obtain ⟨d1, a1, a2, a3⟩ := h.step_stays e hl1 hd (fun he => hn (by simp [he])) h1
    simp only [defRun, h1] at hW
    obtain ⟨d2, b1, b2, b3⟩ := WorldOk.run_stays es h2 (hl2 W1 h1) a1 (fun hm => hn (List.mem_cons_of_mem _ hm)) hW
    refine ⟨d2, b1, a2.trans b2, fun ht u hu => ?_⟩
    obtain ⟨c1, c2⟩ := a3 (ht e (by simp)) u hu
    obtain ⟨c3, c4⟩ := b3 (fun x hx => ht x (List.mem_cons_of_mem _ hx)) u c2
    exact ⟨by rw [c3, c1], c4⟩

/-- What the payloads of the features need is there. -/
theorem WorldOk.payloads (h : WorldOk W val) {i : Nat} {d : DefData} (hd : W.def? i = some d) {fs : List FeatFor} (hf : readFeats W.mem d = some fs) :
    ∀ x ∈ fs, ∃ p ∈ d.payloadStorage, p.ptr = x.payload ∧ ∀ c, p.owner = some c → IsShared W.mem c := by
  intro x hx
  rcases (h.each i d hd).vec with ⟨h1, h2, h3⟩ | ⟨v, l, h1, h2, h3, h4, h5⟩
  · simp [readFeats, h2, h3] at hf; subst hf; simp at hx
  · simp [readFeats, h3, h2, h4] at hf; subst hf
    obtain ⟨p, p1, p2⟩ := h5 x hx
    refine ⟨p, p1, p2, fun c hc => ?_⟩
    have e1 := (h.defOk hd).shares c
    have e2 : 0 < (ownShares d).count (some c) := List.count_pos_iff.2 (by
      simp only [ownShares, List.mem_append, List.mem_map]
      exact .inl ⟨p, p1, hc⟩)
    exact ⟨_, shared_of_refAt (by omega)⟩

theorem WorldOk.owned (h : WorldOk W val) {a : Nat} {x : DefCell} (hx : W.mem.cells a = some x) :
    a ∈ W.strings ∨ (∃ i d, W.def? i = some d ∧ a ∈ ownCells d) ∨ a ∈ W.held ∨ ∃ i d, W.def? i = some d ∧ some a ∈ ownShares d := by
  by_cases hs : ∃ n, x = .shared n
  · obtain ⟨n, rfl⟩ := hs
    have e1 : refAt W.mem a = n := by simp [refAt, hx]
    have e2 := h.ref a
    have e3 : n ≠ 0 := by rintro rfl; exact h.mem.pos a hx
    by_cases hh : a ∈ W.held
    · exact .inr (.inr (.inl hh))
    · rw [List.count_eq_zero_of_not_mem hh] at e2
      obtain ⟨i, y, y1, y2⟩ := sum_pos (fun x => (sharesOf x).count (some a)) (l := W.defs) (by omega)
      cases y with
      | none => simp [sharesOf] at y2
      | some d => exact .inr (.inr (.inr ⟨i, d, def?_eq.2 y1, List.count_pos_iff.1 y2⟩))
  · have e1 : liveAt W.mem a = 1 := by
      cases x with
      | shared n => exact absurd ⟨n, rfl⟩ hs
      | chars s => exact liveAt_chars hx
      | feats l => exact liveAt_feats hx
      | ruleInfo n b p => exact liveAt_rule hx
    have e2 := h.own a
    by_cases hh : a ∈ W.strings
    · exact .inl hh
    · rw [List.count_eq_zero_of_not_mem hh] at e2
      obtain ⟨i, y, y1, y2⟩ := sum_pos (fun x => (cellsOf x).count a) (l := W.defs) (by omega)
      cases y with
      | none => simp [cellsOf] at y2
      | some d => exact .inr (.inl ⟨i, d, def?_eq.2 y1, List.count_pos_iff.1 y2⟩)

/-! ## Tables of types -/

theorem table_mem {W : DefWorld} : ∀ {is : List Nat} {a : Nat × Nat}, a ∈ W.table is → ∃ i ∈ is, ∃ d, W.def? i = some d ∧ d.features = some a.1
  | [], a, h => by simp [DefWorld.table] at h
  | i :: is, a, h => by
    simp only [DefWorld.table, List.mem_append] at h
    rcases h with h | h
    · cases hd : W.def? i with
      | none => rw [hd] at h; simp at h
      | some d =>
        rw [hd] at h
        cases hf : d.features with
        | none => simp [hf] at h
        | some v =>
          simp only [hf, List.mem_map, List.mem_range] at h
          obtain ⟨k, k1, rfl⟩ := h
          exact ⟨i, by simp, d, hd, hf⟩
    · obtain ⟨j, j1, j2⟩ := table_mem h
      exact ⟨j, List.mem_cons_of_mem _ j1, j2⟩

theorem map_range_get {α : Type} (l : List α) : (List.range l.length).map (fun k => l[k]?) = l.map some := by
  apply List.ext_getElem?
  intro i
  by_cases hi : i < l.length
  · simp [hi]
  · rw [List.getElem?_eq_none (by simp; omega), List.getElem?_eq_none (by simp; omega)]

theorem WorldOk.table_reads (h : WorldOk W val) : ∀ (is : List Nat), (∀ i ∈ is, W.def? i ≠ none) →
    (W.table is).map (readFeat W.mem) = (is.flatMap (fun i => ((val i).map (·.feats)).getD [])).map some
  | [], _ => by simp [DefWorld.table]
  | i :: is, hi => by
    have ih := h.table_reads is (fun j hj => hi j (List.mem_cons_of_mem _ hj))
    simp only [DefWorld.table, List.map_append, ih, List.flatMap_cons]
    congr 1
    cases hd : W.def? i with
    | none => exact absurd hd (hi i (by simp))
    | some d =>
      obtain ⟨v, v1, v2⟩ := h.value i d hd
      have hf := v2.feats
      rw [v1]
      rcases (h.each i d hd).vec with ⟨h1, h2, h3⟩ | ⟨u, l, h1, h2, h3, h4, h5⟩
      · simp [readFeats, h2, h3] at hf
        simp [h2, ← hf]
      · simp [readFeats, h3, h2, h4] at hf
        simp only [h3, h4, List.map_map, Option.map_some, Option.getD_some, ← hf]
        rw [← map_range_get]
        congr 1
        funext k
        simp [readFeat, h2]

/-! ## Checking programs -/

def isSharedB (M : DefMem) (c : Nat) : Bool := match M.cells c with
  | some (.shared _) => true
  | _ => false

theorem isSharedB_sound {M : DefMem} {c : Nat} (h : isSharedB M c = true) : IsShared M c := by
  unfold isSharedB at h
  split at h
  · next n hn => exact ⟨n, hn⟩
  · simp at h

def legalCallB (W : DefWorld) (d : DefData) : DefCall → Bool
  | .name a => decide (a ∈ W.strings) || decide (a = d.storedName)
  | .storeName a => (W.mem.chars? a).isSome
  | .usesAllocator p => match p with
    | none => false
    | some q => q.owner.all (isSharedB W.mem)
  | .implements _ p _ _ => p.owner.all (isSharedB W.mem)
  | _ => true

theorem legalCallB_sound {W : DefWorld} {d : DefData} {c : DefCall} (h : legalCallB W d c = true) : LegalCall W d c := by
  cases c with
  | name a => simpa [legalCallB, LegalCall] using h
  | storeName a => simp only [legalCallB] at h; exact Option.isSome_iff_exists.1 h
  | usesAllocator p =>
    cases p with
    | none => simp [legalCallB] at h
    | some q =>
      refine ⟨q, rfl, fun c hc => isSharedB_sound ?_⟩
      simp only [legalCallB, hc, Option.all_some] at h; exact h
  | implements f p a b =>
    intro c hc
    simp only [legalCallB, hc, Option.all_some] at h; exact isSharedB_sound h
  | dependency b => trivial
  | rule r => trivial
  | namedRule n k p => trivial
  | unnamedRule k p => trivial
  | onMutation c p => trivial

def legalEventB (W : DefWorld) : DefEvent → Bool
  | .freeString a => decide (a ∈ W.strings) && W.defs.all (fun x => x.all (fun d => d.name != a))
  | .copyShared c => isSharedB W.mem c
  | .dropShared c => decide (c ∈ W.held)
  | .construct _ a => decide (a ∈ W.strings)
  | .call i c _ => match W.def? i with
    | none => false
    | some d => legalCallB W d c
  | .destroy i => (W.def? i).isSome
  | _ => true

theorem legalEventB_sound {W : DefWorld} {e : DefEvent} (h : legalEventB W e = true) : LegalEvent W e := by
  cases e with
  | freeString a =>
    simp only [legalEventB, Bool.and_eq_true, decide_eq_true_eq, List.all_eq_true] at h
    refine ⟨h.1, fun i d hd => ?_⟩
    have := h.2 (some d) (List.mem_of_getElem? (def?_eq.1 hd))
    simpa using this
  | copyShared c => exact isSharedB_sound h
  | dropShared c => simpa [legalEventB, LegalEvent] using h
  | construct m a => simpa [legalEventB, LegalEvent] using h
  | call i c g =>
    simp only [legalEventB] at h
    cases hd : W.def? i with
    | none => rw [hd] at h; simp at h
    | some d => rw [hd] at h; exact ⟨d, hd, legalCallB_sound h⟩
  | destroy i => exact Option.isSome_iff_exists.1 h
  | newString s => trivial
  | newShared => trivial
  | makeType is => trivial

def legalRunB : DefWorld → List DefEvent → Bool
  | _, [] => true
  | W, e :: es => legalEventB W e && match (defStep W e).world with
    | none => true
    | some W' => legalRunB W' es

theorem legalRunB_sound : ∀ {es : List DefEvent} {W : DefWorld}, legalRunB W es = true → LegalRun W es
  | [], W, _ => trivial
  | e :: es, W, h => by
    simp only [legalRunB, Bool.and_eq_true] at h
    refine ⟨legalEventB_sound h.1, fun W' hW => legalRunB_sound ?_⟩
    have := h.2
    rw [hW] at this; exact this

end Dnmx
