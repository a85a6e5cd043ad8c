import Verif.Proofs.DefMemoryWorld

/-!
# C87: the memory of mixin definitions
-/

set_option linter.unusedVariables false

namespace Dnmx
open Spec

/-! ## Programs -/

/-- C87: every proper program that defines mixins is defined, also where allocations fail and it goes on after `std::bad_alloc`; somebody who follows the
views and pointers of a definition then finds exactly what the successful calls of the builder made of it (`buildStep`, as in the model without memory). -/
theorem C87_definitions (es : List DefEvent) (hl : LegalRun defStart es) :
    ∃ W, defRun defStart es = some W ∧ ∀ i, (W.def? i).bind (readDef W.mem) = valueAfter i defStart none es := by
  obtain ⟨W, h1, h2⟩ := WorldOk.start.run es hl
  refine ⟨W, h1, fun i => ?_⟩
  cases hd : W.def? i with
  | none => exact (h2.absent i hd).symm
  | some d =>
    obtain ⟨v, v1, v2⟩ := h2.value i d hd
    show readDef W.mem d = _
    rw [(readDef_iff _ _ _).2 v2, v1]

/-- A definition with a stored name, a payload that is shared, one of the user, three kinds of rules, and two calls that fail. -/
def defProgram : List DefEvent :=
  [.newString [77], .newShared, .construct 4 0, .call 0 (.implements 6 ⟨100, some 1⟩ { bid := some 2 } {}) {},
    .call 0 (.implements 5 ⟨200, none⟩ {} {}) { second := .moved }, .dropShared 1,
    .call 0 (.unnamedRule 7 {}) {}, .call 0 (.onMutation (.attachesTo 3) {}) { third := .fails }, .call 0 (.onMutation (.attachesTo 3) {}) {},
    .newString [78, 79], .call 0 (.storeName 10) { first := .moved }, .freeString 0, .freeString 10, .call 0 (.namedRule [80] 9 { priority := some 5 }) { first := .fails },
    .makeType [0]]

set_option synthInstance.maxHeartbeats 200000 in
-- the program is proper; two of its calls fail, the shared payload outlives the pointer of the user, the name the string of the user
example : LegalRun defStart defProgram ∧
    ((defRun defStart defProgram).map (fun W => ((W.def? 0).bind (readDef W.mem), W.strings, W.held))).isSome = true ∧
    (valueAfter 0 defStart none defProgram).map (fun v => (v.name, v.dependency, v.feats.map (fun f => (f.feat, f.payload)), v.rules.length)) =
      some ([78, 79], true, [(6, 100), (5, 200)], 2) := by
  refine ⟨legalRunB_sound (by decide +kernel), by decide +kernel, by decide +kernel⟩

/-! ## Nothing is lost -/

/-- C87: at every point of a proper program, whatever memory is in use belongs to a string of the user, to a definition, or to a shared pointer of the
user or of a definition. -/
theorem C87_no_leak (es : List DefEvent) (hl : LegalRun defStart es) :
    ∃ W, defRun defStart es = some W ∧ ∀ a x, W.mem.cells a = some x →
      a ∈ W.strings ∨ (∃ i d, W.def? i = some d ∧ a ∈ ownCells d) ∨ a ∈ W.held ∨ ∃ i d, W.def? i = some d ∧ some a ∈ ownShares d := by
  obtain ⟨W, h1, h2⟩ := WorldOk.start.run es hl
  exact ⟨W, h1, fun a x hx => h2.owned hx⟩

/-- C87: when all definitions are destroyed and the user gave back what is theirs, no memory is in use, whatever failed before. -/
theorem C87_all_freed (es : List DefEvent) (hl : LegalRun defStart es) (W : DefWorld) (hW : defRun defStart es = some W) (hd : ∀ i, W.def? i = none)
    (hs : W.strings = []) (hh : W.held = []) (a : Nat) : W.mem.cells a = none := by
  obtain ⟨W', h1, h2⟩ := WorldOk.start.run es hl
  rw [hW] at h1; cases h1
  cases hx : W.mem.cells a with
  | none => rfl
  | some x =>
    rcases h2.owned hx with h | ⟨i, d, h, -⟩ | h | ⟨i, d, h, -⟩
    · rw [hs] at h; simp at h
    · rw [hd i] at h; simp at h
    · rw [hh] at h; simp at h
    · rw [hd i] at h; simp at h

example : LegalRun defStart (defProgram ++ [.destroy 0]) ∧
    (defRun defStart (defProgram ++ [.destroy 0])).map (fun W => (W.defs, W.strings, W.held, W.mem.next)) = some ([none], [], [], 12) := by
  refine ⟨legalRunB_sound (by decide +kernel), by decide +kernel⟩

/-- C87: the payloads of the features of a definition are kept alive by it, also if the user drops all shared pointers. -/
theorem C87_payloads (es : List DefEvent) (hl : LegalRun defStart es) (W : DefWorld) (hW : defRun defStart es = some W) (i : Nat) (d : DefData)
    (hd : W.def? i = some d) (fs : List FeatFor) (hf : readFeats W.mem d = some fs) :
    ∀ x ∈ fs, ∃ p ∈ d.payloadStorage, p.ptr = x.payload ∧ ∀ c, p.owner = some c → IsShared W.mem c := by
  obtain ⟨W', h1, h2⟩ := WorldOk.start.run es hl
  rw [hW] at h1; cases h1
  exact h2.payloads hd hf

/-- C87: the memory of two definitions is apart, as is that of a definition and the strings of the user. -/
theorem C87_apart (es : List DefEvent) (hl : LegalRun defStart es) (W : DefWorld) (hW : defRun defStart es = some W) (i : Nat) (d : DefData)
    (hd : W.def? i = some d) :
    (ownCells d).Nodup ∧ (∀ a ∈ W.strings, a ∉ ownCells d) ∧ ∀ j d', j ≠ i → W.def? j = some d' → ∀ a ∈ ownCells d', a ∉ ownCells d := by
  obtain ⟨W', h1, h2⟩ := WorldOk.start.run es hl
  rw [hW] at h1; cases h1
  refine ⟨List.nodup_iff_count.2 (fun a => Nat.le_trans ((h2.defOk hd).once a) (liveAt_le _ _)), fun a ha => h2.string_apart hd ha,
    fun j d' hj hd' a ha => h2.apart (fun e => hj e.symm) hd hd' ha⟩

/-! ## What others may keep -/

/-- C87: a pointer to a rule of a definition (which domains keep) leads to the same rule with the same name as long as the definition lives, whatever
else is called on it and whatever fails. -/
theorem C87_rules_stay (es more : List DefEvent) (hl : LegalRun defStart es) (W : DefWorld) (hW : defRun defStart es = some W) (hm : LegalRun W more)
    (W' : DefWorld) (hW' : defRun W more = some W') (i : Nat) (d : DefData) (hd : W.def? i = some d) (hn : .destroy i ∉ more) :
    (∃ d', W'.def? i = some d' ∧ d.ruleInfos <+: d'.ruleInfos) ∧
    ∀ r ∈ d.ruleInfos, ∃ x, readRule W.mem r = some x ∧ readRule W'.mem r = some x := by
  obtain ⟨W1, h1, h2⟩ := WorldOk.start.run es hl
  rw [hW] at h1; cases h1
  obtain ⟨d', a1, a2, -⟩ := h2.run_stays more hm hd hn hW'
  refine ⟨⟨d', a1, a2.rules⟩, fun r hr => ?_⟩
  rw [(h2.each i d hd).rules_kept a2.keep hr]
  obtain ⟨v, -, v2⟩ := h2.value i d hd
  have hv := v2.rules
  clear a1 a2 hd v2 h2 hW' hm hW hn
  suffices ∀ (l : List RulePtr) (xs : List DefRule), readRules W.mem l = some xs → ∀ r ∈ l, ∃ x, readRule W.mem r = some x by
    obtain ⟨x, hx⟩ := this _ _ hv r hr
    exact ⟨x, hx, hx⟩
  intro l
  induction l with
  | nil => simp
  | cons q l ih =>
    intro xs hxs r hr
    simp only [readRules] at hxs
    split at hxs
    · next x ys hx hys =>
      rcases List.mem_cons.1 hr with rfl | hr
      · exact ⟨x, hx⟩
      · exact ih _ hys r hr
    · simp at hxs

-- pointers to rules exist, and further calls are possible
example : ((defRun defStart defProgram).bind (fun W => W.def? 0)).map (fun d => d.ruleInfos) = some [.stored 6, .stored 9] ∧
    ((defRun defStart defProgram).map (fun W => legalRunB W [.call 0 (.unnamedRule 7 {}) {}, .call 0 (.implements 5 ⟨1, none⟩ {} {}) { second := .moved }])) = some true := by
  decide +kernel

/-- C87: the features that are found through the feature table of a new type are those of its mixins. -/
theorem C87_types (es : List DefEvent) (hl : LegalRun defStart es) (W : DefWorld) (hW : defRun defStart es = some W) (is : List Nat) (hi : ∀ i ∈ is, W.def? i ≠ none) :
    (W.table is).map (readFeat W.mem) = (is.flatMap (fun i => ((valueAfter i defStart none es).map (·.feats)).getD [])).map some := by
  obtain ⟨W', h1, h2⟩ := WorldOk.start.run es hl
  rw [hW] at h1; cases h1
  exact h2.table_reads is hi

/-- C87 (partial: no features are added to the definitions of its mixins): the features that are found through the feature table of a type stay what they are
as long as the definitions of its mixins live. Missing: `implements…` on these definitions (`C87_types_stay_refuted`). -/
theorem C87_types_stay_partial (es more : List DefEvent) (hl : LegalRun defStart es) (W : DefWorld) (hW : defRun defStart es = some W) (hm : LegalRun W more)
    (W' : DefWorld) (hW' : defRun W more = some W') (is : List Nat) (hn : ∀ e ∈ more, touchesDef is e = false) :
    ∀ a ∈ W.table is, readFeat W'.mem a = readFeat W.mem a := by
  obtain ⟨W1, h1, h2⟩ := WorldOk.start.run es hl
  rw [hW] at h1; cases h1
  intro a ha
  obtain ⟨i, hi, d, hd, hf⟩ := table_mem ha
  have hno : ∀ e ∈ more, touchesDef [i] e = false := by
    intro e he
    have := hn e he
    cases e with
    | call j c g =>
      cases c <;> simp only [touchesDef, decide_eq_false_iff_not, List.mem_singleton] at this ⊢
      rintro rfl; exact this hi
    | destroy j =>
      simp only [touchesDef, decide_eq_false_iff_not, List.mem_singleton] at this ⊢
      rintro rfl; exact this hi
    | _ => rfl
  obtain ⟨d', a1, a2, a3⟩ := h2.run_stays more hm hd (fun hm => by simpa [touchesDef] using hno _ hm) hW'
  obtain ⟨e1, -⟩ := a3 hno a.1 (by rw [← (h2.each i d hd).features_vec]; exact hf)
  unfold readFeat
  rw [e1]

/-- What one would like: the table of a type stays as it is as long as the definitions live. -/
def TypesStay : Prop := ∀ (es more : List DefEvent) (W W' : DefWorld) (is : List Nat), LegalRun defStart es → defRun defStart es = some W → LegalRun W more →
  defRun W more = some W' → (∀ i ∈ is, .destroy i ∉ more) → ∀ a ∈ W.table is, readFeat W'.mem a = readFeat W.mem a

/-- C87: adding a feature to the definition of a mixin that is in a type leaves the feature table of the type with dangling pointers, if the vector of
features has to grow. -/
theorem C87_types_stay_refuted : ¬ TypesStay := by
  intro h
  have key : ∃ W, defRun defStart defProgram = some W := ⟨_, rfl⟩
  obtain ⟨W, hW⟩ := key
  have hl : LegalRun defStart defProgram := legalRunB_sound (by decide +kernel)
  have e1 : (defRun defStart defProgram).map (fun W => legalRunB W [.call 0 (.implements 5 ⟨1, none⟩ {} {}) { second := .moved }]) = some true := by decide +kernel
  have e2 : (defRun defStart defProgram).map (fun W => W.table [0]) = some [(4, 0), (4, 1)] := by decide +kernel
  have e3 : ((defRun defStart defProgram).bind (fun W => defRun W [.call 0 (.implements 5 ⟨1, none⟩ {} {}) { second := .moved }])).map (fun W' => readFeat W'.mem (4, 0)) =
      some none := by decide +kernel
  have e4 : ((defRun defStart defProgram).map (fun W => (readFeat W.mem (4, 0)).isSome)) = some true := by decide +kernel
  rw [hW] at e1 e2 e3 e4
  simp only [Option.map_some, Option.some.injEq, Option.bind_some] at e1 e2 e3 e4
  cases hW' : defRun W [.call 0 (.implements 5 ⟨1, none⟩ {} {}) { second := .moved }] with
  | none => rw [hW'] at e3; simp at e3
  | some W' =>
    rw [hW'] at e3
    simp only [Option.map_some, Option.some.injEq] at e3
    have := h defProgram _ W W' [0] hl hW (legalRunB_sound e1) hW' (by simp) (4, 0) (by rw [e2]; simp)
    rw [e3] at this
    rw [← this] at e4; simp at e4

/-! ## Failures -/

/-- C87 (partial: other than `on_mutation` with a rule that attaches): a call that throws leaves the meaning of the definition as it was. Missing: these
(`C87_failed_refuted`). -/
theorem C87_failed_partial (es : List DefEvent) (hl : LegalRun defStart es) (W : DefWorld) (hW : defRun defStart es = some W) (i : Nat) (d : DefData)
    (hd : W.def? i = some d) (c : DefCall) (g : Growths) (hc : LegalCall W d c) (hna : ∀ p q, c ≠ .onMutation (.attachesTo p) q) (M' : DefMem) (d' : DefData)
    (ht : defCall W.mem d g c = .threw M' d') : readDef M' d' = readDef W.mem d := by
  obtain ⟨W', h1, h2⟩ := WorldOk.start.run es hl
  rw [hW] at h1; cases h1
  obtain ⟨v, -, v2⟩ := h2.value i d hd
  have hg := defCall_good (h2.good hd v2) g c (legalAt h2 hd hc)
  rw [ht] at hg
  have hr := CallGood.reads hg
  have hf : failedCall v c = v := by
    cases c with
    | onMutation r p =>
      cases r with
      | attachesTo q => exact absurd rfl (hna q p)
      | _ => rfl
    | _ => rfl
  rw [hf] at hr
  rw [(readDef_iff _ _ _).2 hr, (readDef_iff _ _ _).2 v2]

/-- C87: `on_mutation` with a rule that attaches makes the mixin a dependency before it allocates anything; if it throws, the mixin stays a dependency
although it has no rule (mixin_info_data.hpp 204-206). -/
theorem C87_failed_refuted : ∃ (W : DefWorld) (d d' : DefData) (M' : DefMem), defRun defStart [.newString [77], .construct 4 0] = some W ∧ W.def? 0 = some d ∧
    defCall W.mem d { first := .fails } (.onMutation (.attachesTo 3) {}) = .threw M' d' ∧
    (readDef W.mem d).map (·.dependency) = some false ∧ (readDef M' d').map (fun v => (v.dependency, v.rules)) = some (true, []) :=
  ⟨_, _, _, _, rfl, rfl, rfl, by decide +kernel, by decide +kernel⟩

/-- C87: the user has to keep the string that names a definition: otherwise the next rule without a name reads freed memory. `store_name` makes this needless. -/
theorem C87_string_needed : defRun defStart [.newString [77], .construct 4 0, .freeString 0, .call 0 (.unnamedRule 7 {}) {}] = none ∧
    LegalRun defStart [.newString [77], .construct 4 0, .call 0 (.storeName 0) {}, .freeString 0, .call 0 (.unnamedRule 7 {}) {}] := by
  refine ⟨rfl, legalRunB_sound (by decide +kernel)⟩

/-- C87: a null pointer for the allocator is dereferenced (mixin_info_data.hpp 98). -/
theorem C87_null_allocator_needed (M : DefMem) (d : DefData) (g : Growths) : defCall M d g (.usesAllocator none) matches .ub := rfl

end Dnmx
