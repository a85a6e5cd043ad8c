import Verif.Proofs.DumpLemmas
import Verif.Proofs.DispatchLemmas
import Verif.Proofs.ClassLemmas

/-!
# Lemmas: what the text says about types
-/

namespace Dnmx
open Spec

set_option linter.unusedSimpArgs false
set_option linter.unusedVariables false
set_option linter.unusedSectionVars false

section
variable (D : Decls) (N : DomId → Option (List UInt8)) (num : TypeId → Nat)

theorem filterMap_none {α β : Type} {g : α → Option β} : ∀ {l : List α}, (∀ x ∈ l, g x = none) → l.filterMap g = []
  | [], _ => rfl
  | a :: l, h => by rw [List.filterMap_cons, h a List.mem_cons_self]; exact filterMap_none (fun x hx => h x (List.mem_cons_of_mem _ hx))

theorem readCount_skip {title : String} : ∀ {ls : List Line}, (∀ l ∈ ls, ∀ n, l ≠ [Tok.lit "  ", .num n, .lit title]) → ∀ R, readCount title (ls ++ R) = readCount title R
  | [], _, _ => rfl
  | l :: ls, h, R => by
    rcases Classical.em (∃ i n t, l = [Tok.lit i, .num n, .lit t]) with ⟨i, n, t, rfl⟩ | hn
    · simp only [List.cons_append, readCount]
      rw [if_neg]
      · exact readCount_skip (fun x hx => h x (List.mem_cons_of_mem _ hx)) R
      · rintro ⟨rfl, rfl⟩
        exact h _ List.mem_cons_self n rfl
    · rw [List.cons_append, readCount]
      · exact readCount_skip (fun x hx => h x (List.mem_cons_of_mem _ hx)) R
      · intro i n t he
        exact hn ⟨i, n, t, he⟩

/-- lines about sizes and traits: blanks, a word, and something -/
theorem dmpTypeEx_line (fl : DmpFlags) (t : TypeRec) : ∀ l ∈ dmpTypeEx D num fl t,
    (∃ s x, l = nind [.lit s, x] ∧ s ≠ "  " ) ∨ (∃ x y, l = nind [.lit "features: ", x, .lit "/", y]) := by
  intro l hl
  unfold dmpTypeEx at hl
  split at hl
  · simp only [List.mem_cons, List.not_mem_nil, or_false] at hl
    rcases hl with rfl | rfl | rfl | rfl | rfl | rfl | rfl | rfl | rfl | rfl
    all_goals first
      | exact Or.inl ⟨_, _, rfl, by decide⟩
      | exact Or.inr ⟨_, _, rfl⟩
  · simp at hl

/-- the feature table consists of the number of features and lines about features -/
theorem dmpFtable_read {fl : DmpFlags} {t : TypeRec} {ft : List Line} (h : dmpFtable D fl t = some ft) :
    (fl.ftable = false → ft = []) ∧ (fl.ftable = true → ∃ ls, dmpEntries D fl t t.ftable = some ls ∧ ft = nind [.num (dmpNumFeatures t), .lit " features:"] :: ls) := by
  unfold dmpFtable at h
  split at h
  · rename_i hf
    simp only [Option.map_eq_some_iff] at h
    obtain ⟨ls, h1, rfl⟩ := h
    exact ⟨fun h => (by rw [hf] at h; simp at h), fun _ => ⟨ls, h1, rfl⟩⟩
  · rename_i hf
    simp at h; subst h
    exact ⟨fun _ => rfl, fun h => absurd h hf⟩

theorem dmpFtable_line {fl : DmpFlags} {t : TypeRec} {ft : List Line} (h : dmpFtable D fl t = some ft) :
    ∀ l ∈ ft, EntryLine l ∨ ∃ n, l = nind [.num n, .lit " features:"] := by
  intro l hl
  obtain ⟨h1, h2⟩ := dmpFtable_read D h
  cases hf : fl.ftable with
  | false => rw [h1 hf] at hl; simp at hl
  | true =>
    obtain ⟨ls, h3, rfl⟩ := h2 hf
    rcases List.mem_cons.1 hl with rfl | hl
    · exact Or.inr ⟨_, rfl⟩
    · exact Or.inl ((dmpEntries_read D h3).1 l hl)

theorem dmpTypeQueries_line (fl : DmpFlags) (W : World) (t : TypeRec) (tr : Option DomId) : ∀ l ∈ dmpTypeQueries D fl W t tr,
    (∃ q, l = nind [.lit "  ", .comp q]) ∨ ∃ n, l = nind [.num n, .lit " matching queries:"] := by
  intro l hl
  unfold dmpTypeQueries at hl
  split at hl
  · split at hl
    · unfold dmpMatchingQueries at hl
      rcases List.mem_cons.1 hl with rfl | hl
      · exact Or.inr ⟨_, rfl⟩
      · obtain ⟨q, -, rfl⟩ := List.mem_map.1 hl
        exact Or.inl ⟨_, rfl⟩
    · simp at hl
  · simp at hl

theorem dmpClassNames_read {t : TypeRec} : ∀ {cs : List Cls} {ls : List Line}, dmpClassNames D t cs = some ls →
    (∀ c ∈ cs, (D.cls c).isNull = false) ∧ ls = (cs.filter (fun c => (D.cls c).matchesT t.mixins)).map (fun c => nind [.lit "  ", .name (D.clsName c)])
  | [], ls, h => by simp [dmpClassNames] at h; subst h; simp
  | c :: cs, ls, h => by
    unfold dmpClassNames at h
    split at h
    · simp at h
    · rename_i hc
      simp only [Option.bind_eq_bind, Option.bind_eq_some_iff, Option.some.injEq] at h
      obtain ⟨b, hb, rfl⟩ := h
      obtain ⟨h1, rfl⟩ := dmpClassNames_read hb
      refine ⟨?_, ?_⟩
      · intro x hx
        rcases List.mem_cons.1 hx with rfl | hx
        · simpa using hc
        · exact h1 x hx
      · split
        · rename_i hm; rw [List.filter_cons, if_pos hm]; rfl
        · rename_i hm; rw [List.filter_cons, if_neg hm]

theorem dmpTypeClasses_line {fl : DmpFlags} {W : World} {t : TypeRec} {tr : Option DomId} {cs : List Line} (h : dmpTypeClasses D fl W t tr = some cs) : ∀ l ∈ cs,
    (∃ s, l = nind [.lit "  ", .name s]) ∨ l = nind [.lit "matching type classes:"] := by
  intro l hl
  unfold dmpTypeClasses at h
  split at h
  · split at h
    · simp only [Option.map_eq_some_iff] at h
      obtain ⟨ls, h1, rfl⟩ := h
      rcases List.mem_cons.1 hl with rfl | hl
      · exact Or.inr rfl
      · rw [(dmpClassNames_read D h1).2] at hl
        obtain ⟨c, -, rfl⟩ := List.mem_map.1 hl
        exact Or.inl ⟨_, rfl⟩
    · simp at h; subst h; simp at hl
  · simp at h; subst h; simp at hl

/-- what the text about a type says -/
theorem dmpType_read {fl : DmpFlags} {W : World} {t : TypeRec} {d : DomId} {b : List Line} (h : dmpType D N num fl W t (some d) = some b) :
    b.head?.bind typeComp = some (t.mixins.map D.mixName) ∧
    (fl.ftable = true → readCount " features:" b = some (dmpNumFeatures t : Int) ∧ readImpls b = (t.ftable.filterMap id).map (entryTold D fl t)) ∧
    (fl.matchingQueries = true → readCount " matching queries:" b = some ((traverseQueries W d).countP (fun q => q.2 == t.tid) : Int) ∧
      b.filterMap queryLine = ((traverseQueries W d).filter (fun q => q.2 == t.tid)).map (fun q => q.1.map D.mixName)) ∧
    (fl.matchingClasses = true → b.filterMap classLine = ((traverseClasses W d).filter (fun c => (D.cls c).matchesT t.mixins)).map D.clsName) := by
  obtain ⟨dn, ft, cs, h1, h2, h3, rfl⟩ := dmpType_parts D N num h
  generalize hHd : [Tok.lit "type: ", dmpMixins D t.mixins, .lit " (", .addr t.tid, .lit ") ('", .name dn, .lit "')"] = Hd
  have lex := dmpTypeEx_line D num fl t
  have lft := dmpFtable_line D h2
  have lqs := dmpTypeQueries_line D fl W t (some d)
  have lcs := dmpTypeClasses_line D h3
  have hdi : implLine Hd = none := by subst hHd; simp [implLine]
  have hdq : queryLine Hd = none := by subst hHd; simp [queryLine]
  have hdc : classLine Hd = none := by subst hHd; simp [classLine]
  have hdn : ∀ n title, Hd ≠ [Tok.lit "  ", .num n, .lit title] := by subst hHd; intro n title; simp
  -- readers that find nothing
  have exi : ∀ l ∈ dmpTypeEx D num fl t, implLine l = none := by
    intro l hl
    rcases lex l hl with ⟨s, x, rfl, hs⟩ | ⟨x, y, rfl⟩
    · simp [implLine, nind]
    · simp [implLine, nind]
  have exq : ∀ l ∈ dmpTypeEx D num fl t, queryLine l = none := by
    intro l hl
    rcases lex l hl with ⟨s, x, rfl, hs⟩ | ⟨x, y, rfl⟩
    · cases x <;> simp [queryLine, nind, hs]
    · simp [queryLine, nind]
  have exc : ∀ l ∈ dmpTypeEx D num fl t, classLine l = none := by
    intro l hl
    rcases lex l hl with ⟨s, x, rfl, hs⟩ | ⟨x, y, rfl⟩
    · cases x <;> simp [classLine, nind, hs]
    · simp [classLine, nind]
  have exn : ∀ title, ∀ l ∈ dmpTypeEx D num fl t, ∀ n, l ≠ [Tok.lit "  ", .num n, .lit title] := by
    intro title l hl n
    rcases lex l hl with ⟨s, x, rfl, hs⟩ | ⟨x, y, rfl⟩ <;> simp [nind]
  have ftq : ∀ l ∈ ft, queryLine l = none := by
    intro l hl
    rcases lft l hl with (⟨s, a, b, rfl⟩ | ⟨m, p, b, r, rfl⟩) | ⟨n, rfl⟩ <;> simp [queryLine, nind]
  have ftc : ∀ l ∈ ft, classLine l = none := by
    intro l hl
    rcases lft l hl with (⟨s, a, b, rfl⟩ | ⟨m, p, b, r, rfl⟩) | ⟨n, rfl⟩ <;> simp [classLine, nind]
  have ftn : ∀ l ∈ ft, ∀ n, l ≠ [Tok.lit "  ", .num n, .lit " matching queries:"] := by
    intro l hl n
    rcases lft l hl with (⟨s, a, b, rfl⟩ | ⟨m, p, b, r, rfl⟩) | ⟨n, rfl⟩ <;> simp [nind]
  have qsc : ∀ l ∈ dmpTypeQueries D fl W t (some d), classLine l = none := by
    intro l hl
    rcases lqs l hl with ⟨q, rfl⟩ | ⟨n, rfl⟩ <;> simp [classLine, nind]
  have qsi : ∀ l ∈ dmpTypeQueries D fl W t (some d), implLine l = none ∧ payloadLine l = none := by
    intro l hl
    rcases lqs l hl with ⟨q, rfl⟩ | ⟨n, rfl⟩ <;> simp [implLine, payloadLine, nind]
  have csi : ∀ l ∈ cs, implLine l = none ∧ payloadLine l = none ∧ queryLine l = none := by
    intro l hl
    rcases lcs l hl with ⟨q, rfl⟩ | rfl <;> simp [implLine, payloadLine, queryLine, nind]
  refine ⟨?_, fun hf => ⟨?_, ?_⟩, fun hf => ⟨?_, ?_⟩, fun hf => ?_⟩
  · subst hHd; simp [typeComp, dmpMixins]
  · obtain ⟨ls, -, rfl⟩ := (dmpFtable_read D h2).2 hf
    rw [show (Hd :: (dmpTypeEx D num fl t ++ nind [.num (dmpNumFeatures t), .lit " features:"] :: ls ++ dmpTypeQueries D fl W t (some d) ++ cs)) =
      (Hd :: dmpTypeEx D num fl t) ++ (nind [.num (dmpNumFeatures t), .lit " features:"] :: (ls ++ dmpTypeQueries D fl W t (some d) ++ cs)) by simp]
    rw [readCount_skip]
    · simp [readCount, nind]
    · intro l hl n
      rcases List.mem_cons.1 hl with rfl | hl
      · exact hdn n _
      · exact exn _ l hl n
  · obtain ⟨ls, hls, rfl⟩ := (dmpFtable_read D h2).2 hf
    rw [show (Hd :: (dmpTypeEx D num fl t ++ nind [.num (dmpNumFeatures t), .lit " features:"] :: ls ++ dmpTypeQueries D fl W t (some d) ++ cs)) =
      (Hd :: (dmpTypeEx D num fl t ++ [nind [.num (dmpNumFeatures t), .lit " features:"]])) ++ (ls ++ (dmpTypeQueries D fl W t (some d) ++ cs)) by simp]
    rw [readImpls_skip]
    · have hR : ∀ l ∈ dmpTypeQueries D fl W t (some d) ++ cs, implLine l = none ∧ payloadLine l = none := by
        intro l hl
        rcases List.mem_append.1 hl with hl | hl
        · exact qsi l hl
        · exact ⟨(csi l hl).1, (csi l hl).2.1⟩
      have hnp : NotPayload (dmpTypeQueries D fl W t (some d) ++ cs) := by
        intro l hl
        exact (hR l (List.mem_of_mem_head? hl)).2
      rw [((dmpEntries_read D hls).2 _ hnp).2]
      have := readImpls_skip (fun l hl => (hR l hl).1) []
      rw [List.append_nil] at this
      rw [this]
      simp [readImpls]
    · intro l hl
      rcases List.mem_cons.1 hl with rfl | hl
      · exact hdi
      · rcases List.mem_append.1 hl with hl | hl
        · exact exi l hl
        · simp at hl; subst hl; simp [implLine, nind]
  · rw [show (Hd :: (dmpTypeEx D num fl t ++ ft ++ dmpTypeQueries D fl W t (some d) ++ cs)) =
      (Hd :: (dmpTypeEx D num fl t ++ ft)) ++ (dmpTypeQueries D fl W t (some d) ++ cs) by simp]
    rw [readCount_skip]
    · simp [dmpTypeQueries, hf, dmpMatchingQueries, readCount, nind]
    · intro l hl n
      rcases List.mem_cons.1 hl with rfl | hl
      · exact hdn n _
      · rcases List.mem_append.1 hl with hl | hl
        · exact exn _ l hl n
        · exact ftn l hl n
  · rw [List.filterMap_cons, hdq]
    simp only [List.filterMap_append, filterMap_none exq, filterMap_none ftq, filterMap_none (fun l hl => (csi l hl).2.2), List.nil_append, List.append_nil]
    simp only [dmpTypeQueries, hf, ↓reduceIte, dmpMatchingQueries, List.filterMap_cons, List.filterMap_map]
    have : queryLine (nind [Tok.num ((traverseQueries W d).countP (fun q => q.2 == t.tid) : Int), .lit " matching queries:"]) = none := by simp [queryLine, nind]
    rw [this]
    simp only [Function.comp_def, queryLine, nind, dmpMixins, and_self, ↓reduceIte]
    rw [List.filterMap_eq_map']
  · rw [List.filterMap_cons, hdc]
    simp only [List.filterMap_append, filterMap_none exc, filterMap_none ftc, filterMap_none qsc, List.nil_append, List.append_nil]
    simp only [dmpTypeClasses, hf, ↓reduceIte, Option.map_eq_some_iff] at h3
    obtain ⟨ls, h4, rfl⟩ := h3
    rw [(dmpClassNames_read D h4).2]
    simp only [List.filterMap_cons, List.filterMap_map]
    have : classLine (nind [Tok.lit "matching type classes:"]) = none := by simp [classLine, nind]
    rw [this]
    simp only [Function.comp_def, classLine, nind, and_self, ↓reduceIte]
    rw [List.filterMap_eq_map']

/-! ## the feature table -/

theorem featIdsOk_entry {fid : Feat → Option Nat} {ms : List Mix} (hf : FeatIdsOk D fid ms) {t : List (Option FEntry)} (h : buildFtable D fid ms = .ok t) {i : Nat} {e : FEntry}
    (he : t[i]? = some (some e)) : ∃ p ps, e.pls = p :: ps ∧ fid p.data.feat = some i := by
  have hreg : ∀ p ∈ featStream D 0 ms, ∃ i, fid p.data.feat = some i := by
    intro p hp
    obtain ⟨m, h1, h2⟩ := featStream_mem D ms 0 p hp
    exact hf.registered m h1 _ h2
  rcases buildFtable_spec D fid ms hreg with ⟨j, _, h2⟩ | ⟨t', h1, h2⟩
  · rw [h] at h2; simp at h2
  · rw [h] at h1; simp at h1; subst h1
    obtain ⟨r, h3, h4⟩ := h2 i
    rw [he] at h4
    simp at h4; subst h4
    rcases finishEntry_ok D _ _ h3 with ⟨h5, -⟩ | ⟨e', h5, h6, h7, p, ps, h8, h9, -⟩
    · simp at h5
    · cases h5
      refine ⟨p, ps, h8, ?_⟩
      have : p ∈ implsOf fid i (featStream D 0 ms) := (sortPayloads_perm _).mem_iff.1 (by rw [← h6, h8]; simp)
      rw [implsOf, List.mem_filter] at this
      simpa using this.2

/-- the features in a table -/
theorem table_features {fid : Feat → Option Nat} (hd : ∀ f g i, fid f = some i → fid g = some i → f = g) : ∀ (l : List (Option FEntry)) (k : Nat),
    (∀ (i : Nat) (e : FEntry), l[i]? = some (some e) → ∃ p ps, e.pls = p :: ps ∧ fid p.data.feat = some (k + i)) →
    ∃ fs : List Feat, fs.Pairwise (fun f g => ∃ i j, fid f = some i ∧ fid g = some j ∧ i < j) ∧
      (∀ f, f ∈ fs ↔ ∃ (i : Nat) (e : FEntry), fid f = some (k + i) ∧ l[i]? = some (some e)) ∧ fs.length = (l.filterMap id).length ∧
      ∀ (n : Nat) (f : Feat) (e : FEntry), fs[n]? = some f → (l.filterMap id)[n]? = some e → ∃ i : Nat, fid f = some (k + i) ∧ l[i]? = some (some e)
  | [], k, h => ⟨[], .nil, by simp, rfl, by simp⟩
  | none :: l, k, h => by
    obtain ⟨fs, h1, h2, h3, h4⟩ := table_features hd l (k + 1) (fun i e he => by
      obtain ⟨p, ps, a, b⟩ := h (i + 1) e (by simpa using he)
      exact ⟨p, ps, a, by rw [b]; congr 1; omega⟩)
    refine ⟨fs, h1, fun f => ?_, by simpa using h3, fun n f e hn he => ?_⟩
    · rw [h2]
      constructor
      · rintro ⟨i, e, a, b⟩
        exact ⟨i + 1, e, by rw [a]; congr 1; omega, by simpa using b⟩
      · rintro ⟨i, e, a, b⟩
        cases i with
        | zero => simp at b
        | succ i => exact ⟨i, e, by rw [a]; congr 1; omega, by simpa using b⟩
    · obtain ⟨i, a, b⟩ := h4 n f e hn (by simpa using he)
      exact ⟨i + 1, by rw [a]; congr 1; omega, by simpa using b⟩
  | some x :: l, k, h => by
    obtain ⟨fs, h1, h2, h3, h4⟩ := table_features hd l (k + 1) (fun i e he => by
      obtain ⟨p, ps, a, b⟩ := h (i + 1) e (by simpa using he)
      exact ⟨p, ps, a, by rw [b]; congr 1; omega⟩)
    obtain ⟨p, ps, hp, hid⟩ := h 0 x rfl
    rw [Nat.add_zero] at hid
    refine ⟨p.data.feat :: fs, List.pairwise_cons.2 ⟨?_, h1⟩, fun f => ?_, by simpa using h3, fun n f e hn he => ?_⟩
    · intro g hg
      obtain ⟨i, e, a, b⟩ := (h2 g).1 hg
      exact ⟨_, _, hid, a, by omega⟩
    · rw [List.mem_cons, h2]
      constructor
      · rintro (rfl | ⟨i, e, a, b⟩)
        · exact ⟨0, x, hid, rfl⟩
        · exact ⟨i + 1, e, by rw [a]; congr 1; omega, by simpa using b⟩
      · rintro ⟨i, e, a, b⟩
        cases i with
        | zero => exact Or.inl (hd _ _ _ a hid)
        | succ i => exact Or.inr ⟨i, e, by rw [a]; congr 1; omega, by simpa using b⟩
    · cases n with
      | zero =>
        simp at hn he
        subst hn; subst he
        exact ⟨0, hid, rfl⟩
      | succ n =>
        obtain ⟨i, a, b⟩ := h4 n f e (by simpa using hn) (by simpa using he)
        exact ⟨i + 1, by rw [a]; congr 1; omega, by simpa using b⟩

end

end Dnmx
