import Verif.Spec.Dump

/-!
# Lemmas: reading debug output
-/

namespace Dnmx
open Spec

set_option linter.unusedSimpArgs false
set_option linter.unusedVariables false
set_option linter.unusedSectionVars false

/-! ## sections -/

/-- the part of the text for one section: nothing, or the section -/
def Chunk (title : String) (x : List Line) : Prop :=
  x = [] ∨ ∃ (c : Nat) (body : List Line), x = dmpSection c title body ∧ ∀ l ∈ body, isTitle l = false

def StartsTitle (x : List Line) : Prop := ∀ l, x.head? = some l → isTitle l = true

theorem dmpSection_title (c : Nat) (t : String) : isTitle [Tok.lit "## ", .num c, .lit t] = true := rfl

theorem Chunk.starts {t : String} {x : List Line} (h : Chunk t x) : StartsTitle x := by
  rcases h with rfl | ⟨c, b, rfl, -⟩
  · intro l hl; simp at hl
  · intro l hl
    simp only [dmpSection, List.head?_cons, Option.some.injEq] at hl
    subst hl; rfl

theorem StartsTitle.append {x y : List Line} (hx : StartsTitle x) (hy : StartsTitle y) : StartsTitle (x ++ y) := by
  cases x with
  | nil => exact hy
  | cons a x => intro l hl; exact hx l hl

theorem takeWhile_body {body rest : List Line} (hb : ∀ l ∈ body, isTitle l = false) (hr : StartsTitle rest) :
    (body ++ rest).takeWhile (fun x => !isTitle x) = body := by
  induction body with
  | nil =>
    cases rest with
    | nil => rfl
    | cons r rest => simp [List.takeWhile, hr r rfl]
  | cons b body ih =>
    have := hb b List.mem_cons_self
    simp only [List.cons_append, List.takeWhile, this, Bool.not_false]
    rw [ih (fun l hl => hb l (List.mem_cons_of_mem _ hl))]

theorem readSection_hit (t : String) (c : Nat) {body rest : List Line} (hb : ∀ l ∈ body, isTitle l = false) (hr : StartsTitle rest) :
    readSection t (dmpSection c t body ++ rest) = some ((c : Int), body) := by
  simp only [dmpSection, List.cons_append, readSection, ↓reduceIte, takeWhile_body hb hr]

theorem readSection_cons {t : String} {l : Line} (h : isTitle l = false) (ls : List Line) : readSection t (l :: ls) = readSection t ls := by
  rw [readSection]
  rintro n t rfl
  simp [isTitle] at h

theorem readSection_body {t : String} : ∀ {body : List Line}, (∀ l ∈ body, isTitle l = false) → ∀ rest : List Line, readSection t (body ++ rest) = readSection t rest
  | [], _, _ => rfl
  | b :: body, hb, rest => by
    rw [List.cons_append, readSection_cons (hb b List.mem_cons_self), readSection_body (fun l hl => hb l (List.mem_cons_of_mem _ hl))]

theorem readSection_other {t t' : String} (hne : t' ≠ t) {x : List Line} (h : Chunk t' x) (rest : List Line) :
    readSection t (x ++ rest) = readSection t rest := by
  rcases h with rfl | ⟨c, b, rfl, hb⟩
  · rfl
  · simp only [dmpSection, List.cons_append, readSection, if_neg hne]
    exact readSection_body hb rest

/-! ## lines of the parts -/

theorem nind_title (l : Line) : isTitle (nind l) = false := rfl
theorem nind_indented (l : Line) : isIndented (nind l) = true := rfl

section
variable (D : Decls) (N : DomId → Option (List UInt8)) (num : TypeId → Nat)

/-- lines which are all indented -/
def AllInd (ls : List Line) : Prop := ∀ l ∈ ls, ∃ l', l = nind l'

theorem AllInd.nil : AllInd [] := by intro l hl; simp at hl
theorem AllInd.cons {l : Line} {ls : List Line} (h : AllInd ls) : AllInd (nind l :: ls) := by
  intro x hx
  rcases List.mem_cons.1 hx with rfl | hx
  · exact ⟨l, rfl⟩
  · exact h x hx
theorem AllInd.append {a b : List Line} (ha : AllInd a) (hb : AllInd b) : AllInd (a ++ b) := by
  intro x hx
  rcases List.mem_append.1 hx with h | h
  · exact ha x h
  · exact hb x h
theorem AllInd.title {ls : List Line} (h : AllInd ls) : ∀ l ∈ ls, isTitle l = false := by
  intro l hl
  obtain ⟨l', rfl⟩ := h l hl
  rfl
theorem AllInd.indented {ls : List Line} (h : AllInd ls) : ∀ l ∈ ls, isIndented l = true := by
  intro l hl
  obtain ⟨l', rfl⟩ := h l hl
  rfl
theorem AllInd.map {α : Type} (f : α → Line) (xs : List α) : AllInd (xs.map (fun x => nind (f x))) := by
  intro l hl
  obtain ⟨x, -, rfl⟩ := List.mem_map.1 hl
  exact ⟨_, rfl⟩

theorem dmpPayload_ind {t : TypeRec} {p : Payload} {l : Line} (h : dmpPayload D t p = some l) : ∃ l', l = nind l' := by
  unfold dmpPayload at h
  cases hm : t.mixins[p.mixinIndex]? with
  | none => rw [hm] at h; simp at h
  | some m => rw [hm] at h; simp at h; exact ⟨_, h.symm⟩

theorem mapM_payload_ind {t : TypeRec} : ∀ {ps : List Payload} {ls : List Line}, ps.mapM (dmpPayload D t) = some ls → AllInd ls
  | [], ls, h => by simp at h; subst h; exact AllInd.nil
  | p :: ps, ls, h => by
    rw [List.mapM_cons] at h
    cases hp : dmpPayload D t p with
    | none => rw [hp] at h; simp at h
    | some l =>
      cases hq : ps.mapM (dmpPayload D t) with
      | none => rw [hp, hq] at h; simp at h
      | some ls' =>
        rw [hp, hq] at h; simp at h; subst h
        obtain ⟨l', rfl⟩ := dmpPayload_ind D hp
        exact (mapM_payload_ind hq).cons

theorem dmpEntry_ind {fl : DmpFlags} {t : TypeRec} {e : FEntry} {ls : List Line} (h : dmpEntry D fl t e = some ls) : AllInd ls := by
  unfold dmpEntry at h
  cases hp : e.pls with
  | nil => rw [hp] at h; simp at h
  | cons p ps =>
    rw [hp] at h
    simp only [Option.bind_eq_bind, Option.bind_eq_some_iff, Option.some.injEq] at h
    obtain ⟨full, hf, rfl⟩ := h
    refine AllInd.cons ?_
    unfold dmpFull at hf
    split at hf
    · exact mapM_payload_ind D hf
    · simp at hf; subst hf; exact AllInd.nil

theorem dmpEntries_ind {fl : DmpFlags} {t : TypeRec} : ∀ {es : List (Option FEntry)} {ls : List Line}, dmpEntries D fl t es = some ls → AllInd ls
  | [], ls, h => by simp [dmpEntries] at h; subst h; exact AllInd.nil
  | none :: es, ls, h => dmpEntries_ind (es := es) (by simpa [dmpEntries] using h)
  | some e :: es, ls, h => by
    unfold dmpEntries at h
    cases h1 : dmpEntry D fl t e with
    | none => rw [h1] at h; simp at h
    | some a =>
      cases h2 : dmpEntries D fl t es with
      | none => rw [h1, h2] at h; simp at h
      | some b =>
        rw [h1, h2] at h; simp at h; subst h
        exact (dmpEntry_ind D h1).append (dmpEntries_ind h2)

theorem dmpClassNames_ind {t : TypeRec} : ∀ {cs : List Cls} {ls : List Line}, dmpClassNames D t cs = some ls → AllInd ls
  | [], ls, h => by simp [dmpClassNames] at h; subst h; exact AllInd.nil
  | c :: cs, ls, h => by
    unfold dmpClassNames at h
    split at h
    · simp at h
    · cases h2 : dmpClassNames D t cs with
      | none => rw [h2] at h; simp at h
      | some b =>
        rw [h2] at h; simp at h; subst h
        split
        · exact (dmpClassNames_ind h2).cons
        · exact dmpClassNames_ind h2

theorem dmpFtable_ind {fl : DmpFlags} {t : TypeRec} {ft : List Line} (hft : dmpFtable D fl t = some ft) : AllInd ft := by
  unfold dmpFtable at hft
  split at hft
  · simp only [Option.map_eq_some_iff] at hft
    obtain ⟨a, h1, rfl⟩ := hft
    exact (dmpEntries_ind D h1).cons
  · simp at hft; subst hft; exact AllInd.nil

theorem dmpTypeClasses_ind {fl : DmpFlags} {W : World} {t : TypeRec} {tr : Option DomId} {cs : List Line} (hcs : dmpTypeClasses D fl W t tr = some cs) : AllInd cs := by
  cases tr with
  | none => simp [dmpTypeClasses] at hcs; subst hcs; exact AllInd.nil
  | some d =>
    simp only [dmpTypeClasses] at hcs
    split at hcs
    · simp only [Option.map_eq_some_iff] at hcs
      obtain ⟨a, h1, rfl⟩ := hcs
      exact (dmpClassNames_ind D h1).cons
    · simp at hcs; subst hcs; exact AllInd.nil

theorem dmpTypeEx_ind (fl : DmpFlags) (t : TypeRec) : AllInd (dmpTypeEx D num fl t) := by
  unfold dmpTypeEx
  split
  · repeat' first | exact AllInd.nil | refine AllInd.cons ?_
  · exact AllInd.nil

theorem dmpTypeQueries_ind (fl : DmpFlags) (W : World) (t : TypeRec) (tr : Option DomId) : AllInd (dmpTypeQueries D fl W t tr) := by
  cases tr with
  | none => exact AllInd.nil
  | some d =>
    simp only [dmpTypeQueries]
    split
    · exact (AllInd.map _ _).cons
    · exact AllInd.nil

/-- the parts of the dump of a type -/
theorem dmpType_parts {fl : DmpFlags} {W : World} {t : TypeRec} {tr : Option DomId} {ls : List Line} (h : dmpType D N num fl W t tr = some ls) :
    ∃ dn ft cs, N t.dom = some dn ∧ dmpFtable D fl t = some ft ∧ dmpTypeClasses D fl W t tr = some cs ∧
      ls = [Tok.lit "type: ", dmpMixins D t.mixins, .lit " (", .addr t.tid, .lit ") ('", .name dn, .lit "')"] ::
        (dmpTypeEx D num fl t ++ ft ++ dmpTypeQueries D fl W t tr ++ cs) := by
  simp only [dmpType, Option.bind_eq_bind, Option.bind_eq_some_iff, Option.some.injEq] at h
  obtain ⟨dn, h1, ft, h2, cs, h3, rfl⟩ := h
  exact ⟨dn, ft, cs, h1, h2, h3, rfl⟩

/-- the parts of the dump of a mixin -/
theorem dmpMixin_parts {fl : DmpFlags} {W : World} {m : Mix} {ls : List Line} (h : dmpMixin D N fl W m = some ls) :
    ∃ rest tl, ls = ((if (D.mix m).dependency then [Tok.lit "dep-"] else []) ++ Tok.lit "mixin: '" :: Tok.name (D.mixName m) :: rest) :: tl ∧ AllInd tl := by
  simp only [dmpMixin, Option.bind_eq_bind, Option.bind_eq_some_iff, Option.some.injEq] at h
  obtain ⟨reg, -, rfl⟩ := h
  refine ⟨_, _, rfl, ?_⟩
  refine AllInd.append ?_ ?_
  · unfold dmpMixinEx
    split
    · repeat' first | exact AllInd.nil | refine AllInd.cons ?_
    · exact AllInd.nil
  · unfold dmpMixinFeatures
    split
    · exact (AllInd.map _ _).cons
    · exact AllInd.nil

/-! ## slots -/

/-- what is in the slots of a table, from slot `k` on -/
def slotsFrom (name : Nat → List UInt8) : Nat → List (Option Nat) → List (Nat × List UInt8)
  | _, [] => []
  | k, none :: xs => slotsFrom name (k + 1) xs
  | k, some x :: xs => (k, name x) :: slotsFrom name (k + 1) xs

theorem mem_slotsFrom (name : Nat → List UInt8) : ∀ (l : List (Option Nat)) (k i : Nat) (s : List UInt8),
    (i, s) ∈ slotsFrom name k l ↔ ∃ (j : Nat) (x : Nat), i = k + j ∧ l[j]? = some (some x) ∧ name x = s
  | [], k, i, s => by simp [slotsFrom]
  | none :: xs, k, i, s => by
    rw [slotsFrom, mem_slotsFrom name xs (k + 1) i s]
    constructor
    · rintro ⟨j, x, rfl, h1, h2⟩
      exact ⟨j + 1, x, by omega, by simpa using h1, h2⟩
    · rintro ⟨j, x, rfl, h1, h2⟩
      cases j with
      | zero => simp at h1
      | succ j => exact ⟨j, x, by omega, by simpa using h1, h2⟩
  | some a :: xs, k, i, s => by
    rw [slotsFrom, List.mem_cons, mem_slotsFrom name xs (k + 1) i s]
    constructor
    · rintro (h | ⟨j, x, rfl, h1, h2⟩)
      · cases h; exact ⟨0, a, rfl, rfl, rfl⟩
      · exact ⟨j + 1, x, by omega, by simpa using h1, h2⟩
    · rintro ⟨j, x, rfl, h1, h2⟩
      cases j with
      | zero => simp at h1; subst h1; left; simp [h2]
      | succ j => right; exact ⟨j, x, by omega, by simpa using h1, h2⟩

theorem slotsFrom_sorted (name : Nat → List UInt8) (l : List (Option Nat)) : ∀ k, ((slotsFrom name k l).Pairwise (fun a b => a.1 < b.1)) := by
  induction l with
  | nil => intro k; exact .nil
  | cons a xs ih =>
    intro k
    cases a with
    | none => exact ih (k + 1)
    | some a =>
      refine List.pairwise_cons.2 ⟨?_, ih (k + 1)⟩
      rintro ⟨i, s⟩ hi
      obtain ⟨j, x, h1, -, -⟩ := (mem_slotsFrom name xs (k + 1) i s).1 hi
      simp only; omega

theorem slotsFrom_length (name : Nat → List UInt8) (l : List (Option Nat)) : ∀ k, (slotsFrom name k l).length = (visitSparse l).length := by
  induction l with
  | nil => intro k; rfl
  | cons a xs ih =>
    intro k
    cases a with
    | none => exact ih (k + 1)
    | some a => simp [slotsFrom, visitSparse, ih (k + 1)]

theorem readSlots_gap (kind : String) (id next : Nat) (h : next ≤ id) (ls : List Line) :
    readSlots kind next (dmpGap id next ++ ls) = readSlots kind id ls := by
  unfold dmpGap
  split
  · simp only [List.cons_append, List.nil_append]
    have : emptySlots [Tok.num ((id : Int) - next), .lit " empty slots"] = some ((id : Int) - next) := rfl
    rw [readSlots]
    simp only [this]
    congr 1
    omega
  · rename_i he
    have he : id = next := Decidable.not_not.1 he
    subst he
    rfl

theorem readSlots_ind (kind : String) (hk : kind ≠ "  ") : ∀ (tl : List Line), AllInd tl → ∀ (i : Nat) (ls : List Line), readSlots kind i (tl ++ ls) = readSlots kind i ls
  | [], _, _, _ => rfl
  | l :: tl, h, i, ls => by
    obtain ⟨l', rfl⟩ := h l List.mem_cons_self
    have h1 : emptySlots (nind l') = none := by simp [nind, emptySlots]
    have h2 : itemName kind (nind l') = none := by
      unfold nind itemName
      split
      · rename_i he; simp at he
      · rename_i k s r hne he
        simp at he
        rw [if_neg]
        rw [← he.1]; exact fun h => hk h.symm
      · rfl
    rw [List.cons_append, readSlots]
    simp only [h1, h2]
    exact readSlots_ind kind hk tl (fun x hx => h x (List.mem_cons_of_mem _ hx)) i ls

theorem readSlots_features (W : World) : ∀ (l : List (Option Nat)) (k next : Nat), next ≤ k → (∀ (i x : Nat), l[i]? = some (some x) → W.featId x = some (k + i)) →
    readSlots "feature: '" next (dmpFeatures D W next (visitSparse l)) = slotsFrom D.featName k l
  | [], k, next, _, _ => rfl
  | none :: xs, k, next, hn, h => by
    rw [visitSparse, slotsFrom]
    exact readSlots_features W xs (k + 1) next (by omega) (fun i x hx => by rw [h (i + 1) x (by simpa using hx)]; congr 1; omega)
  | some a :: xs, k, next, hn, h => by
    rw [visitSparse, slotsFrom, dmpFeatures]
    have ha := h 0 a rfl
    rw [Nat.add_zero] at ha
    have hid : iidOf (W.featId a) = k := by rw [ha]; rfl
    rw [hid, readSlots_gap _ _ _ hn]
    have h1 : emptySlots (dmpFeature D W a) = none := by simp [dmpFeature, emptySlots]
    have h2 : itemName "feature: '" (dmpFeature D W a) = some (D.featName a) := by
      simp [dmpFeature, itemName]
    rw [readSlots]
    simp only [h1, h2]
    rw [readSlots_features W xs (k + 1) (k + 1) (Nat.le_refl _) (fun i x hx => by rw [h (i + 1) x (by simpa using hx)]; congr 1; omega)]

theorem readSlots_mixins (fl : DmpFlags) (W : World) : ∀ (l : List (Option Nat)) (k next : Nat), next ≤ k → (∀ (i x : Nat), l[i]? = some (some x) → W.mixId x = some (k + i)) →
    ∀ ls, dmpMixinList D N fl W next (visitSparse l) = some ls → readSlots "mixin: '" next ls = slotsFrom D.mixName k l
  | [], k, next, _, _, ls, hl => by simp [visitSparse, dmpMixinList] at hl; subst hl; rfl
  | none :: xs, k, next, hn, h, ls, hl => by
    rw [slotsFrom]
    exact readSlots_mixins fl W xs (k + 1) next (by omega) (fun i x hx => by rw [h (i + 1) x (by simpa using hx)]; congr 1; omega) ls hl
  | some a :: xs, k, next, hn, h, ls, hl => by
    rw [slotsFrom]
    have ha := h 0 a rfl
    rw [Nat.add_zero] at ha
    have hid : iidOf (W.mixId a) = k := by rw [ha]; rfl
    simp only [visitSparse, dmpMixinList, hid, Option.bind_eq_bind, Option.bind_eq_some_iff, Option.some.injEq] at hl
    obtain ⟨b, hb, c, hc, rfl⟩ := hl
    obtain ⟨rest, tl, rfl, hi⟩ := dmpMixin_parts D N hb
    rw [List.append_assoc, readSlots_gap _ _ _ hn, List.cons_append, readSlots]
    have h1 : emptySlots ((if (D.mix a).dependency then [Tok.lit "dep-"] else []) ++ Tok.lit "mixin: '" :: Tok.name (D.mixName a) :: rest) = none := by
      split <;> simp [emptySlots]
    have h2 : itemName "mixin: '" ((if (D.mix a).dependency then [Tok.lit "dep-"] else []) ++ Tok.lit "mixin: '" :: Tok.name (D.mixName a) :: rest) = some (D.mixName a) := by
      split <;> simp [itemName]
    simp only [h1, h2]
    rw [readSlots_ind _ (by decide) tl hi,
      readSlots_mixins fl W xs (k + 1) (k + 1) (Nat.le_refl _) (fun i x hx => by rw [h (i + 1) x (by simpa using hx)]; congr 1; omega) c hc]

/-! ## bodies have no titles -/

theorem dmpGap_title (id next : Nat) : ∀ l ∈ dmpGap id next, isTitle l = false := by
  intro l hl
  unfold dmpGap at hl
  split at hl
  · simp at hl; subst hl; rfl
  · simp at hl

theorem dmpFeatures_title (W : World) : ∀ (fs : List Feat) (next : Nat), ∀ l ∈ dmpFeatures D W next fs, isTitle l = false
  | [], _, l, hl => by simp [dmpFeatures] at hl
  | f :: fs, next, l, hl => by
    rw [dmpFeatures] at hl
    rcases List.mem_append.1 hl with hl | hl
    · exact dmpGap_title _ _ l hl
    · rcases List.mem_cons.1 hl with rfl | hl
      · rfl
      · exact dmpFeatures_title W fs _ l hl

theorem dmpMixinList_title (fl : DmpFlags) (W : World) : ∀ (ms : List Mix) (next : Nat) (ls : List Line), dmpMixinList D N fl W next ms = some ls → ∀ l ∈ ls, isTitle l = false
  | [], _, ls, h, l, hl => by simp [dmpMixinList] at h; subst h; simp at hl
  | m :: ms, next, ls, h, l, hl => by
    simp only [dmpMixinList, Option.bind_eq_bind, Option.bind_eq_some_iff, Option.some.injEq] at h
    obtain ⟨b, hb, c, hc, rfl⟩ := h
    obtain ⟨rest, tl, rfl, hi⟩ := dmpMixin_parts D N hb
    rcases List.mem_append.1 hl with hl | hl
    · rcases List.mem_append.1 hl with hl | hl
      · exact dmpGap_title _ _ l hl
      · rcases List.mem_cons.1 hl with rfl | hl
        · split <;> rfl
        · exact hi.title l hl
    · exact dmpMixinList_title fl W ms _ c hc l hl

theorem dmpType_head {fl : DmpFlags} {W : World} {t : TypeRec} {tr : Option DomId} {ls : List Line} (h : dmpType D N num fl W t tr = some ls) :
    ∃ dn tl, N t.dom = some dn ∧ AllInd tl ∧ ls = [Tok.lit "type: ", dmpMixins D t.mixins, .lit " (", .addr t.tid, .lit ") ('", .name dn, .lit "')"] :: tl := by
  obtain ⟨dn, ft, cs, h1, h2, h3, rfl⟩ := dmpType_parts D N num h
  exact ⟨dn, _, h1, (((dmpTypeEx_ind D num fl t).append (dmpFtable_ind D h2)).append (dmpTypeQueries_ind D fl W t tr)).append (dmpTypeClasses_ind D h3), rfl⟩

theorem dmpTypes_title (fl : DmpFlags) (W : World) (d : DomId) : ∀ (ts : List TypeRec) (ls : List Line), dmpTypes D N num fl W d ts = some ls → ∀ l ∈ ls, isTitle l = false
  | [], ls, h, l, hl => by simp [dmpTypes] at h; subst h; simp at hl
  | t :: ts, ls, h, l, hl => by
    simp only [dmpTypes, Option.bind_eq_bind, Option.bind_eq_some_iff, Option.some.injEq] at h
    obtain ⟨b, hb, c, hc, rfl⟩ := h
    obtain ⟨dn, tl, -, hi, rfl⟩ := dmpType_head D N num hb
    rcases List.mem_append.1 hl with hl | hl
    · rcases List.mem_cons.1 hl with rfl | hl
      · rfl
      · exact hi.title l hl
    · exact dmpTypes_title fl W d ts c hc l hl

theorem dmpClass_eq (fl : DmpFlags) (W : World) (c : Cls) :
    dmpClass D N num fl W c = some [Tok.lit "type class: '", .name (D.clsName c), .lit ", match: ", .fn (!(D.cls c).isNull)] := by
  simp [dmpClass, dmpClassIn, dmpClassTypes]

theorem dmpClasses_eq (fl : DmpFlags) (W : World) : ∀ cs : List Cls, cs.mapM (dmpClass D N num fl W) =
    some (cs.map (fun c => [Tok.lit "type class: '", .name (D.clsName c), .lit ", match: ", .fn (!(D.cls c).isNull)]))
  | [] => rfl
  | c :: cs => by rw [List.mapM_cons, dmpClass_eq, dmpClasses_eq fl W cs]; rfl

theorem dmpQueries_title (W : World) (d : DomId) : ∀ (qs : List (List Mix × TypeId)) (ls : List Line), dmpQueries D W d qs = some ls → ∀ l ∈ ls, isTitle l = false
  | [], ls, h, l, hl => by simp [dmpQueries] at h; subst h; simp at hl
  | (q, t) :: qs, ls, h, l, hl => by
    simp only [dmpQueries, Option.bind_eq_bind, Option.bind_eq_some_iff, Option.some.injEq] at h
    obtain ⟨r, hr, c, hc, rfl⟩ := h
    rcases List.mem_cons.1 hl with rfl | hl
    · rfl
    · exact dmpQueries_title W d qs c hc l hl

/-! ## the whole text -/

theorem chunk_mixins {fl : DmpFlags} {W : World} {d : DomId} {x : List Line} (h : dmpMixinsSection D N fl W d = some x) : Chunk " Mixins" x := by
  unfold dmpMixinsSection at h
  split at h
  · simp only [Option.map_eq_some_iff] at h
    obtain ⟨a, h1, rfl⟩ := h
    exact Or.inr ⟨_, _, rfl, dmpMixinList_title D N fl W _ _ _ h1⟩
  · simp at h; exact Or.inl h

theorem chunk_types {fl : DmpFlags} {W : World} {d : DomId} {x : List Line} (h : dmpTypesSection D N num fl W d = some x) : Chunk " Types" x := by
  unfold dmpTypesSection at h
  split at h
  · simp only [Option.map_eq_some_iff] at h
    obtain ⟨a, h1, rfl⟩ := h
    exact Or.inr ⟨_, _, rfl, dmpTypes_title D N num fl W d _ _ h1⟩
  · simp at h; exact Or.inl h

theorem chunk_classes {fl : DmpFlags} {W : World} {d : DomId} {x : List Line} (h : dmpClassesSection D N num fl W d = some x) : Chunk " Type Classes" x := by
  unfold dmpClassesSection at h
  split at h
  · rw [dmpClasses_eq] at h
    simp only [Option.map_some, Option.some.injEq] at h
    refine Or.inr ⟨_, _, h.symm, ?_⟩
    intro l hl
    obtain ⟨c, -, rfl⟩ := List.mem_map.1 hl
    rfl
  · simp at h; exact Or.inl h

theorem chunk_queries {fl : DmpFlags} {W : World} {d : DomId} {x : List Line} (h : dmpQueriesSection D fl W d = some x) : Chunk " Type Queries" x := by
  unfold dmpQueriesSection at h
  split at h
  · simp only [Option.map_eq_some_iff] at h
    obtain ⟨a, h1, rfl⟩ := h
    exact Or.inr ⟨_, _, rfl, dmpQueries_title D W d _ _ h1⟩
  · simp at h; exact Or.inl h

theorem chunk_features (fl : DmpFlags) (W : World) (d : DomId) : Chunk " Features" (dmpFeaturesSection D fl W d) := by
  unfold dmpFeaturesSection
  split
  · exact Or.inr ⟨_, _, rfl, dmpFeatures_title D W _ _⟩
  · exact Or.inl rfl

theorem chunk_rules (fl : DmpFlags) (W : World) (d : DomId) : Chunk " Mutation Rules" (dmpRulesSection D fl W d) := by
  unfold dmpRulesSection
  split
  · refine Or.inr ⟨_, _, rfl, ?_⟩
    intro l hl
    obtain ⟨c, -, rfl⟩ := List.mem_map.1 hl
    rfl
  · exact Or.inl rfl

theorem readSection_settings (t : String) (fl : DmpFlags) (s : Settings) (rest : List Line) : readSection t (dmpSettings fl s ++ rest) = readSection t rest := by
  unfold dmpSettings
  split
  · simp [readSection, nind]
  · rfl

/-- what is in the sections of the text about a domain -/
theorem dmpDomain_sections {fl : DmpFlags} {W : World} {d : DomId} {doc : List Line} (h : dmpDomain D N num fl W d = some doc) :
    (fl.features = true → readSection " Features" doc = some (((traverseFeatures W d).length : Int), dmpFeatures D W 0 (traverseFeatures W d))) ∧
    (fl.mixins = true → ∃ ls, dmpMixinList D N fl W 0 (traverseMixins W d) = some ls ∧ readSection " Mixins" doc = some (((traverseMixins W d).length : Int), ls)) ∧
    (fl.rules = true → readSection " Mutation Rules" doc =
      some ((numMutationRules W d : Int), (traverseRules W d).map (fun r => dmpRule D r.1 ++ [.lit ", ", .num r.2, .lit " refs"]))) ∧
    (fl.types = true → ∃ ls, dmpTypes D N num fl W d (W.doms d).types = some ls ∧ readSection " Types" doc = some ((numTypes W d : Int), ls)) ∧
    (fl.classes = true → readSection " Type Classes" doc =
      some (((traverseClasses W d).length : Int), (traverseClasses W d).map (fun c => [Tok.lit "type class: '", .name (D.clsName c), .lit ", match: ", .fn (!(D.cls c).isNull)]))) ∧
    (fl.queries = true → ∃ ls, dmpQueries D W d (traverseQueries W d) = some ls ∧ readSection " Type Queries" doc = some ((numTypeQueries W d : Int), ls)) := by
  simp only [dmpDomain, Option.bind_eq_bind, Option.bind_eq_some_iff, Option.some.injEq] at h
  obtain ⟨dn, -, mixins, hm, types, ht, classes, hc, queries, hq, rfl⟩ := h
  have c1 := chunk_features D fl W d
  have c2 := chunk_mixins D N hm
  have c3 := chunk_rules D fl W d
  have c4 := chunk_types D N num ht
  have c5 := chunk_classes D N num hc
  have c6 := chunk_queries D hq
  have s0 : StartsTitle ([] : List Line) := by intro l hl; simp at hl
  have s6 := c6.starts.append s0
  have s5 := c5.starts.append s6
  have s4 := c4.starts.append s5
  have s3 := c3.starts.append s4
  have s2 := c2.starts.append s3
  have hd : ∀ (t : String) (rest : List Line), readSection t ([Tok.lit "domain: '", .name dn, .lit "' (", .addr d, .lit "), ud: ", .opaque "user_data", .lit ", ctx : ", .opaque "context",
      .lit ", alloc: ", .opaque "allocator"] :: rest) = readSection t rest := fun t rest => readSection_cons rfl rest
  simp only [hd, readSection_settings]
  refine ⟨fun hf => ?_, fun hf => ?_, fun hf => ?_, fun hf => ?_, fun hf => ?_, fun hf => ?_⟩
  · simp only [dmpFeaturesSection, hf, ↓reduceIte]
    exact readSection_hit _ _ (dmpFeatures_title D W _ _) s2
  · rw [readSection_other (by decide) c1]
    simp only [dmpMixinsSection, hf, ↓reduceIte, Option.map_eq_some_iff] at hm
    obtain ⟨ls, h1, rfl⟩ := hm
    exact ⟨ls, h1, readSection_hit _ _ (dmpMixinList_title D N fl W _ _ _ h1) s3⟩
  · rw [readSection_other (by decide) c1, readSection_other (by decide) c2]
    rcases c3 with h0 | ⟨c, b, h1, h2⟩
    · simp [dmpRulesSection, hf, dmpSection] at h0
    · simp only [dmpRulesSection, hf, ↓reduceIte] at h1 ⊢
      have hb : b = (traverseRules W d).map (fun r => dmpRule D r.1 ++ [.lit ", ", .num r.2, .lit " refs"]) := by
        unfold dmpSection at h1
        exact ((List.cons.inj h1).2).symm
      rw [hb] at h2
      exact readSection_hit _ _ h2 s4
  · rw [readSection_other (by decide) c1, readSection_other (by decide) c2, readSection_other (by decide) c3]
    simp only [dmpTypesSection, hf, ↓reduceIte, Option.map_eq_some_iff] at ht
    obtain ⟨ls, h1, rfl⟩ := ht
    exact ⟨ls, h1, readSection_hit _ _ (dmpTypes_title D N num fl W d _ _ h1) s5⟩
  · rw [readSection_other (by decide) c1, readSection_other (by decide) c2, readSection_other (by decide) c3, readSection_other (by decide) c4]
    simp only [dmpClassesSection, hf, ↓reduceIte, dmpClasses_eq, Option.map_some, Option.some.injEq] at hc
    subst hc
    refine readSection_hit _ _ ?_ s6
    intro l hl
    obtain ⟨c, -, rfl⟩ := List.mem_map.1 hl
    rfl
  · rw [readSection_other (by decide) c1, readSection_other (by decide) c2, readSection_other (by decide) c3, readSection_other (by decide) c4, readSection_other (by decide) c5]
    simp only [dmpQueriesSection, hf, ↓reduceIte, Option.map_eq_some_iff] at hq
    obtain ⟨ls, h1, rfl⟩ := hq
    exact ⟨ls, h1, readSection_hit _ _ (dmpQueries_title D W d _ _ h1) s0⟩

/-- sections that are not requested -/
theorem dmpDomain_absent {fl : DmpFlags} {W : World} {d : DomId} {doc : List Line} (h : dmpDomain D N num fl W d = some doc) :
    (fl.features = false → readSection " Features" doc = none) ∧ (fl.mixins = false → readSection " Mixins" doc = none) ∧
    (fl.rules = false → readSection " Mutation Rules" doc = none) ∧ (fl.types = false → readSection " Types" doc = none) ∧
    (fl.classes = false → readSection " Type Classes" doc = none) ∧ (fl.queries = false → readSection " Type Queries" doc = none) := by
  simp only [dmpDomain, Option.bind_eq_bind, Option.bind_eq_some_iff, Option.some.injEq] at h
  obtain ⟨dn, -, mixins, hm, types, ht, classes, hc, queries, hq, rfl⟩ := h
  have c1 := chunk_features D fl W d
  have c2 := chunk_mixins D N hm
  have c3 := chunk_rules D fl W d
  have c4 := chunk_types D N num ht
  have c5 := chunk_classes D N num hc
  have c6 := chunk_queries D hq
  have hd : ∀ (t : String) (rest : List Line), readSection t ([Tok.lit "domain: '", .name dn, .lit "' (", .addr d, .lit "), ud: ", .opaque "user_data", .lit ", ctx : ", .opaque "context",
      .lit ", alloc: ", .opaque "allocator"] :: rest) = readSection t rest := fun t rest => readSection_cons rfl rest
  simp only [hd, readSection_settings]
  refine ⟨fun hf => ?_, fun hf => ?_, fun hf => ?_, fun hf => ?_, fun hf => ?_, fun hf => ?_⟩
  · simp only [dmpFeaturesSection, hf, Bool.false_eq_true, ↓reduceIte, List.nil_append]
    rw [readSection_other (by decide) c2, readSection_other (by decide) c3, readSection_other (by decide) c4, readSection_other (by decide) c5, readSection_other (by decide) c6]
    rfl
  · simp only [dmpMixinsSection, hf, Bool.false_eq_true, ↓reduceIte, Option.some.injEq] at hm
    subst hm
    rw [readSection_other (by decide) c1, List.nil_append, readSection_other (by decide) c3, readSection_other (by decide) c4, readSection_other (by decide) c5,
      readSection_other (by decide) c6]
    rfl
  · simp only [dmpRulesSection, hf, Bool.false_eq_true, ↓reduceIte, List.nil_append]
    rw [readSection_other (by decide) c1, readSection_other (by decide) c2, readSection_other (by decide) c4, readSection_other (by decide) c5, readSection_other (by decide) c6]
    rfl
  · simp only [dmpTypesSection, hf, Bool.false_eq_true, ↓reduceIte, Option.some.injEq] at ht
    subst ht
    rw [readSection_other (by decide) c1, readSection_other (by decide) c2, readSection_other (by decide) c3, List.nil_append, readSection_other (by decide) c5,
      readSection_other (by decide) c6]
    rfl
  · simp only [dmpClassesSection, hf, Bool.false_eq_true, ↓reduceIte, Option.some.injEq] at hc
    subst hc
    rw [readSection_other (by decide) c1, readSection_other (by decide) c2, readSection_other (by decide) c3, readSection_other (by decide) c4, List.nil_append,
      readSection_other (by decide) c6]
    rfl
  · simp only [dmpQueriesSection, hf, Bool.false_eq_true, ↓reduceIte, Option.some.injEq] at hq
    subst hq
    rw [readSection_other (by decide) c1, readSection_other (by decide) c2, readSection_other (by decide) c3, readSection_other (by decide) c4, readSection_other (by decide) c5]
    rfl

/-! ## types -/

theorem takeWhile_ind {tl rest : List Line} (h : AllInd tl) (hr : ∀ l, rest.head? = some l → isIndented l = false) : (tl ++ rest).takeWhile isIndented = tl := by
  induction tl with
  | nil =>
    cases rest with
    | nil => rfl
    | cons r rest => simp [List.takeWhile, hr r rfl]
  | cons b tl ih =>
    obtain ⟨l', rfl⟩ := h b List.mem_cons_self
    simp only [List.cons_append, List.takeWhile, nind_indented]
    rw [ih (fun l hl => h l (List.mem_cons_of_mem _ hl))]

theorem readBlocks_ind : ∀ {tl : List Line}, AllInd tl → ∀ rest, readBlocks (tl ++ rest) = readBlocks rest
  | [], _, _ => rfl
  | l :: tl, h, rest => by
    obtain ⟨l', rfl⟩ := h l List.mem_cons_self
    rw [List.cons_append, readBlocks, nind_indented]
    simp only [↓reduceIte]
    exact readBlocks_ind (fun l hl => h l (List.mem_cons_of_mem _ hl)) rest

theorem dmpTypes_blocks (fl : DmpFlags) (W : World) (d : DomId) : ∀ (ts : List TypeRec) (ls : List Line), dmpTypes D N num fl W d ts = some ls →
    (∀ l, ls.head? = some l → isIndented l = false) ∧ ∃ bs, ts.mapM (fun t => dmpType D N num fl W t (some d)) = some bs ∧ readBlocks ls = bs
  | [], ls, h => by
    simp [dmpTypes] at h; subst h
    exact ⟨by simp, [], rfl, rfl⟩
  | t :: ts, ls, h => by
    simp only [dmpTypes, Option.bind_eq_bind, Option.bind_eq_some_iff, Option.some.injEq] at h
    obtain ⟨b, hb, c, hc, rfl⟩ := h
    obtain ⟨h1, bs, h2, h3⟩ := dmpTypes_blocks fl W d ts c hc
    refine ⟨?_, b :: bs, by rw [List.mapM_cons, hb, h2]; rfl, ?_⟩
    · obtain ⟨dn, tl, -, hi, rfl⟩ := dmpType_head D N num hb
      intro l hl
      simp only [List.cons_append, List.head?_cons, Option.some.injEq] at hl
      subst hl; rfl
    · obtain ⟨dn, tl, -, hi, rfl⟩ := dmpType_head D N num hb
      have : isIndented [Tok.lit "type: ", dmpMixins D t.mixins, .lit " (", .addr t.tid, .lit ") ('", .name dn, .lit "')"] = false := rfl
      rw [List.cons_append, readBlocks, this]
      simp only [Bool.false_eq_true, ↓reduceIte, takeWhile_ind hi h1, readBlocks_ind hi, h3]

/-! ### within a type -/

/-- a line of the feature table -/
def EntryLine (l : Line) : Prop :=
  (∃ s a b, l = nind [.lit "  impl: '", .name s, .lit "' ", .num a, .lit "/", .num b]) ∨
  (∃ m p b r, l = nind [.lit "    '", .name m, .lit "': ", .addr p, .lit " with ", .num b, .lit "_bid ", .num r, .lit "_prio"])

/-- what is said about one payload -/
def payloadTold (t : TypeRec) (p : Payload) : List UInt8 × Nat × Int × Int :=
  (D.mixName ((t.mixins[p.mixinIndex]?).getD 0), p.data.payload, p.data.bid, p.data.priority)

/-- what is said about one feature -/
def entryTold (fl : DmpFlags) (t : TypeRec) (e : FEntry) : (List UInt8 × Int × Int) × List (List UInt8 × Nat × Int × Int) :=
  ((match e.pls with | [] => [] | p :: _ => D.featName p.data.feat, (e.topBack : Int) + 1, (e.pls.length : Int)), if fl.fullFtable then e.pls.map (payloadTold D t) else [])

def NotPayload (ls : List Line) : Prop := ∀ l, ls.head? = some l → payloadLine l = none

theorem readPayloads_none {ls : List Line} (h : NotPayload ls) : readPayloads ls = [] := by
  cases ls with
  | nil => rfl
  | cons l ls => rw [readPayloads, h l rfl]

theorem mapM_payload {t : TypeRec} : ∀ {ps : List Payload} {ls : List Line}, ps.mapM (dmpPayload D t) = some ls →
    (∀ l ∈ ls, EntryLine l) ∧ (∀ l ∈ ls, implLine l = none) ∧ ∀ R, NotPayload R → readPayloads (ls ++ R) = ps.map (payloadTold D t)
  | [], ls, h => by
    simp at h; subst h
    exact ⟨by simp, by simp, fun R hR => readPayloads_none hR⟩
  | p :: ps, ls, h => by
    rw [List.mapM_cons] at h
    simp only [Option.bind_eq_bind, Option.bind_eq_some_iff] at h
    obtain ⟨l, hl, ls', hls, h⟩ := h
    simp only [Option.pure_def, Option.some.injEq] at h
    subst h
    obtain ⟨h1, h2, h3⟩ := mapM_payload hls
    simp only [dmpPayload, Option.map_eq_some_iff] at hl
    obtain ⟨m, hm, rfl⟩ := hl
    refine ⟨?_, ?_, fun R hR => ?_⟩
    · intro x hx
      rcases List.mem_cons.1 hx with rfl | hx
      · exact Or.inr ⟨_, _, _, _, rfl⟩
      · exact h1 x hx
    · intro x hx
      rcases List.mem_cons.1 hx with rfl | hx
      · simp [implLine, nind]
      · exact h2 x hx
    · rw [List.cons_append, readPayloads]
      simp only [payloadLine, nind, and_self, ↓reduceIte, h3 R hR, List.map_cons, payloadTold, hm, Option.getD_some]

theorem readImpls_skip : ∀ {ls : List Line}, (∀ l ∈ ls, implLine l = none) → ∀ R, readImpls (ls ++ R) = readImpls R
  | [], _, _ => rfl
  | l :: ls, h, R => by
    rw [List.cons_append, readImpls, h l List.mem_cons_self]
    exact readImpls_skip (fun x hx => h x (List.mem_cons_of_mem _ hx)) R

theorem dmpEntries_read {fl : DmpFlags} {t : TypeRec} : ∀ {es : List (Option FEntry)} {ls : List Line}, dmpEntries D fl t es = some ls →
    (∀ l ∈ ls, EntryLine l) ∧ ∀ R, NotPayload R → NotPayload (ls ++ R) ∧ readImpls (ls ++ R) = (es.filterMap id).map (entryTold D fl t) ++ readImpls R
  | [], ls, h => by
    simp [dmpEntries] at h; subst h
    exact ⟨by simp, fun R hR => ⟨hR, rfl⟩⟩
  | none :: es, ls, h => by
    have := dmpEntries_read (es := es) (ls := ls) (by simpa [dmpEntries] using h)
    simpa using this
  | some e :: es, ls, h => by
    simp only [dmpEntries, Option.bind_eq_bind, Option.bind_eq_some_iff, Option.some.injEq] at h
    obtain ⟨a, ha, b, hb, rfl⟩ := h
    obtain ⟨h1, h2⟩ := dmpEntries_read hb
    unfold dmpEntry at ha
    cases hp : e.pls with
    | nil => rw [hp] at ha; simp at ha
    | cons p ps =>
    rw [hp] at ha
    simp only [Option.bind_eq_bind, Option.bind_eq_some_iff, Option.some.injEq] at ha
    obtain ⟨full, hf, rfl⟩ := ha
    have hfull : (∀ l ∈ full, EntryLine l) ∧ (∀ l ∈ full, implLine l = none) ∧
        ∀ R, NotPayload R → readPayloads (full ++ R) = if fl.fullFtable then (p :: ps).map (payloadTold D t) else [] := by
      unfold dmpFull at hf
      split at hf
      · rename_i h0
        simp only [h0, ↓reduceIte]
        exact mapM_payload D hf
      · rename_i h0
        simp only [Option.some.injEq] at hf
        subst hf
        simp only [h0, Bool.false_eq_true, ↓reduceIte]
        exact ⟨by simp, by simp, fun R hR => readPayloads_none hR⟩
    obtain ⟨f1, f2, f3⟩ := hfull
    refine ⟨?_, fun R hR => ⟨?_, ?_⟩⟩
    · intro x hx
      rcases List.mem_append.1 hx with hx | hx
      · rcases List.mem_cons.1 hx with rfl | hx
        · exact Or.inl ⟨_, _, _, rfl⟩
        · exact f1 x hx
      · exact h1 x hx
    · intro l hl
      simp only [List.cons_append, List.head?_cons, Option.some.injEq] at hl
      subst hl
      simp [payloadLine, nind]
    · obtain ⟨g1, g2⟩ := h2 R hR
      simp only [List.cons_append, List.append_assoc]
      rw [readImpls]
      simp only [implLine, nind, and_self, ↓reduceIte]
      rw [f3 _ g1, readImpls_skip f2, g2]
      simp only [List.filterMap_cons, id, List.map_cons, entryTold, hp, List.cons_append]

end

end Dnmx
