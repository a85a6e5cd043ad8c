import Verif.Proofs.PlainObjectLemmas

/-! # Objects of plain mixins are values of bytes (C94) -/

namespace Dnmx.Props
open Spec

variable (D : Decls) (E : TyEnv)

/-- `copy_matching_from` of two objects at different places: if all mixins of both have a `copy_asgn`, each of them has in the target the bytes it has in the source, and no other byte
of memory changes (the source and the target's other mixins stay). Else it fails with the missing function, and nothing was written. -/
theorem C94_copy (mem : Mem) (o src : PlainObj) (ho : PlainOk E o) (hs : PlainOk E src) (ha : OwnApart D E o) (hb : OwnApart D E src) (hoo : ObjsApart D E o src) :
    ((∀ m ∈ E.mixins src.ty, m ∈ E.mixins o.ty → (D.mix m).hasCopyAsgn = true) → ∃ mem', copyMatchingPlain D E mem o src = some (.ok mem') ∧
      (∀ m p q, placeIn E o m = some p → placeIn E src m = some q → valueOf D mem' m p = valueOf D mem m q) ∧
      ∀ x, (∀ m p, placeIn E o m = some p → m ∈ E.mixins src.ty → ¬ InRange x p (D.mix m).size) → mem' x = mem x) ∧
    ((∃ m ∈ E.mixins src.ty, m ∈ E.mixins o.ty ∧ (D.mix m).hasCopyAsgn = false) →
      ∃ m ∈ E.mixins src.ty, m ∈ E.mixins o.ty ∧ (D.mix m).hasCopyAsgn = false ∧ copyMatchingPlain D E mem o src = some (.error (.missingFunc m))) := by
  constructor
  · intro h
    have hc := (copyPlainCheck_none (D := D) ho (E.mixins src.ty) (fun _ h => h)).2 h
    obtain ⟨h1, h2⟩ := matchingStep_spec copyStep_ok ha hb hoo (List.zip (E.mixins src.ty) src.data) mem (fun e he => (plainOk_at_iff hs _ _).2 he) (zip_fst_nodup hs)
    refine ⟨matchingStep E (fun mem m p s => bytesCopy mem (D.mix m).size p s) o mem (List.zip (E.mixins src.ty) src.data), ?_, ?_, ?_⟩
    · unfold copyMatchingPlain; rw [hc]; simp only; rw [copyPlain_steps ho _ _ _ (fun _ h => h) hs.places]; rfl
    · intro m p q hp hq
      exact (h1 (m, q) ((plainOk_at_iff hs _ _).1 hq) p hp).1
    · intro x hx
      apply h2 x
      intro e he p hp
      exact ⟨hx e.1 p hp (List.of_mem_zip he).1, fun h => by simp at h⟩
  · rintro ⟨m, hm, hm', hf⟩
    cases hc : copyPlainCheck D E o (E.mixins src.ty) with
    | none => have := (copyPlainCheck_none ho _ (fun _ h => h)).1 hc m hm hm'; rw [hf] at this; simp at this
    | some k =>
      have := copyPlainCheck_some ho _ (fun _ h => h) hc
      exact ⟨k, this.1, this.2.1, this.2.2, by unfold copyMatchingPlain; rw [hc]⟩

/-- `move_matching_from`, with or without the fallback to `move_init`: the target's matching mixins have the bytes the source's had, the source's are zero, and no other byte of
memory changes. Without the functions it fails and nothing was written. -/
theorem C94_move (mem : Mem) (fb : Bool) (o src : PlainObj) (ho : PlainOk E o) (hs : PlainOk E src) (ha : OwnApart D E o) (hb : OwnApart D E src) (hoo : ObjsApart D E o src) :
    ((∀ m ∈ E.mixins src.ty, m ∈ E.mixins o.ty → (D.mix m).hasMoveAsgn = true ∨ (fb = true ∧ (D.mix m).hasMoveInit = true)) →
      ∃ mem', moveMatchingPlain D E mem fb o src = some (.ok mem') ∧
      (∀ m p q, placeIn E o m = some p → placeIn E src m = some q → valueOf D mem' m p = valueOf D mem m q ∧ valueOf D mem' m q = List.replicate (D.mix m).size 0) ∧
      ∀ x, (∀ m p q, placeIn E o m = some p → placeIn E src m = some q → ¬ InRange x p (D.mix m).size ∧ ¬ InRange x q (D.mix m).size) → mem' x = mem x) ∧
    ((∃ m ∈ E.mixins src.ty, m ∈ E.mixins o.ty ∧ (D.mix m).hasMoveAsgn = false ∧ (fb = true → (D.mix m).hasMoveInit = false)) →
      ∃ m ∈ E.mixins src.ty, m ∈ E.mixins o.ty ∧ (D.mix m).hasMoveAsgn = false ∧ (fb = true → (D.mix m).hasMoveInit = false) ∧
        moveMatchingPlain D E mem fb o src = some (.error (.missingFunc m))) := by
  constructor
  · intro h
    have hc := (movePlainCheck_none (D := D) ho fb (E.mixins src.ty) (fun _ h => h)).2 h
    obtain ⟨h1, h2⟩ := matchingStep_spec moveStep_ok ha hb hoo (List.zip (E.mixins src.ty) src.data) mem (fun e he => (plainOk_at_iff hs _ _).2 he) (zip_fst_nodup hs)
    refine ⟨matchingStep E (movePlainOne D) o mem (List.zip (E.mixins src.ty) src.data), ?_, ?_, ?_⟩
    · unfold moveMatchingPlain; rw [hc]; simp only; rw [movePlain_steps ho _ _ _ (fun _ h => h) hs.places]; rfl
    · intro m p q hp hq
      have := h1 (m, q) ((plainOk_at_iff hs _ _).1 hq) p hp
      exact ⟨this.1, this.2 rfl⟩
    · intro x hx
      apply h2 x
      intro e he p hp
      have := hx e.1 p e.2 hp ((plainOk_at_iff hs _ _).2 he)
      exact ⟨this.1, fun _ => this.2⟩
  · rintro ⟨m, hm, hm', hf, hf'⟩
    cases hc : movePlainCheck D E fb o (E.mixins src.ty) with
    | none =>
      have := (movePlainCheck_none ho fb _ (fun _ h => h)).1 hc m hm hm'
      rw [hf] at this
      rcases this with h | ⟨h, h'⟩
      · simp at h
      · rw [hf' h] at h'; simp at h'
    | some k =>
      have := movePlainCheck_some ho _ (fun _ h => h) hc
      exact ⟨k, this.1, this.2.1, this.2.2.1, this.2.2.2, by unfold moveMatchingPlain; rw [hc]⟩

/-- Two objects are equal exactly if they are of one type, each of its mixins has a way to compare, and they have the same bytes. It is never undefined. -/
theorem C94_equals (mem : Mem) (o other : PlainObj) (ho : PlainOk E o) (hs : PlainOk E other) :
    ∃ b, equalsPlain D E mem o other = some b ∧ (b = true ↔ o.ty = other.ty ∧ (∀ m ∈ E.mixins o.ty, (D.mix m).hasEquals = true ∨ (D.mix m).hasCompare = true) ∧
      contentOf D E mem o = contentOf D E mem other) := by
  unfold equalsPlain
  by_cases ht : o.ty ≠ other.ty
  · rw [if_pos ht]
    exact ⟨false, rfl, by simp [ht]⟩
  · rw [if_neg ht]
    have ht' : o.ty = other.ty := Decidable.not_not.1 ht
    have hl : other.data.length = (E.mixins o.ty).length := by rw [ht']; exact hs.places
    obtain ⟨b, hb, hi⟩ := equalsPlainFrom_spec (D := D) mem (E.mixins o.ty) o.data other.data ho.places hl
    refine ⟨b, hb, ?_⟩
    rw [hi, content_eq_iff mem _ _ _ ho.places hl]
    unfold contentOf
    rw [← ht']
    simp

/-- Two objects of one type, each mixin of which has `compare`, compare as their bytes, one mixin after the other, do lexicographically. -/
theorem C94_compare (tyCmp : TypeId → TypeId → Int) (hself : ∀ t, tyCmp t t = 0) (mem : Mem) (o other : PlainObj) (ho : PlainOk E o) (hs : PlainOk E other) (ht : o.ty = other.ty)
    (hc : ∀ m ∈ E.mixins o.ty, (D.mix m).hasCompare = true) :
    ∃ r, comparePlain D E tyCmp mem o other = some (.ok r) ∧ ComparesLex r (contentOf D E mem o) (contentOf D E mem other) := by
  have hl : other.data.length = (E.mixins o.ty).length := by rw [ht]; exact hs.places
  obtain ⟨r, hr, hi⟩ := comparePlainFrom_spec (D := D) mem (E.mixins o.ty) o.data other.data ho.places hl hc
  refine ⟨r, ?_, ?_⟩
  · unfold comparePlain
    rw [if_neg (by rw [ht, hself]; simp)]
    exact hr
  · unfold contentOf
    rw [← ht]
    exact hi

/-- Objects of types that differ in order compare as the types; objects of one type fail with the first mixin without `compare` if those before it are the same, and compare as those
before it else. -/
theorem C94_compare_else (tyCmp : TypeId → TypeId → Int) (hself : ∀ t, tyCmp t t = 0) (mem : Mem) (o other : PlainObj) (ho : PlainOk E o) (hs : PlainOk E other) :
    (tyCmp o.ty other.ty ≠ 0 → comparePlain D E tyCmp mem o other = some (.ok (tyCmp o.ty other.ty))) ∧
    (o.ty = other.ty → ∀ pre m post, E.mixins o.ty = pre ++ m :: post → (∀ x ∈ pre, (D.mix x).hasCompare = true) → (D.mix m).hasCompare = false →
      let a := (List.zip pre o.data).flatMap (fun e => valueOf D mem e.1 e.2)
      let b := (List.zip pre other.data).flatMap (fun e => valueOf D mem e.1 e.2)
      (a = b → comparePlain D E tyCmp mem o other = some (.error (.missingFunc m))) ∧
      (a ≠ b → ∃ r, comparePlain D E tyCmp mem o other = some (.ok r) ∧ ComparesLex r a b)) := by
  constructor
  · intro h; unfold comparePlain; rw [if_pos h]
  · intro ht pre m post hm hp hc
    have hl : other.data.length = (E.mixins o.ty).length := by rw [ht]; exact hs.places
    have h1 := comparePlainFrom_missing mem pre m post o.data other.data (by rw [← hm]; exact ho.places) (by rw [← hm]; exact hl) hp hc
    unfold comparePlain
    rw [if_neg (by rw [ht, hself]; simp), hm]
    exact h1

/-- After copying from an object of the same type the two are equal, and compare as such. -/
theorem C94_copy_equal (tyCmp : TypeId → TypeId → Int) (hself : ∀ t, tyCmp t t = 0) (mem mem' : Mem) (o src : PlainObj) (ho : PlainOk E o) (hs : PlainOk E src)
    (ha : OwnApart D E o) (hb : OwnApart D E src) (hoo : ObjsApart D E o src) (ht : o.ty = src.ty) (hm : copyMatchingPlain D E mem o src = some (.ok mem')) :
    contentOf D E mem' o = contentOf D E mem src ∧ contentOf D E mem' src = contentOf D E mem src ∧
    ((∀ m ∈ E.mixins o.ty, (D.mix m).hasEquals = true ∨ (D.mix m).hasCompare = true) → equalsPlain D E mem' o src = some true) ∧
    ((∀ m ∈ E.mixins o.ty, (D.mix m).hasCompare = true) → comparePlain D E tyCmp mem' o src = some (.ok 0)) := by
  obtain ⟨c1, c2⟩ := C94_copy D E mem o src ho hs ha hb hoo
  have hall : ∀ m ∈ E.mixins src.ty, m ∈ E.mixins o.ty → (D.mix m).hasCopyAsgn = true := by
    intro m h1 h2
    apply Classical.byContradiction
    intro h3
    obtain ⟨k, -, -, -, hk⟩ := c2 ⟨m, h1, h2, by simpa using h3⟩
    rw [hm] at hk; simp at hk
  obtain ⟨mem'', h0, h1, h2⟩ := c1 hall
  rw [hm] at h0
  simp only [Option.some.injEq, Except.ok.injEq] at h0
  subst h0
  have e1 : contentOf D E mem' o = contentOf D E mem src := contentOf_congr ho hs ht h1
  have e2 : contentOf D E mem' src = contentOf D E mem src := by
    apply contentOf_congr hs hs rfl
    intro m p q hp hq
    rw [hp] at hq
    simp only [Option.some.injEq] at hq
    subst hq
    apply valueOf_congr
    intro x hx
    apply h2 x
    intro m' p' hp' _
    exact apart_symm (hoo m' m p' p hp' hp) x hx
  refine ⟨e1, e2, fun h => ?_, fun h => ?_⟩
  · obtain ⟨b, hb, hi⟩ := C94_equals D E mem' o src ho hs
    rw [hb, hi.2 ⟨ht, h, by rw [e1, e2]⟩]
  · obtain ⟨r, hr, hi⟩ := C94_compare D E tyCmp hself mem' o src ho hs ht h
    rw [hr, hi.zero.2 (by rw [e1, e2])]

/-- Moving there and back gives an object back what it had. -/
theorem C94_move_back (mem mem' mem'' : Mem) (fb fb' : Bool) (o src : PlainObj) (ho : PlainOk E o) (hs : PlainOk E src) (ha : OwnApart D E o) (hb : OwnApart D E src)
    (hoo : ObjsApart D E o src) (h1 : moveMatchingPlain D E mem fb o src = some (.ok mem')) (h2 : moveMatchingPlain D E mem' fb' src o = some (.ok mem'')) :
    (∀ m q, placeIn E src m = some q → valueOf D mem'' m q = valueOf D mem m q) ∧
    ∀ x, (∀ m p, placeIn E o m = some p → m ∈ E.mixins src.ty → ¬ InRange x p (D.mix m).size) → mem'' x = mem x := by
  have hoo' : ObjsApart D E src o := fun m m' p p' a b => apart_symm (hoo m' m p' p b a)
  have run : ∀ {mem mem' : Mem} {fb : Bool} {o src : PlainObj}, PlainOk E o → PlainOk E src → OwnApart D E o → OwnApart D E src → ObjsApart D E o src →
      moveMatchingPlain D E mem fb o src = some (.ok mem') →
      (∀ m p q, placeIn E o m = some p → placeIn E src m = some q → valueOf D mem' m p = valueOf D mem m q ∧ valueOf D mem' m q = List.replicate (D.mix m).size 0) ∧
      ∀ x, (∀ m p q, placeIn E o m = some p → placeIn E src m = some q → ¬ InRange x p (D.mix m).size ∧ ¬ InRange x q (D.mix m).size) → mem' x = mem x := by
    intro mem mem' fb o src ho hs ha hb hoo hm
    obtain ⟨c1, c2⟩ := C94_move D E mem fb o src ho hs ha hb hoo
    have hall : ∀ m ∈ E.mixins src.ty, m ∈ E.mixins o.ty → (D.mix m).hasMoveAsgn = true ∨ (fb = true ∧ (D.mix m).hasMoveInit = true) := by
      intro m h1 h2
      apply Classical.byContradiction
      intro h3
      obtain ⟨k, -, -, -, -, hk⟩ := c2 ⟨m, h1, h2, by
        cases h : (D.mix m).hasMoveAsgn <;> simp [h] at h3 ⊢, by
        intro hf
        cases h : (D.mix m).hasMoveInit <;> simp [h, hf] at h3 ⊢⟩
      rw [hm] at hk; simp at hk
    obtain ⟨mem'', h0, h1, h2⟩ := c1 hall
    rw [hm] at h0
    simp only [Option.some.injEq, Except.ok.injEq] at h0
    subst h0
    exact ⟨h1, h2⟩
  obtain ⟨a1, a2⟩ := run ho hs ha hb hoo h1
  obtain ⟨b1, b2⟩ := run hs ho hb ha hoo' h2
  have hval : ∀ m q, placeIn E src m = some q → valueOf D mem'' m q = valueOf D mem m q := by
    intro m q hq
    cases hp : placeIn E o m with
    | some p => rw [(b1 m q p hq hp).1, (a1 m p q hp hq).1]
    | none =>
      have hout : ∀ x, InRange x q (D.mix m).size → ∀ m' p' q', placeIn E o m' = some p' → placeIn E src m' = some q' → ¬ InRange x p' (D.mix m').size ∧ ¬ InRange x q' (D.mix m').size := by
        intro x hx m' p' q' hp' hq'
        have hne : m ≠ m' := by rintro rfl; rw [hp] at hp'; simp at hp'
        exact ⟨apart_symm (hoo m' m p' q hp' hq) x hx, hb m m' q q' hne hq hq' x hx⟩
      apply valueOf_congr
      intro x hx
      rw [b2 x (fun m' p' q' hp' hq' => (hout x hx m' q' p' hq' hp').symm), a2 x (hout x hx)]
  refine ⟨hval, fun x hx => ?_⟩
  by_cases hin : ∃ m p q, placeIn E o m = some p ∧ placeIn E src m = some q ∧ InRange x q (D.mix m).size
  · obtain ⟨m, p, q, hp, hq, hr⟩ := hin
    have h3 := hval m q hq
    unfold valueOf at h3
    obtain ⟨i, hi⟩ : ∃ i, x = q + i := ⟨x - q, by have := hr.1; omega⟩
    have hlt : i < (D.mix m).size := by have := hr.2; omega
    have h4 := congrArg (fun l => l[i]?) h3
    simp only [List.getElem?_map, List.getElem?_range hlt, Option.map_some, Option.some.injEq] at h4
    rw [hi]; exact h4
  · have hout : ∀ m p q, placeIn E o m = some p → placeIn E src m = some q → ¬ InRange x p (D.mix m).size ∧ ¬ InRange x q (D.mix m).size := by
      intro m p q hp hq
      exact ⟨hx m p hp ((plainOk_at_mem hs m).1 (by rw [hq]; rfl)), fun h => hin ⟨m, p, q, hp, hq, h⟩⟩
    rw [b2 x (fun m p q hp hq => (hout m q p hq hp).symm), a2 x hout]

/-! ## An example, and an object moved onto itself -/

/-- Two types: mixins 0 (two bytes) and 1 (three bytes), and mixins 1 and 2 (one byte, without `move_asgn`). -/
def plainD : Decls where
  mem := byMem
  mix m := { name := ⟨0, 0⟩, size := if m = 0 then 2 else if m = 1 then 3 else 1, hasMoveAsgn := m ≠ 2 }
  feat _ := { name := ⟨0, 0⟩, defaultPayload := none }
  userRule _ := { name := ⟨0, 0⟩, apply := none }
  cls _ := { name := ⟨0, 0⟩, matchesT := fun _ => true }

def plainE : TyEnv where
  mixins t := if t = 0 then [0, 1] else [1, 2]
  internal _ _ := false
  indexOf t m := if t = 0 then (if m = 0 then some 0 else if m = 1 then some 1 else none) else (if m = 1 then some 0 else if m = 2 then some 1 else none)
  emptyOf t := t

/-- What is wanted of an object moved from itself, as of a `std::vector` of such mixins that is moved element by element: it has no function that fails, and each mixin still has its
bytes or the source's, which are the same. -/
def SelfMoveKeeps (D : Decls) (E : TyEnv) (mem : Mem) (o : PlainObj) : Prop :=
  ∀ mem', moveMatchingPlain D E mem false o o = some (.ok mem') → contentOf D E mem' o = contentOf D E mem o

/-- An object moved onto itself is zero then, where `memcpy` of a piece of memory to itself does nothing. -/
theorem C94_self_move_refuted : ¬ ∀ D E mem o, PlainOk E o → OwnApart D E o → SelfMoveKeeps D E mem o := by
  intro h
  have hk := h plainD plainE byMem ⟨0, [10, 20]⟩ ⟨by decide, ?_, rfl⟩ ?_
  · unfold SelfMoveKeeps at hk
    have h1 : ∃ mem', moveMatchingPlain plainD plainE byMem false ⟨0, [10, 20]⟩ ⟨0, [10, 20]⟩ = some (.ok mem') ∧ contentOf plainD plainE mem' ⟨0, [10, 20]⟩ = [0, 0, 0, 0, 0] :=
      ⟨_, rfl, by decide +kernel⟩
    obtain ⟨mem', h2, h3⟩ := h1
    have := hk mem' h2
    rw [h3] at this
    exact absurd this (by decide +kernel)
  · intro u m i hu
    simp only [plainE, if_pos]
    by_cases h0 : m = 0
    · subst h0
      match i with
      | 0 => simp
      | 1 => simp
      | n + 2 => simp
    · by_cases h1 : m = 1
      · subst h1
        match i with
        | 0 => simp
        | 1 => simp
        | n + 2 => simp
      · match i with
        | 0 => simp [h0, h1]; omega
        | 1 => simp [h0, h1]; omega
        | n + 2 => simp [h0, h1]
  · intro m m' p p' hne hp hp'
    have key : ∀ m p, placeIn plainE ⟨0, [10, 20]⟩ m = some p → (m = 0 ∧ p = 10) ∨ (m = 1 ∧ p = 20) := by
      intro m p hp
      have hp := lookup_zip_mem hp
      simp only [plainE, if_pos, List.zip_cons_cons, List.zip_nil_left, List.mem_cons, Prod.mk.injEq, List.not_mem_nil, or_false] at hp
      exact hp
    intro x
    unfold InRange
    rcases key m p hp with ⟨rfl, rfl⟩ | ⟨rfl, rfl⟩ <;> rcases key m' p' hp' with ⟨rfl, rfl⟩ | ⟨rfl, rfl⟩ <;> simp [plainD] at hne ⊢ <;> omega

/-- An object of the second type copied and moved from one of the first: the mixin both have gets the bytes, the other stays; mixin 2 needs the fallback. -/
example :
    (∃ mem', copyMatchingPlain plainD plainE byMem ⟨1, [30, 40]⟩ ⟨0, [10, 20]⟩ = some (.ok mem') ∧
      contentOf plainD plainE mem' ⟨1, [30, 40]⟩ = [20, 21, 22, 40] ∧ contentOf plainD plainE mem' ⟨0, [10, 20]⟩ = [10, 11, 20, 21, 22]) ∧
    (∃ mem', moveMatchingPlain plainD plainE byMem true ⟨1, [30, 40]⟩ ⟨1, [50, 60]⟩ = some (.ok mem') ∧
      contentOf plainD plainE mem' ⟨1, [30, 40]⟩ = [50, 51, 52, 60] ∧ contentOf plainD plainE mem' ⟨1, [50, 60]⟩ = [0, 0, 0, 0]) ∧
    moveMatchingPlain plainD plainE byMem false ⟨1, [30, 40]⟩ ⟨1, [50, 60]⟩ = some (.error (.missingFunc 2)) ∧
    comparePlain plainD plainE (fun _ _ => 0) byMem ⟨1, [30, 40]⟩ ⟨1, [50, 60]⟩ = some (.ok (-1)) ∧
    equalsPlain plainD plainE byMem ⟨1, [30, 40]⟩ ⟨1, [50, 60]⟩ = some false :=
  ⟨⟨_, rfl, by decide +kernel, by decide +kernel⟩, ⟨_, rfl, by decide +kernel, by decide +kernel⟩, rfl, by rfl, by rfl⟩

end Dnmx.Props
