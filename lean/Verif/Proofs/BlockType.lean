import Verif.Proofs.BlockTables
import Verif.Proofs.LayoutLemmas
import Verif.Spec.TypeMemory

/-!
# A whole type in its block
-/

set_option linter.unusedSimpArgs false
set_option linter.unusedVariables false

namespace Dnmx
open Spec

/-- the header after construction -/
theorem blockConstruct_ok (b : Block) (d n : Nat) (hi : 96 ≤ b.size) :
    ∃ b', b.construct d n = some b' ∧ Holds b' 16 8 (.dom d) ∧ Holds b' 80 4 (.num n) ∧ Holds b' 88 8 (.num 0) ∧
      Only b b' (Span 0 96) := by
  obtain ⟨b1, e1, h1, o1⟩ := store_ok b 0 8 .null (by decide) (by omega)
  obtain ⟨b2, e2, h2, o2⟩ := store_ok b1 8 4 (.num 0) (by decide) (by rw [o1.size]; omega)
  have s2 : b2.size = b.size := by rw [o2.size, o1.size]
  obtain ⟨b3, e3, h3, o3⟩ := store_ok b2 16 8 (.dom d) (by decide) (by omega)
  obtain ⟨b4, e4, h4, o4⟩ := store_ok b3 24 8 .null (by decide) (by rw [o3.size]; omega)
  have s4 : b4.size = b.size := by rw [o4.size, o3.size, s2]
  obtain ⟨b5, e5, h5, o5⟩ := store_ok b4 32 8 (.num 0) (by decide) (by omega)
  obtain ⟨b6, e6, h6, o6⟩ := store_ok b5 40 4 (.num 0) (by decide) (by rw [o5.size]; omega)
  have s6 : b6.size = b.size := by rw [o6.size, o5.size, s4]
  obtain ⟨b7, e7, h7, o7⟩ := store_ok b6 44 4 (.num 0) (by decide) (by omega)
  obtain ⟨b8, e8, h8, o8⟩ := store_ok b7 48 8 .null (by decide) (by rw [o7.size]; omega)
  have s8 : b8.size = b.size := by rw [o8.size, o7.size, s6]
  obtain ⟨b9, e9, h9, o9⟩ := store_ok b8 56 8 (.num 0) (by decide) (by omega)
  obtain ⟨b10, e10, h10, o10⟩ := store_ok b9 64 8 .null (by decide) (by rw [o9.size]; omega)
  have s10 : b10.size = b.size := by rw [o10.size, o9.size, s8]
  obtain ⟨b11, e11, h11, o11⟩ := store_ok b10 72 8 (.num 0) (by decide) (by omega)
  obtain ⟨b12, e12, h12, o12⟩ := store_ok b11 80 4 (.num n) (by decide) (by rw [o11.size]; omega)
  obtain ⟨b13, e13, h13, o13⟩ := store_ok b12 88 8 (.num 0) (by decide) (by rw [o12.size, o11.size]; omega)
  have w : ∀ {c c' : Block} {lo hi : Nat}, Only c c' (Span lo hi) → 24 ≤ lo → hi ≤ 96 → Only c c' (Span 24 96) :=
    fun o h1 h2 => o.mono (fun a h => by unfold Span at *; omega)
  have after : Only b3 b13 (Span 24 96) :=
    (w o4 (by decide) (by decide)).trans <| (w o5 (by decide) (by decide)).trans <| (w o6 (by decide) (by decide)).trans <|
    (w o7 (by decide) (by decide)).trans <| (w o8 (by decide) (by decide)).trans <| (w o9 (by decide) (by decide)).trans <|
    (w o10 (by decide) (by decide)).trans <| (w o11 (by decide) (by decide)).trans <| (w o12 (by decide) (by decide)).trans
      (w o13 (by decide) (by decide))
  refine ⟨b13, ?_, h3.frame after (fun k hk => by unfold Span; omega), h12.frame o13 (fun k hk => by unfold Span; omega), h13, ?_⟩
  · simp only [Block.construct, atFtable, atFtableLength, atDom, atMixins, atMixinsLength, atObjSize, atObjAlign, atOffsets, atOffsetsLength,
      atSparse, atSparseLength, atBufSize, atNumObjects, e1, e2, e3, e4, e5, e6, e7, e8, e9, e10, e11, e12, Option.bind_eq_bind, Option.bind_some]
    exact e13
  · exact (o1.mono (fun a h => by unfold Span at *; omega)).trans <| (o2.mono (fun a h => by unfold Span at *; omega)).trans <|
      (o3.mono (fun a h => by unfold Span at *; omega)).trans (after.mono (fun a h => by unfold Span at *; omega))

theorem sparseFill_bound (ids : List Nat) : ∀ (i : Nat) (tbl : List (Option Nat)) (x k : Nat),
    (∀ (y j : Nat), tbl[y]? = some (some j) → j < i) → (Dnmx.sparseFill ids i tbl)[x]? = some (some k) → k < i + ids.length := by
  induction ids with
  | nil => intro i tbl x k ht h; have := ht x k h; simpa using this
  | cons id ids ih =>
    intro i tbl x k ht h
    have := ih (i + 1) (tbl.set id (some i)) x k (by
      intro y j hy
      by_cases hid : id = y
      · subst hid
        rw [List.getElem?_set] at hy
        simp only [if_true] at hy
        split at hy
        · simp only [Option.some.injEq] at hy; omega
        · simp at hy
      · rw [List.getElem?_set_ne hid] at hy
        have := ht y j hy; omega) h
    simp only [List.length_cons]; omega

theorem sparseTable_bound (ids : List Nat) (x k : Nat) (h : (sparseTable ids)[x]? = some (some k)) : k < ids.length := by
  have := sparseFill_bound ids 0 _ x k (by
    intro y j hy
    rw [List.getElem?_replicate] at hy
    split at hy <;> simp at hy) h
  omega

theorem sparseTable_length (ids : List Nat) : (sparseTable ids).length = numSparse ids := by
  simp [sparseTable, sparseFill_length]

theorem layoutLoop_length (ms : List MixDecl) : ∀ (s a : Nat), (layoutLoop ms s a).offsets.length = ms.length := by
  induction ms with
  | nil => intro s a; rfl
  | cons m ms ih =>
    intro s a
    simp only [layoutLoop]
    split
    · simp [ih]
    · simp [ih]

theorem FtHolds.frame {b b' : Block} {S : Nat → Prop} {ea lo hi : Nat} {r : Option FEntry} (h : FtHolds b ea lo hi r) (o : Only b b' S)
    (hlo : lo ≤ ea) (hhi : ea + 24 ≤ hi) (hd : ∀ a, lo ≤ a → a < hi → ¬ S a) : FtHolds b' ea lo hi r := by
  cases r with
  | none => exact Zeroed.frame h o (fun k hk => hd _ (by omega) (by omega))
  | some fe =>
    obtain ⟨bg, g1, g2, h1, h2, h3, h4⟩ := h
    refine ⟨bg, g1, g2, h1.frame o (fun k hk => hd _ (by omega) (by omega)), h2.frame o (fun k hk => hd _ (by omega) (by omega)),
      h3.frame o (fun k hk => hd _ (by omega) (by omega)), ?_⟩
    intro k p hk
    have := (List.getElem?_eq_some_iff.1 hk).1
    exact (h4 k p hk).frame o (fun k' hk' => hd _ (by omega) (by omega))

/-- two spans, and everything from `c` on -/
def Spans (a1 a2 b1 b2 c : Nat) (a : Nat) : Prop := (a1 ≤ a ∧ a < a2) ∨ (b1 ≤ a ∧ a < b2) ∨ c ≤ a

/-- what the parts after the ftable leave in the block -/
structure Tables (D : Decls) (ids : List Nat) (ms : List Mix) (ftLen p1 p2 p3 : Nat) (b : Block) : Prop where
  ftable : Holds b 0 8 (.ptr 96)
  ftableLength : Holds b 8 4 (.num ftLen)
  mixins : Holds b 24 8 (.ptr p1)
  mixinsLength : Holds b 32 8 (.num ms.length)
  objSize : Holds b 40 4 (.num (layout (ms.map D.mix)).size)
  objAlign : Holds b 44 4 (.num (layout (ms.map D.mix)).align)
  offsets : Holds b 48 8 (.ptr p2)
  offsetsLength : Holds b 56 8 (.num ms.length)
  sparse : Holds b 64 8 (.ptr p3)
  sparseLength : Holds b 72 8 (.num (numSparse ids))
  mixinArray : ∀ (i : Nat) m, ms[i]? = some m → Holds b (p1 + i * 8) 8 (.mixin m)
  offsetArray : ∀ (i o : Nat), (layout (ms.map D.mix)).offsets[i]? = some o → Holds b (p2 + i * 4) 4 (.num o)
  sparseArray : SpHolds b p3 (sparseTable ids)

set_option maxHeartbeats 1000000 in
theorem finishType_ok (D : Decls) (ids : List Nat) (ms : List Mix) (ftLen : Nat) (s : TypeSizes) (b : Block)
    (hf : s.ftable % 8 = 0) (hm : s.mixins = ms.length * 8) (ho : s.offsets = ms.length * 4) 
    (hroom : 96 + s.ftable + s.mixins + s.offsets + numSparse ids * 4 ≤ b.size) :
    ∃ b', b.finishType D ids ms ftLen s = some b' ∧
      Tables D ids ms ftLen (96 + s.ftable) (96 + s.ftable + s.mixins) (96 + s.ftable + s.mixins + s.offsets) b' ∧
      Only b b' (Spans 0 16 24 80 (96 + s.ftable)) := by
  generalize hp1 : 96 + s.ftable = p1 at *
  generalize hp2 : p1 + s.mixins = p2 at *
  generalize hp3 : p2 + s.offsets = p3 at *
  have hlen : (layout (ms.map D.mix)).offsets.length = ms.length := by
    unfold layout; rw [layoutLoop_length]; simp
  obtain ⟨b1, e1, h1, o1⟩ := store_ok b 0 8 (.ptr 96) (by decide) (by omega)
  have z1 : b1.size = b.size := o1.size
  obtain ⟨b2, e2, h2, o2⟩ := store_ok b1 8 4 (.num ftLen) (by decide) (by omega)
  have z2 : b2.size = b.size := by rw [o2.size, z1]
  obtain ⟨b3, e3, h3, o3⟩ := storeMixins_ok ms b2 p1 (by omega) (by omega)
  have z3 : b3.size = b.size := by rw [o3.size, z2]
  obtain ⟨b4, e4, h4, o4⟩ := store_ok b3 24 8 (.ptr p1) (by decide) (by omega)
  have z4 : b4.size = b.size := by rw [o4.size, z3]
  obtain ⟨b5, e5, h5, o5⟩ := store_ok b4 32 8 (.num ms.length) (by decide) (by omega)
  have z5 : b5.size = b.size := by rw [o5.size, z4]
  obtain ⟨b6, e6, h6, o6⟩ := store_ok b5 48 8 (.ptr p2) (by decide) (by omega)
  have z6 : b6.size = b.size := by rw [o6.size, z5]
  obtain ⟨b7, e7, h7, o7⟩ := store_ok b6 56 8 (.num ms.length) (by decide) (by omega)
  have z7 : b7.size = b.size := by rw [o7.size, z6]
  obtain ⟨b8, e8, h8, o8⟩ := storeNums_ok (layout (ms.map D.mix)).offsets b7 p2 (by omega) (by rw [hlen]; omega)
  rw [hlen] at o8
  have z8 : b8.size = b.size := by rw [o8.size, z7]
  obtain ⟨b9, e9, h9, o9⟩ := store_ok b8 40 4 (.num (layout (ms.map D.mix)).size) (by decide) (by omega)
  have z9 : b9.size = b.size := by rw [o9.size, z8]
  obtain ⟨b10, e10, h10, o10⟩ := store_ok b9 44 4 (.num (layout (ms.map D.mix)).align) (by decide) (by omega)
  have z10 : b10.size = b.size := by rw [o10.size, z9]
  obtain ⟨b11, b12, e11, e12, h12, o12⟩ := sparseTable_sim ids b10 p3 (by omega) (by omega)
  have z12 : b12.size = b.size := by rw [o12.size, z10]
  obtain ⟨b13, e13, h13, o13⟩ := store_ok b12 64 8 (.ptr p3) (by decide) (by omega)
  have z13 : b13.size = b.size := by rw [o13.size, z12]
  obtain ⟨b14, e14, h14, o14⟩ := store_ok b13 72 8 (.num (numSparse ids)) (by decide) (by omega)
  have w : ∀ {c c' : Block} {lo hi : Nat} (a1 a2 b1 b2 x : Nat), Only c c' (Span lo hi) →
      ((a1 ≤ lo ∧ hi ≤ a2) ∨ (b1 ≤ lo ∧ hi ≤ b2) ∨ x ≤ lo) → Only c c' (Spans a1 a2 b1 b2 x) :=
    fun a1 a2 b1 b2 x o h => o.mono (fun a g => by unfold Span at g; unfold Spans; omega)
  have w' : ∀ {c c' : Block} {a1 a2 b1 b2 x : Nat} (a1' a2' b1' b2' x' : Nat), Only c c' (Spans a1 a2 b1 b2 x) →
      (∀ a, Spans a1 a2 b1 b2 x a → Spans a1' a2' b1' b2' x' a) → Only c c' (Spans a1' a2' b1' b2' x') :=
    fun _ _ _ _ _ o h => o.mono h
  have r13 : Only b13 b14 (Spans 72 80 72 80 b.size) := w _ _ _ _ _ o14 (by omega)
  have r12 : Only b12 b14 (Spans 64 80 72 80 b.size) := (w _ _ _ _ _ o13 (by omega)).trans (w' _ _ _ _ _ r13 (fun a g => by unfold Spans at *; omega))
  have r10 : Only b10 b14 (Spans 64 80 72 80 p3) := (w _ _ _ _ _ o12 (by omega)).trans (w' _ _ _ _ _ r12 (fun a g => by unfold Spans at *; omega))
  have r9 : Only b9 b14 (Spans 64 80 44 48 p3) := (w _ _ _ _ _ o10 (by omega)).trans (w' _ _ _ _ _ r10 (fun a g => by unfold Spans at *; omega))
  have r8 : Only b8 b14 (Spans 64 80 40 48 p3) := (w _ _ _ _ _ o9 (by omega)).trans (w' _ _ _ _ _ r9 (fun a g => by unfold Spans at *; omega))
  have r7 : Only b7 b14 (Spans 64 80 40 48 p2) := (w _ _ _ _ _ o8 (by omega)).trans (w' _ _ _ _ _ r8 (fun a g => by unfold Spans at *; omega))
  have r6 : Only b6 b14 (Spans 56 80 40 48 p2) := (w _ _ _ _ _ o7 (by omega)).trans (w' _ _ _ _ _ r7 (fun a g => by unfold Spans at *; omega))
  have r5 : Only b5 b14 (Spans 40 80 40 48 p2) := (w _ _ _ _ _ o6 (by omega)).trans (w' _ _ _ _ _ r6 (fun a g => by unfold Spans at *; omega))
  have r4 : Only b4 b14 (Spans 32 80 40 48 p2) := (w _ _ _ _ _ o5 (by omega)).trans (w' _ _ _ _ _ r5 (fun a g => by unfold Spans at *; omega))
  have r3 : Only b3 b14 (Spans 24 80 40 48 p2) := (w _ _ _ _ _ o4 (by omega)).trans (w' _ _ _ _ _ r4 (fun a g => by unfold Spans at *; omega))
  have r2 : Only b2 b14 (Spans 24 80 40 48 p1) := (w _ _ _ _ _ o3 (by omega)).trans (w' _ _ _ _ _ r3 (fun a g => by unfold Spans at *; omega))
  have r1 : Only b1 b14 (Spans 8 16 24 80 p1) := (w _ _ _ _ _ o2 (by omega)).trans (w' _ _ _ _ _ r2 (fun a g => by unfold Spans at *; omega))
  have r0 : Only b b14 (Spans 0 16 24 80 p1) := (w _ _ _ _ _ o1 (by omega)).trans (w' _ _ _ _ _ r1 (fun a g => by unfold Spans at *; omega))
  refine ⟨b14, ?_, ?_, r0⟩
  · simp only [Block.finishType, sizeofType, atFtable, atFtableLength, atMixins, atMixinsLength, atObjSize, atObjAlign, atOffsets, atOffsetsLength,
      atSparse, atSparseLength, hp1, hp2, hp3, e1, e2, e3, e4, e5, e6, e7, e8, e9, e10, e11, e12, e13, Option.bind_eq_bind, Option.bind_some]
    exact e14
  · refine { ftable := h1.frame r1 (fun k hk => by unfold Spans; omega), ftableLength := h2.frame r2 (fun k hk => by unfold Spans; omega), mixins := h4.frame r4 (fun k hk => by unfold Spans; omega), mixinsLength := h5.frame r5 (fun k hk => by unfold Spans; omega), objSize := h9.frame r9 (fun k hk => by unfold Spans; omega), objAlign := h10.frame r10 (fun k hk => by unfold Spans; omega), offsets := h6.frame r6 (fun k hk => by unfold Spans; omega), offsetsLength := h7.frame r7 (fun k hk => by unfold Spans; omega), sparse := h13.frame r13 (fun k hk => by unfold Spans; omega), sparseLength := h14, mixinArray := ?_, offsetArray := ?_, sparseArray := ?_ }
    · intro i m hi
      have hlt := (List.getElem?_eq_some_iff.1 hi).1
      exact (h3 i m hi).frame r3 (fun k hk => by unfold Spans; omega)
    · intro i o hi
      have hlt := (List.getElem?_eq_some_iff.1 hi).1
      rw [hlen] at hlt
      exact (h8 i o hi).frame r8 (fun k hk => by unfold Spans; omega)
    · intro i x hi
      have hin := (h12 i x hi).inside
      exact (h12 i x hi).frame r12 (fun k hk => by unfold Spans; omega)

/-! ## reading -/

theorem some_bind {α β : Type} (a : α) (f : α → Option β) : (some a >>= f) = f a := rfl

theorem mixinAt_of (D : Decls) (ids : List Nat) (ms : List Mix) (ftLen p1 p2 p3 : Nat) (b : Block) (h : Tables D ids ms ftLen p1 p2 p3 b) (i : Nat) :
    b.mixinAt i = some ms[i]? := by
  simp only [Block.mixinAt, atMixinsLength, atMixins, load_of_holds h.mixinsLength (by decide), some_bind, Scalar.num?]
  by_cases hi : ms.length ≤ i
  · rw [if_pos hi, List.getElem?_eq_none hi]; rfl
  · have he := List.getElem?_eq_getElem (Nat.lt_of_not_le hi)
    rw [if_neg hi, load_of_holds h.mixins (by decide), some_bind]
    simp only [Scalar.off?, some_bind]
    rw [load_of_holds (h.mixinArray i _ he) (by decide), some_bind, he]
    rfl

theorem offsetAt_of (D : Decls) (ids : List Nat) (ms : List Mix) (ftLen p1 p2 p3 : Nat) (b : Block) (h : Tables D ids ms ftLen p1 p2 p3 b) (i : Nat) :
    b.offsetAt i = some (layout (ms.map D.mix)).offsets[i]? := by
  have hlen : (layout (ms.map D.mix)).offsets.length = ms.length := by
    unfold layout; rw [layoutLoop_length]; simp
  simp only [Block.offsetAt, atOffsetsLength, atOffsets, load_of_holds h.offsetsLength (by decide), some_bind, Scalar.num?]
  by_cases hi : ms.length ≤ i
  · rw [if_pos hi, List.getElem?_eq_none (by rw [hlen]; exact hi)]; rfl
  · have he := List.getElem?_eq_getElem (l := (layout (ms.map D.mix)).offsets) (i := i) (by rw [hlen]; omega)
    rw [if_neg hi, load_of_holds h.offsets (by decide), some_bind]
    simp only [Scalar.off?, some_bind]
    rw [load_of_holds (h.offsetArray i _ he) (by decide), some_bind, he]
    rfl

theorem indexOf_of (D : Decls) (ids : List Nat) (ms : List Mix) (ftLen p1 p2 p3 : Nat) (b : Block) (h : Tables D ids ms ftLen p1 p2 p3 b)
    (hb : ids.length ≤ invalidIndex) (t : TypeRec) (ht : t.sparse = sparseTable ids) (id : Nat) : b.indexOf id = some (t.indexOf (some id)) := by
  have hlen := sparseTable_length ids
  simp only [Block.indexOf, atSparseLength, atSparse, load_of_holds h.sparseLength (by decide), some_bind, Scalar.num?, TypeRec.indexOf, ht]
  by_cases hi : numSparse ids ≤ id
  · rw [if_pos hi, List.getElem?_eq_none (by rw [hlen]; exact hi)]; rfl
  · have he := List.getElem?_eq_getElem (l := sparseTable ids) (i := id) (by rw [hlen]; omega)
    rw [if_neg hi, load_of_holds h.sparse (by decide), some_bind]
    simp only [Scalar.off?, some_bind]
    rw [load_of_holds (h.sparseArray id _ he) (by decide), some_bind, he]
    simp only [Scalar.num?, some_bind]
    cases hx : (sparseTable ids)[id]'(by rw [hlen]; omega) with
    | none => simp
    | some k =>
      rw [hx] at he
      have := sparseTable_bound ids id k he
      have hne : k ≠ invalidIndex := by omega
      simp [hne]

theorem ftableAt_of (b : Block) (t : TypeRec) (lo hi : Nat) (hf : Holds b 0 8 (.ptr 96)) (hl : Holds b 8 4 (.num t.ftable.length))
    (hr : 96 + t.ftable.length * 24 ≤ b.size) (h : ∀ (i : Nat) r, t.ftable[i]? = some r → FtHolds b (96 + i * 24) lo hi r) (id : Nat) :
    b.ftableAt id = some (t.ftableAt (some id)) := by
  simp only [Block.ftableAt, atFtableLength, atFtable, load_of_holds hl (by decide), some_bind, Scalar.num?, TypeRec.ftableAt]
  by_cases hi : t.ftable.length ≤ id
  · rw [if_pos hi, List.getElem?_eq_none hi]; rfl
  · have hlt := Nat.lt_of_not_le hi
    have he := List.getElem?_eq_getElem hlt
    rw [if_neg hi, load_of_holds hf (by decide), some_bind]
    simp only [Scalar.off?, some_bind, sizeofEntry]
    have hh := h id _ he
    rw [he]
    cases hx : t.ftable[id] with
    | none =>
      rw [hx] at hh
      have hld : b.load (96 + id * 24) 8 = some .null := by
        rw [load_of_zeroed (fun k hk => hh k (by omega)) (by decide) (by omega) (by omega)]; rfl
      rw [hld]; rfl
    | some fe =>
      rw [hx] at hh
      obtain ⟨bg, _, _, h1, h2, h3, h4⟩ := hh
      have d1 : (bg + fe.pls.length * 24 - bg) / 24 = fe.pls.length := by omega
      have d2 : (bg + fe.topBack * 24 - bg) / 24 = fe.topBack := by omega
      rw [load_of_holds h1 (by decide), some_bind]
      simp only [Scalar.off?, some_bind, load_of_holds h2 (by decide), load_of_holds h3 (by decide), sizeofPayload, d1, d2,
        loadPayloads_of_holds b fe.pls bg h4]
      rfl

/-- the sizes without overflow -/
theorem typeSizes_exact (entries pls n sp : Nat) (h : typeNeed entries pls n sp < 2 ^ 32) :
    (typeSizes entries pls n sp).ftable = entries * 24 + pls * 24 ∧ (typeSizes entries pls n sp).mixins = n * 8 ∧
    (typeSizes entries pls n sp).offsets = n * 4 ∧ (typeSizes entries pls n sp).sparse = sp * 4 ∧
    (typeSizes entries pls n sp).total = typeNeed entries pls n sp := by
  unfold typeNeed at h
  simp only [typeSizes, TypeSizes.total, sizeofEntry, sizeofPayload, sizeofType, u32, typeNeed]
  omega

theorem checkMixins_ids (mixId mixDom : Mix → Option Nat) (d : DomId) (ms : List Mix) (h : checkMixins mixId mixDom d ms = .ok ()) :
    (ms.filterMap mixId).length = ms.length := by
  induction ms with
  | nil => rfl
  | cons m ms ih =>
    simp only [checkMixins] at h
    cases hm : mixId m with
    | none => rw [hm] at h; simp at h
    | some i =>
      rw [hm] at h
      simp only [reduceCtorEq, if_false] at h
      split at h
      · simp at h
      · split at h
        · simp at h
        · simp [hm, ih h]

/-- the block of a type is the type -/
theorem typeBlock_sim (D : Decls) (W : World) (d : DomId) (tid : TypeId) (ms : List Mix) (hc : checkMixins W.mixId W.mixDom d ms = .ok ())
    (hneed : typeNeed (ftableSize W.featId (featStream D 0 ms)) (featStream D 0 ms).length ms.length (numSparse (ms.filterMap W.mixId)) < 2 ^ 32) :
    match buildType D W d tid ms with
    | .error x => typeBlock D W d ms = .error x
    | .ok t => ∃ b, typeBlock D W d ms = .ok b ∧ InMemory b t ∧
        b.size = typeNeed (ftableSize W.featId (featStream D 0 ms)) (featStream D 0 ms).length ms.length (numSparse (ms.filterMap W.mixId)) := by
  obtain ⟨s1, s2, s3, s4, s5⟩ := typeSizes_exact _ _ _ _ hneed
  generalize hsz : typeSizes (ftableSize W.featId (featStream D 0 ms)) (featStream D 0 ms).length ms.length (numSparse (ms.filterMap W.mixId)) = s at *
  generalize hn : typeNeed (ftableSize W.featId (featStream D 0 ms)) (featStream D 0 ms).length ms.length (numSparse (ms.filterMap W.mixId)) = need at *
  have hn' := hn
  unfold typeNeed at hn'
  obtain ⟨b1, e1, g1, g2, g3, o1⟩ := blockConstruct_ok (Block.fresh s.total) d s.total (by simp only [Block.fresh]; omega)
  have z1 : b1.size = need := by rw [o1.size]; exact s5
  have hft := buildFtable_sim D W.featId ms b1 96 (by decide) (by omega)
  rw [← s1] at hft
  simp only [buildType, hc]
  cases hb : Dnmx.buildFtable D W.featId ms with
  | error x =>
    rw [hb] at hft
    simp only at hft ⊢
    simp only [typeBlock, hsz, e1, orUb, bind, Except.bind, sizeofType, hft]
  | ok ft =>
    rw [hb] at hft
    simp only at hft ⊢
    obtain ⟨b2, e2, hl, hent, o2⟩ := hft
    have z2 : b2.size = need := by rw [o2.size, z1]
    obtain ⟨b3, e3, ht, o3⟩ := finishType_ok D (ms.filterMap W.mixId) ms (ftableSize W.featId (featStream D 0 ms)) s b2 (by omega) s2 s3 (by omega)
    have z3 : b3.size = need := by rw [o3.size, z2]
    refine ⟨b3, by simp only [typeBlock, hsz, e1, orUb, bind, Except.bind, sizeofType, e2, e3], ?_, z3⟩
    have f1 := (g1.frame o2 (fun k hk => by unfold Span; omega)).frame o3 (fun k hk => by unfold Spans; omega)
    have f2 := (g2.frame o2 (fun k hk => by unfold Span; omega)).frame o3 (fun k hk => by unfold Spans; omega)
    have f3 := (g3.frame o2 (fun k hk => by unfold Span; omega)).frame o3 (fun k hk => by unfold Spans; omega)
    refine ⟨?_, mixinAt_of _ _ _ _ _ _ _ _ ht, offsetAt_of _ _ _ _ _ _ _ _ ht, ?_, ?_, ?_, ?_⟩
    · simp only [Block.domain, atDom, load_of_holds f1 (by decide), some_bind]; rfl
    · exact indexOf_of _ _ _ _ _ _ _ _ ht (by rw [checkMixins_ids _ _ _ _ hc]; unfold invalidIndex; omega) _ rfl
    · refine ftableAt_of b3 _ 96 (96 + ftableSize W.featId (featStream D 0 ms) * 24 + (featStream D 0 ms).length * 24) ht.ftable (by rw [hl]; exact ht.ftableLength) (by simp only; rw [hl]; omega) (fun i r hi => ?_)
      have hlt := (List.getElem?_eq_some_iff.1 hi).1
      simp only at hlt
      rw [hl] at hlt
      exact (hent i r hi).frame o3 (by omega) (by omega) (fun a h1 h2 => by unfold Spans; omega)
    · simp only [Block.sizes, atObjSize, atObjAlign, atBufSize, load_of_holds ht.objSize (by decide), load_of_holds ht.objAlign (by decide),
        load_of_holds f2 (by decide), some_bind, Scalar.num?, z3, s5]
      rfl
    · simp only [Block.numObjects, atNumObjects, load_of_holds f3 (by decide), some_bind, Scalar.num?]

end Dnmx
