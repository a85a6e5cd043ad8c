import Verif.Model.TypeBuffer
import Verif.Proofs.FeatureLemmas

/-!
# Reads and writes of a type's block
-/

set_option linter.unusedSimpArgs false
set_option linter.unusedVariables false

namespace Dnmx

/-- a scalar of `w` bytes was the last thing written to its place -/
structure Holds (b : Block) (off w : Nat) (v : Scalar) : Prop where
  aligned : off % w = 0
  inside : off + w ≤ b.size
  bytes : ∀ k, k < w → b.byte (off + k) = .part v w k

/-- `n` bytes are zero -/
def Zeroed (b : Block) (off n : Nat) : Prop := ∀ k, k < n → b.byte (off + k) = .zero

/-- `b'` differs from `b` in the addresses of `S` only -/
structure Only (b b' : Block) (S : Nat → Prop) : Prop where
  size : b'.size = b.size
  same : ∀ a, ¬ S a → b'.byte a = b.byte a

theorem Only.refl (b : Block) (S : Nat → Prop) : Only b b S := ⟨rfl, fun _ _ => rfl⟩

theorem Only.mono {b b' : Block} {S T : Nat → Prop} (h : Only b b' S) (hs : ∀ a, S a → T a) : Only b b' T :=
  ⟨h.size, fun a ha => h.same a (fun hsa => ha (hs a hsa))⟩

theorem Only.trans {b b' b'' : Block} {S : Nat → Prop} (h : Only b b' S) (h' : Only b' b'' S) : Only b b'' S :=
  ⟨h'.size.trans h.size, fun a ha => (h'.same a ha).trans (h.same a ha)⟩

theorem Holds.frame {b b' : Block} {S : Nat → Prop} {off w : Nat} {v : Scalar} (h : Holds b off w v) (o : Only b b' S)
    (hd : ∀ k, k < w → ¬ S (off + k)) : Holds b' off w v :=
  ⟨h.aligned, by rw [o.size]; exact h.inside, fun k hk => by rw [o.same _ (hd k hk)]; exact h.bytes k hk⟩

theorem Zeroed.frame {b b' : Block} {S : Nat → Prop} {off n : Nat} (h : Zeroed b off n) (o : Only b b' S)
    (hd : ∀ k, k < n → ¬ S (off + k)) : Zeroed b' off n :=
  fun k hk => by rw [o.same _ (hd k hk)]; exact h k hk

/-- the addresses from `lo` to `hi` -/
def Span (lo hi : Nat) (a : Nat) : Prop := lo ≤ a ∧ a < hi

theorem store_ok (b : Block) (off w : Nat) (v : Scalar) (ha : off % w = 0) (hi : off + w ≤ b.size) :
    ∃ b', b.store off w v = some b' ∧ Holds b' off w v ∧ Only b b' (Span off (off + w)) := by
  refine ⟨{ b with byte := fun a => if off ≤ a ∧ a < off + w then .part v w (a - off) else b.byte a },
    by rw [Block.store, if_pos ⟨ha, hi⟩], ⟨ha, hi, ?_⟩, ⟨rfl, ?_⟩⟩
  · intro k hk
    have h1 : off ≤ off + k ∧ off + k < off + w := by omega
    simp only [if_pos h1, Nat.add_sub_cancel_left]
  · intro a hs
    have h1 : ¬ (off ≤ a ∧ a < off + w) := hs
    simp only [if_neg h1]

theorem zero_ok (b : Block) (off n : Nat) (hi : off + n ≤ b.size) :
    ∃ b', b.zero off n = some b' ∧ Zeroed b' off n ∧ Only b b' (Span off (off + n)) := by
  refine ⟨{ b with byte := fun a => if off ≤ a ∧ a < off + n then .zero else b.byte a },
    by rw [Block.zero, if_pos hi], ?_, ⟨rfl, ?_⟩⟩
  · intro k hk
    have h1 : off ≤ off + k ∧ off + k < off + n := by omega
    simp only [if_pos h1]
  · intro a hs
    have h1 : ¬ (off ≤ a ∧ a < off + n) := hs
    simp only [if_neg h1]

theorem load_of_holds {b : Block} {off w : Nat} {v : Scalar} (h : Holds b off w v) (hw : 0 < w) : b.load off w = some v := by
  have h0 := h.bytes 0 hw
  rw [Nat.add_zero] at h0
  rw [Block.load, if_pos ⟨h.aligned, h.inside⟩, h0]
  simp only
  rw [if_pos]
  rw [List.all_eq_true]
  intro k hk
  rw [h.bytes k (List.mem_range.1 hk)]
  exact beq_self_eq_true _

theorem load_of_zeroed {b : Block} {off w : Nat} (h : Zeroed b off w) (hw : 0 < w) (ha : off % w = 0) (hi : off + w ≤ b.size) :
    b.load off w = some (zeroScalar w) := by
  have h0 := h 0 hw
  rw [Nat.add_zero] at h0
  rw [Block.load, if_pos ⟨ha, hi⟩, h0]
  simp only
  rw [if_pos]
  rw [List.all_eq_true]
  intro k hk
  rw [h k (List.mem_range.1 hk)]
  exact beq_self_eq_true _

/-- a payload is stored at `off` -/
structure PlHolds (b : Block) (off : Nat) (p : Payload) : Prop where
  index : Holds b off 4 (.num p.mixinIndex)
  payload : Holds b (off + 8) 8 (.payload p.data.payload)
  data : Holds b (off + 16) 8 (.data p.data)

theorem PlHolds.frame {b b' : Block} {S : Nat → Prop} {off : Nat} {p : Payload} (h : PlHolds b off p) (o : Only b b' S)
    (hd : ∀ k, k < 24 → ¬ S (off + k)) : PlHolds b' off p := by
  refine ⟨h.index.frame o (fun k hk => hd k (by omega)), h.payload.frame o (fun k hk => ?_), h.data.frame o (fun k hk => ?_)⟩
  · have := hd (8 + k) (by omega)
    rwa [← Nat.add_assoc] at this
  · have := hd (16 + k) (by omega)
    rwa [← Nat.add_assoc] at this

theorem storePayload_ok (b : Block) (off : Nat) (p : Payload) (ha : off % 8 = 0) (hi : off + 24 ≤ b.size) :
    ∃ b', b.storePayload off p = some b' ∧ PlHolds b' off p ∧ Only b b' (Span off (off + 24)) := by
  obtain ⟨b1, e1, h1, o1⟩ := store_ok b off 4 (.num p.mixinIndex) (by omega) (by omega)
  obtain ⟨b2, e2, h2, o2⟩ := store_ok b1 (off + 8) 8 (.payload p.data.payload) (by omega) (by rw [o1.size]; omega)
  obtain ⟨b3, e3, h3, o3⟩ := store_ok b2 (off + 16) 8 (.data p.data) (by omega) (by rw [o2.size, o1.size]; omega)
  refine ⟨b3, by simp only [Block.storePayload, e1, e2, Option.bind_eq_bind, Option.bind_some]; exact e3, ⟨?_, ?_, h3⟩, ?_⟩
  · exact (h1.frame o2 (fun k hk => by unfold Span; omega)).frame o3 (fun k hk => by unfold Span; omega)
  · exact h2.frame o3 (fun k hk => by unfold Span; omega)
  · exact ((o1.mono (fun a h => by unfold Span at *; omega)).trans (o2.mono (fun a h => by unfold Span at *; omega))).trans
      (o3.mono (fun a h => by unfold Span at *; omega))

theorem loadPayload_of_holds {b : Block} {off : Nat} {p : Payload} (h : PlHolds b off p) : b.loadPayload off = some p := by
  cases p with
  | mk i ff =>
    simp only [Block.loadPayload, load_of_holds h.index (by decide), load_of_holds h.payload (by decide),
      load_of_holds h.data (by decide), Option.bind_eq_bind, Option.bind_some, Scalar.num?, Scalar.data?, if_true]
    rfl

theorem loadPayloads_of_holds (b : Block) (ps : List Payload) : ∀ (off : Nat),
    (∀ (k : Nat) (p : Payload), ps[k]? = some p → PlHolds b (off + k * 24) p) → b.loadPayloads off ps.length = some ps := by
  induction ps with
  | nil => intro off h; rfl
  | cons p ps ih =>
    intro off h
    have h0 := h 0 p rfl
    rw [Nat.zero_mul, Nat.add_zero] at h0
    have hr := ih (off + 24) (fun k q hk => by
      have := h (k + 1) q (by simpa using hk)
      rwa [show off + 24 + k * 24 = off + (k + 1) * 24 by omega])
    simp only [List.length_cons, Block.loadPayloads, loadPayload_of_holds h0, sizeofPayload, hr, Option.bind_eq_bind, Option.bind_some]
    rfl

theorem storePayloads_ok (ps : List Payload) : ∀ (b : Block) (off : Nat), off % 8 = 0 → off + ps.length * 24 ≤ b.size →
    ∃ b', b.storePayloads off ps = some b' ∧ (∀ (k : Nat) (p : Payload), ps[k]? = some p → PlHolds b' (off + k * 24) p) ∧
      Only b b' (Span off (off + ps.length * 24)) := by
  induction ps with
  | nil => intro b off _ _; exact ⟨b, rfl, fun k p h => by simp at h, Only.refl _ _⟩
  | cons p ps ih =>
    intro b off ha hi
    simp only [List.length_cons] at hi
    obtain ⟨b1, e1, h1, o1⟩ := storePayload_ok b off p ha (by omega)
    obtain ⟨b2, e2, h2, o2⟩ := ih b1 (off + 24) (by omega) (by rw [o1.size]; omega)
    refine ⟨b2, by simp only [Block.storePayloads, e1, sizeofPayload, Option.bind_eq_bind, Option.bind_some]; exact e2, ?_, ?_⟩
    · intro k q hk
      cases k with
      | zero =>
        simp at hk; subst hk
        rw [Nat.zero_mul, Nat.add_zero]
        exact h1.frame o2 (fun k hk => by unfold Span; omega)
      | succ k =>
        have := h2 k q (by simpa using hk)
        rwa [show off + (k + 1) * 24 = off + 24 + k * 24 by omega]
    · simp only [List.length_cons]
      exact (o1.mono (fun a h => by unfold Span at *; omega)).trans (o2.mono (fun a h => by unfold Span at *; omega))

/-! ## third pass -/

/-- an entry of the ftable at `ea` in the third pass, with payloads from `P` on -/
def EntryHolds (b : Block) (ea P : Nat) : Option (Nat × Nat) → Prop
  | none => Zeroed b ea 24
  | some (bg, en) => Holds b ea 8 (.ptr (P + bg * 24)) ∧ Holds b (ea + 8) 8 (.ptr (P + bg * 24)) ∧
      Holds b (ea + 16) 8 (.ptr (P + en * 24))

theorem EntryHolds.frame {b b' : Block} {S : Nat → Prop} {ea P : Nat} {e : Option (Nat × Nat)} (h : EntryHolds b ea P e)
    (o : Only b b' S) (hd : ∀ k, k < 24 → ¬ S (ea + k)) : EntryHolds b' ea P e := by
  cases e with
  | none => exact Zeroed.frame h o hd
  | some x =>
    cases x with
    | mk bg en =>
      obtain ⟨h1, h2, h3⟩ := h
      refine ⟨h1.frame o (fun k hk => hd k (by omega)), h2.frame o (fun k hk => ?_), h3.frame o (fun k hk => ?_)⟩
      · have := hd (8 + k) (by omega)
        rwa [← Nat.add_assoc] at this
      · have := hd (16 + k) (by omega)
        rwa [← Nat.add_assoc] at this

/-- the block in the third pass has what the abstract state says -/
structure FSim (tab n : Nat) (b : Block) (ptr : Nat) (s : FBuild) : Prop where
  align : tab % 8 = 0
  len : s.entries.length = n
  room : tab + n * 24 + s.buf.length * 24 ≤ b.size
  next : ptr = tab + n * 24 + s.ptr * 24
  entries : ∀ (i : Nat) e, s.entries[i]? = some e → EntryHolds b (tab + i * 24) (tab + n * 24) e
  pls : ∀ (k : Nat) p, s.buf[k]? = some (some p) → PlHolds b (tab + n * 24 + k * 24) p

theorem openEntry_null (b : Block) (ea ptr c : Nat) (ha : ea % 8 = 0) (hi : ea + 24 ≤ b.size) (hz : Zeroed b ea 24) :
    ∃ b', b.openEntry ea ptr c = some (b', ptr + c * 24) ∧ Holds b' ea 8 (.ptr ptr) ∧ Holds b' (ea + 8) 8 (.ptr ptr) ∧
      Holds b' (ea + 16) 8 (.ptr ptr) ∧ Only b b' (Span ea (ea + 24)) := by
  have hl : b.load ea 8 = some .null := by
    rw [load_of_zeroed (fun k hk => hz k (by omega)) (by decide) ha (by omega)]; rfl
  obtain ⟨b1, e1, h1, o1⟩ := store_ok b ea 8 (.ptr ptr) (by omega) (by omega)
  obtain ⟨b2, e2, h2, o2⟩ := store_ok b1 (ea + 8) 8 (.ptr ptr) (by omega) (by rw [o1.size]; omega)
  obtain ⟨b3, e3, h3, o3⟩ := store_ok b2 (ea + 16) 8 (.ptr ptr) (by omega) (by rw [o2.size, o1.size]; omega)
  refine ⟨b3, ?_, ?_, ?_, h3, ?_⟩
  · simp only [Block.openEntry, hl, e1, e2, e3, Option.bind_eq_bind, Option.bind_some, sizeofPayload]; rfl
  · exact (h1.frame o2 (fun k hk => by unfold Span; omega)).frame o3 (fun k hk => by unfold Span; omega)
  · exact h2.frame o3 (fun k hk => by unfold Span; omega)
  · exact ((o1.mono (fun a h => by unfold Span at *; omega)).trans (o2.mono (fun a h => by unfold Span at *; omega))).trans
      (o3.mono (fun a h => by unfold Span at *; omega))

/-- the part of the third pass after the entry was opened: the payload goes to the end of the range -/
theorem appendPayload_ok (b : Block) (ea e : Nat) (p : Payload) (ha : ea % 8 = 0) (hi : ea + 24 ≤ e) (hae : e % 8 = 0)
    (hie : e + 24 ≤ b.size) (h : Holds b (ea + 16) 8 (.ptr e)) :
    ∃ b', ((b.load (ea + 16) 8).bind Scalar.off?).bind (fun e' => (b.storePayload e' p).bind (fun b =>
        b.store (ea + 16) 8 (.ptr (e' + 24)))) = some b' ∧ Holds b' (ea + 16) 8 (.ptr (e + 24)) ∧ PlHolds b' e p ∧
      Only b b' (fun a => Span (ea + 16) (ea + 24) a ∨ Span e (e + 24) a) := by
  obtain ⟨b1, e1, h1, o1⟩ := storePayload_ok b e p hae hie
  obtain ⟨b2, e2, h2, o2⟩ := store_ok b1 (ea + 16) 8 (.ptr (e + 24)) (by omega) (by rw [o1.size]; omega)
  refine ⟨b2, ?_, h2, ?_, ?_⟩
  · simp only [load_of_holds h (by decide), Option.bind_some, Scalar.off?, e1]; exact e2
  · exact h1.frame o2 (fun k hk => by unfold Span; omega)
  · exact (o1.mono (fun a h => .inr h)).trans (o2.mono (fun a h => .inl h))

theorem ftableWrite_eq (fid : Feat → Option Nat) (counts : List Nat) (tab : Nat) (b : Block) (ptr : Nat) (p : Payload) (i c : Nat)
    (hi : fid p.data.feat = some i) (hc : counts[i]? = some c) (b1 : Block) (ptr1 : Nat)
    (ho : b.openEntry (tab + i * 24) ptr c = some (b1, ptr1)) (b2 : Block)
    (h : ((b1.load (tab + i * 24 + 16) 8).bind Scalar.off?).bind (fun e' => (b1.storePayload e' p).bind (fun b =>
        b.store (tab + i * 24 + 16) 8 (.ptr (e' + 24)))) = some b2) :
    Block.ftableWrite fid counts tab (b, ptr) p = some (b2, ptr1) := by
  simp only [Block.ftableWrite, hi, hc, Option.bind_eq_bind, Option.bind_some, sizeofEntry, ho, sizeofPayload]
  cases h1 : b1.load (tab + i * 24 + 16) 8 with
  | none => rw [h1] at h; simp at h
  | some v =>
    rw [h1] at h
    simp only [Option.bind_some] at h ⊢
    cases h2 : v.off? with
    | none => rw [h2] at h; simp at h
    | some e =>
      rw [h2] at h
      simp only [Option.bind_some] at h ⊢
      cases h3 : b1.storePayload e p with
      | none => rw [h3] at h; simp at h
      | some b3 =>
        rw [h3] at h
        simp only [Option.bind_some] at h ⊢
        rw [h]; rfl

theorem ftableWrite_sim (fid : Feat → Option Nat) (counts : List Nat) (tab n : Nat) (b : Block) (ptr : Nat) (s s' : FBuild) (p : Payload)
    (hs : FSim tab n b ptr s) (h : Dnmx.ftableWrite fid counts s p = some s') :
    ∃ b' ptr', Block.ftableWrite fid counts tab (b, ptr) p = some (b', ptr') ∧ FSim tab n b' ptr' s' ∧
      Only b b' (Span tab (tab + n * 24 + s.buf.length * 24)) ∧ s'.buf.length = s.buf.length := by
  unfold Dnmx.ftableWrite at h
  cases hf : fid p.data.feat with
  | none => rw [hf] at h; simp at h
  | some i =>
  rw [hf] at h; simp only at h
  cases he : s.entries[i]? with
  | none => rw [he] at h; simp at h
  | some e =>
  cases hc : counts[i]? with
  | none => rw [he, hc] at h; simp at h
  | some c =>
  rw [he, hc] at h; simp only at h
  have hin : i < n := by
    have := (List.getElem?_eq_some_iff.1 he).1
    rw [hs.len] at this; exact this
  have hal := hs.align
  have hroom := hs.room
  -- addresses
  have hea : (tab + i * 24) % 8 = 0 := by omega
  have hin24 : tab + i * 24 + 24 ≤ tab + n * 24 := by omega
  have heh := hs.entries i e he
  -- open the entry
  have step : ∃ (bg en ptr' : Nat) (b1 : Block), (match e with
        | none => (s.ptr, s.ptr, s.ptr + c)
        | some (b, en) => (b, en, s.ptr)) = (bg, en, ptr') ∧
      b.openEntry (tab + i * 24) ptr c = some (b1, tab + n * 24 + ptr' * 24) ∧ 
      EntryHolds b1 (tab + i * 24) (tab + n * 24) (some (bg, en)) ∧ Only b b1 (Span (tab + i * 24) (tab + i * 24 + 24)) := by
    cases e with
    | none =>
      obtain ⟨b1, e1, h1, h2, h3, o1⟩ := openEntry_null b (tab + i * 24) ptr c hea (by omega) heh
      refine ⟨s.ptr, s.ptr, s.ptr + c, b1, rfl, ?_, ?_, o1⟩
      · rw [e1, hs.next]; congr 2; omega
      · rw [hs.next] at h1 h2 h3
        exact ⟨h1, h2, h3⟩
    | some x =>
      cases x with
      | mk bg en =>
        obtain ⟨h1, h2, h3⟩ := heh
        refine ⟨bg, en, s.ptr, b, rfl, ?_, ⟨h1, h2, h3⟩, Only.refl _ _⟩
        simp only [Block.openEntry, load_of_holds h1 (by decide), Option.bind_eq_bind, Option.bind_some, hs.next]; rfl
  obtain ⟨bg, en, ptr', b1, hm, ho, ⟨g1, g2, g3⟩, o1⟩ := step
  have hlet : (if en < s.buf.length then
        some (⟨s.entries.set i (some (bg, en + 1)), ptr', s.buf.set en (some p)⟩ : FBuild) else none) = some s' := by
    rw [← h]
    cases e with
    | none => simp only [Prod.mk.injEq] at hm; obtain ⟨r1, r2, r3⟩ := hm; subst r1; subst r2; subst r3; rfl
    | some x =>
      cases x with
      | mk x1 x2 => simp only [Prod.mk.injEq] at hm; obtain ⟨r1, r2, r3⟩ := hm; subst r1; subst r2; subst r3; rfl
  by_cases hlt : en < s.buf.length
  · rw [if_pos hlt] at hlet
    simp only [Option.some.injEq] at hlet
    obtain ⟨b2, e2, k1, k2, o2⟩ := appendPayload_ok b1 (tab + i * 24) (tab + n * 24 + en * 24) p hea (by omega) (by omega)
      (by rw [o1.size]; omega) g3
    have hw := ftableWrite_eq fid counts tab b ptr p i c hf hc b1 _ ho b2 e2
    have o12 : Only b b2 (fun a => Span (tab + i * 24) (tab + i * 24 + 24) a ∨ Span (tab + n * 24 + en * 24) (tab + n * 24 + en * 24 + 24) a) :=
      (o1.mono (fun a h => .inl h)).trans (o2.mono (fun a h => by
        rcases h with h | h
        · exact .inl (by unfold Span at *; omega)
        · exact .inr h))
    refine ⟨b2, _, hw, ?_, ?_, ?_⟩
    · subst hlet
      refine ⟨hal, by simpa using hs.len, ?_, rfl, ?_, ?_⟩
      · simp only [List.length_set]; rw [o12.size]; exact hroom
      · intro j e' hj
        by_cases hij : i = j
        · subst hij
          have hlt' : i < s.entries.length := by rw [hs.len]; exact hin
          simp only [List.getElem?_set_self hlt', Option.some.injEq] at hj
          subst hj
          refine ⟨g1.frame o2 (fun k hk => by unfold Span; omega), g2.frame o2 (fun k hk => by unfold Span; omega), ?_⟩
          rw [show tab + n * 24 + (en + 1) * 24 = tab + n * 24 + en * 24 + 24 by omega]
          exact k1
        · simp only [List.getElem?_set_ne hij] at hj
          have hjn : j < n := by
            have := (List.getElem?_eq_some_iff.1 hj).1
            rw [hs.len] at this; exact this
          exact (hs.entries j e' hj).frame o12 (fun k hk => by unfold Span; omega)
      · intro k q hk
        by_cases hek : en = k
        · subst hek
          simp only [List.getElem?_set_self hlt, Option.some.injEq] at hk
          subst hk
          exact k2
        · simp only [List.getElem?_set_ne hek] at hk
          exact (hs.pls k q hk).frame o12 (fun k' hk' => by unfold Span; omega)
    · exact o12.mono (fun a h => by unfold Span at *; omega)
    · subst hlet; simp
  · rw [if_neg hlt] at hlet; simp at hlet

theorem ftableFill_sim (fid : Feat → Option Nat) (counts : List Nat) (tab n L : Nat) (ps : List Payload) :
    ∀ (b : Block) (ptr : Nat) (s s' : FBuild), FSim tab n b ptr s → s.buf.length = L →
    Dnmx.ftableFill fid counts s ps = some s' →
    ∃ b' ptr', Block.ftableFill fid counts tab (b, ptr) ps = some (b', ptr') ∧ FSim tab n b' ptr' s' ∧
      Only b b' (Span tab (tab + n * 24 + L * 24)) ∧ s'.buf.length = L := by
  induction ps with
  | nil =>
    intro b ptr s s' hs hL h
    simp only [Dnmx.ftableFill, Option.some.injEq] at h
    subst h
    exact ⟨b, ptr, rfl, hs, Only.refl _ _, hL⟩
  | cons p ps ih =>
    intro b ptr s s' hs hL h
    simp only [Dnmx.ftableFill] at h
    cases hw : Dnmx.ftableWrite fid counts s p with
    | none => rw [hw] at h; simp at h
    | some s1 =>
      rw [hw] at h
      obtain ⟨b1, ptr1, e1, hs1, o1, l1⟩ := ftableWrite_sim fid counts tab n b ptr s s1 p hs hw
      obtain ⟨b2, ptr2, e2, hs2, o2, l2⟩ := ih b1 ptr1 s1 s' hs1 (l1.trans hL) h
      refine ⟨b2, ptr2, ?_, hs2, ?_, l2⟩
      · simp only [Block.ftableFill, e1, Option.bind_eq_bind, Option.bind_some]; exact e2
      · rw [hL] at o1
        exact o1.trans o2

end Dnmx
