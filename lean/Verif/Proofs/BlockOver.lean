import Verif.Proofs.BlockType

/-!
# Types which need 4 GiB or more

If building a type in a block succeeds, it does the same in a larger block, where it leaves everything behind the end of the
small block alone. In a block which is large enough the last payload and the last entry of the index table are at the end, so
a smaller block cannot succeed.
-/

set_option linter.unusedSimpArgs false
set_option linter.unusedVariables false

namespace Dnmx
open Spec

/-- `B` is larger than `b` and has the same in all bytes of `b` which were written -/
structure Below (b B : Block) : Prop where
  size : b.size ≤ B.size
  bytes : ∀ a, a < b.size → b.byte a ≠ .raw → B.byte a = b.byte a

/-- a step from `b` to `b'` corresponds to one from `B` to `B'` which does not go beyond the size of `b` -/
structure Up (b B b' B' : Block) : Prop where
  below : Below b' B'
  size : b'.size = b.size
  rest : ∀ a, b.size ≤ a → B'.byte a = B.byte a

theorem Up.refl {b B : Block} (h : Below b B) : Up b B b B := ⟨h, rfl, fun _ _ => rfl⟩

theorem Up.trans {b B b' B' b'' B'' : Block} (h : Up b B b' B') (h' : Up b' B' b'' B'') : Up b B b'' B'' :=
  ⟨h'.below, h'.size.trans h.size, fun a ha => (h'.rest a (by rw [h.size]; exact ha)).trans (h.rest a ha)⟩

theorem store_up {b B b' : Block} {off w : Nat} {v : Scalar} (hb : Below b B) (h : b.store off w v = some b') :
    ∃ B', B.store off w v = some B' ∧ Up b B b' B' := by
  unfold Block.store at h
  split at h
  · rename_i hc
    simp only [Option.some.injEq] at h
    subst h
    have hs := hb.size
    refine ⟨{ B with byte := fun a => if off ≤ a ∧ a < off + w then .part v w (a - off) else B.byte a },
      by rw [Block.store, if_pos ⟨hc.1, by omega⟩], ⟨⟨hs, ?_⟩, rfl, ?_⟩⟩
    · intro a ha hne
      simp only at ha hne ⊢
      by_cases hi : off ≤ a ∧ a < off + w
      · rw [if_pos hi, if_pos hi]
      · rw [if_neg hi] at hne ⊢
        rw [if_neg hi]
        exact hb.bytes a ha hne
    · intro a ha
      have hi : ¬ (off ≤ a ∧ a < off + w) := by omega
      simp only [if_neg hi]
  · simp at h

theorem load_up {b B : Block} {off w : Nat} {v : Scalar} (hb : Below b B) (hw : 0 < w) (h : b.load off w = some v) : B.load off w = some v := by
  unfold Block.load at h
  split at h
  · rename_i hc
    have hs := hb.size
    cases hby : b.byte off with
    | raw => rw [hby] at h; simp at h
    | zero =>
      rw [hby] at h; simp only at h
      split at h
      · rename_i hall
        have hz : Zeroed B off w := by
          intro k hk
          have := List.all_eq_true.1 hall k (List.mem_range.2 hk)
          have := eq_of_beq this
          rw [hb.bytes _ (by omega) (by rw [this]; simp), this]
        rw [load_of_zeroed hz hw hc.1 (by omega)]
        exact h
      · simp at h
    | part v' w' k' =>
      rw [hby] at h; simp only at h
      split at h
      · rename_i hall
        simp only [Option.some.injEq] at h
        subst h
        have hz : Holds B off w v' := by
          refine ⟨hc.1, by omega, ?_⟩
          intro k hk
          have := List.all_eq_true.1 hall k (List.mem_range.2 hk)
          have := eq_of_beq this
          rw [hb.bytes _ (by omega) (by rw [this]; simp), this]
        exact load_of_holds hz hw
      · simp at h
  · simp at h

theorem storePayload_up {b B b' : Block} {off : Nat} {p : Payload} (hb : Below b B) (h : b.storePayload off p = some b') :
    ∃ B', B.storePayload off p = some B' ∧ Up b B b' B' := by
  simp only [Block.storePayload, Option.bind_eq_bind, Option.bind_eq_some_iff] at h
  obtain ⟨b1, e1, b2, e2, e3⟩ := h
  obtain ⟨B1, f1, u1⟩ := store_up hb e1
  obtain ⟨B2, f2, u2⟩ := store_up u1.below e2
  obtain ⟨B3, f3, u3⟩ := store_up u2.below e3
  exact ⟨B3, by simp only [Block.storePayload, f1, f2, f3, Option.bind_eq_bind, Option.bind_some], (u1.trans u2).trans u3⟩

theorem openEntry_up {b B b' : Block} {ea ptr c ptr' : Nat} (hb : Below b B) (h : b.openEntry ea ptr c = some (b', ptr')) :
    ∃ B', B.openEntry ea ptr c = some (B', ptr') ∧ Up b B b' B' := by
  simp only [Block.openEntry, Option.bind_eq_bind, Option.bind_eq_some_iff] at h
  obtain ⟨v, e0, h⟩ := h
  have f0 := load_up hb (by decide) e0
  cases v with
  | null =>
    simp only [Option.bind_eq_some_iff, Option.pure_def, Option.some.injEq, Prod.mk.injEq] at h
    obtain ⟨b1, e1, b2, e2, b3, e3, h1, h2⟩ := h
    subst h1
    subst h2
    obtain ⟨B1, f1, u1⟩ := store_up hb e1
    obtain ⟨B2, f2, u2⟩ := store_up u1.below e2
    obtain ⟨B3, f3, u3⟩ := store_up u2.below e3
    exact ⟨B3, by simp only [Block.openEntry, f0, f1, f2, f3, Option.bind_eq_bind, Option.bind_some]; rfl, (u1.trans u2).trans u3⟩
  | _ =>
    simp only [Option.pure_def, Option.some.injEq, Prod.mk.injEq] at h
    obtain ⟨h1, h2⟩ := h
    subst h1
    subst h2
    exact ⟨B, by simp only [Block.openEntry, f0, Option.bind_eq_bind, Option.bind_some]; rfl, Up.refl hb⟩

theorem ftableWrite_up {fid : Feat → Option Nat} {counts : List Nat} {tab : Nat} {b B b' : Block} {ptr ptr' : Nat} {p : Payload}
    (hb : Below b B) (h : Block.ftableWrite fid counts tab (b, ptr) p = some (b', ptr')) :
    ∃ B', Block.ftableWrite fid counts tab (B, ptr) p = some (B', ptr') ∧ Up b B b' B' := by
  simp only [Block.ftableWrite, Option.bind_eq_bind, Option.bind_eq_some_iff] at h
  obtain ⟨i, hi, c, hc, ⟨b1, ptr1⟩, e1, h⟩ := h
  simp only [Option.bind_eq_some_iff, Option.pure_def, Option.some.injEq, Prod.mk.injEq] at h
  obtain ⟨v, e2, e, e3, b2, e4, b3, e5, h1, h2⟩ := h
  subst h1
  subst h2
  obtain ⟨B1, f1, u1⟩ := openEntry_up hb e1
  have f2 := load_up u1.below (by decide) e2
  obtain ⟨B2, f4, u2⟩ := storePayload_up u1.below e4
  obtain ⟨B3, f5, u3⟩ := store_up u2.below e5
  refine ⟨B3, ?_, (u1.trans u2).trans u3⟩
  simp only [Block.ftableWrite, hi, hc, f1, f2, e3, f4, f5, Option.bind_eq_bind, Option.bind_some]; rfl

theorem ftableFill_up (fid : Feat → Option Nat) (counts : List Nat) (tab : Nat) (ps : List Payload) :
    ∀ (b B b' : Block) (ptr ptr' : Nat), Below b B → Block.ftableFill fid counts tab (b, ptr) ps = some (b', ptr') →
    ∃ B', Block.ftableFill fid counts tab (B, ptr) ps = some (B', ptr') ∧ Up b B b' B' := by
  induction ps with
  | nil =>
    intro b B b' ptr ptr' hb h
    simp only [Block.ftableFill, Option.some.injEq, Prod.mk.injEq] at h
    obtain ⟨h1, h2⟩ := h
    subst h1
    subst h2
    exact ⟨B, rfl, Up.refl hb⟩
  | cons p ps ih =>
    intro b B b' ptr ptr' hb h
    simp only [Block.ftableFill, Option.bind_eq_bind, Option.bind_eq_some_iff] at h
    obtain ⟨⟨b1, ptr1⟩, e1, h⟩ := h
    obtain ⟨B1, f1, u1⟩ := ftableWrite_up hb e1
    obtain ⟨B2, f2, u2⟩ := ih b1 B1 b' ptr1 ptr' u1.below h
    exact ⟨B2, by simp only [Block.ftableFill, f1, f2, Option.bind_eq_bind, Option.bind_some], u1.trans u2⟩

/-! ## the last payload -/

theorem pending_zero : ∀ (entries : List (Option (Nat × Nat))) (counts : List Nat),
    (∀ (i : Nat) c, entries[i]? = some none → counts[i]? = some c → c = 0) → pending entries counts = 0 := by
  intro entries
  induction entries with
  | nil => intro counts _; rfl
  | cons e es ih =>
    intro counts h
    cases counts with
    | nil => cases e <;> rfl
    | cons c cs =>
      have hr := ih cs (fun i c' h1 h2 => h (i + 1) c' (by simpa using h1) (by simpa using h2))
      cases e with
      | none => simp only [pending, hr, h 0 c rfl rfl]
      | some x => simp only [pending, hr]

/-- the range which was opened last ends where the next one would begin -/
def LastOpen (counts : List Nat) (s : FBuild) : Prop :=
  ∃ (i bg en c : Nat), s.entries[i]? = some (some (bg, en)) ∧ counts[i]? = some c ∧ bg + c = s.ptr

theorem ftableWrite_last (fid : Feat → Option Nat) (counts : List Nat) (s s' : FBuild) (p : Payload)
    (hs : LastOpen counts s ∨ ∀ (i : Nat) e, s.entries[i]? = some e → e = none)
    (h : Dnmx.ftableWrite fid counts s p = some s') : LastOpen counts s' := by
  unfold Dnmx.ftableWrite at h
  cases hf : fid p.data.feat with
  | none => rw [hf] at h; simp at h
  | some i =>
  rw [hf] at h; simp only at h
  cases he : s.entries[i]? with
  | none => rw [he] at h; simp at h
  | some e =>
  cases hc : counts[i]? with
  | none => rw [he, hc] at h; simp at h
  | some c =>
  rw [he, hc] at h; simp only at h
  have hlt := (List.getElem?_eq_some_iff.1 he).1
  cases e with
  | none =>
    simp only at h
    split at h
    · simp only [Option.some.injEq] at h
      subst h
      exact ⟨i, s.ptr, s.ptr + 1, c, by simp only [List.getElem?_set_self hlt], hc, rfl⟩
    · simp at h
  | some x =>
    cases x with
    | mk bg en =>
      simp only at h
      split at h
      · simp only [Option.some.injEq] at h
        subst h
        rcases hs with ⟨j, bg', en', c', h1, h2, h3⟩ | hs
        · by_cases hij : i = j
          · subst hij
            rw [he] at h1
            simp only [Option.some.injEq, Prod.mk.injEq] at h1
            obtain ⟨r1, r2⟩ := h1
            subst r1
            exact ⟨i, bg, en + 1, c', by simp only [List.getElem?_set_self hlt], h2, h3⟩
          · exact ⟨j, bg', en', c', by simp only [List.getElem?_set_ne hij]; exact h1, h2, h3⟩
        · exact absurd (hs i _ he) (by simp)
      · simp at h

theorem ftableFill_last (fid : Feat → Option Nat) (counts : List Nat) (ps : List Payload) : ∀ (s s' : FBuild), ps ≠ [] →
    (LastOpen counts s ∨ ∀ (i : Nat) e, s.entries[i]? = some e → e = none) → Dnmx.ftableFill fid counts s ps = some s' → LastOpen counts s' := by
  induction ps with
  | nil => intro s s' h; exact absurd rfl h
  | cons p ps ih =>
    intro s s' _ hs h
    simp only [Dnmx.ftableFill] at h
    cases hw : Dnmx.ftableWrite fid counts s p with
    | none => rw [hw] at h; simp at h
    | some s1 =>
      rw [hw] at h
      have h1 := ftableWrite_last fid counts s s1 p hs hw
      cases ps with
      | nil =>
        simp only [Dnmx.ftableFill, Option.some.injEq] at h
        subst h; exact h1
      | cons q qs => exact ih s1 s' (by simp) (.inl h1) h

/-- the last slot of the payload array is used -/
theorem ftableFill_end (fid : Feat → Option Nat) (stream : List Payload) (counts : List Nat) (hne : stream ≠ [])
    (s : FBuild) (inv : FillInv fid counts stream stream s) (hcounts : ∀ i c : Nat, counts[i]? = some c → c = (implsOf fid i stream).length)
    (hl : LastOpen counts s) : ∃ p, s.buf[stream.length - 1]? = some (some p) := by
  have hp : pending s.entries counts = 0 := pending_zero _ _ (fun i c h1 h2 => by
    have hlt : i < counts.length := (List.getElem?_eq_some_iff.1 h2).1
    have := (inv.unseen i hlt).1 h1
    rw [hcounts i c h2, this]; rfl)
  have hsp := inv.space
  obtain ⟨i, bg, en, c, h1, h2, h3⟩ := hl
  obtain ⟨k1, k2, k3⟩ := inv.seen i bg en c h1 h2
  have hc := hcounts i c h2
  have hlt : i < counts.length := (List.getElem?_eq_some_iff.1 h2).1
  have hpos : 0 < c := by
    rcases Nat.eq_zero_or_pos c with h0 | h0
    · rw [h0] at hc
      have := (inv.unseen i hlt).2 (List.length_eq_zero_iff.1 hc.symm)
      rw [h1] at this; simp at this
    · exact h0
  have hx := List.getElem?_eq_getElem (l := implsOf fid i stream) (i := c - 1) (by omega)
  have hb := k3 (c - 1) _ hx
  rw [show bg + (c - 1) = stream.length - 1 by omega] at hb
  exact ⟨_, hb⟩

/-! ## sizes and ends -/

theorem store_size {b b' : Block} {off w : Nat} {v : Scalar} (h : b.store off w v = some b') : b'.size = b.size ∧ off + w ≤ b.size := by
  unfold Block.store at h
  split at h
  · rename_i hc
    simp only [Option.some.injEq] at h
    subst h; exact ⟨rfl, hc.2⟩
  · simp at h

theorem zero_size {b b' : Block} {off n : Nat} (h : b.zero off n = some b') : b'.size = b.size := by
  unfold Block.zero at h
  split at h
  · simp only [Option.some.injEq] at h
    subst h; rfl
  · simp at h

theorem Below.self (b : Block) : Below b b := ⟨Nat.le_refl _, fun _ _ _ => rfl⟩

theorem storePayloads_size (ps : List Payload) : ∀ (b b' : Block) (off : Nat), b.storePayloads off ps = some b' → b'.size = b.size := by
  induction ps with
  | nil => intro b b' off h; simp only [Block.storePayloads, Option.some.injEq] at h; rw [h]
  | cons p ps ih =>
    intro b b' off h
    simp only [Block.storePayloads, Option.bind_eq_bind, Option.bind_eq_some_iff] at h
    obtain ⟨b1, e1, h⟩ := h
    obtain ⟨_, _, u⟩ := storePayload_up (Below.self b) e1
    rw [ih b1 b' _ h, u.size]

theorem orUb_ok {α : Type} {o : Option α} {a : α} (h : orUb o = .ok a) : o = some a := by
  cases o with
  | none => simp [orUb] at h
  | some x => simp only [orUb, Except.ok.injEq] at h; rw [h]

theorem except_bind_ok {α β : Type} {e : Except Err α} {f : α → Except Err β} {b : β} (h : e.bind f = .ok b) : ∃ a, e = .ok a ∧ f a = .ok b := by
  cases e with
  | error x => simp [Except.bind] at h
  | ok a => exact ⟨a, rfl, h⟩

theorem finishEntry_size (D : Decls) (b b' : Block) (ea : Nat) (h : Block.finishEntry D b ea = .ok b') : b'.size = b.size := by
  simp only [Block.finishEntry, bind] at h
  obtain ⟨v, _, h⟩ := except_bind_ok h
  split at h
  · simp only [Except.ok.injEq] at h; rw [h]
  · obtain ⟨bg, _, h⟩ := except_bind_ok h
    obtain ⟨en, _, h⟩ := except_bind_ok h
    obtain ⟨pls, _, h⟩ := except_bind_ok h
    split at h
    · simp at h
    · obtain ⟨b1, e1, h⟩ := except_bind_ok h
      split at h
      · simp at h
      · rw [(store_size (orUb_ok h)).1, storePayloads_size _ _ _ _ (orUb_ok e1)]

theorem finishAll_size (D : Decls) (n : Nat) : ∀ (b b' : Block) (ea : Nat), Block.finishAll D b ea n = .ok b' → b'.size = b.size := by
  induction n with
  | zero => intro b b' ea h; simp only [Block.finishAll, Except.ok.injEq] at h; rw [h]
  | succ n ih =>
    intro b b' ea h
    simp only [Block.finishAll, bind] at h
    obtain ⟨b1, e1, h⟩ := except_bind_ok h
    rw [ih b1 b' _ h, finishEntry_size D b b1 ea e1]

theorem storeMixins_end (ms : List Mix) : ∀ (b b' : Block) (off : Nat), b.storeMixins off ms = some b' →
    b'.size = b.size ∧ (ms ≠ [] → off + ms.length * 8 ≤ b.size) := by
  induction ms with
  | nil => intro b b' off h; simp only [Block.storeMixins, Option.some.injEq] at h; rw [h]; simp
  | cons m ms ih =>
    intro b b' off h
    simp only [Block.storeMixins, Option.bind_eq_bind, Option.bind_eq_some_iff] at h
    obtain ⟨b1, e1, h⟩ := h
    obtain ⟨s1, i1⟩ := store_size e1
    obtain ⟨s2, i2⟩ := ih b1 b' _ h
    refine ⟨by rw [s2, s1], fun _ => ?_⟩
    cases ms with
    | nil => simpa using i1
    | cons x xs =>
      have := i2 (by simp)
      simp only [List.length_cons] at this ⊢
      omega

theorem storeNums_end (ms : List Nat) : ∀ (b b' : Block) (off : Nat), b.storeNums off ms = some b' →
    b'.size = b.size ∧ (ms ≠ [] → off + ms.length * 4 ≤ b.size) := by
  induction ms with
  | nil => intro b b' off h; simp only [Block.storeNums, Option.some.injEq] at h; rw [h]; simp
  | cons m ms ih =>
    intro b b' off h
    simp only [Block.storeNums, Option.bind_eq_bind, Option.bind_eq_some_iff] at h
    obtain ⟨b1, e1, h⟩ := h
    obtain ⟨s1, i1⟩ := store_size e1
    obtain ⟨s2, i2⟩ := ih b1 b' _ h
    refine ⟨by rw [s2, s1], fun _ => ?_⟩
    cases ms with
    | nil => simpa using i1
    | cons x xs =>
      have := i2 (by simp)
      simp only [List.length_cons] at this ⊢
      omega

theorem finishType_end (D : Decls) (ids : List Nat) (ms : List Mix) (ftLen : Nat) (s : TypeSizes) (b b' : Block)
    (h : b.finishType D ids ms ftLen s = some b') :
    (ms ≠ [] → 96 + s.ftable + ms.length * 8 ≤ b.size) ∧ 96 + s.ftable + s.mixins + s.offsets + numSparse ids * 4 ≤ b.size := by
  simp only [Block.finishType, sizeofType, Option.bind_eq_bind, Option.bind_eq_some_iff] at h
  obtain ⟨b1, e1, b2, e2, b3, e3, b4, e4, b5, e5, b6, e6, b7, e7, b8, e8, b9, e9, b10, e10, b11, e11, h⟩ := h
  obtain ⟨s1, _⟩ := store_size e1
  obtain ⟨s2, _⟩ := store_size e2
  obtain ⟨s3, i3⟩ := storeMixins_end _ _ _ _ e3
  obtain ⟨s4, _⟩ := store_size e4
  obtain ⟨s5, _⟩ := store_size e5
  obtain ⟨s6, _⟩ := store_size e6
  obtain ⟨s7, _⟩ := store_size e7
  obtain ⟨s8, _⟩ := storeNums_end _ _ _ _ e8
  obtain ⟨s9, _⟩ := store_size e9
  obtain ⟨s10, _⟩ := store_size e10
  obtain ⟨s11, i11⟩ := storeNums_end _ _ _ _ e11
  have hne : List.replicate (numSparse ids) invalidIndex ≠ [] := by
    intro hn
    have := congrArg List.length hn
    simp [numSparse] at this
  have i11 := i11 hne
  simp only [List.length_replicate] at i11
  refine ⟨fun hm => ?_, by omega⟩
  have := i3 hm
  omega

theorem construct_size (b b' : Block) (d n : Nat) (h : b.construct d n = some b') : b'.size = b.size ∧ Only b b' (Span 0 96) := by
  have hi : 96 ≤ b.size := by
    simp only [Block.construct, Option.bind_eq_bind, Option.bind_eq_some_iff] at h
    obtain ⟨b1, e1, b2, e2, b3, e3, b4, e4, b5, e5, b6, e6, b7, e7, b8, e8, b9, e9, b10, e10, b11, e11, b12, e12, h⟩ := h
    have := store_size e1; have := store_size e2; have := store_size e3; have := store_size e4; have := store_size e5
    have := store_size e6; have := store_size e7; have := store_size e8; have := store_size e9; have := store_size e10
    have := store_size e11; have := store_size e12
    have := (store_size h).2
    simp only [atNumObjects] at this
    omega
  obtain ⟨b1, e1, _, _, _, o⟩ := blockConstruct_ok b d n hi
  rw [e1] at h
  simp only [Option.some.injEq] at h
  subst h
  exact ⟨o.size, o⟩

theorem orUb_cases {α : Type} (o : Option α) : orUb o = .error .ub ∨ ∃ a, o = some a ∧ orUb o = .ok a := by
  cases o with
  | none => exact .inl rfl
  | some x => exact .inr ⟨x, rfl, rfl⟩

/-- a feature table which ends behind the block is not built -/
theorem buildFtable_end (D : Decls) (fid : Feat → Option Nat) (ms : List Mix) (b : Block) (tab bytes : Nat) (hal : tab % 8 = 0)
    (hraw : ∀ a, tab ≤ a → b.byte a = .raw) (hbytes : bytes ≤ ftableSize fid (featStream D 0 ms) * 24 + (featStream D 0 ms).length * 24)
    (hne : featStream D 0 ms ≠ [])
    (hlt : b.size < tab + ftableSize fid (featStream D 0 ms) * 24 + (featStream D 0 ms).length * 24) :
    Block.buildFtable D fid ms b tab bytes = .error .ub := by
  generalize hst : featStream D 0 ms = stream at *
  simp only [Block.buildFtable, hst, bind, sizeofEntry]
  rcases orUb_cases (ftableCounts fid stream (List.replicate (ftableSize fid stream) 0)) with h | ⟨counts, e1, h⟩
  · rw [h]; rfl
  rw [h]
  simp only [Except.bind]
  rcases orUb_cases (b.zero tab bytes) with h | ⟨bz, e2, h⟩
  · rw [h]
  rw [h]
  simp only
  rcases orUb_cases (Block.ftableFill fid counts tab (bz, tab + ftableSize fid stream * 24) stream) with h | ⟨⟨bf, pf⟩, e3, h⟩
  · rw [h]
  exfalso
  obtain ⟨s, h5, inv, hcl, hcounts⟩ := ftableFill_all fid stream counts e1
  -- the same in a block which is large enough
  generalize hfull : ftableSize fid stream * 24 + stream.length * 24 = full at *
  let Bz : Block := ⟨tab + full, fun a => if tab ≤ a ∧ a < tab + full then .zero else bz.byte a⟩
  have hzs : bz.size = b.size := zero_size e2
  have hzb : ∀ a, bz.byte a = if tab ≤ a ∧ a < tab + bytes then .zero else b.byte a := by
    intro a
    unfold Block.zero at e2
    split at e2
    · simp only [Option.some.injEq] at e2
      rw [← e2]
    · simp at e2
  have hbelow : Below bz Bz := by
    refine ⟨by simp only [Bz]; omega, ?_⟩
    intro a ha hr
    simp only [Bz]
    by_cases hi : tab ≤ a ∧ a < tab + full
    · rw [if_pos hi]
      rw [hzb] at hr ⊢
      by_cases hj : tab ≤ a ∧ a < tab + bytes
      · rw [if_pos hj]
      · rw [if_neg hj] at hr
        exact absurd (hraw a hi.1) hr
    · rw [if_neg hi]
  have hsim : FSim tab (ftableSize fid stream) Bz (tab + ftableSize fid stream * 24)
      ⟨List.replicate (ftableSize fid stream) none, 0, List.replicate stream.length none⟩ := by
    refine ⟨hal, by simp, by simp only [List.length_replicate, Bz]; omega, by simp, ?_, ?_⟩
    · intro i e h
      rw [List.getElem?_replicate] at h
      split at h
      · rename_i hi
        simp only [Option.some.injEq] at h
        subst h
        intro k hk
        simp only [Bz]
        rw [if_pos (by omega)]
      · simp at h
    · intro k p h
      simp only [List.getElem?_replicate] at h
      split at h <;> simp at h
  obtain ⟨B2, ptr2, E2, hs2, O2, _⟩ := ftableFill_sim fid counts tab _ stream.length stream Bz _ _ s hsim (by simp) h5
  obtain ⟨B2', E2', u⟩ := ftableFill_up fid counts tab stream bz Bz bf _ pf hbelow e3
  rw [E2] at E2'
  simp only [Option.some.injEq, Prod.mk.injEq] at E2'
  obtain ⟨r1, r2⟩ := E2'
  subst r1
  obtain ⟨p, hp⟩ := ftableFill_end fid stream counts hne s inv hcounts (ftableFill_last fid counts stream _ s hne (.inr (by
    intro i e h
    rw [List.getElem?_replicate] at h
    split at h
    · simpa using h.symm
    · simp at h)) h5)
  have hpl := (hs2.pls _ p hp).data
  have hlen : 0 < stream.length := List.length_pos_iff.2 hne
  have hby := hpl.bytes 7 (by decide)
  have hrest := u.rest (tab + ftableSize fid stream * 24 + (stream.length - 1) * 24 + 16 + 7) (by omega)
  rw [hby] at hrest
  simp only [Bz] at hrest
  rw [if_pos (by omega)] at hrest
  simp at hrest

theorem typeSizes_mod (entries pls n sp : Nat) : (typeSizes entries pls n sp).total < 2 ^ 32 ∧
    (typeSizes entries pls n sp).total = typeNeed entries pls n sp % 2 ^ 32 := by
  simp only [typeSizes, TypeSizes.total, sizeofEntry, sizeofPayload, sizeofType, u32, typeNeed]
  omega

/-- a type which needs 4 GiB or more is not built: something is written behind the end of its block -/
theorem typeBlock_over (D : Decls) (W : World) (d : DomId) (tid : TypeId) (ms : List Mix) (t : TypeRec) (hb : buildType D W d tid ms = .ok t)
    (hge : 2 ^ 32 ≤ typeNeed (ftableSize W.featId (featStream D 0 ms)) (featStream D 0 ms).length ms.length (numSparse (ms.filterMap W.mixId))) :
    typeBlock D W d ms = .error .ub := by
  have hft : ∃ ft, Dnmx.buildFtable D W.featId ms = .ok ft := by
    unfold buildType at hb
    split at hb
    · simp at hb
    · split at hb
      · simp at hb
      · rename_i ft hft
        exact ⟨ft, hft⟩
  have hc : checkMixins W.mixId W.mixDom d ms = .ok () := by
    unfold buildType at hb
    split at hb
    · simp at hb
    · assumption
  have hm : ms ≠ [] ∨ featStream D 0 ms = [] ∧ ms.length = 0 := by
    cases ms with
    | nil => exact .inr ⟨rfl, rfl⟩
    | cons m ms => exact .inl (by simp)
  obtain ⟨ft, hft⟩ := hft
  simp only [typeBlock, bind]
  have hmod := typeSizes_mod (ftableSize W.featId (featStream D 0 ms)) (featStream D 0 ms).length ms.length (numSparse (ms.filterMap W.mixId))
  generalize hss : typeSizes (ftableSize W.featId (featStream D 0 ms)) (featStream D 0 ms).length ms.length (numSparse (ms.filterMap W.mixId)) = s at *
  have g1' : s.ftable ≤ ftableSize W.featId (featStream D 0 ms) * 24 + (featStream D 0 ms).length * 24 := by
    rw [← hss]; simp only [typeSizes, u32, sizeofEntry, sizeofPayload]; exact Nat.mod_le _ _
  rcases orUb_cases ((Block.fresh s.total).construct d s.total) with h | ⟨b1, e1, h⟩
  · rw [h]; rfl
  rw [h]
  simp only [Except.bind]
  obtain ⟨s1, o1⟩ := construct_size _ _ _ _ e1
  have s1 : b1.size = s.total := s1
  have hraw : ∀ a, 96 ≤ a → b1.byte a = .raw := fun a ha => by
    rw [o1.same a (by unfold Span; omega)]; rfl
  by_cases hne : featStream D 0 ms ≠ [] ∧ b1.size < 96 + ftableSize W.featId (featStream D 0 ms) * 24 + (featStream D 0 ms).length * 24
  · rw [sizeofType, buildFtable_end D W.featId ms b1 96 _ (by decide) hraw g1' hne.1 hne.2]
  have hroom : 96 + ftableSize W.featId (featStream D 0 ms) * 24 + (featStream D 0 ms).length * 24 ≤ b1.size := by
    by_cases he : featStream D 0 ms = []
    · have h96 : 96 ≤ b1.size := by
        simp only [Block.construct, Option.bind_eq_bind, Option.bind_eq_some_iff] at e1
        obtain ⟨c1, _, c2, _, c3, _, c4, _, c5, _, c6, _, c7, _, c8, _, c9, _, c10, _, c11, _, c12, _, k⟩ := e1
        have k1 := (store_size k).1
        have k2 := (store_size k).2
        simp only [atNumObjects] at k2
        omega
      rw [he]; simp only [ftableSize, List.length_nil]; omega
    · refine Nat.le_of_not_lt (fun hlt => hne ⟨he, hlt⟩)
  have g1 : s.ftable = ftableSize W.featId (featStream D 0 ms) * 24 + (featStream D 0 ms).length * 24 := by
    rw [← hss]; simp only [typeSizes, u32, sizeofEntry, sizeofPayload]; omega
  have hsim := buildFtable_sim D W.featId ms b1 96 (by decide) hroom
  rw [hft, ← g1] at hsim
  simp only at hsim
  obtain ⟨b2, e2, _, _, o2⟩ := hsim
  rw [sizeofType, e2]
  simp only
  rcases orUb_cases (b2.finishType D (ms.filterMap W.mixId) ms (ftableSize W.featId (featStream D 0 ms)) s) with h | ⟨b3, e3, h⟩
  · exact h
  exfalso
  obtain ⟨f1, f2⟩ := finishType_end _ _ _ _ _ _ _ e3
  rw [o2.size] at f1 f2
  have g2 : s.mixins = ms.length * 8 := by
    rcases hm with hm | ⟨_, hm⟩
    · have f1 := f1 hm
      rw [← hss]; simp only [typeSizes, u32]; omega
    · rw [← hss]; simp only [typeSizes, u32, hm]
  have g3 : s.offsets = ms.length * 4 := by
    rcases hm with hm | ⟨_, hm⟩
    · have f1 := f1 hm
      rw [← hss]; simp only [typeSizes, u32]; omega
    · rw [← hss]; simp only [typeSizes, u32, hm]
  unfold typeNeed at *
  omega

end Dnmx
