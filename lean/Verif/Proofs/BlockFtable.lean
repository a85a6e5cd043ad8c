import Verif.Proofs.BlockLemmas

/-!
# The fourth pass of building a feature table in its block
-/

set_option linter.unusedSimpArgs false
set_option linter.unusedVariables false

namespace Dnmx

/-- a finished entry at `ea`, for the range `e` of the payload array at `P` -/
def FinHolds (b : Block) (ea P : Nat) : Option (Nat × Nat) → Option FEntry → Prop
  | none, none => Zeroed b ea 24
  | some (bg, en), some fe => en = bg + fe.pls.length ∧ Holds b ea 8 (.ptr (P + bg * 24)) ∧
      Holds b (ea + 8) 8 (.ptr (P + bg * 24 + fe.topBack * 24)) ∧ Holds b (ea + 16) 8 (.ptr (P + en * 24)) ∧
      ∀ (k : Nat) p, fe.pls[k]? = some p → PlHolds b (P + bg * 24 + k * 24) p
  | _, _ => False

theorem FinHolds.frame {b b' : Block} {S : Nat → Prop} {ea P : Nat} {e : Option (Nat × Nat)} {r : Option FEntry}
    (h : FinHolds b ea P e r) (o : Only b b' S) (hd : ∀ k, k < 24 → ¬ S (ea + k))
    (hp : ∀ bg en, e = some (bg, en) → ∀ a, P + bg * 24 ≤ a → a < P + en * 24 → ¬ S a) : FinHolds b' ea P e r := by
  cases e with
  | none =>
    cases r with
    | none => exact Zeroed.frame h o hd
    | some fe => exact h
  | some x =>
    cases x with
    | mk bg en =>
      cases r with
      | none => exact h
      | some fe =>
        obtain ⟨h0, h1, h2, h3, h4⟩ := h
        refine ⟨h0, h1.frame o (fun k hk => hd k (by omega)), h2.frame o (fun k hk => ?_), h3.frame o (fun k hk => ?_), ?_⟩
        · have := hd (8 + k) (by omega)
          rwa [← Nat.add_assoc] at this
        · have := hd (16 + k) (by omega)
          rwa [← Nat.add_assoc] at this
        · intro k p hk
          refine (h4 k p hk).frame o (fun k' hk' => hp bg en rfl _ (by omega) ?_)
          have := (List.getElem?_eq_some_iff.1 hk).1
          omega

theorem topBackLoop_le (ps : List Payload) : ∀ (p : Payload) (i : Nat), topBackLoop p i ps ≤ i + ps.length := by
  induction ps with
  | nil => intro p i; simp [topBackLoop]
  | cons q ps ih =>
    intro p i
    simp only [topBackLoop]
    split
    · omega
    · have := ih q (i + 1)
      simp only [List.length_cons]; omega

theorem sortPayloads_length (l : List Payload) : (sortPayloads l).length = l.length := (sortBy_perm payloadLt l).length_eq

/-- one entry of the fourth pass -/
theorem finishEntry_sim (D : Decls) (b : Block) (ea P bg en : Nat) (l : List Payload) (hl : l ≠ []) (hen : en = bg + l.length)
    (hea : ea % 8 = 0) (hlow : ea + 24 ≤ P) (hP : P % 8 = 0) (hroom : P + en * 24 ≤ b.size)
    (he : EntryHolds b ea P (some (bg, en)))
    (hpls : ∀ (k : Nat) p, l[k]? = some p → PlHolds b (P + bg * 24 + k * 24) p) :
    match Dnmx.finishEntry D l with
    | .error x => Block.finishEntry D b ea = .error x
    | .ok r => ∃ b', Block.finishEntry D b ea = .ok b' ∧ FinHolds b' ea P (some (bg, en)) r ∧
        Only b b' (fun a => Span (ea + 8) (ea + 16) a ∨ Span (P + bg * 24) (P + en * 24) a) := by
  obtain ⟨h1, h2, h3⟩ := he
  have hlen := sortPayloads_length l
  have hload := loadPayloads_of_holds b l (P + bg * 24) hpls
  have hdiv : (P + en * 24 - (P + bg * 24)) / 24 = l.length := by omega
  cases hs : sortPayloads l with
  | nil =>
    rw [hs] at hlen
    exact absurd (List.length_eq_zero_iff.1 hlen.symm) hl
  | cons p ps =>
    rw [hs] at hlen
    obtain ⟨b1, e1, k1, o1⟩ := storePayloads_ok (p :: ps) b (P + bg * 24) (by omega) (by rw [hlen]; omega)
    have hstart : Block.finishEntry D b ea =
        (if (!(D.feat p.data.feat).allowClashes && hasClash (p :: ps)) = true then .error .featureClash
          else orUb (b1.store (ea + 8) 8 (.ptr (P + bg * 24 + topBackLoop p 0 ps * 24)))) := by
      simp only [Block.finishEntry, load_of_holds h1 (by decide), load_of_holds h3 (by decide), orUb, Scalar.off?, Option.bind_some,
        sizeofPayload, hdiv, hload, hs, e1, bind, Except.bind]
    simp only [Dnmx.finishEntry, hs]
    by_cases hc : (!(D.feat p.data.feat).allowClashes && hasClash (p :: ps)) = true
    · rw [if_pos hc]
      simp only
      rw [hstart, if_pos hc]
    · rw [if_neg hc]
      simp only
      have htop := topBackLoop_le ps p 0
      obtain ⟨b2, e2, k2, o2⟩ := store_ok b1 (ea + 8) 8 (.ptr (P + bg * 24 + topBackLoop p 0 ps * 24)) (by omega) (by rw [o1.size]; omega)
      refine ⟨b2, by rw [hstart, if_neg hc, e2]; rfl, ⟨by rw [hen, ← hlen], ?_, k2, ?_, ?_⟩, ?_⟩
      · exact (h1.frame o1 (fun k hk => by unfold Span; omega)).frame o2 (fun k hk => by unfold Span; omega)
      · exact (h3.frame o1 (fun k hk => by unfold Span; omega)).frame o2 (fun k hk => by unfold Span; omega)
      · intro k q hk
        exact (k1 k q hk).frame o2 (fun k' hk' => by unfold Span; omega)
      · refine (o1.mono (fun a h => .inr ?_)).trans (o2.mono (fun a h => .inl ?_))
        · unfold Span at *; omega
        · rw [hlen] at h; unfold Span at *; omega

/-- the ranges of the entries in the payload array are full and apart -/
structure Ranges (entries : List (Option (Nat × Nat))) (buf : List (Option Payload)) : Prop where
  inside : ∀ (i bg en : Nat), entries[i]? = some (some (bg, en)) → en ≤ buf.length
  full : ∀ (i bg en : Nat), entries[i]? = some (some (bg, en)) → entryPayloads buf (some (bg, en)) ≠ [] ∧
    en = bg + (entryPayloads buf (some (bg, en))).length ∧
    ∀ (k : Nat) p, (entryPayloads buf (some (bg, en)))[k]? = some p → buf[bg + k]? = some (some p)
  apart : ∀ (i j bg en bg' en' : Nat), i ≠ j → entries[i]? = some (some (bg, en)) → entries[j]? = some (some (bg', en')) →
    en ≤ bg' ∨ en' ≤ bg

/-- state of the fourth pass before entry `i` -/
structure FinInv (D : Decls) (tab : Nat) (entries : List (Option (Nat × Nat))) (buf : List (Option Payload)) (i : Nat) (b : Block) : Prop where
  room : tab + entries.length * 24 + buf.length * 24 ≤ b.size
  done : ∀ (j : Nat) e, j < i → entries[j]? = some e → ∃ r, Dnmx.finishEntry D (entryPayloads buf e) = .ok r ∧
    FinHolds b (tab + j * 24) (tab + entries.length * 24) e r
  todo : ∀ (j : Nat) e, i ≤ j → entries[j]? = some e → EntryHolds b (tab + j * 24) (tab + entries.length * 24) e
  pls : ∀ (j bg en : Nat), i ≤ j → entries[j]? = some (some (bg, en)) → ∀ (k : Nat) p, (entryPayloads buf (some (bg, en)))[k]? = some p →
    PlHolds b (tab + entries.length * 24 + bg * 24 + k * 24) p

theorem finishAll_sim (D : Decls) (tab : Nat) (hal : tab % 8 = 0) (entries : List (Option (Nat × Nat))) (buf : List (Option Payload))
    (hr : Ranges entries buf) : ∀ (rest : List (Option (Nat × Nat))) (i : Nat) (b : Block), entries.drop i = rest → i ≤ entries.length →
    FinInv D tab entries buf i b →
    match Dnmx.finishAll D buf rest with
    | .error x => Block.finishAll D b (tab + i * 24) rest.length = .error x
    | .ok _ => ∃ b', Block.finishAll D b (tab + i * 24) rest.length = .ok b' ∧ FinInv D tab entries buf entries.length b' ∧
        Only b b' (Span tab (tab + entries.length * 24 + buf.length * 24)) := by
  intro rest
  induction rest with
  | nil =>
    intro i b hd hi inv
    simp only [Dnmx.finishAll]
    have : i = entries.length := by
      have := List.drop_eq_nil_iff.1 hd
      omega
    subst this
    exact ⟨b, rfl, inv, Only.refl _ _⟩
  | cons e rest ih =>
    intro i b hd hi inv
    have hei : entries[i]? = some e := by
      have := congrArg (fun l => l[0]?) hd
      simpa using this
    have hilt : i < entries.length := (List.getElem?_eq_some_iff.1 hei).1
    have hd' : entries.drop (i + 1) = rest := by
      have := congrArg List.tail hd
      simpa [List.tail_drop] using this
    have hroom := inv.room
    -- one entry
    have step : match Dnmx.finishEntry D (entryPayloads buf e) with
        | .error x => Block.finishEntry D b (tab + i * 24) = .error x
        | .ok r => ∃ b', Block.finishEntry D b (tab + i * 24) = .ok b' ∧ FinInv D tab entries buf (i + 1) b' ∧
            Only b b' (Span tab (tab + entries.length * 24 + buf.length * 24)) := by
      cases e with
      | none =>
        have hz : Zeroed b (tab + i * 24) 24 := inv.todo i none (Nat.le_refl _) hei
        have hfin : Dnmx.finishEntry D (entryPayloads buf none) = .ok none := rfl
        rw [hfin]
        simp only
        refine ⟨b, ?_, ?_, Only.refl _ _⟩
        · have hl : b.load (tab + i * 24) 8 = some .null := by
            rw [load_of_zeroed (fun k hk => hz k (by omega)) (by decide) (by omega) (by omega)]; rfl
          simp only [Block.finishEntry, hl, orUb, bind, Except.bind]
        · refine ⟨hroom, ?_, fun j e' hj => inv.todo j e' (by omega), fun j bg en hj => inv.pls j bg en (by omega)⟩
          intro j e' hj hje
          by_cases hji : j = i
          · subst hji
            rw [hei] at hje
            simp only [Option.some.injEq] at hje
            subst hje
            exact ⟨none, rfl, hz⟩
          · exact inv.done j e' (by omega) hje
      | some x =>
        cases x with
        | mk bg en =>
          obtain ⟨hne, hen, hbuf⟩ := hr.full i bg en hei
          have hins := hr.inside i bg en hei
          have hs := finishEntry_sim D b (tab + i * 24) (tab + entries.length * 24) bg en _ hne hen (by omega) (by omega) (by omega)
            (by omega) (inv.todo i _ (Nat.le_refl _) hei) (inv.pls i bg en (Nat.le_refl _) hei)
          cases hf : Dnmx.finishEntry D (entryPayloads buf (some (bg, en))) with
          | error x => rw [hf] at hs; exact hs
          | ok r =>
            rw [hf] at hs
            simp only at hs ⊢
            obtain ⟨b', e', hfin, o⟩ := hs
            refine ⟨b', e', ?_, o.mono (fun a h => by unfold Span at *; omega)⟩
            refine ⟨by rw [o.size]; exact hroom, ?_, ?_, ?_⟩
            · intro j e'' hj hje
              by_cases hji : j = i
              · subst hji
                rw [hei] at hje
                simp only [Option.some.injEq] at hje
                subst hje
                exact ⟨r, hf, hfin⟩
              · obtain ⟨r', hr', hh⟩ := inv.done j e'' (by omega) hje
                refine ⟨r', hr', hh.frame o (fun k hk => by unfold Span; omega) ?_⟩
                intro bg' en' hee a ha1 ha2
                rw [hee] at hje
                have := hr.apart j i bg' en' bg en hji hje hei
                unfold Span; omega
            · intro j e'' hj hje
              have hjlt : j < entries.length := (List.getElem?_eq_some_iff.1 hje).1
              exact (inv.todo j e'' (by omega) hje).frame o (fun k hk => by unfold Span; omega)
            · intro j bg' en' hj hje k p hk
              have := hr.apart j i bg' en' bg en (by omega) hje hei
              obtain ⟨_, hen', _⟩ := hr.full j bg' en' hje
              have hklt := (List.getElem?_eq_some_iff.1 hk).1
              exact (inv.pls j bg' en' (by omega) hje k p hk).frame o (fun k' hk' => by unfold Span; omega)
    simp only [Dnmx.finishAll]
    cases hf : Dnmx.finishEntry D (entryPayloads buf e) with
    | error x =>
      rw [hf] at step
      simp only at step ⊢
      simp only [List.length_cons, Block.finishAll, step, bind, Except.bind]
    | ok r =>
      rw [hf] at step
      simp only at step
      obtain ⟨b1, e1, inv1, o1⟩ := step
      have hrest := ih (i + 1) b1 hd' (by omega) inv1
      have haddr : tab + (i + 1) * 24 = tab + i * 24 + 24 := by omega
      rw [haddr] at hrest
      simp only [List.length_cons, Block.finishAll, e1, bind, Except.bind, sizeofEntry]
      cases hfa : Dnmx.finishAll D buf rest with
      | error x => rw [hfa] at hrest; simpa using hrest
      | ok fes =>
        rw [hfa] at hrest
        simp only at hrest ⊢
        obtain ⟨b2, e2, inv2, o2⟩ := hrest
        exact ⟨b2, e2, inv2, o1.trans o2⟩

end Dnmx
