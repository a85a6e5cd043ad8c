import Verif.Proofs.BlockFtable

/-!
# The tables of a type in its block
-/

set_option linter.unusedSimpArgs false
set_option linter.unusedVariables false

namespace Dnmx

theorem ftableCounts_some (fid : Feat → Option Nat) (ps : List Payload) : ∀ (counts r : List Nat), ftableCounts fid ps counts = some r →
    ∀ p ∈ ps, ∃ i, fid p.data.feat = some i ∧ i < counts.length := by
  induction ps with
  | nil => intro counts r _ p hp; simp at hp
  | cons q ps ih =>
    intro counts r h p hp
    simp only [ftableCounts] at h
    cases hf : fid q.data.feat with
    | none => rw [hf] at h; simp at h
    | some i =>
      rw [hf] at h; simp only at h
      cases hc : counts[i]? with
      | none => rw [hc] at h; simp at h
      | some c =>
        rw [hc] at h; simp only at h
        have hlt := (List.getElem?_eq_some_iff.1 hc).1
        rcases List.mem_cons.1 hp with hp | hp
        · subst hp; exact ⟨i, hf, hlt⟩
        · obtain ⟨j, h1, h2⟩ := ih _ r h p hp
          exact ⟨j, h1, by simpa using h2⟩

theorem ftableFill_all (fid : Feat → Option Nat) (stream : List Payload) (counts : List Nat)
    (hc : ftableCounts fid stream (List.replicate (ftableSize fid stream) 0) = some counts) :
    ∃ s, Dnmx.ftableFill fid counts ⟨List.replicate (ftableSize fid stream) none, 0, List.replicate stream.length none⟩ stream = some s ∧
      FillInv fid counts stream stream s ∧ counts.length = ftableSize fid stream ∧
      ∀ i c : Nat, counts[i]? = some c → c = (implsOf fid i stream).length := by
  have hids := ftableCounts_some fid stream _ _ hc
  obtain ⟨counts', h1, h2, h3, h4⟩ := ftableCounts_spec fid stream _ hids
  rw [hc] at h1
  simp only [Option.some.injEq] at h1
  subst h1
  simp only [List.length_replicate] at h2 hids
  have hcounts : ∀ i c : Nat, counts[i]? = some c → c = (implsOf fid i stream).length := by
    intro i c hc
    have hlt : i < counts.length := (List.getElem?_eq_some_iff.1 hc).1
    have := h3 i 0 (by rw [List.getElem?_replicate, if_pos (by omega)])
    rw [this] at hc; simp at hc; exact hc.symm
  have hinit : FillInv fid counts stream [] ⟨List.replicate (ftableSize fid stream) none, 0, List.replicate stream.length none⟩ := by
    refine ⟨by simp [h2], by simp, ?_, ?_, ?_, ?_⟩
    · simp only [← h2, pending_replicate, h4]
      simp
    · intro i hi
      rw [List.getElem?_replicate, if_pos (by omega)]
      simp [implsOf]
    · intro i b e c h
      rw [List.getElem?_replicate] at h
      split at h <;> simp at h
    · intro i j b e b' e' c c' _ h
      rw [List.getElem?_replicate] at h
      split at h <;> simp at h
  obtain ⟨s, h5, inv⟩ := ftableFill_inv fid counts stream (by rw [h2]; exact hids) hcounts stream [] _ (by simp) hinit
  exact ⟨s, h5, inv, h2, hcounts⟩

theorem ranges_of_fill (fid : Feat → Option Nat) (stream : List Payload) (counts : List Nat) (s : FBuild)
    (inv : FillInv fid counts stream stream s) (hcounts : ∀ i c : Nat, counts[i]? = some c → c = (implsOf fid i stream).length) :
    Ranges s.entries s.buf := by
  have hlen : ∀ (i : Nat) e, s.entries[i]? = some e → i < counts.length := by
    intro i e h
    rw [← inv.elen]; exact (List.getElem?_eq_some_iff.1 h).1
  refine ⟨?_, ?_, ?_⟩
  · intro i bg en h
    have hi := hlen i _ h
    obtain ⟨h1, h2, _⟩ := inv.seen i bg en _ h (List.getElem?_eq_getElem hi)
    have h3 := hcounts i _ (List.getElem?_eq_getElem hi)
    have := inv.space
    rw [inv.blen]; omega
  · intro i bg en h
    have hi := hlen i _ h
    obtain ⟨h1, h2, h3⟩ := inv.seen i bg en _ h (List.getElem?_eq_getElem hi)
    rw [entryPayloads_eq fid counts stream s inv i _ h]
    refine ⟨?_, h1, h3⟩
    intro hn
    have := (inv.unseen i hi).2 hn
    rw [h] at this; simp at this
  · intro i j bg en bg' en' hij h h'
    have hi := hlen i _ h
    have hj := hlen j _ h'
    have h1 := (inv.seen i bg en _ h (List.getElem?_eq_getElem hi)).1
    have h2 := (inv.seen j bg' en' _ h' (List.getElem?_eq_getElem hj)).1
    have h3 := hcounts i _ (List.getElem?_eq_getElem hi)
    have h4 := hcounts j _ (List.getElem?_eq_getElem hj)
    have := inv.apart i j bg en bg' en' _ _ hij h h' (List.getElem?_eq_getElem hi) (List.getElem?_eq_getElem hj)
    omega

/-- an entry of the finished ftable at `ea`, with its payloads between `lo` and `hi` -/
def FtHolds (b : Block) (ea lo hi : Nat) : Option FEntry → Prop
  | none => Zeroed b ea 24
  | some fe => ∃ bg, lo ≤ bg ∧ bg + fe.pls.length * 24 ≤ hi ∧ Holds b ea 8 (.ptr bg) ∧ Holds b (ea + 8) 8 (.ptr (bg + fe.topBack * 24)) ∧
      Holds b (ea + 16) 8 (.ptr (bg + fe.pls.length * 24)) ∧ ∀ (k : Nat) p, fe.pls[k]? = some p → PlHolds b (bg + k * 24) p

/-- building the ftable in the block gives the abstract ftable -/
theorem buildFtable_sim (D : Decls) (fid : Feat → Option Nat) (ms : List Mix) (b : Block) (tab : Nat) (hal : tab % 8 = 0)
    (hroom : tab + ftableSize fid (featStream D 0 ms) * 24 + (featStream D 0 ms).length * 24 ≤ b.size) :
    match Dnmx.buildFtable D fid ms with
    | .error x => Block.buildFtable D fid ms b tab
        (ftableSize fid (featStream D 0 ms) * 24 + (featStream D 0 ms).length * 24) = .error x
    | .ok t => ∃ b', Block.buildFtable D fid ms b tab
          (ftableSize fid (featStream D 0 ms) * 24 + (featStream D 0 ms).length * 24) = .ok b' ∧
        t.length = ftableSize fid (featStream D 0 ms) ∧
        (∀ (i : Nat) r, t[i]? = some r → FtHolds b' (tab + i * 24) tab
          (tab + ftableSize fid (featStream D 0 ms) * 24 + (featStream D 0 ms).length * 24) r) ∧
        Only b b' (Span tab (tab + ftableSize fid (featStream D 0 ms) * 24 + (featStream D 0 ms).length * 24)) := by
  generalize hst : featStream D 0 ms = stream at *
  cases hc : ftableCounts fid stream (List.replicate (ftableSize fid stream) 0) with
  | none =>
    have h1 : Dnmx.buildFtable D fid ms = .error .ub := by simp only [Dnmx.buildFtable, hst, hc]
    rw [h1]
    simp only [Block.buildFtable, hst, hc, orUb, bind, Except.bind]
  | some counts =>
    obtain ⟨s, h5, inv, hcl, hcounts⟩ := ftableFill_all fid stream counts hc
    have hr := ranges_of_fill fid stream counts s inv hcounts
    have hbuild : Dnmx.buildFtable D fid ms = Dnmx.finishAll D s.buf s.entries := by
      simp only [Dnmx.buildFtable, hst, hc, h5]
    obtain ⟨b1, e1, hz, o1⟩ := zero_ok b tab (ftableSize fid stream * 24 + stream.length * 24) (by omega)
    have hsim : FSim tab (ftableSize fid stream) b1 (tab + ftableSize fid stream * 24)
        ⟨List.replicate (ftableSize fid stream) none, 0, List.replicate stream.length none⟩ := by
      refine ⟨hal, by simp, by simp only [List.length_replicate]; rw [o1.size]; exact hroom, by simp, ?_, ?_⟩
      · intro i e h
        rw [List.getElem?_replicate] at h
        split at h
        · rename_i hi
          simp only [Option.some.injEq] at h
          subst h
          intro k hk
          have := hz (i * 24 + k) (by omega)
          rwa [← Nat.add_assoc] at this
        · simp at h
      · intro k p h
        simp only [List.getElem?_replicate] at h
        split at h <;> simp at h
    obtain ⟨b2, ptr2, e2, hs2, o2, hl2⟩ := ftableFill_sim fid counts tab _ stream.length stream b1 _ _ s hsim (by simp) h5
    have hel : s.entries.length = ftableSize fid stream := by rw [inv.elen, hcl]
    have hinv : FinInv D tab s.entries s.buf 0 b2 := by
      refine ⟨by rw [hel]; exact hs2.room, fun j e hj => by omega, ?_, ?_⟩
      · intro j e _ h
        rw [hel]; exact hs2.entries j e h
      · intro j bg en _ h k p hk
        have := hs2.pls (bg + k) p ((hr.full j bg en h).2.2 k p hk)
        rw [hel, show tab + ftableSize fid stream * 24 + bg * 24 + k * 24 = tab + ftableSize fid stream * 24 + (bg + k) * 24 by omega]
        exact this
    have hfin := finishAll_sim D tab hal s.entries s.buf hr s.entries 0 b2 (by simp) (by omega) hinv
    rw [Nat.zero_mul, Nat.add_zero] at hfin
    have hblock : Block.buildFtable D fid ms b tab (ftableSize fid stream * 24 + stream.length * 24) =
        Block.finishAll D b2 tab s.entries.length := by
      simp only [Block.buildFtable, hst, hc, orUb, bind, Except.bind, e1, sizeofEntry, e2, hel]
    rw [hbuild, hblock]
    cases hfa : Dnmx.finishAll D s.buf s.entries with
    | error x => rw [hfa] at hfin; exact hfin
    | ok t =>
      rw [hfa] at hfin
      simp only at hfin ⊢
      obtain ⟨b3, e3, inv3, o3⟩ := hfin
      rcases finishAll_spec D s.buf s.entries with ⟨i, e, g1, g2, g3⟩ | ⟨t', g1, g2, g3⟩
      · rw [hfa] at g3; simp at g3
      · rw [hfa] at g1
        simp only [Except.ok.injEq] at g1
        subst g1
        refine ⟨b3, e3, by rw [g2, hel], ?_, ?_⟩
        · intro i r hi
          have hlt : i < s.entries.length := by rw [← g2]; exact (List.getElem?_eq_some_iff.1 hi).1
          have hent := List.getElem?_eq_getElem hlt
          obtain ⟨r', f1, f2⟩ := g3 i _ hent
          obtain ⟨r'', f3, f4⟩ := inv3.done i _ hlt hent
          rw [f1] at f3
          simp only [Except.ok.injEq] at f3
          subst f3
          rw [f2] at hi
          simp only [Option.some.injEq] at hi
          subst hi
          have hins := fun bg en (h : s.entries[i] = some (bg, en)) => hr.inside i bg en (by rw [hent, h])
          generalize s.entries[i] = e at f4 hins
          cases e with
          | none =>
            cases r' with
            | none => exact f4
            | some fe => exact f4.elim
          | some x =>
            cases x with
            | mk bg en =>
              cases r' with
              | none => exact f4.elim
              | some fe =>
                obtain ⟨k0, k1, k2, k3, k4⟩ := f4
                have hin := hins bg en rfl
                rw [inv.blen] at hin
                rw [hel] at k1 k2 k3 k4
                refine ⟨_, by omega, by omega, k1, k2, ?_, k4⟩
                rw [k0, Nat.add_mul, ← Nat.add_assoc] at k3
                exact k3
        · refine (o1.mono (fun a h => by unfold Span at *; omega)).trans (o2.trans (o3.mono (fun a h => ?_)))
          rw [hl2, hel] at h
          exact h

/-! ## the other tables -/

theorem storeMixins_ok (ms : List Mix) : ∀ (b : Block) (off : Nat), off % 8 = 0 → off + ms.length * 8 ≤ b.size →
    ∃ b', b.storeMixins off ms = some b' ∧ (∀ (i : Nat) m, ms[i]? = some m → Holds b' (off + i * 8) 8 (.mixin m)) ∧
      Only b b' (Span off (off + ms.length * 8)) := by
  induction ms with
  | nil => intro b off _ _; exact ⟨b, rfl, fun k p h => by simp at h, Only.refl _ _⟩
  | cons p ps ih =>
    intro b off ha hi
    simp only [List.length_cons] at hi
    obtain ⟨b1, e1, h1, o1⟩ := store_ok b off 8 (.mixin p) ha (by omega)
    obtain ⟨b2, e2, h2, o2⟩ := ih b1 (off + 8) (by omega) (by rw [o1.size]; omega)
    refine ⟨b2, by simp only [Block.storeMixins, e1, Option.bind_eq_bind, Option.bind_some]; exact e2, ?_, ?_⟩
    · intro k q hk
      cases k with
      | zero =>
        simp at hk; subst hk
        rw [Nat.zero_mul, Nat.add_zero]
        exact h1.frame o2 (fun k hk => by unfold Span; omega)
      | succ k =>
        have := h2 k q (by simpa using hk)
        rwa [show off + (k + 1) * 8 = off + 8 + k * 8 by omega]
    · simp only [List.length_cons]
      exact (o1.mono (fun a h => by unfold Span at *; omega)).trans (o2.mono (fun a h => by unfold Span at *; omega))

theorem storeNums_ok (ms : List Nat) : ∀ (b : Block) (off : Nat), off % 4 = 0 → off + ms.length * 4 ≤ b.size →
    ∃ b', b.storeNums off ms = some b' ∧ (∀ (i m : Nat), ms[i]? = some m → Holds b' (off + i * 4) 4 (.num m)) ∧
      Only b b' (Span off (off + ms.length * 4)) := by
  induction ms with
  | nil => intro b off _ _; exact ⟨b, rfl, fun k p h => by simp at h, Only.refl _ _⟩
  | cons p ps ih =>
    intro b off ha hi
    simp only [List.length_cons] at hi
    obtain ⟨b1, e1, h1, o1⟩ := store_ok b off 4 (.num p) ha (by omega)
    obtain ⟨b2, e2, h2, o2⟩ := ih b1 (off + 4) (by omega) (by rw [o1.size]; omega)
    refine ⟨b2, by simp only [Block.storeNums, e1, Option.bind_eq_bind, Option.bind_some]; exact e2, ?_, ?_⟩
    · intro k q hk
      cases k with
      | zero =>
        simp at hk; subst hk
        rw [Nat.zero_mul, Nat.add_zero]
        exact h1.frame o2 (fun k hk => by unfold Span; omega)
      | succ k =>
        have := h2 k q (by simpa using hk)
        rwa [show off + (k + 1) * 4 = off + 4 + k * 4 by omega]
    · simp only [List.length_cons]
      exact (o1.mono (fun a h => by unfold Span at *; omega)).trans (o2.mono (fun a h => by unfold Span at *; omega))

/-- a sparse table in memory -/
def SpHolds (b : Block) (off : Nat) (tbl : List (Option Nat)) : Prop :=
  ∀ (i : Nat) x, tbl[i]? = some x → Holds b (off + i * 4) 4 (.num (x.getD invalidIndex))

theorem sparseFill_sim (ids : List Nat) : ∀ (b : Block) (off i : Nat) (tbl : List (Option Nat)), off % 4 = 0 →
    off + tbl.length * 4 ≤ b.size → (∀ id ∈ ids, id < tbl.length) → SpHolds b off tbl →
    ∃ b', b.sparseFill off ids i = some b' ∧ SpHolds b' off (Dnmx.sparseFill ids i tbl) ∧
      Only b b' (Span off (off + tbl.length * 4)) := by
  induction ids with
  | nil => intro b off i tbl _ _ _ h; exact ⟨b, rfl, h, Only.refl _ _⟩
  | cons id ids ih =>
    intro b off i tbl ha hi hids h
    have hid := hids id (by simp)
    obtain ⟨b1, e1, h1, o1⟩ := store_ok b (off + id * 4) 4 (.num i) (by omega) (by omega)
    obtain ⟨b2, e2, h2, o2⟩ := ih b1 off (i + 1) (tbl.set id (some i)) ha (by rw [o1.size]; simpa using hi)
      (fun x hx => by simpa using hids x (by simp [hx])) (by
        intro j x hj
        by_cases hjid : id = j
        · subst hjid
          simp only [List.getElem?_set_self hid, Option.some.injEq] at hj
          subst hj
          exact h1
        · simp only [List.getElem?_set_ne hjid] at hj
          exact (h j x hj).frame o1 (fun k hk => by unfold Span; omega))
    refine ⟨b2, by simp only [Block.sparseFill, e1, Option.bind_eq_bind, Option.bind_some]; exact e2, h2, ?_⟩
    simp only [List.length_set] at o2
    exact (o1.mono (fun a h => by unfold Span at *; omega)).trans o2

/-- filling and setting the sparse table -/
theorem sparseTable_sim (ids : List Nat) (b : Block) (off : Nat) (ha : off % 4 = 0) (hi : off + numSparse ids * 4 ≤ b.size) :
    ∃ b1 b2, b.storeNums off (List.replicate (numSparse ids) invalidIndex) = some b1 ∧ b1.sparseFill off ids 0 = some b2 ∧
      SpHolds b2 off (sparseTable ids) ∧ Only b b2 (Span off (off + numSparse ids * 4)) := by
  obtain ⟨b1, e1, h1, o1⟩ := storeNums_ok (List.replicate (numSparse ids) invalidIndex) b off ha (by simpa using hi)
  simp only [List.length_replicate] at o1
  obtain ⟨b2, e2, h2, o2⟩ := sparseFill_sim ids b1 off 0 (List.replicate (numSparse ids) none) ha
    (by rw [o1.size]; simpa using hi) (fun id hid => by
      have := (le_foldl_max ids 0).2 id hid
      simp only [List.length_replicate, numSparse]; omega) (by
      intro i x hx
      simp only [List.getElem?_replicate] at hx
      split at hx
      · rename_i hlt
        simp only [Option.some.injEq] at hx
        subst hx
        exact h1 i invalidIndex (by rw [List.getElem?_replicate, if_pos hlt])
      · simp at hx)
  simp only [List.length_replicate] at o2
  exact ⟨b1, b2, e1, e2, h2, o1.trans o2⟩

end Dnmx
