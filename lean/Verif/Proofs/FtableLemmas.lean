import Verif.Model.TypeBuild
import Verif.Proofs.SortLemmas

namespace Dnmx

/-! ## sparse table -/

theorem sparseFill_length (ids : List Nat) : ∀ (i : Nat) (tbl : List (Option Nat)), (sparseFill ids i tbl).length = tbl.length := by
  induction ids with
  | nil => intro i tbl; rfl
  | cons id ids ih => intro i tbl; simp [sparseFill, ih]

theorem sparseFill_not_mem (ids : List Nat) : ∀ (i : Nat) (tbl : List (Option Nat)) (x : Nat), x ∉ ids →
    (sparseFill ids i tbl)[x]? = tbl[x]? := by
  induction ids with
  | nil => intro i tbl x _; rfl
  | cons id ids ih =>
    intro i tbl x hx
    simp only [List.mem_cons, not_or] at hx
    rw [sparseFill, ih _ _ _ hx.2, List.getElem?_set_ne (fun h => hx.1 h.symm)]

theorem sparseFill_mem (ids : List Nat) : ∀ (i : Nat) (tbl : List (Option Nat)) (k x : Nat), ids.Nodup → ids[k]? = some x →
    x < tbl.length → (sparseFill ids i tbl)[x]? = some (some (i + k)) := by
  induction ids with
  | nil => intro i tbl k x _ h; simp at h
  | cons id ids ih =>
    intro i tbl k x hn hk hx
    rw [List.nodup_cons] at hn
    cases k with
    | zero =>
      simp at hk; subst hk
      rw [sparseFill, sparseFill_not_mem _ _ _ _ hn.1]
      simp [hx]
    | succ k =>
      simp at hk
      rw [sparseFill, ih (i + 1) _ k x hn.2 hk (by simpa using hx)]
      congr 2; omega

theorem le_foldl_max (l : List Nat) : ∀ (a : Nat), a ≤ l.foldl max a ∧ ∀ x ∈ l, x ≤ l.foldl max a := by
  induction l with
  | nil => intro a; simp
  | cons y ys ih =>
    intro a
    have := ih (max a y)
    refine ⟨by simp only [List.foldl_cons]; omega, fun x hx => ?_⟩
    simp only [List.foldl_cons]
    rcases List.mem_cons.1 hx with h | h
    · subst h; omega
    · exact this.2 x h

theorem sparseTable_spec (ids : List Nat) (hn : ids.Nodup) (x k : Nat) :
    (sparseTable ids)[x]? = some (some k) ↔ ids[k]? = some x := by
  unfold sparseTable
  constructor
  · intro h
    by_cases hx : x ∈ ids
    · obtain ⟨j, hj, he⟩ := List.getElem_of_mem hx
      have hj' : ids[j]? = some x := by rw [List.getElem?_eq_getElem hj, he]
      have hlt : x < (List.replicate (numSparse ids) (none : Option Nat)).length := by
        have := (le_foldl_max ids 0).2 x hx
        simp [numSparse]; omega
      rw [sparseFill_mem ids 0 _ j x hn hj' hlt] at h
      simp at h; rw [← h]; exact hj'
    · rw [sparseFill_not_mem _ _ _ _ hx] at h
      rw [List.getElem?_replicate] at h
      split at h <;> simp at h
  · intro h
    have hx : x ∈ ids := List.mem_of_getElem? h
    have hlt : x < (List.replicate (numSparse ids) (none : Option Nat)).length := by
      have := (le_foldl_max ids 0).2 x hx
      simp [numSparse]; omega
    rw [sparseFill_mem ids 0 _ k x hn h hlt]; simp

/-! ## ftable: collecting the payloads -/

/-- payloads of the feature with id `i` -/
def implsOf (fid : Feat → Option Nat) (i : Nat) (ps : List Payload) : List Payload :=
  ps.filter (fun p => decide (fid p.data.feat = some i))

theorem ftableSize_gt (fid : Feat → Option Nat) (ps : List Payload) : ∀ p ∈ ps, ∀ i, fid p.data.feat = some i →
    i < ftableSize fid ps := by
  induction ps with
  | nil => intro p hp; simp at hp
  | cons q qs ih =>
    intro p hp i hi
    simp only [ftableSize]
    rcases List.mem_cons.1 hp with h | h
    · subst h; rw [hi]; simp; omega
    · have := ih p h i hi; omega

theorem ftableCounts_spec (fid : Feat → Option Nat) (ps : List Payload) : ∀ (counts : List Nat),
    (∀ p ∈ ps, ∃ i, fid p.data.feat = some i ∧ i < counts.length) →
    ∃ r, ftableCounts fid ps counts = some r ∧ r.length = counts.length ∧
      (∀ i c, counts[i]? = some c → r[i]? = some (c + (implsOf fid i ps).length)) ∧
      r.sum = counts.sum + ps.length := by
  induction ps with
  | nil =>
    intro counts _
    exact ⟨counts, rfl, rfl, fun i c h => by simpa [implsOf] using h, by simp⟩
  | cons p ps ih =>
    intro counts h
    obtain ⟨i, hi, hlt⟩ := h p (by simp)
    have hc : counts[i]? = some counts[i] := List.getElem?_eq_getElem hlt
    obtain ⟨r, h1, h2, h3, h4⟩ := ih (counts.set i (counts[i] + 1)) (by
      intro q hq
      obtain ⟨j, hj, hl⟩ := h q (by simp [hq])
      exact ⟨j, hj, by simpa using hl⟩)
    refine ⟨r, by simp only [ftableCounts, hi, hc]; exact h1, by simpa using h2, ?_, ?_⟩
    · intro j c hj
      by_cases hij : i = j
      · subst hij
        rw [hc] at hj; simp at hj; subst hj
        rw [h3 i (counts[i] + 1) (by simp [hlt])]
        simp [implsOf, hi]; omega
      · rw [h3 j c (by rw [List.getElem?_set_ne hij]; exact hj)]
        simp [implsOf, hi, hij]
    · rw [h4]
      have : (counts.set i (counts[i] + 1)).sum = counts.sum + 1 := by
        clear h1 h2 h3 h4 ih h hi hc
        induction counts generalizing i with
        | nil => simp at hlt
        | cons c cs ih' =>
          cases i with
          | zero => simp; omega
          | succ i =>
            have := ih' i (by simpa using hlt)
            simp at this ⊢; omega
      rw [this]; simp; omega

/-- space still to be handed out to features not yet seen -/
def pending : List (Option (Nat × Nat)) → List Nat → Nat
  | none :: es, c :: cs => c + pending es cs
  | some _ :: es, _ :: cs => pending es cs
  | _, _ => 0

theorem pending_replicate (counts : List Nat) : pending (List.replicate counts.length none) counts = counts.sum := by
  induction counts with
  | nil => rfl
  | cons c cs ih => simp [List.replicate_succ, pending, ih]

theorem pending_set_none : ∀ (entries : List (Option (Nat × Nat))) (counts : List Nat) (i c : Nat) (x : Nat × Nat),
    entries[i]? = some none → counts[i]? = some c → pending entries counts = pending (entries.set i (some x)) counts + c := by
  intro entries
  induction entries with
  | nil => intro counts i c x h; simp at h
  | cons e es ih =>
    intro counts i c x h hc
    cases counts with
    | nil => simp at hc
    | cons d ds =>
      cases i with
      | zero => simp at h hc; subst h hc; simp [pending]; omega
      | succ i =>
        simp at h hc
        have := ih ds i c x h hc
        cases e <;> simp [pending, this]; omega

theorem pending_set_some : ∀ (entries : List (Option (Nat × Nat))) (counts : List Nat) (i : Nat) (x y : Nat × Nat),
    entries[i]? = some (some y) → pending entries counts = pending (entries.set i (some x)) counts := by
  intro entries
  induction entries with
  | nil => intro counts i x y h; simp at h
  | cons e es ih =>
    intro counts i x y h
    cases counts with
    | nil => cases i <;> cases e <;> simp [pending]
    | cons d ds =>
      cases i with
      | zero => simp at h; subst h; simp [pending]
      | succ i =>
        simp at h
        have := ih ds i x y h
        cases e <;> simp [pending, this]

/-- invariant of the third pass after the payloads `done` of `stream` -/
structure FillInv (fid : Feat → Option Nat) (counts : List Nat) (stream done : List Payload) (s : FBuild) : Prop where
  elen : s.entries.length = counts.length
  blen : s.buf.length = stream.length
  space : s.ptr + pending s.entries counts = stream.length
  unseen : ∀ i : Nat, i < counts.length → (s.entries[i]? = some none ↔ implsOf fid i done = [])
  seen : ∀ (i b e c : Nat), s.entries[i]? = some (some (b, e)) → counts[i]? = some c →
    e = b + (implsOf fid i done).length ∧ b + c ≤ s.ptr ∧
    ∀ (k : Nat) (p : Payload), (implsOf fid i done)[k]? = some p → s.buf[b + k]? = some (some p)
  apart : ∀ (i j b e b' e' c c' : Nat), i ≠ j → s.entries[i]? = some (some (b, e)) → s.entries[j]? = some (some (b', e')) →
    counts[i]? = some c → counts[j]? = some c' → b + c ≤ b' ∨ b' + c' ≤ b

theorem implsOf_append (fid : Feat → Option Nat) (i : Nat) (a b : List Payload) :
    implsOf fid i (a ++ b) = implsOf fid i a ++ implsOf fid i b := List.filter_append ..

theorem implsOf_single (fid : Feat → Option Nat) (i j : Nat) (p : Payload) (h : fid p.data.feat = some j) :
    implsOf fid i [p] = if j = i then [p] else [] := by
  by_cases hij : j = i <;> simp [implsOf, h, hij]

theorem ftableWrite_inv (fid : Feat → Option Nat) (counts : List Nat) (stream done rest : List Payload) (p : Payload)
    (s : FBuild) (hs : stream = done ++ p :: rest)
    (hid : ∃ i, fid p.data.feat = some i ∧ i < counts.length)
    (hcounts : ∀ i c : Nat, counts[i]? = some c → c = (implsOf fid i stream).length)
    (inv : FillInv fid counts stream done s) :
    ∃ s', ftableWrite fid counts s p = some s' ∧ FillInv fid counts stream (done ++ [p]) s' := by
  obtain ⟨i, hi, hlt⟩ := hid
  have hcnt : counts[i]? = some counts[i] := List.getElem?_eq_getElem hlt
  have hc := hcounts i _ hcnt
  have hclen : (implsOf fid i done).length + 1 ≤ counts[i] := by
    have e : implsOf fid i stream = implsOf fid i done ++ p :: implsOf fid i rest := by
      rw [hs, implsOf_append]; simp [implsOf, hi]
    have := congrArg List.length e
    simp at this
    omega
  have hei : i < s.entries.length := by rw [inv.elen]; exact hlt
  have hdone : implsOf fid i (done ++ [p]) = implsOf fid i done ++ [p] := by
    rw [implsOf_append, implsOf_single fid i i p hi]; simp
  have hdone' : ∀ j, i ≠ j → implsOf fid j (done ++ [p]) = implsOf fid j done := by
    intro j hj
    rw [implsOf_append, implsOf_single fid j i p hi]; simp [hj]
  have hent : s.entries[i]? = some s.entries[i] := List.getElem?_eq_getElem hei
  cases he : s.entries[i] with
  | none =>
    rw [he] at hent
    have hempty := (inv.unseen i hlt).1 hent
    have hp : pending s.entries counts = pending (s.entries.set i (some (s.ptr, s.ptr + 1))) counts + counts[i] :=
      pending_set_none _ _ _ _ _ hent hcnt
    have hspace := inv.space
    have hlen : s.ptr < s.buf.length := by rw [inv.blen]; omega
    refine ⟨⟨s.entries.set i (some (s.ptr, s.ptr + 1)), s.ptr + counts[i], s.buf.set s.ptr (some p)⟩, ?_, ?_⟩
    · simp only [ftableWrite, hi, hent, hcnt, hlen, if_true]
    · refine ⟨by simpa using inv.elen, by simpa using inv.blen, by simp only; omega, ?_, ?_, ?_⟩
      · intro j hj
        by_cases hij : i = j
        · subst hij; simp [hei, hdone]
        · rw [List.getElem?_set_ne hij, hdone' j hij]; exact inv.unseen j hj
      · intro j b e c h1 h2
        by_cases hij : i = j
        · subst hij
          simp [hei] at h1
          obtain ⟨hb, he'⟩ := h1
          subst hb he'
          rw [hcnt] at h2; simp at h2
          rw [hdone, hempty]
          refine ⟨by simp, by simp only; omega, ?_⟩
          intro k q hk
          simp only [List.nil_append] at hk
          cases k with
          | zero => simp at hk; subst hk; simp [hlen]
          | succ k => simp at hk
        · rw [List.getElem?_set_ne hij] at h1
          obtain ⟨g1, g2, g3⟩ := inv.seen j b e c h1 h2
          rw [hdone' j hij]
          refine ⟨g1, by simp only; omega, fun k q hk => ?_⟩
          have hkl : k < (implsOf fid j done).length := (List.getElem?_eq_some_iff.1 hk).1
          have hcj := hcounts j c h2
          have hle : (implsOf fid j done).length ≤ c := by
            rw [hcj, hs, implsOf_append]; simp
          rw [List.getElem?_set_ne (by omega)]
          exact g3 k q hk
      · intro j j' b e b' e' c c' hjj h1 h2 h3 h4
        by_cases hij : i = j
        · subst hij
          simp [hei] at h1
          obtain ⟨hb, he'⟩ := h1
          subst hb he'
          rw [List.getElem?_set_ne hjj] at h2
          obtain ⟨g1, g2, g3⟩ := inv.seen j' b' e' c' h2 h4
          right; omega
        · rw [List.getElem?_set_ne hij] at h1
          by_cases hij' : i = j'
          · subst hij'
            simp [hei] at h2
            obtain ⟨hb, he'⟩ := h2
            subst hb he'
            obtain ⟨g1, g2, g3⟩ := inv.seen j b e c h1 h3
            left; omega
          · rw [List.getElem?_set_ne hij'] at h2
            exact inv.apart j j' b e b' e' c c' hjj h1 h2 h3 h4
  | some be =>
    obtain ⟨b0, e0⟩ := be
    rw [he] at hent
    obtain ⟨g1, g2, g3⟩ := inv.seen i b0 e0 counts[i] hent hcnt
    have hspace := inv.space
    have hlen : e0 < s.buf.length := by rw [inv.blen]; omega
    have hp : pending s.entries counts = pending (s.entries.set i (some (b0, e0 + 1))) counts :=
      pending_set_some _ _ _ _ _ hent
    have hne : implsOf fid i done ≠ [] := by
      intro h
      have := (inv.unseen i hlt).2 h
      rw [hent] at this; simp at this
    refine ⟨⟨s.entries.set i (some (b0, e0 + 1)), s.ptr, s.buf.set e0 (some p)⟩, ?_, ?_⟩
    · simp only [ftableWrite, hi, hent, hcnt, hlen, if_true]
    · refine ⟨by simpa using inv.elen, by simpa using inv.blen, by simp only; omega, ?_, ?_, ?_⟩
      · intro j hj
        by_cases hij : i = j
        · subst hij; simp [hei, hdone]
        · rw [List.getElem?_set_ne hij, hdone' j hij]; exact inv.unseen j hj
      · intro j b e c h1 h2
        by_cases hij : i = j
        · subst hij
          simp [hei] at h1
          obtain ⟨hb, he'⟩ := h1
          subst hb he'
          rw [hcnt] at h2; simp at h2
          rw [hdone]
          refine ⟨by simp; omega, by simp only; omega, ?_⟩
          intro k q hk
          by_cases hk' : k < (implsOf fid i done).length
          · rw [List.getElem?_append_left hk'] at hk
            rw [List.getElem?_set_ne (by omega)]
            exact g3 k q hk
          · rw [List.getElem?_append_right (by omega)] at hk
            have hk0 : k - (implsOf fid i done).length = 0 := by
              by_cases h0 : k - (implsOf fid i done).length = 0
              · exact h0
              · rw [List.getElem?_eq_none (by simp; omega)] at hk; simp at hk
            rw [hk0] at hk
            simp at hk; subst hk
            have : b0 + k = e0 := by omega
            rw [this]; simp [hlen]
        · rw [List.getElem?_set_ne hij] at h1
          obtain ⟨f1, f2, f3⟩ := inv.seen j b e c h1 h2
          rw [hdone' j hij]
          refine ⟨f1, by simp only; omega, fun k q hk => ?_⟩
          have hkl : k < (implsOf fid j done).length := (List.getElem?_eq_some_iff.1 hk).1
          have hcj := hcounts j c h2
          have hle : (implsOf fid j done).length ≤ c := by
            rw [hcj, hs, implsOf_append]; simp
          have hap := inv.apart i j b0 e0 b e counts[i] c hij hent h1 hcnt h2
          rw [List.getElem?_set_ne (by omega)]
          exact f3 k q hk
      · intro j j' b e b' e' c c' hjj h1 h2 h3 h4
        by_cases hij : i = j
        · subst hij
          simp [hei] at h1
          obtain ⟨hb, he'⟩ := h1
          subst hb he'
          rw [List.getElem?_set_ne hjj] at h2
          exact inv.apart i j' b0 e0 b' e' c c' hjj hent h2 h3 h4
        · rw [List.getElem?_set_ne hij] at h1
          by_cases hij' : i = j'
          · subst hij'
            simp [hei] at h2
            obtain ⟨hb, he'⟩ := h2
            subst hb he'
            exact inv.apart j i b e b0 e0 c c' hjj h1 hent h3 h4
          · rw [List.getElem?_set_ne hij'] at h2
            exact inv.apart j j' b e b' e' c c' hjj h1 h2 h3 h4

theorem ftableFill_inv (fid : Feat → Option Nat) (counts : List Nat) (stream : List Payload)
    (hid : ∀ p ∈ stream, ∃ i, fid p.data.feat = some i ∧ i < counts.length)
    (hcounts : ∀ i c : Nat, counts[i]? = some c → c = (implsOf fid i stream).length) :
    ∀ (rest done : List Payload) (s : FBuild), stream = done ++ rest → FillInv fid counts stream done s →
    ∃ s', ftableFill fid counts s rest = some s' ∧ FillInv fid counts stream stream s' := by
  intro rest
  induction rest with
  | nil => intro done s hs inv; exact ⟨s, rfl, by simp at hs; rw [← hs] at inv; exact inv⟩
  | cons p rest ih =>
    intro done s hs inv
    obtain ⟨s', h1, h2⟩ := ftableWrite_inv fid counts stream done rest p s hs (hid p (by rw [hs]; simp)) hcounts inv
    obtain ⟨s'', h3, h4⟩ := ih (done ++ [p]) s' (by rw [hs]; simp) h2
    exact ⟨s'', by simp only [ftableFill, h1]; exact h3, h4⟩

theorem filterMap_id_map_some {α : Type} (l : List α) : (l.map some).filterMap id = l := by
  induction l with
  | nil => rfl
  | cons x xs ih => simp

/-- after the third pass each entry holds exactly the payloads of its feature -/
theorem entryPayloads_eq (fid : Feat → Option Nat) (counts : List Nat) (stream : List Payload) (s : FBuild)
    (inv : FillInv fid counts stream stream s) (i : Nat) (e : Option (Nat × Nat)) (he : s.entries[i]? = some e) :
    entryPayloads s.buf e = implsOf fid i stream := by
  have hlt : i < counts.length := by
    rw [← inv.elen]; exact (List.getElem?_eq_some_iff.1 he).1
  cases e with
  | none => rw [(inv.unseen i hlt).1 he]; rfl
  | some be =>
    obtain ⟨b, en⟩ := be
    obtain ⟨g1, g2, g3⟩ := inv.seen i b en counts[i] he (List.getElem?_eq_getElem hlt)
    have : (s.buf.drop b).take (en - b) = (implsOf fid i stream).map some := by
      apply List.ext_getElem?
      intro k
      by_cases hk : k < (implsOf fid i stream).length
      · have hkk : (implsOf fid i stream)[k]? = some (implsOf fid i stream)[k] := List.getElem?_eq_getElem hk
        rw [List.getElem?_take, if_pos (by omega), List.getElem?_drop, g3 k _ hkk]
        simp [hk]
      · rw [List.getElem?_eq_none (by simp; omega), List.getElem?_eq_none (by simpa using hk)]
    simp only [entryPayloads, this, filterMap_id_map_some]

theorem finishAll_spec (D : Decls) (buf : List (Option Payload)) : ∀ (es : List (Option (Nat × Nat))),
    (∃ (i : Nat) (e : Option (Nat × Nat)), es[i]? = some e ∧ finishEntry D (entryPayloads buf e) = .error .featureClash ∧ finishAll D buf es = .error .featureClash) ∨
    (∃ t, finishAll D buf es = .ok t ∧ t.length = es.length ∧
      ∀ (i : Nat) (e : Option (Nat × Nat)), es[i]? = some e → ∃ r, finishEntry D (entryPayloads buf e) = .ok r ∧ t[i]? = some r) := by
  intro es
  induction es with
  | nil => right; exact ⟨[], rfl, rfl, fun i e h => by simp at h⟩
  | cons e es ih =>
    cases hf : finishEntry D (entryPayloads buf e) with
    | error err =>
      left
      have : err = .featureClash := by
        unfold finishEntry at hf
        split at hf
        · simp at hf
        · split at hf
          · simp at hf; exact hf.symm
          · simp at hf
      subst this
      exact ⟨0, e, rfl, hf, by simp [finishAll, hf]⟩
    | ok r =>
      rcases ih with ⟨i, e', h1, h2, h3⟩ | ⟨t, h1, h2, h3⟩
      · left; exact ⟨i + 1, e', by simpa using h1, h2, by simp [finishAll, hf, h3]⟩
      · right
        refine ⟨r :: t, by simp [finishAll, hf, h1], by simp [h2], ?_⟩
        intro i e' he
        cases i with
        | zero => simp at he; subst he; exact ⟨r, hf, rfl⟩
        | succ i =>
          obtain ⟨r', g1, g2⟩ := h3 i e' (by simpa using he)
          exact ⟨r', g1, by simpa using g2⟩

/-- The table built by the four passes: either some entry clashes or the entry of each id is made of exactly the
payloads with that id. -/
theorem buildFtable_spec (D : Decls) (fid : Feat → Option Nat) (ms : List Mix)
    (hreg : ∀ p ∈ featStream D 0 ms, ∃ i, fid p.data.feat = some i) :
    (∃ i, finishEntry D (implsOf fid i (featStream D 0 ms)) = .error .featureClash ∧ buildFtable D fid ms = .error .featureClash) ∨
    (∃ t, buildFtable D fid ms = .ok t ∧
      (∀ i, ∃ r, finishEntry D (implsOf fid i (featStream D 0 ms)) = .ok r ∧ (t[i]?).getD none = r)) := by
  have hids : ∀ p ∈ featStream D 0 ms, ∃ i, fid p.data.feat = some i ∧ i < ftableSize fid (featStream D 0 ms) := by
    intro p hp
    obtain ⟨i, hi⟩ := hreg p hp
    exact ⟨i, hi, ftableSize_gt fid _ p hp i hi⟩
  obtain ⟨counts, h1, h2, h3, h4⟩ := ftableCounts_spec fid (featStream D 0 ms)
    (List.replicate (ftableSize fid (featStream D 0 ms)) 0) (by simpa using hids)
  simp only [List.length_replicate] at h2
  have hcounts : ∀ i c : Nat, counts[i]? = some c → c = (implsOf fid i (featStream D 0 ms)).length := by
    intro i c hc
    have hlt : i < counts.length := (List.getElem?_eq_some_iff.1 hc).1
    have := h3 i 0 (by rw [List.getElem?_replicate, if_pos (by omega)])
    rw [this] at hc; simp at hc; exact hc.symm
  have hinit : FillInv fid counts (featStream D 0 ms) []
      ⟨List.replicate (ftableSize fid (featStream D 0 ms)) none, 0, List.replicate (featStream D 0 ms).length none⟩ := by
    refine ⟨by simp [h2], by simp, ?_, ?_, ?_, ?_⟩
    · simp only [← h2, pending_replicate, h4]
      simp
    · intro i hi
      rw [List.getElem?_replicate, if_pos (by omega)]
      simp [implsOf]
    · intro i b e c h
      rw [List.getElem?_replicate] at h
      split at h <;> simp at h
    · intro i j b e b' e' c c' _ h
      rw [List.getElem?_replicate] at h
      split at h <;> simp at h
  obtain ⟨s, h5, inv⟩ := ftableFill_inv fid counts (featStream D 0 ms) (by rw [h2]; exact hids) hcounts
    (featStream D 0 ms) [] _ (by simp) hinit
  have hbuild : buildFtable D fid ms = finishAll D s.buf s.entries := by
    simp only [buildFtable, h1, h5]
  rw [hbuild]
  rcases finishAll_spec D s.buf s.entries with ⟨i, e, g1, g2, g3⟩ | ⟨t, g1, g2, g3⟩
  · left
    refine ⟨i, ?_, g3⟩
    rw [← entryPayloads_eq fid counts _ s inv i e g1]; exact g2
  · right
    refine ⟨t, g1, fun i => ?_⟩
    by_cases hi : i < s.entries.length
    · obtain ⟨r, f1, f2⟩ := g3 i s.entries[i] (List.getElem?_eq_getElem hi)
      refine ⟨r, ?_, by rw [f2]; rfl⟩
      rw [← entryPayloads_eq fid counts _ s inv i _ (List.getElem?_eq_getElem hi)]; exact f1
    · have hnone : implsOf fid i (featStream D 0 ms) = [] := by
        rw [implsOf, List.filter_eq_nil_iff]
        intro p hp h
        simp at h
        have := ftableSize_gt fid _ p hp i h
        rw [inv.elen, h2] at hi; omega
      refine ⟨none, by rw [hnone]; simp [finishEntry, sortPayloads, sortBy], ?_⟩
      rw [List.getElem?_eq_none (by omega)]; rfl

/-! ## ftable: a finished entry -/

theorem sortPayloads_perm (ps : List Payload) : (sortPayloads ps).Perm ps := sortBy_perm ..

theorem sortPayloads_sorted (ps : List Payload) : (sortPayloads ps).Pairwise (fun a b => payloadLt b a = false) := by
  apply sortBy_sorted payloadLt (fun _ => True)
  · intro a b c _ _ _ h1 h2
    unfold payloadLt at *
    grind
  · intro a b _ _ h
    unfold payloadLt at *
    grind
  · simp

theorem topBackLoop_spec (cur : Payload) (i : Nat) (ps : List Payload) :
    ∃ k, topBackLoop cur i ps = i + k ∧ k ≤ ps.length ∧
      (∀ j p, j < k → ps[j]? = some p → p.data.bid = cur.data.bid) ∧
      (∀ p, ps[k]? = some p → p.data.bid ≠ cur.data.bid) := by
  induction ps generalizing cur i with
  | nil => exact ⟨0, rfl, by simp, fun j p h => by omega, fun p h => by simp at h⟩
  | cons q qs ih =>
    by_cases h : q.data.bid = cur.data.bid
    · obtain ⟨k, h1, h2, h3, h4⟩ := ih q (i + 1)
      refine ⟨k + 1, ?_, by simp [h2], ?_, ?_⟩
      · simp only [topBackLoop, h, ne_eq, not_true_eq_false, if_false, h1]; omega
      · intro j p hj hp
        cases j with
        | zero => simp at hp; subst hp; exact h
        | succ j => simp at hp; rw [← h]; exact h3 j p (by omega) hp
      · intro p hp
        simp at hp; rw [← h]; exact h4 p hp
    · refine ⟨0, ?_, by simp, fun j p hj => by omega, fun p hp => ?_⟩
      · simp [topBackLoop, h]
      · simp at hp; subst hp; exact h

theorem hasClash_iff : ∀ (ps : List Payload), ps.Pairwise (fun a b => payloadLt b a = false) →
    (hasClash ps = true ↔ ∃ (i j : Nat) (a b : Payload), i < j ∧ ps[i]? = some a ∧ ps[j]? = some b ∧ a.data.bid = b.data.bid ∧
      a.data.priority = b.data.priority) := by
  intro ps
  induction ps with
  | nil => intro _; simp [hasClash]
  | cons a ps ih =>
    intro hs
    rw [List.pairwise_cons] at hs
    cases ps with
    | nil =>
      simp only [hasClash, Bool.false_eq_true, false_iff]
      rintro ⟨i, j, x, y, hij, hx, hy, _⟩
      have : j < 1 := by simpa using (List.getElem?_eq_some_iff.1 hy).1
      omega
    | cons b ps =>
      have hb := hs.1 b (by simp)
      simp only [hasClash, Bool.or_eq_true, Bool.and_eq_true, beq_iff_eq]
      rw [ih hs.2]
      constructor
      · rintro (⟨h1, h2⟩ | ⟨i, j, x, y, hij, hx, hy, h⟩)
        · exact ⟨0, 1, a, b, by omega, rfl, rfl, h1, h2⟩
        · exact ⟨i + 1, j + 1, x, y, by omega, by simpa using hx, by simpa using hy, h⟩
      · rintro ⟨i, j, x, y, hij, hx, hy, h1, h2⟩
        cases i with
        | succ i =>
          obtain ⟨j, rfl⟩ : ∃ j', j = j' + 1 := ⟨j - 1, by omega⟩
          exact .inr ⟨i, j, x, y, by omega, by simpa using hx, by simpa using hy, h1, h2⟩
        | zero =>
          simp at hx; subst hx
          obtain ⟨j, rfl⟩ : ∃ j', j = j' + 1 := ⟨j - 1, by omega⟩
          simp at hy
          by_cases hj : j = 0
          · subst hj; simp at hy; subst hy; exact .inl ⟨h1, h2⟩
          · -- b is between a and y in the order
            left
            have hy' : y ∈ ps := by
              obtain ⟨j, rfl⟩ : ∃ j', j = j' + 1 := ⟨j - 1, by omega⟩
              simp at hy
              exact List.mem_of_getElem? hy
            have hby := (List.pairwise_cons.1 hs.2).1 y hy'
            unfold payloadLt at hb hby
            grind

end Dnmx
