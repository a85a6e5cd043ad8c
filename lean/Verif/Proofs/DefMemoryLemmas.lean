import Verif.Spec.DefMemory

set_option linter.unusedSimpArgs false
set_option linter.unusedVariables false
set_option linter.unusedSectionVars false

namespace Dnmx
open Spec

/-- 1 if something lives at the address that is not counted by shared pointers. -/
def liveAt (M : DefMem) (a : Nat) : Nat :=
  match M.cells a with
  | none => 0
  | some (.shared _) => 0
  | some _ => 1

/-- The number of shared pointers to what is at the address. -/
def refAt (M : DefMem) (a : Nat) : Nat :=
  match M.cells a with
  | some (.shared n) => n
  | _ => 0

structure MemOk (M : DefMem) : Prop where
  fresh : ∀ a, M.next ≤ a → M.cells a = none
  pos : ∀ c, M.cells c ≠ some (.shared 0)

theorem liveAt_le (M : DefMem) (a : Nat) : liveAt M a ≤ 1 := by
  unfold liveAt; split <;> omega

theorem liveAt_chars {M : DefMem} {a : Nat} {s} (h : M.cells a = some (.chars s)) : liveAt M a = 1 := by simp [liveAt, h]
theorem liveAt_feats {M : DefMem} {a : Nat} {s} (h : M.cells a = some (.feats s)) : liveAt M a = 1 := by simp [liveAt, h]
theorem liveAt_rule {M : DefMem} {a : Nat} {n b p} (h : M.cells a = some (.ruleInfo n b p)) : liveAt M a = 1 := by simp [liveAt, h]

theorem liveAt_fresh {M : DefMem} (h : MemOk M) {a : Nat} (ha : M.next ≤ a) : liveAt M a = 0 := by simp [liveAt, h.fresh a ha]

theorem lt_of_live {M : DefMem} (h : MemOk M) {a : Nat} (ha : liveAt M a = 1) : a < M.next := by
  by_cases hn : a < M.next
  · exact hn
  · rw [liveAt_fresh h (by omega)] at ha; omega

theorem shared_of_refAt {M : DefMem} {c : Nat} (h : 0 < refAt M c) : M.cells c = some (.shared (refAt M c)) := by
  unfold refAt at *
  split at h
  · next n hn => simp [hn]
  · omega

theorem chars?_eq {M : DefMem} {a : Nat} {s} : M.chars? a = some s ↔ M.cells a = some (.chars s) := by
  unfold DefMem.chars?
  split
  · next s' h => simp [h]
  · next h =>
    constructor
    · intro h'; simp at h'
    · intro h'; exact absurd h' (h s)

theorem chars?_congr {M M' : DefMem} {a : Nat} (h : M'.cells a = M.cells a) : M'.chars? a = M.chars? a := by
  unfold DefMem.chars?; rw [h]

theorem liveAt_congr {M M' : DefMem} {a : Nat} (h : M'.cells a = M.cells a) : liveAt M' a = liveAt M a := by
  unfold liveAt; rw [h]

theorem refAt_congr {M M' : DefMem} {a : Nat} (h : M'.cells a = M.cells a) : refAt M' a = refAt M a := by
  unfold refAt; rw [h]

/-! ## Primitive changes -/

theorem new_next (M : DefMem) (x) : (M.new x).next = M.next + 1 := rfl
theorem new_self (M : DefMem) (x) : (M.new x).cells M.next = some x := by simp [DefMem.new]
theorem new_other (M : DefMem) (x) {a : Nat} (h : a ≠ M.next) : (M.new x).cells a = M.cells a := by simp [DefMem.new, h]
theorem put_self (M : DefMem) (a) (x) : (M.put a x).cells a = x := by simp [DefMem.put]
theorem put_other (M : DefMem) (a) (x) {b : Nat} (h : b ≠ a) : (M.put a x).cells b = M.cells b := by simp [DefMem.put, h]
theorem put_next (M : DefMem) (a) (x) : (M.put a x).next = M.next := rfl

theorem MemOk.new {M : DefMem} (h : MemOk M) {x : DefCell} (hx : x ≠ .shared 0) : MemOk (M.new x) := by
  constructor
  · intro a ha
    rw [new_next] at ha
    rw [new_other M x (by omega)]
    exact h.fresh a (by omega)
  · intro c
    by_cases hc : c = M.next
    · subst hc; rw [new_self]; simpa using hx
    · rw [new_other M x hc]; exact h.pos c

theorem MemOk.put {M : DefMem} (h : MemOk M) {a : Nat} {x : Option DefCell} (hx : x ≠ some (.shared 0)) (ha : M.cells a ≠ none) : MemOk (M.put a x) := by
  constructor
  · intro b hb
    rw [put_next] at hb
    rw [put_other M a x (by intro e; subst e; exact ha (h.fresh _ hb))]
    exact h.fresh b hb
  · intro c
    by_cases hc : c = a
    · subst hc; rw [put_self]; exact hx
    · rw [put_other M a x hc]; exact h.pos c

/-- Memory after copying a shared pointer. -/
theorem retain_ok {M : DefMem} (h : MemOk M) (o : Option Nat) (ho : ∀ c, o = some c → IsShared M c) :
    ∃ M', M.retain o = some M' ∧ MemOk M' ∧ M'.next = M.next ∧ (∀ a, liveAt M' a = liveAt M a) ∧
      (∀ a, refAt M' a = refAt M a + if o = some a then 1 else 0) ∧ (∀ a, liveAt M a = 1 → M'.cells a = M.cells a) := by
  cases o with
  | none => exact ⟨M, rfl, h, rfl, fun _ => rfl, fun _ => by simp, fun _ _ => rfl⟩
  | some c =>
    obtain ⟨n, hn⟩ := ho c rfl
    refine ⟨M.put c (some (.shared (n + 1))), by simp [DefMem.retain, hn], h.put (by simp) (by simp [hn]), rfl, ?_, ?_, ?_⟩
    · intro a
      by_cases ha : a = c
      · subst ha; simp [liveAt, put_self, hn]
      · exact liveAt_congr (put_other M c _ ha)
    · intro a
      by_cases ha : a = c
      · subst ha; simp [refAt, put_self, hn]
      · rw [refAt_congr (put_other M c _ ha), if_neg (by simpa using fun e => ha e.symm)]; rfl
    · intro a ha
      refine put_other M c _ ?_
      rintro rfl
      simp [liveAt, hn] at ha

/-- Memory after destroying a shared pointer. -/
theorem release_ok {M : DefMem} (h : MemOk M) (o : Option Nat) (ho : ∀ c, o = some c → 0 < refAt M c) :
    ∃ M', M.release o = some M' ∧ MemOk M' ∧ M'.next = M.next ∧ (∀ a, liveAt M' a = liveAt M a) ∧
      (∀ a, refAt M' a + (if o = some a then 1 else 0) = refAt M a) ∧ (∀ a, liveAt M a = 1 → M'.cells a = M.cells a) := by
  cases o with
  | none => exact ⟨M, rfl, h, rfl, fun _ => rfl, fun _ => by simp, fun _ _ => rfl⟩
  | some c =>
    have hc := shared_of_refAt (ho c rfl)
    have hpos := ho c rfl
    obtain ⟨n, hn⟩ : ∃ n, refAt M c = n + 1 := ⟨refAt M c - 1, by omega⟩
    rw [hn] at hc
    have key : ∀ x : Option DefCell, (x = none ∧ n = 0 ∨ x = some (.shared n)) →
        (∀ a, liveAt (M.put c x) a = liveAt M a) ∧ (∀ a, refAt (M.put c x) a + (if some c = some a then 1 else 0) = refAt M a) ∧
        (∀ a, liveAt M a = 1 → (M.put c x).cells a = M.cells a) := by
      intro x hx
      refine ⟨?_, ?_, ?_⟩
      · intro a
        by_cases ha : a = c
        · subst ha
          rcases hx with ⟨rfl, -⟩ | rfl <;> simp [liveAt, put_self, hc]
        · exact liveAt_congr (put_other M c _ ha)
      · intro a
        by_cases ha : a = c
        · subst ha
          rcases hx with ⟨rfl, h0⟩ | rfl
          · simp [refAt, put_self, hc, h0]
          · simp [refAt, put_self, hc]
        · rw [refAt_congr (put_other M c _ ha), if_neg (by simpa using fun e => ha e.symm)]; rfl
      · intro a ha
        refine put_other M c _ ?_
        rintro rfl
        simp [liveAt, hc] at ha
    cases n with
    | zero =>
      obtain ⟨k1, k2, k3⟩ := key none (.inl ⟨rfl, rfl⟩)
      exact ⟨M.put c none, by simp [DefMem.release, hc], h.put (by simp) (by simp [hc]), rfl, k1, k2, k3⟩
    | succ n =>
      obtain ⟨k1, k2, k3⟩ := key (some (.shared (n + 1))) (.inr rfl)
      exact ⟨M.put c (some (.shared (n + 1))), by simp [DefMem.release, hc], h.put (by simp) (by simp [hc]), rfl, k1, k2, k3⟩

theorem releaseAll_ok : ∀ (l : List AnyPtr) {M : DefMem}, MemOk M → (∀ c, (l.map AnyPtr.owner).count (some c) ≤ refAt M c) →
    ∃ M', M.releaseAll l = some M' ∧ MemOk M' ∧ M'.next = M.next ∧ (∀ a, liveAt M' a = liveAt M a) ∧
      (∀ a, refAt M' a + (l.map AnyPtr.owner).count (some a) = refAt M a) ∧ (∀ a, liveAt M a = 1 → M'.cells a = M.cells a)
  | [], M, h, _ => ⟨M, rfl, h, rfl, fun _ => rfl, fun _ => by simp, fun _ _ => rfl⟩
  | p :: l, M, h, hc => by
    obtain ⟨M1, h1, h2, h3, h4, h5, h6⟩ := release_ok h p.owner (by
      intro c hp
      have := hc c
      simp only [List.map_cons, List.count_cons, hp, beq_self_eq_true, if_true] at this
      omega)
    have hc' : ∀ c, (l.map AnyPtr.owner).count (some c) ≤ refAt M1 c := by
      intro c
      have := hc c
      have h5' := h5 c
      simp only [List.map_cons, List.count_cons, beq_iff_eq] at this
      split at this <;> rename_i hp
      · rw [if_pos hp] at h5'; omega
      · rw [if_neg hp] at h5'; omega
    obtain ⟨M2, k1, k2, k3, k4, k5, k6⟩ := releaseAll_ok l h2 hc'
    refine ⟨M2, by simp [DefMem.releaseAll, h1, k1], k2, by rw [k3, h3], fun a => by rw [k4, h4], ?_, ?_⟩
    · intro a
      have h5' := h5 a
      have k5' := k5 a
      simp only [List.map_cons, List.count_cons, beq_iff_eq]
      by_cases hp : p.owner = some a
      · rw [if_pos hp] at h5' ⊢; omega
      · rw [if_neg hp] at h5' ⊢; omega
    · intro a ha
      rw [k6 a (by rw [h4]; exact ha), h6 a ha]

theorem cells_of_live {M : DefMem} {a : Nat} (h : 0 < liveAt M a) : ∃ x, M.cells a = some x := by
  unfold liveAt at h
  cases hc : M.cells a with
  | none => simp [hc] at h
  | some x => exact ⟨x, rfl⟩

/-- Removing something that is not counted. -/
theorem free_effect {M : DefMem} {a : Nat} (ha : liveAt M a = 1) :
    (∀ b, liveAt (M.put a none) b + (if a = b then 1 else 0) = liveAt M b) ∧ (∀ b, refAt (M.put a none) b = refAt M b) := by
  constructor
  · intro b
    by_cases hb : b = a
    · subst hb; rw [ha]; simp [liveAt, put_self]
    · rw [liveAt_congr (put_other M a none hb), if_neg (fun e => hb e.symm)]; rfl
  · intro b
    by_cases hb : b = a
    · subst hb
      have : refAt M b = 0 := by
        unfold liveAt at ha; unfold refAt
        cases hc : M.cells b with
        | none => rfl
        | some x => cases x <;> simp_all
      rw [this]; simp [refAt, put_self]
    · exact refAt_congr (put_other M a none hb)

theorem freeAll_ok : ∀ (l : List Nat) {M : DefMem}, MemOk M → (∀ a, l.count a ≤ liveAt M a) →
    ∃ M', M.freeAll l = some M' ∧ MemOk M' ∧ M'.next = M.next ∧ (∀ a, liveAt M' a + l.count a = liveAt M a) ∧
      (∀ a, refAt M' a = refAt M a) ∧ (∀ a, a ∉ l → M'.cells a = M.cells a)
  | [], M, h, _ => ⟨M, rfl, h, rfl, fun _ => by simp, fun _ => rfl, fun _ _ => rfl⟩
  | b :: l, M, h, hc => by
    have hb : liveAt M b = 1 := by
      have := hc b
      have hl := liveAt_le M b
      simp at this
      omega
    obtain ⟨x, hx⟩ := cells_of_live (M := M) (a := b) (by omega)
    obtain ⟨e1, e2⟩ := free_effect hb
    have hc' : ∀ a, l.count a ≤ liveAt (M.put b none) a := by
      intro a
      have h1 := hc a
      have h2 := e1 a
      simp only [List.count_cons, beq_iff_eq] at h1
      split at h1 <;> rename_i hp
      · rw [if_pos hp] at h2; omega
      · rw [if_neg hp] at h2; omega
    obtain ⟨M2, k1, k2, k3, k4, k5, k6⟩ := freeAll_ok l (h.put (a := b) (x := none) (by simp) (by simp [hx])) hc'
    refine ⟨M2, by simp [DefMem.freeAll, hx, k1], k2, by rw [k3, put_next], ?_, fun a => by rw [k5, e2], ?_⟩
    · intro a
      have h2 := e1 a
      have h3 := k4 a
      simp only [List.count_cons, beq_iff_eq]
      by_cases hp : b = a
      · rw [if_pos hp] at h2 ⊢; omega
      · rw [if_neg hp] at h2 ⊢; omega
    · intro a ha
      simp only [List.mem_cons, not_or] at ha
      rw [k6 a ha.2, put_other M b none ha.1]

/-! ## What a call does to memory -/

/-- From `M` with the definition `d` to `M'` with `d'`: everything is accounted for, cells of others and those in `K` are not touched. -/
structure Moves (K : List Nat) (M : DefMem) (d : DefData) (M' : DefMem) (d' : DefData) : Prop where
  ok : MemOk M'
  next : M.next ≤ M'.next
  live : ∀ a, liveAt M' a + (ownCells d).count a = liveAt M a + (ownCells d').count a
  ref : ∀ a, refAt M' a + (ownShares d).count (some a) = refAt M a + (ownShares d').count (some a)
  frame : ∀ a, liveAt M a = 1 → a ∉ ownCells d → M'.cells a = M.cells a
  keep : ∀ a ∈ K, M'.cells a = M.cells a
  mixin : d'.mixin = d.mixin

theorem Moves.same {K : List Nat} {M : DefMem} {d d' : DefData} (h : MemOk M) (h1 : ownCells d' = ownCells d) (h2 : ownShares d' = ownShares d)
    (h3 : d'.mixin = d.mixin) : Moves K M d M d' :=
  ⟨h, Nat.le_refl _, fun a => by rw [h1], fun a => by rw [h2], fun _ _ _ => rfl, fun _ _ => rfl, h3⟩

theorem Moves.trans {K : List Nat} {M M1 M2 : DefMem} {d d1 d2 : DefData} (h1 : Moves K M d M1 d1) (h2 : Moves K M1 d1 M2 d2) : Moves K M d M2 d2 where
  ok := h2.ok
  next := Nat.le_trans h1.next h2.next
  live := fun a => by have := h1.live a; have := h2.live a; omega
  ref := fun a => by have := h1.ref a; have := h2.ref a; omega
  frame := fun a ha hn => by
    have he := h1.frame a ha hn
    have hl : liveAt M1 a = 1 := by rw [liveAt_congr he]; exact ha
    have hn1 : a ∉ ownCells d1 := by
      have := h1.live a
      rw [hl, ha, List.count_eq_zero_of_not_mem hn] at this
      exact List.count_eq_zero.1 (by omega)
    rw [h2.frame a hl hn1, he]
  keep := fun a ha => by rw [h2.keep a ha, h1.keep a ha]
  mixin := by rw [h2.mixin, h1.mixin]

theorem new_live {M : DefMem} (h : MemOk M) {x : DefCell} (hx : ∀ n, x ≠ .shared n) :
    (∀ a, liveAt (M.new x) a = liveAt M a + if M.next = a then 1 else 0) ∧ (∀ a, refAt (M.new x) a = refAt M a) := by
  constructor
  · intro a
    by_cases ha : a = M.next
    · subst ha
      rw [liveAt_fresh h (Nat.le_refl _)]
      simp only [liveAt, new_self]
      cases x <;> simp_all
    · rw [liveAt_congr (new_other M x ha), if_neg (fun e => ha e.symm)]; rfl
  · intro a
    by_cases ha : a = M.next
    · subst ha
      simp only [refAt, new_self, h.fresh _ (Nat.le_refl _)]
      cases x <;> simp_all
    · exact refAt_congr (new_other M x ha)

/-- One more string in a definition. -/
theorem Moves.newName {K : List Nat} {M : DefMem} {d : DefData} (h : MemOk M) (hK : ∀ a ∈ K, a < M.next) (s : List UInt8) :
    Moves K M d (M.new (.chars s)) { d with nameStorage := d.nameStorage ++ [M.next] } := by
  obtain ⟨h1, h2⟩ := new_live h (x := .chars s) (by simp)
  refine ⟨h.new (by simp), by rw [new_next]; omega, ?_, fun a => by rw [h2]; rfl, ?_, ?_, rfl⟩
  · intro a
    rw [h1]
    simp only [ownCells, List.count_append, List.count_cons, List.count_nil, beq_iff_eq]
    omega
  · intro a ha _
    exact new_other M _ (by have := lt_of_live h ha; omega)
  · intro a ha
    exact new_other M _ (by have := hK a ha; omega)

/-- One more rule in a definition. -/
theorem Moves.newRule {K : List Nat} {M : DefMem} {d : DefData} (h : MemOk M) (hK : ∀ a ∈ K, a < M.next) (n : Nat) (b : RuleBody) (p : Int) :
    Moves K M d (M.new (.ruleInfo n b p)) { d with ruleStorage := d.ruleStorage ++ [M.next] } := by
  obtain ⟨h1, h2⟩ := new_live h (x := .ruleInfo n b p) (by simp)
  refine ⟨h.new (by simp), by rw [new_next]; omega, ?_, fun a => by rw [h2]; rfl, ?_, ?_, rfl⟩
  · intro a
    rw [h1]
    simp only [ownCells, List.count_append, List.count_cons, List.count_nil, beq_iff_eq]
    omega
  · intro a ha _
    exact new_other M _ (by have := lt_of_live h ha; omega)
  · intro a ha
    exact new_other M _ (by have := hK a ha; omega)

end Dnmx
