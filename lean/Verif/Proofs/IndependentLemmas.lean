import Verif.Spec.Independent

/-!
# Lemmas on the independence of objects

Simulation of a program alone by the same program among others: addresses are renamed by `ρ`, objects by `σ`.
-/

set_option linter.unusedSimpArgs false
set_option linter.unusedVariables false

namespace Dnmx.Indep
open Spec

def renLoc (ρ : Nat → Nat) (l : Loc) : Loc := (ρ l.1, l.2)
def renSlot (ρ : Nat → Nat) (sl : Slot) : Slot := ⟨sl.buf.map ρ, renLoc ρ sl.loc⟩
@[reducible] def renObj (ρ : Nat → Nat) (ob : Obj) : Obj := { ob with data := ob.data.map ρ }

/-- There is nothing at the addresses that are not yet used. -/
structure Fresh (h : Heap) : Prop where
  blk : ∀ a, h.next ≤ a → h.blk a = none
  slot : ∀ a i, h.next ≤ a → h.slot a i = none
  live : ∀ a i, h.next ≤ a → h.live (a, i) = none
  owner : ∀ a i, h.next ≤ a → h.owner (a, i) = none

/-- Heap `h1` is a part of heap `h`. -/
structure Core (σ ρ : Nat → Nat) (h1 h : Heap) : Prop where
  inj : ∀ a b, a < h1.next → b < h1.next → ρ a = ρ b → a = b
  bound : ∀ a, a < h1.next → ρ a < h.next
  blk : ∀ a, a < h1.next → h.blk (ρ a) = h1.blk a
  fresh1 : Fresh h1
  fresh : Fresh h
  slot : ∀ a i, a < h1.next → h.slot (ρ a) i = (h1.slot a i).map (renSlot ρ)
  slotIn : ∀ a i sl, a < h1.next → h1.slot a i = some sl → sl.loc.1 < h1.next ∧ ∀ e, sl.buf = some e → e < h1.next
  live : ∀ a i, a < h1.next → h.live (ρ a, i) = h1.live (a, i)
  owner : ∀ a i, a < h1.next → h.owner (ρ a, i) = (h1.owner (a, i)).map σ
  ownerIn : ∀ a i o, a < h1.next → h1.owner (a, i) = some o → o < h1.objs.length
  sinj : ∀ o p, o < h1.objs.length → p < h1.objs.length → σ o = σ p → o = p
  sbound : ∀ o, o < h1.objs.length → σ o < h.objs.length
  obj : ∀ o, o < h1.objs.length → h.obj? (σ o) = (h1.obj? o).map (renObj ρ)
  objIn : ∀ o ob a, h1.obj? o = some ob → ob.data = some a → a < h1.next

/-- The heaps at the beginning of a call, with the renaming of addresses. -/
structure Base where
  h1 : Heap
  h : Heap
  ρ : Nat → Nat
  σ : Nat → Nat

/-- What a call has changed: only memory and objects of its part, and new ones. -/
structure HSim (c : Base) (σ ρ : Nat → Nat) (h1 h : Heap) : Prop extends Core σ ρ h1 h where
  old : ∀ a, a < c.h1.next → ρ a = c.ρ a
  new : ∀ a, c.h1.next ≤ a → a < h1.next → c.h.next ≤ ρ a
  le1 : c.h1.next ≤ h1.next
  le : c.h.next ≤ h.next
  tick : ∃ k, h1.tick = c.h1.tick + k ∧ h.tick = c.h.tick + k
  log : ∃ s1 s, h1.log = c.h1.log ++ s1 ∧ h.log = c.h.log ++ s ∧ s.map eventSeen = s1.map eventSeen
  frame : ∀ x, x < c.h.next → (∀ a, a < c.h1.next → c.ρ a ≠ x) →
    h.blk x = c.h.blk x ∧ (∀ i, h.slot x i = c.h.slot x i) ∧ ∀ i, h.live (x, i) = c.h.live (x, i) ∧ h.owner (x, i) = c.h.owner (x, i)
  sold : ∀ o, o < c.h1.objs.length → σ o = c.σ o
  snew : ∀ o, c.h1.objs.length ≤ o → o < h1.objs.length → c.h.objs.length ≤ σ o
  sle1 : c.h1.objs.length ≤ h1.objs.length
  sle : c.h.objs.length ≤ h.objs.length
  objFrame : ∀ o, o < c.h.objs.length → (∀ p, p < c.h1.objs.length → c.σ p ≠ o) → h.obj? o = c.h.obj? o

theorem Fresh.setSlot {h : Heap} (hf : Fresh h) {a : Nat} (ha : a < h.next) (i : Nat) (sl : Slot) : Fresh (h.setSlot a i sl) := by
  refine { hf with slot := ?_ }
  intro x j hx
  show (if x = a ∧ j = i then _ else _) = _
  rw [if_neg (by rintro ⟨h2, -⟩; have hx' : h.next ≤ x := hx; omega)]; exact hf.slot x j hx

theorem Fresh.setOwner {h : Heap} (hf : Fresh h) {l : Loc} (ha : l.1 < h.next) (o : Nat) : Fresh (h.setOwner l o) := by
  refine { hf with owner := ?_ }
  intro x j hx
  show (if (x, j) = l then _ else _) = _
  rw [if_neg (by intro h2; have hx' : h.next ≤ x := hx; subst h2; simp at ha; omega)]; exact hf.owner x j hx

theorem Fresh.setLive {h : Heap} (hf : Fresh h) {l : Loc} (ha : l.1 < h.next) (v : Option (Mix × Nat)) : Fresh (h.setLive l v) := by
  refine { hf with live := ?_ }
  intro x j hx
  show (if (x, j) = l then _ else _) = _
  rw [if_neg (by intro h2; have hx' : h.next ≤ x := hx; subst h2; simp at ha; omega)]; exact hf.live x j hx

theorem Fresh.allocate {h : Heap} (hf : Fresh h) (b : Blk) : Fresh (h.allocate b) := by
  refine ⟨?_, ?_, ?_, ?_⟩
  · intro a (ha : h.next + 1 ≤ a)
    show (if a = h.next then _ else _) = _
    rw [if_neg (by omega)]; exact hf.blk a (by omega)
  · intro a i (ha : h.next + 1 ≤ a); exact hf.slot a i (by omega)
  · intro a i (ha : h.next + 1 ≤ a); exact hf.live a i (by omega)
  · intro a i (ha : h.next + 1 ≤ a); exact hf.owner a i (by omega)

theorem Fresh.of_same {h h' : Heap} (hf : Fresh h) (h1 : h'.next = h.next) (h2 : ∀ a, h.blk a = none → h'.blk a = none) (h3 : h'.slot = h.slot) (h4 : h'.live = h.live)
    (h5 : h'.owner = h.owner) : Fresh h' := by
  refine ⟨?_, ?_, ?_, ?_⟩
  · intro a ha; rw [h1] at ha; exact h2 a (hf.blk a ha)
  · intro a i ha; rw [h1] at ha; rw [h3]; exact hf.slot a i ha
  · intro a i ha; rw [h1] at ha; rw [h4]; exact hf.live a i ha
  · intro a i ha; rw [h1] at ha; rw [h5]; exact hf.owner a i ha

theorem hsim_refl {σ ρ : Nat → Nat} {h1 h : Heap} (hc : Core σ ρ h1 h) : HSim ⟨h1, h, ρ, σ⟩ σ ρ h1 h :=
  { hc with
    old := fun _ _ => rfl
    new := fun a h1 h2 => absurd (Nat.lt_of_le_of_lt h1 h2) (Nat.lt_irrefl _)
    le1 := Nat.le_refl _
    le := Nat.le_refl _
    tick := ⟨0, rfl, rfl⟩
    log := ⟨[], [], by simp, by simp, rfl⟩
    frame := fun _ _ _ => ⟨rfl, fun _ => rfl, fun _ => ⟨rfl, rfl⟩⟩
    sold := fun _ _ => rfl
    snew := fun a h1 h2 => absurd (Nat.lt_of_le_of_lt h1 h2) (Nat.lt_irrefl _)
    sle1 := Nat.le_refl _
    sle := Nat.le_refl _
    objFrame := fun _ _ _ => rfl }

section
variable {c : Base} {σ ρ : Nat → Nat} {h1 h : Heap}

theorem HSim.away (hs : HSim c σ ρ h1 h) {a x : Nat} (ha : a < h1.next) (hx : x < c.h.next) (hn : ∀ a, a < c.h1.next → c.ρ a ≠ x) : x ≠ ρ a := by
  intro h2
  by_cases h3 : a < c.h1.next
  · exact hn a h3 (by rw [← hs.old a h3, h2])
  · have := hs.new a (by omega) ha; omega

theorem HSim.oaway (hs : HSim c σ ρ h1 h) {a x : Nat} (ha : a < h1.objs.length) (hx : x < c.h.objs.length) (hn : ∀ a, a < c.h1.objs.length → c.σ a ≠ x) : x ≠ σ a := by
  intro h2
  by_cases h3 : a < c.h1.objs.length
  · exact hn a h3 (by rw [← hs.sold a h3, h2])
  · have := hs.snew a (by omega) ha; omega

theorem HSim.ticked (hs : HSim c σ ρ h1 h) : HSim c σ ρ h1.ticked h.ticked := by
  have f1 : Fresh h1.ticked := hs.fresh1.of_same rfl (fun _ h => h) rfl rfl rfl
  have f2 : Fresh h.ticked := hs.fresh.of_same rfl (fun _ h => h) rfl rfl rfl
  obtain ⟨k, hk1, hk2⟩ := hs.tick
  exact { hs with fresh1 := f1, fresh := f2, tick := ⟨k + 1, by simp [Heap.ticked]; omega, by simp [Heap.ticked]; omega⟩ }

theorem HSim.logged (hs : HSim c σ ρ h1 h) {e1 e : Ev} (he : eventSeen e = eventSeen e1) : HSim c σ ρ (h1.logged e1) (h.logged e) := by
  have f1 : Fresh (h1.logged e1) := hs.fresh1.of_same rfl (fun _ h => h) rfl rfl rfl
  have f2 : Fresh (h.logged e) := hs.fresh.of_same rfl (fun _ h => h) rfl rfl rfl
  obtain ⟨s1, s, hk1, hk2, hk3⟩ := hs.log
  exact { hs with fresh1 := f1, fresh := f2, log := ⟨s1 ++ [e1], s ++ [e], by simp [Heap.logged, hk1], by simp [Heap.logged, hk2], by simp [hk3, he]⟩ }

theorem HSim.countUp (hs : HSim c σ ρ h1 h) (t : TypeId) (n : Int) : HSim c σ ρ (h1.countUp t n) (h.countUp t n) :=
  { hs with fresh1 := hs.fresh1.of_same rfl (fun _ h => h) rfl rfl rfl, fresh := hs.fresh.of_same rfl (fun _ h => h) rfl rfl rfl }

theorem HSim.setSlot (hs : HSim c σ ρ h1 h) {a : Nat} (ha : a < h1.next) (i : Nat) {sl : Slot} (hl : sl.loc.1 < h1.next) (hb : ∀ e, sl.buf = some e → e < h1.next) :
    HSim c σ ρ (h1.setSlot a i sl) (h.setSlot (ρ a) i (renSlot ρ sl)) := by
  refine { hs with fresh1 := hs.fresh1.setSlot ha i sl, fresh := hs.fresh.setSlot (hs.bound a ha) i _, slot := ?_, slotIn := ?_, frame := ?_ }
  · intro x j hx
    show (if ρ x = ρ a ∧ j = i then _ else _) = Option.map _ (if x = a ∧ j = i then _ else _)
    by_cases h2 : x = a ∧ j = i
    · rw [if_pos h2, if_pos ⟨by rw [h2.1], h2.2⟩]; rfl
    · rw [if_neg h2, if_neg (by rintro ⟨h3, h4⟩; exact h2 ⟨hs.inj x a hx ha h3, h4⟩)]
      exact hs.slot x j hx
  · intro x j sl' hx
    show (if x = a ∧ j = i then _ else _) = _ → _
    intro h2
    by_cases h3 : x = a ∧ j = i
    · rw [if_pos h3] at h2; simp at h2; subst h2; exact ⟨hl, hb⟩
    · rw [if_neg h3] at h2; exact hs.slotIn x j sl' hx h2
  · intro x hx hn
    obtain ⟨f1, f2, f3⟩ := hs.frame x hx hn
    refine ⟨f1, fun j => ?_, f3⟩
    show (if x = ρ a ∧ j = i then _ else _) = _
    rw [if_neg (fun h2 => hs.away ha hx hn h2.1)]
    exact f2 j

theorem HSim.setOwner (hs : HSim c σ ρ h1 h) {l : Loc} (ha : l.1 < h1.next) {o : Nat} (ho : o < h1.objs.length) :
    HSim c σ ρ (h1.setOwner l o) (h.setOwner (renLoc ρ l) (σ o)) := by
  refine { hs with fresh1 := hs.fresh1.setOwner ha o, fresh := hs.fresh.setOwner (l := renLoc ρ l) (hs.bound l.1 ha) _, owner := ?_, ownerIn := ?_, frame := ?_ }
  · intro x j hx
    show (if (ρ x, j) = renLoc ρ l then _ else _) = Option.map _ (if (x, j) = l then _ else _)
    by_cases h2 : (x, j) = l
    · rw [if_pos h2, if_pos (by rw [← h2]; rfl)]; rfl
    · rw [if_neg h2, if_neg (by
        intro h3; apply h2
        have h4 : ρ x = ρ l.1 := congrArg Prod.fst h3
        have h5 : j = l.2 := congrArg Prod.snd h3
        exact Prod.ext (hs.inj x l.1 hx ha h4) h5)]
      exact hs.owner x j hx
  · intro x j p hx
    show (if (x, j) = l then _ else _) = _ → _
    intro h2
    by_cases h3 : (x, j) = l
    · rw [if_pos h3] at h2; simp at h2; subst h2; exact ho
    · rw [if_neg h3] at h2; exact hs.ownerIn x j p hx h2
  · intro x hx hn
    obtain ⟨f1, f2, f3⟩ := hs.frame x hx hn
    refine ⟨f1, f2, fun j => ⟨(f3 j).1, ?_⟩⟩
    show (if (x, j) = renLoc ρ l then _ else _) = _
    rw [if_neg (fun h2 => hs.away ha hx hn (congrArg Prod.fst h2))]
    exact (f3 j).2

theorem HSim.setLive (hs : HSim c σ ρ h1 h) {l : Loc} (ha : l.1 < h1.next) (v : Option (Mix × Nat)) : HSim c σ ρ (h1.setLive l v) (h.setLive (renLoc ρ l) v) := by
  refine { hs with fresh1 := hs.fresh1.setLive ha v, fresh := hs.fresh.setLive (l := renLoc ρ l) (hs.bound l.1 ha) _, live := ?_, frame := ?_ }
  · intro x j hx
    show (if (ρ x, j) = renLoc ρ l then _ else _) = (if (x, j) = l then _ else _)
    by_cases h2 : (x, j) = l
    · rw [if_pos h2, if_pos (by rw [← h2]; rfl)]
    · rw [if_neg h2, if_neg (by
        intro h3; apply h2
        have h4 : ρ x = ρ l.1 := congrArg Prod.fst h3
        have h5 : j = l.2 := congrArg Prod.snd h3
        exact Prod.ext (hs.inj x l.1 hx ha h4) h5)]
      exact hs.live x j hx
  · intro x hx hn
    obtain ⟨f1, f2, f3⟩ := hs.frame x hx hn
    refine ⟨f1, f2, fun j => ⟨?_, (f3 j).2⟩⟩
    show (if (x, j) = renLoc ρ l then _ else _) = _
    rw [if_neg (fun h2 => hs.away ha hx hn (congrArg Prod.fst h2))]
    exact (f3 j).1

/-- The renaming after an allocation. -/
def extend (ρ : Nat → Nat) (n m : Nat) : Nat → Nat := fun x => if x = n then m else ρ x

theorem extend_old {ρ : Nat → Nat} {n m x : Nat} (h : x < n) : extend ρ n m x = ρ x := by unfold extend; rw [if_neg (by omega)]
theorem extend_new {ρ : Nat → Nat} {n m : Nat} : extend ρ n m n = m := by unfold extend; rw [if_pos rfl]

theorem renSlot_extend {ρ : Nat → Nat} {n m : Nat} {sl : Slot} (hl : sl.loc.1 < n) (hb : ∀ e, sl.buf = some e → e < n) : renSlot (extend ρ n m) sl = renSlot ρ sl := by
  unfold renSlot renLoc
  rw [extend_old hl]
  congr 1
  cases h : sl.buf with
  | none => rfl
  | some e => simp [extend_old (hb e h)]

theorem renObj_extend {ρ : Nat → Nat} {n m : Nat} {ob : Obj} (hb : ∀ a, ob.data = some a → a < n) : renObj (extend ρ n m) ob = renObj ρ ob := by
  unfold renObj
  congr 1
  cases h : ob.data with
  | none => rfl
  | some e => simp [extend_old (hb e h)]

theorem HSim.allocate (hs : HSim c σ ρ h1 h) (b : Blk) : HSim c σ (extend ρ h1.next h.next) (h1.allocate b) (h.allocate b) := by
  have hlt : ∀ {a}, a < (h1.allocate b).next → a = h1.next ∨ a < h1.next := by intro a ha; have : a < h1.next + 1 := ha; omega
  obtain ⟨s1, s, hk1, hk2, hk3⟩ := hs.log
  refine {
    inj := ?_, bound := ?_, blk := ?_, fresh1 := hs.fresh1.allocate b, fresh := hs.fresh.allocate b, slot := ?_, slotIn := ?_, live := ?_, owner := ?_, ownerIn := ?_,
    sinj := hs.sinj, sbound := hs.sbound, obj := ?_, objIn := ?_, old := ?_, new := ?_, le1 := Nat.le_succ_of_le hs.le1, le := Nat.le_succ_of_le hs.le, tick := hs.tick, log := ?_, frame := ?_, sold := hs.sold, snew := hs.snew, sle1 := hs.sle1, sle := hs.sle, objFrame := hs.objFrame }
  · intro x y hx hy hxy
    rcases hlt hx with rfl | hx' <;> rcases hlt hy with rfl | hy'
    · rfl
    · rw [extend_new, extend_old hy'] at hxy; have := hs.bound y hy'; omega
    · rw [extend_new, extend_old hx'] at hxy; have := hs.bound x hx'; omega
    · rw [extend_old hx', extend_old hy'] at hxy; exact hs.inj x y hx' hy' hxy
  · intro x hx
    show _ < h.next + 1
    rcases hlt hx with rfl | hx'
    · rw [extend_new]; omega
    · rw [extend_old hx']; have := hs.bound x hx'; omega
  · intro x hx
    show (if extend ρ h1.next h.next x = h.next then _ else _) = (if x = h1.next then _ else _)
    rcases hlt hx with rfl | hx'
    · rw [extend_new, if_pos rfl, if_pos rfl]
    · rw [extend_old hx', if_neg (by have := hs.bound x hx'; omega), if_neg (by omega)]; exact hs.blk x hx'
  · intro x i hx
    rcases hlt hx with rfl | hx'
    · rw [extend_new]
      show h.slot h.next i = Option.map _ (h1.slot h1.next i)
      rw [hs.fresh1.slot _ _ (Nat.le_refl _), hs.fresh.slot _ _ (Nat.le_refl _)]; rfl
    · rw [extend_old hx']
      show h.slot (ρ x) i = Option.map _ (h1.slot x i)
      rw [hs.slot x i hx']
      cases hsl : h1.slot x i with
      | none => rfl
      | some sl =>
        obtain ⟨k1, k2⟩ := hs.slotIn x i sl hx' hsl
        simp only [Option.map_some]
        rw [renSlot_extend k1 k2]
  · intro x i sl hx hsl
    rcases hlt hx with rfl | hx'
    · have hsl' : h1.slot h1.next i = some sl := hsl
      rw [hs.fresh1.slot _ _ (Nat.le_refl _)] at hsl'; simp at hsl'
    · obtain ⟨k1, k2⟩ := hs.slotIn x i sl hx' hsl
      exact ⟨Nat.lt_succ_of_lt k1, fun e he => Nat.lt_succ_of_lt (k2 e he)⟩
  · intro x i hx
    rcases hlt hx with rfl | hx'
    · rw [extend_new]
      show h.live (h.next, i) = h1.live (h1.next, i)
      rw [hs.fresh1.live _ _ (Nat.le_refl _), hs.fresh.live _ _ (Nat.le_refl _)]
    · rw [extend_old hx']; exact hs.live x i hx'
  · intro x i hx
    rcases hlt hx with rfl | hx'
    · rw [extend_new]
      show h.owner (h.next, i) = Option.map _ (h1.owner (h1.next, i))
      rw [hs.fresh1.owner _ _ (Nat.le_refl _), hs.fresh.owner _ _ (Nat.le_refl _)]; rfl
    · rw [extend_old hx']; exact hs.owner x i hx'
  · intro x i o hx ho
    rcases hlt hx with rfl | hx'
    · have ho' : h1.owner (h1.next, i) = some o := ho
      rw [hs.fresh1.owner _ _ (Nat.le_refl _)] at ho'; simp at ho'
    · exact hs.ownerIn x i o hx' ho
  · intro o ho
    show h.obj? (σ o) = Option.map _ (h1.obj? o)
    rw [hs.obj o ho]
    cases hob : h1.obj? o with
    | none => rfl
    | some ob =>
      simp only [Option.map_some]
      rw [renObj_extend (fun a ha => hs.objIn o ob a hob ha)]
  · intro o ob a hob ha; exact Nat.lt_succ_of_lt (hs.objIn o ob a hob ha)
  · intro a ha
    rw [extend_old (Nat.lt_of_lt_of_le ha hs.le1)]; exact hs.old a ha
  · intro a ha1 ha2
    rcases hlt ha2 with rfl | hx'
    · rw [extend_new]; exact hs.le
    · rw [extend_old hx']; exact hs.new a ha1 hx'
  · refine ⟨s1 ++ [.alloc h1.next b], s ++ [.alloc h.next b], ?_, ?_, ?_⟩
    · show h1.log ++ _ = _; rw [hk1]; simp
    · show h.log ++ _ = _; rw [hk2]; simp
    · simp [hk3, eventSeen]
  · intro x hx hn
    obtain ⟨f1, f2, f3⟩ := hs.frame x hx hn
    refine ⟨?_, f2, f3⟩
    show (if x = h.next then _ else _) = _
    rw [if_neg (by have := hs.le; omega)]; exact f1

theorem HSim.deallocate (hs : HSim c σ ρ h1 h) {a : Nat} {b : Blk} {h1' : Heap} (hd : h1.deallocate a b = some h1') :
    ∃ h', h.deallocate (ρ a) b = some h' ∧ HSim c σ ρ h1' h' := by
  unfold Heap.deallocate at hd ⊢
  by_cases hb : h1.blk a = some b
  · rw [if_pos hb] at hd; simp at hd
    have ha : a < h1.next := by
      by_cases h2 : a < h1.next
      · exact h2
      · rw [hs.fresh1.blk a (by omega)] at hb; simp at hb
    rw [if_pos (by rw [hs.blk a ha]; exact hb)]
    refine ⟨_, rfl, ?_⟩
    subst hd
    obtain ⟨s1, s, hk1, hk2, hk3⟩ := hs.log
    refine { hs with fresh1 := hs.fresh1.of_same rfl ?_ rfl rfl rfl, fresh := hs.fresh.of_same rfl ?_ rfl rfl rfl, blk := ?_, log := ?_, frame := ?_ }
    · intro x hx
      show (if ρ x = ρ a then _ else _) = (if x = a then _ else _)
      by_cases h2 : x = a
      · rw [if_pos h2, if_pos (by rw [h2])]
      · rw [if_neg h2, if_neg (fun h3 => h2 (hs.inj x a hx ha h3))]; exact hs.blk x hx
    · intro x hx; show (if x = a then _ else _) = _; split <;> simp [hx]
    · intro x hx; show (if x = ρ a then _ else _) = _; split <;> simp [hx]
    · refine ⟨s1 ++ [.dealloc a], s ++ [.dealloc (ρ a)], ?_, ?_, ?_⟩
      · show h1.log ++ _ = _; rw [hk1]; simp
      · show h.log ++ _ = _; rw [hk2]; simp
      · simp [hk3, eventSeen]
    · intro x hx hn
      obtain ⟨f1, f2, f3⟩ := hs.frame x hx hn
      refine ⟨?_, f2, f3⟩
      show (if x = ρ a then _ else _) = _
      rw [if_neg (hs.away ha hx hn)]; exact f1
  · rw [if_neg hb] at hd; simp at hd

theorem HSim.isSome_lt (hs : HSim c σ ρ h1 h) {a : Nat} (hb : (h1.blk a).isSome = true) : a < h1.next := by
  by_cases h2 : a < h1.next
  · exact h2
  · rw [hs.fresh1.blk a (by omega)] at hb; simp at hb

theorem HSim.slot? (hs : HSim c σ ρ h1 h) {a i : Nat} {sl : Slot} (hd : h1.slot? a i = some sl) :
    h.slot? (ρ a) i = some (renSlot ρ sl) ∧ sl.loc.1 < h1.next ∧ ∀ e, sl.buf = some e → e < h1.next := by
  unfold Heap.slot? at hd ⊢
  by_cases hb : (h1.blk a).isSome = true
  · rw [if_pos hb] at hd
    have ha := hs.isSome_lt hb
    rw [if_pos (by rw [hs.blk a ha]; exact hb), hs.slot a i ha, hd]
    exact ⟨rfl, hs.slotIn a i sl ha hd⟩
  · rw [if_neg hb] at hd; simp at hd

theorem HSim.live_some (hs : HSim c σ ρ h1 h) {l : Loc} {x : Mix × Nat} (hd : h1.live l = some x) : h.live (renLoc ρ l) = some x ∧ l.1 < h1.next := by
  have ha : l.1 < h1.next := by
    by_cases h2 : l.1 < h1.next
    · exact h2
    · have := hs.fresh1.live l.1 l.2 (by omega)
      rw [show (l.1, l.2) = l from rfl, hd] at this; simp at this
  exact ⟨by have := hs.live l.1 l.2 ha; unfold renLoc; rw [this]; exact hd, ha⟩

theorem HSim.obj_some (hs : HSim c σ ρ h1 h) {o : Nat} {ob : Obj} (hd : h1.obj? o = some ob) : h.obj? (σ o) = some (renObj ρ ob) ∧ o < h1.objs.length := by
  have ho : o < h1.objs.length := by
    by_cases h2 : o < h1.objs.length
    · exact h2
    · unfold Heap.obj? at hd; rw [List.getElem?_eq_none (by omega)] at hd; simp at hd
  exact ⟨by rw [hs.obj o ho, hd]; rfl, ho⟩

theorem obj_setObj (h : Heap) (o p : Nat) (x : Option Obj) (ho : o < h.objs.length) : (h.setObj o x).obj? p = if p = o then x else h.obj? p := by
  unfold Heap.obj? Heap.setObj
  simp only [List.getElem?_set]
  by_cases hp : o = p
  · subst hp; simp [ho]
  · simp [hp, Ne.symm hp]

theorem HSim.setObj (hs : HSim c σ ρ h1 h) {o : Nat} (ho : o < h1.objs.length) {x : Option Obj} (hx : ∀ ob a, x = some ob → ob.data = some a → a < h1.next) :
    HSim c σ ρ (h1.setObj o x) (h.setObj (σ o) (x.map (renObj ρ))) := by
  have hl : (h1.setObj o x).objs.length = h1.objs.length := by simp [Heap.setObj]
  have hl' : (h.setObj (σ o) (x.map (renObj ρ))).objs.length = h.objs.length := by simp [Heap.setObj]
  refine { hs with fresh1 := hs.fresh1.of_same rfl (fun _ h => h) rfl rfl rfl, fresh := hs.fresh.of_same rfl (fun _ h => h) rfl rfl rfl, ownerIn := ?_, sinj := ?_, sbound := ?_, obj := ?_, objIn := ?_, snew := ?_, sle1 := ?_, sle := ?_, objFrame := ?_ }
  · rw [hl]; exact hs.ownerIn
  · rw [hl]; exact hs.sinj
  · rw [hl, hl']; exact hs.sbound
  · rw [hl]
    intro p hp
    rw [obj_setObj h1 o p x ho, obj_setObj h (σ o) (σ p) _ (hs.sbound o ho)]
    by_cases h2 : p = o
    · rw [if_pos h2, if_pos (by rw [h2])]
    · rw [if_neg h2, if_neg (fun h3 => h2 (hs.sinj p o hp ho h3))]; exact hs.obj p hp
  · intro p ob a
    rw [obj_setObj h1 o p x ho]
    by_cases h2 : p = o
    · rw [if_pos h2]; intro h3 h4; exact hx ob a h3 h4
    · rw [if_neg h2]; exact hs.objIn p ob a
  · rw [hl]; exact hs.snew
  · rw [hl]; exact hs.sle1
  · rw [hl']; exact hs.sle
  · intro p hp hn
    rw [obj_setObj h (σ o) p _ (hs.sbound o ho), if_neg (hs.oaway ho hp hn)]
    exact hs.objFrame p hp hn

theorem HSim.construct (hs : HSim c σ ρ h1 h) {l : Loc} {m : Mix} {v : Nat} {k k' : How} (hk : howSeen k' = howSeen k) {h1' : Heap} (hd : h1.construct l m v k = some h1') :
    ∃ h', h.construct (renLoc ρ l) m v k' = some h' ∧ HSim c σ ρ h1' h' := by
  unfold Heap.construct at hd ⊢
  by_cases hb : (h1.blk l.1).isSome = true ∧ h1.live l = none
  · rw [if_pos hb] at hd; simp only [Option.some.injEq] at hd
    have ha := hs.isSome_lt hb.1
    rw [if_pos ⟨by show (h.blk (ρ l.1)).isSome = true; rw [hs.blk _ ha]; exact hb.1, by
      have := hs.live l.1 l.2 ha; unfold renLoc; rw [this]; exact hb.2⟩]
    exact ⟨_, rfl, hd ▸ (hs.setLive ha _).logged (by simp [eventSeen, hk, renLoc])⟩
  · rw [if_neg hb] at hd; simp at hd

theorem HSim.destroy {D : Decls} (hs : HSim c σ ρ h1 h) {l : Loc} {m : Mix} {h1' : Heap} (hd : h1.destroy D l m = some h1') :
    ∃ h', h.destroy D (renLoc ρ l) m = some h' ∧ HSim c σ ρ h1' h' := by
  unfold Heap.destroy at hd ⊢
  cases hl : h1.live l with
  | none => rw [hl] at hd; simp at hd
  | some x =>
    obtain ⟨m', v⟩ := x
    obtain ⟨k1, k2⟩ := hs.live_some hl
    rw [hl] at hd; rw [k1]
    simp only at hd ⊢
    by_cases hb : m' = m ∧ (h1.blk l.1).isSome = true
    · rw [if_pos hb] at hd; simp only [Option.some.injEq] at hd
      rw [if_pos ⟨hb.1, by show (h.blk (ρ l.1)).isSome = true; rw [hs.blk _ k2]; exact hb.2⟩]
      refine ⟨_, rfl, ?_⟩
      subst hd
      cases (D.mix m).hasDestroy with
      | true => exact (hs.setLive k2 none).logged (by simp [eventSeen, renLoc])
      | false => exact hs.setLive k2 none
    · rw [if_neg hb] at hd; simp at hd

end

end Dnmx.Indep
