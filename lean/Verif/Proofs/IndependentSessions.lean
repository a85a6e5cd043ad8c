import Verif.Proofs.IndependentLemmas

/-!
# Lemmas on the independence of objects: mutations

Each function on sessions in the part of a heap is simulated by the same function in the whole heap.
-/

set_option linter.unusedSimpArgs false
set_option linter.unusedVariables false

namespace Dnmx.Indep
open Spec

/-- `HSim` with the next address and the number of objects of the part. -/
structure HS (c : Base) (σ ρ : Nat → Nat) (n L : Nat) (h1 h : Heap) : Prop extends HSim c σ ρ h1 h where
  nx : h1.next = n
  len : h1.objs.length = L

/-- The outside world does the same in both. -/
structure OSim (c : Base) (o1 o : Orc) : Prop where
  fail : ∀ k, o.fail (c.h.tick + k) = o1.fail (c.h1.tick + k)
  val : ∀ k, o.val (c.h.tick + k) = o1.val (c.h1.tick + k)

section
variable {D : Decls} {E : TyEnv} {orc1 orc : Orc} {c : Base} {σ ρ : Nat → Nat} {n L : Nat} {h1 h : Heap}

theorem HSim.fails (hs : HSim c σ ρ h1 h) (ho : OSim c orc1 orc) : orc.fail h.tick = orc1.fail h1.tick := by
  obtain ⟨k, k1, k2⟩ := hs.tick; rw [k1, k2]; exact ho.fail k

theorem HSim.vals (hs : HSim c σ ρ h1 h) (ho : OSim c orc1 orc) : orc.val h.tick = orc1.val h1.tick := by
  obtain ⟨k, k1, k2⟩ := hs.tick; rw [k1, k2]; exact ho.val k

theorem HSim.userErr (hs : HSim c σ ρ h1 h) : errorSince c.h.tick (.user h.tick) = errorSince c.h1.tick (.user h1.tick) := by
  obtain ⟨k, k1, k2⟩ := hs.tick; rw [k1, k2]; simp [errorSince]

theorem HS.ticked (hs : HS c σ ρ n L h1 h) : HS c σ ρ n L h1.ticked h.ticked := ⟨hs.toHSim.ticked, hs.nx, hs.len⟩
theorem HS.logged (hs : HS c σ ρ n L h1 h) {e1 e : Ev} (he : eventSeen e = eventSeen e1) : HS c σ ρ n L (h1.logged e1) (h.logged e) := ⟨hs.toHSim.logged he, hs.nx, hs.len⟩
theorem HS.countUp (hs : HS c σ ρ n L h1 h) (t : TypeId) (k : Int) : HS c σ ρ n L (h1.countUp t k) (h.countUp t k) := ⟨hs.toHSim.countUp t k, hs.nx, hs.len⟩
theorem HS.setSlot (hs : HS c σ ρ n L h1 h) {a i : Nat} {sl : Slot} (ha : a < n) (h2 : sl.loc.1 < n) (h3 : ∀ e, sl.buf = some e → e < n) :
    HS c σ ρ n L (h1.setSlot a i sl) (h.setSlot (ρ a) i (renSlot ρ sl)) :=
  ⟨hs.toHSim.setSlot (by rw [hs.nx]; exact ha) i (by rw [hs.nx]; exact h2) (fun e he => by rw [hs.nx]; exact h3 e he), hs.nx, hs.len⟩
theorem HS.setOwner (hs : HS c σ ρ n L h1 h) {l : Loc} {o : Nat} (hl : l.1 < n) (ho : o < L) : HS c σ ρ n L (h1.setOwner l o) (h.setOwner (renLoc ρ l) (σ o)) :=
  ⟨hs.toHSim.setOwner (hs.nx ▸ hl) (hs.len ▸ ho), hs.nx, hs.len⟩
theorem HS.setLive (hs : HS c σ ρ n L h1 h) {l : Loc} (hl : l.1 < n) (v : Option (Mix × Nat)) : HS c σ ρ n L (h1.setLive l v) (h.setLive (renLoc ρ l) v) :=
  ⟨hs.toHSim.setLive (hs.nx ▸ hl) v, hs.nx, hs.len⟩
theorem HS.setObj (hs : HS c σ ρ n L h1 h) {o : Nat} (ho : o < L) {x : Option Obj} (hx : ∀ ob a, x = some ob → ob.data = some a → a < n) :
    HS c σ ρ n L (h1.setObj o x) (h.setObj (σ o) (x.map (renObj ρ))) :=
  ⟨hs.toHSim.setObj (hs.len ▸ ho) (fun ob a h2 h3 => hs.nx ▸ hx ob a h2 h3), hs.nx, by rw [← hs.len]; simp⟩
theorem HS.slot? (hs : HS c σ ρ n L h1 h) {a i : Nat} {sl : Slot} (hd : h1.slot? a i = some sl) :
    h.slot? (ρ a) i = some (renSlot ρ sl) ∧ sl.loc.1 < n ∧ ∀ e, sl.buf = some e → e < n := by
  have := hs.toHSim.slot? hd; rw [hs.nx] at this; exact this
theorem HS.live_some (hs : HS c σ ρ n L h1 h) {l : Loc} {x : Mix × Nat} (hd : h1.live l = some x) : h.live (renLoc ρ l) = some x ∧ l.1 < n := by
  have := hs.toHSim.live_some hd; rw [hs.nx] at this; exact this
theorem HS.obj_some (hs : HS c σ ρ n L h1 h) {o : Nat} {ob : Obj} (hd : h1.obj? o = some ob) :
    h.obj? (σ o) = some (renObj ρ ob) ∧ o < L ∧ ∀ a, ob.data = some a → a < n := by
  obtain ⟨h2, h3⟩ := hs.toHSim.obj_some hd
  exact ⟨h2, hs.len ▸ h3, fun a ha => hs.nx ▸ hs.objIn o ob a hd ha⟩

/-- Results with `none` for undefined behaviour. -/
def ORel (R : α → α → Prop) : Option α → Option α → Prop
  | none, _ => True
  | some a, some b => R a b
  | some _, none => False

theorem ORel.bind {R : α → α → Prop} {S : β → β → Prop} {r1 r : Option α} {f1 f : α → Option β} (hr : ORel R r1 r) (hf : ∀ a b, R a b → ORel S (f1 a) (f b)) :
    ORel S (r1.bind f1) (r.bind f) := by
  cases r1 with
  | none => trivial
  | some a =>
    cases r with
    | none => exact hr.elim
    | some b => exact hf a b hr

theorem ORel.map {R : α → α → Prop} {S : β → β → Prop} {r1 r : Option α} {f1 f : α → β} (hr : ORel R r1 r) (hf : ∀ a b, R a b → S (f1 a) (f b)) :
    ORel S (r1.map f1) (r.map f) := by
  cases r1 with
  | none => trivial
  | some a =>
    cases r with
    | none => exact hr.elim
    | some b => exact hf a b hr

theorem ORel.some {R : α → α → Prop} {r1 r : Option α} {a : α} (hr : ORel R r1 r) (h : r1 = some a) : ∃ b, r = some b ∧ R a b := by
  rw [h] at hr
  cases r with
  | none => exact hr.elim
  | some b => exact ⟨b, rfl, hr⟩

/-- Results with exceptions. -/
def RRel (c : Base) (R : α → α → Prop) : Res α → Res α → Prop
  | .ub, _ => True
  | .ok a, .ok b => R a b
  | .throw a e1, .throw b e => R a b ∧ errorSince c.h.tick e = errorSince c.h1.tick e1
  | _, _ => False

theorem RRel.bind {R : α → α → Prop} {S : β → β → Prop} {r1 r : Res α} {f1 f : α → Res β} {g1 g : α → XErr → Res β} (hr : RRel c R r1 r)
    (hf : ∀ a b, R a b → RRel c S (f1 a) (f b))
    (hg : ∀ a b e1 e, R a b → errorSince c.h.tick e = errorSince c.h1.tick e1 → RRel c S (g1 a e1) (g b e)) : RRel c S (r1.bind f1 g1) (r.bind f g) := by
  cases r1 with
  | ub => trivial
  | ok a =>
    cases r with
    | ok b => exact hf a b hr
    | throw b e => exact hr.elim
    | ub => exact hr.elim
  | throw a e1 =>
    cases r with
    | ok b => exact hr.elim
    | throw b e => exact hg a b e1 e hr.1 hr.2
    | ub => exact hr.elim

theorem RRel.mono {R S : α → α → Prop} {r1 r : Res α} (hr : RRel c R r1 r) (h : ∀ a b, R a b → S a b) : RRel c S r1 r := by
  cases r1 <;> cases r <;> first | trivial | exact h _ _ hr | exact ⟨h _ _ hr.1, hr.2⟩ | exact hr.elim

theorem HS.construct (hs : HS c σ ρ n L h1 h) {l : Loc} {m : Mix} {v : Nat} {k k' : How} (hk : howSeen k' = howSeen k) :
    ORel (HS c σ ρ n L) (h1.construct l m v k) (h.construct (renLoc ρ l) m v k') := by
  cases hd : h1.construct l m v k with
  | none => trivial
  | some h1' =>
    obtain ⟨h', h2, h3⟩ := hs.toHSim.construct hk hd
    rw [h2]
    unfold Heap.construct at hd
    split at hd
    · simp only [Option.some.injEq] at hd; subst hd; exact ⟨h3, hs.nx, hs.len⟩
    · simp at hd

theorem HS.destroy (hs : HS c σ ρ n L h1 h) {l : Loc} {m : Mix} : ORel (HS c σ ρ n L) (h1.destroy D l m) (h.destroy D (renLoc ρ l) m) := by
  cases hd : h1.destroy D l m with
  | none => trivial
  | some h1' =>
    obtain ⟨h', h2, h3⟩ := hs.toHSim.destroy hd
    rw [h2]
    unfold Heap.destroy at hd
    split at hd
    · split at hd
      · simp only [Option.some.injEq] at hd
        subst hd
        refine ⟨h3, ?_, ?_⟩
        · split <;> exact hs.nx
        · split <;> exact hs.len
      · simp at hd
    · simp at hd

theorem HS.deallocate (hs : HS c σ ρ n L h1 h) {a : Nat} {b : Blk} : ORel (HS c σ ρ n L) (h1.deallocate a b) (h.deallocate (ρ a) b) := by
  cases hd : h1.deallocate a b with
  | none => trivial
  | some h1' =>
    obtain ⟨h', h2, h3⟩ := hs.toHSim.deallocate hd
    rw [h2]
    unfold Heap.deallocate at hd
    split at hd
    · simp only [Option.some.injEq] at hd; subst hd; exact ⟨h3, hs.nx, hs.len⟩
    · simp at hd

theorem HS.deallocBuffer (hs : HS c σ ρ n L h1 h) {t : TypeId} {al a : Nat} : ORel (HS c σ ρ n L) (deallocBuffer h1 t al a) (deallocBuffer h t al (ρ a)) :=
  hs.deallocate.map (fun _ _ k => k.countUp t (-1))

/-- A session in the part and the same in the whole. -/
structure SSim (c : Base) (σ ρ : Nat → Nat) (n L : Nat) (s1 s : Sess) : Prop where
  h : HS c σ ρ n L s1.h s.h
  o : s.o = σ s1.o
  oIn : s1.o < L
  al : s.al = s1.al
  oldTy : s.oldTy = s1.oldTy
  oldData : s.oldData = s1.oldData.map ρ
  oldIn : ∀ a, s1.oldData = some a → a < n
  ty : s.ty = s1.ty
  data : s.data = s1.data.map ρ
  dataIn : ∀ a, s1.data = some a → a < n
  alloced : s.alloced = s1.alloced
  updated : s.updated = s1.updated
  complete : s.complete = s1.complete
  movedOut : s.movedOut = s1.movedOut

variable {s1 s : Sess}

theorem SSim.withH (hs : SSim c σ ρ n L s1 s) {h1 h : Heap} (hh : HS c σ ρ n L h1 h) : SSim c σ ρ n L { s1 with h := h1 } { s with h := h } :=
  { hs with h := hh }

theorem SSim.oldIndex (hs : SSim c σ ρ n L s1 s) (m : Mix) :
    s.oldIndex E m = (s1.oldIndex E m).map (fun x => (ρ x.1, x.2)) ∧ ∀ x, s1.oldIndex E m = some x → x.1 < n := by
  have hi := hs.oldIn
  unfold Sess.oldIndex
  rw [hs.oldData, hs.oldTy]
  cases h2 : s1.oldData with
  | none => simp
  | some b =>
    cases h3 : s1.oldTy with
    | none => simp
    | some t =>
      cases h4 : E.indexOf t m with
      | none => simp [h4]
      | some i =>
        simp only [Option.map_some, h4, Option.some.injEq, true_and]
        intro x hx; subst hx; exact hi b h2

theorem destroyLoop_sim (hs : SSim c σ ρ n L s1 s) : ∀ (i : Nat) (h1 h : Heap), HS c σ ρ n L h1 h → ORel (HS c σ ρ n L) (destroyLoop D E s1 i h1) (destroyLoop D E s i h) := by
  intro i
  induction i with
  | zero => intro h1 h hh; exact hh
  | succ i ih =>
    intro h1 h hh
    unfold destroyLoop
    rw [hs.data, hs.ty]
    cases h2 : s1.data with
    | none => trivial
    | some a =>
      cases h3 : (E.mixins s1.ty)[i]? with
      | none => trivial
      | some m =>
        simp only [Option.map_some]
        rw [(hs.oldIndex (E := E) m).1]
        cases h4 : s1.oldIndex E m with
        | some x => exact ih h1 h hh
        | none =>
          simp only [Option.map_none]
          cases h5 : h1.slot? a i with
          | none => trivial
          | some sl =>
            rw [(hh.slot? h5).1]
            exact hh.destroy.bind (fun a b k => ih a b k)

theorem deallocLoop_sim (hs : SSim c σ ρ n L s1 s) : ∀ (i : Nat) (h1 h : Heap), HS c σ ρ n L h1 h → ORel (HS c σ ρ n L) (deallocLoop D E s1 i h1) (deallocLoop D E s i h) := by
  intro i
  induction i with
  | zero => intro h1 h hh; exact hh
  | succ i ih =>
    intro h1 h hh
    unfold deallocLoop
    rw [hs.data, hs.ty]
    cases h2 : s1.data with
    | none => trivial
    | some a =>
      cases h3 : (E.mixins s1.ty)[i]? with
      | none => trivial
      | some m =>
        simp only [Option.map_some]
        rw [(hs.oldIndex (E := E) m).1]
        cases h5 : h1.slot? a i with
        | none => trivial
        | some sl =>
          rw [(hh.slot? h5).1]
          simp only [renSlot]
          cases h6 : sl.buf with
          | none => exact ih h1 h hh
          | some e =>
            simp only [Option.map_some]
            cases h4 : s1.oldIndex E m with
            | some x => exact ih h1 h hh
            | none =>
              simp only [Option.map_none]
              rw [hs.al]
              exact hh.deallocate.bind (fun a b k => ih a b k)

theorem rollback_sim (hs : SSim c σ ρ n L s1 s) : ORel (SSim c σ ρ n L) (rollback D E s1) (rollback D E s) := by
  unfold rollback
  rw [hs.oldTy, hs.ty]
  by_cases hc : s1.oldTy = some s1.ty
  · rw [if_pos hc, if_pos hc]; exact { hs with complete := rfl, movedOut := rfl, oldTy := rfl, ty := rfl }
  · rw [if_neg hc, if_neg hc]
    have hr : ORel (HS c σ ρ n L) ((destroyLoop D E s1 s1.updated s1.h).bind (deallocLoop D E s1 s1.alloced)) ((destroyLoop D E s s.updated s.h).bind (deallocLoop D E s s.alloced)) := by
      rw [hs.updated, hs.alloced]
      exact (destroyLoop_sim hs _ _ _ hs.h).bind (fun a b k => deallocLoop_sim hs _ a b k)
    cases h2 : (destroyLoop D E s1 s1.updated s1.h).bind (deallocLoop D E s1 s1.alloced) with
    | none => trivial
    | some h1' =>
      obtain ⟨h', h3, h4⟩ := hr.some h2
      rw [h3, hs.data]
      cases h5 : s1.data with
      | none => exact { hs with h := h4, updated := rfl, alloced := rfl, complete := rfl, movedOut := rfl, oldTy := rfl, ty := rfl, data := rfl, dataIn := fun _ h => by simp at h }
      | some a =>
        simp only [Option.map_some]
        rw [hs.al]
        refine h4.deallocBuffer.map (fun a b k => ?_)
        exact { hs with h := k, al := rfl, oldTy := rfl, ty := rfl, updated := rfl, alloced := rfl, complete := rfl, movedOut := rfl, data := rfl, dataIn := fun _ h => by simp at h }

theorem finalizeOne_sim (ho : OSim c orc1 orc) (hs : SSim c σ ρ n L s1 s) (b a oi : Nat) (m : Mix) (hh : HS c σ ρ n L h1 h) :
    ORel (HS c σ ρ n L) (finalizeOne D E orc1 s1 b a oi m h1) (finalizeOne D E orc s (ρ b) (ρ a) oi m h) := by
  unfold finalizeOne
  cases h2 : h1.slot? b oi with
  | none => trivial
  | some old =>
    obtain ⟨k1, k2, k3⟩ := hh.slot? h2
    rw [k1, hs.ty]
    simp only [renSlot]
    cases h3 : E.indexOf s1.ty m with
    | some ti =>
      cases h4 : old.buf with
      | some e => exact hh
      | none =>
        simp only [Option.map_none]
        cases h5 : h1.slot? a ti with
        | none => trivial
        | some new =>
          obtain ⟨k4, k5, k6⟩ := hh.slot? h5
          rw [k4]
          cases h6 : h1.live old.loc with
          | none => trivial
          | some x =>
            obtain ⟨m', v⟩ := x
            rw [(hh.live_some h6).1]
            simp only [renSlot]
            by_cases hc : m' = m ∧ (D.mix m).hasMoveInit = true
            · rw [if_pos hc, if_pos hc]
              refine (hh.construct (by simp [howSeen, renLoc])).bind (fun x y k => ?_)
              rw [k.toHSim.vals ho]
              exact ((k.setLive k2 _).ticked).destroy
            · rw [if_neg hc]; trivial
    | none =>
      have hd := hh.destroy (D := D) (l := old.loc) (m := m)
      cases h4 : h1.destroy D old.loc m with
      | none => simp only [h4]; trivial
      | some h1' =>
        obtain ⟨h', h5, h6⟩ := hd.some h4
        simp only [h4, h5]
        cases h7 : old.buf with
        | none => exact h6
        | some e => simp only [Option.map_some]; rw [hs.al]; exact h6.deallocate

theorem finalizeLoop_sim (ho : OSim c orc1 orc) (hs : SSim c σ ρ n L s1 s) (b a : Nat) : ∀ (ms : List Mix) (oi : Nat) (h1 h : Heap), HS c σ ρ n L h1 h →
    ORel (HS c σ ρ n L) (finalizeLoop D E orc1 s1 b a oi ms h1) (finalizeLoop D E orc s (ρ b) (ρ a) oi ms h) := by
  intro ms
  induction ms with
  | nil => intro oi h1 h hh; exact hh
  | cons m ms ih =>
    intro oi h1 h hh
    unfold finalizeLoop
    exact (finalizeOne_sim ho hs b a oi m hh).bind (fun x y k => ih _ x y k)

theorem attach_sim (hs : SSim c σ ρ n L s1 s) (hh : HS c σ ρ n L h1 h) : SSim c σ ρ n L (attach s1 h1) (attach s h) := by
  unfold attach
  rw [hs.o]
  have hob := hh.obj s1.o (hh.len ▸ hs.oIn)
  cases h2 : h1.obj? s1.o with
  | none =>
    rw [h2] at hob; rw [hob]
    simp only [Option.map_none]
    exact { hs with h := hh, o := rfl }
  | some ob =>
    rw [h2] at hob; rw [hob]
    simp only [Option.map_some]
    refine { hs with h := ?_, o := rfl }
    have := hh.setObj hs.oIn (x := some { ob with ty := some s1.ty, data := s1.data }) (by
      intro ob' a h3 h4; simp at h3; subst h3; exact hs.dataIn a h4)
    simp only [Option.map_some, renObj] at this ⊢
    rw [hs.ty, hs.data]
    exact this

theorem finalize_sim (ho : OSim c orc1 orc) (hs : SSim c σ ρ n L s1 s) : ORel (SSim c σ ρ n L) (finalize D E orc1 s1) (finalize D E orc s) := by
  unfold finalize
  rw [hs.complete, hs.oldTy, hs.ty, hs.oldData]
  by_cases hc : (!s1.complete) = true
  · rw [if_pos hc, if_pos hc]; exact hs
  rw [if_neg hc, if_neg hc]
  by_cases hc : s1.oldTy = some s1.ty
  · rw [if_pos hc, if_pos hc]; exact { hs with oldData := rfl, oldTy := rfl, ty := rfl, complete := rfl, oldIn := fun _ h => by simp at h }
  rw [if_neg hc, if_neg hc]
  cases h2 : s1.oldData with
  | none => exact attach_sim hs hs.h
  | some b =>
    simp only [Option.map_some]
    cases h3 : s1.oldTy with
    | none => trivial
    | some t =>
      simp only
      rw [hs.data]
      cases h4 : s1.data with
      | none => trivial
      | some a =>
        simp only [Option.map_some]
        have hr := (finalizeLoop_sim (D := D) (E := E) ho hs b a (E.mixins t) 0 _ _ hs.h).bind (f1 := fun h => deallocBuffer h t s1.al b) (f := fun h => deallocBuffer h t s.al (ρ b))
          (S := HS c σ ρ n L) (fun x y k => by rw [hs.al]; exact k.deallocBuffer)
        cases h5 : (finalizeLoop D E orc1 s1 b a 0 (E.mixins t) s1.h).bind (fun h => deallocBuffer h t s1.al b) with
        | none => simp only [h5]; trivial
        | some h1' =>
          obtain ⟨h', h6, h7⟩ := hr.some h5
          simp only [h5, h6]
          exact { attach_sim hs h7 with oldData := rfl, oldTy := rfl, oldIn := fun _ h => by simp at h }

theorem sourceAt_sim (hh : HS c σ ρ n L h1 h) {src i : Nat} {x : Loc × Mix × Nat} (hx : sourceAt h1 src i = some x) :
    sourceAt h (σ src) i = some (renLoc ρ x.1, x.2) ∧ x.1.1 < n := by
  unfold sourceAt at hx ⊢
  cases h2 : h1.obj? src with
  | none => rw [h2] at hx; simp at hx
  | some ob =>
    obtain ⟨k1, k2, k3⟩ := hh.obj_some h2
    rw [h2] at hx; rw [k1]
    simp only [Option.bind_some, renObj] at hx ⊢
    cases h3 : ob.data with
    | none => rw [h3] at hx; simp at hx
    | some b =>
      rw [h3] at hx
      simp only [Option.map_some] at hx ⊢
      cases h4 : h1.slot? b i with
      | none => rw [h4] at hx; simp at hx
      | some sl =>
        obtain ⟨k4, k5, k6⟩ := hh.slot? h4
        rw [h4] at hx; rw [k4]
        simp only [renSlot] at hx ⊢
        cases h5 : h1.live sl.loc with
        | none => rw [h5] at hx; simp at hx
        | some y =>
          rw [h5] at hx; rw [(hh.live_some h5).1]
          simp at hx; subst hx
          exact ⟨rfl, k5⟩

theorem mixinAt_sim (hh : HS c σ ρ n L h1 h) {b i : Nat} {x : Loc × Mix × Nat} (hx : mixinAt h1 b i = some x) :
    mixinAt h (ρ b) i = some (renLoc ρ x.1, x.2) ∧ x.1.1 < n := by
  unfold mixinAt at hx ⊢
  cases h4 : h1.slot? b i with
  | none => rw [h4] at hx; simp at hx
  | some sl =>
    obtain ⟨k4, k5, k6⟩ := hh.slot? h4
    rw [h4] at hx; rw [k4]
    simp only [renSlot] at hx ⊢
    cases h5 : h1.live sl.loc with
    | none => rw [h5] at hx; simp at hx
    | some y =>
      rw [h5] at hx; rw [(hh.live_some h5).1]
      simp at hx; subst hx
      exact ⟨rfl, k5⟩

/-- The end of a construction. -/
theorem constructed_sim (hs : SSim c σ ρ n L s1 s) (r1 r : Option Heap) : ORel (HS c σ ρ n L) r1 r →
    RRel c (SSim c σ ρ n L) (match r1 with | none => Res.ub | some h => .ok { s1 with h := h }) (match r with | none => Res.ub | some h => .ok { s with h := h }) := by
  intro hr
  cases r1 with
  | none => trivial
  | some h1 =>
    cases r with
    | none => exact hr.elim
    | some h => exact hs.withH hr

theorem constructNew_sim (ho : OSim c orc1 orc) (hs : SSim c σ ρ n L s1 s) (f : NewFn) (m : Mix) (ti : Nat) (l : Loc) :
    RRel c (SSim c σ ρ n L) (constructNew D orc1 f s1 m ti l) (constructNew D orc (renNew σ f) s m ti (renLoc ρ l)) := by
  have ht : SSim c σ ρ n L { s1 with h := s1.h.ticked } { s with h := s.h.ticked } := hs.withH hs.h.ticked
  cases f with
  | dflt =>
    simp only [constructNew, renNew]
    by_cases hc : (!(D.mix m).hasInit) = true
    · rw [if_pos hc, if_pos hc]; exact ⟨hs, rfl⟩
    rw [if_neg hc, if_neg hc, hs.h.toHSim.fails ho, hs.h.toHSim.vals ho]
    by_cases hc : orc1.fail s1.h.tick = true
    · rw [if_pos hc, if_pos hc]; exact ⟨ht, hs.h.toHSim.userErr⟩
    rw [if_neg hc, if_neg hc]
    exact constructed_sim hs _ _ (hs.h.ticked.construct rfl)
  | custom k =>
    simp only [constructNew, renNew]
    rw [hs.h.toHSim.fails ho, hs.h.toHSim.vals ho]
    by_cases hc : orc1.fail s1.h.tick = true
    · rw [if_pos hc, if_pos hc]; exact ⟨ht, hs.h.toHSim.userErr⟩
    rw [if_neg hc, if_neg hc]
    exact constructed_sim hs _ _ (hs.h.ticked.construct rfl)
  | copy src checked =>
    simp only [constructNew, renNew]
    cases h2 : sourceAt s1.h src ti with
    | none => trivial
    | some x =>
      obtain ⟨sl, m', v⟩ := x
      rw [(sourceAt_sim hs.h h2).1]
      simp only
      by_cases hc : m' ≠ m
      · rw [if_pos hc]; trivial
      rw [if_neg hc, if_neg hc]
      by_cases hc : (!(D.mix m).hasCopyInit) = true
      · rw [if_pos hc, if_pos hc]
        cases checked with
        | true => exact ⟨hs, rfl⟩
        | false => trivial
      rw [if_neg hc, if_neg hc, hs.h.toHSim.fails ho]
      by_cases hc : orc1.fail s1.h.tick = true
      · rw [if_pos hc, if_pos hc]; exact ⟨ht, hs.h.toHSim.userErr⟩
      rw [if_neg hc, if_neg hc]
      exact constructed_sim hs _ _ (hs.h.ticked.construct (by simp [howSeen, renLoc]))

theorem updateCommon_sim (ho : OSim c orc1 orc) (hs : SSim c σ ρ n L s1 s) (g : UpdFn) (m : Mix) (ti : Nat) (l : Loc) :
    RRel c (SSim c σ ρ n L) (updateCommon D orc1 g s1 m ti l) (updateCommon D orc (renUpd σ g) s m ti (renLoc ρ l)) := by
  cases g with
  | noop => exact hs
  | custom k =>
    simp only [updateCommon, renUpd]
    cases h2 : s1.h.live l with
    | none => trivial
    | some x =>
      obtain ⟨m', v⟩ := x
      obtain ⟨k1, k2⟩ := hs.h.live_some h2
      rw [k1]
      simp only
      by_cases hc : m' ≠ m
      · rw [if_pos hc]; trivial
      rw [if_neg hc, if_neg hc, hs.h.toHSim.fails ho, hs.h.toHSim.vals ho]
      have hr := hs.withH (((hs.h.setLive k2 (some (m, orc1.val s1.h.tick))).ticked).logged (e1 := .update m l k) (e := .update m (renLoc ρ l) k) (by simp [eventSeen, renLoc]))
      by_cases hc : orc1.fail s1.h.tick = true
      · rw [if_pos hc, if_pos hc]; exact ⟨hr, hs.h.toHSim.userErr⟩
      rw [if_neg hc, if_neg hc]
      exact hr
  | assign src =>
    simp only [updateCommon, renUpd]
    cases h2 : s1.h.live l with
    | none => trivial
    | some x =>
      obtain ⟨m', v0⟩ := x
      obtain ⟨k1, k2⟩ := hs.h.live_some h2
      rw [k1]
      cases h3 : sourceAt s1.h src ti with
      | none => trivial
      | some y =>
        obtain ⟨sl, m'', v⟩ := y
        rw [(sourceAt_sim hs.h h3).1]
        simp only
        by_cases hc : m' ≠ m ∨ m'' ≠ m ∨ (!(D.mix m).hasCopyAsgn) = true
        · rw [if_pos hc]; trivial
        rw [if_neg hc, if_neg hc, hs.h.toHSim.fails ho, hs.h.toHSim.vals ho]
        by_cases hc : orc1.fail s1.h.tick = true
        · rw [if_pos hc, if_pos hc]
          exact ⟨hs.withH (((hs.h.setLive k2 _).ticked).logged (by simp [eventSeen, renLoc])), hs.h.toHSim.userErr⟩
        · rw [if_neg hc, if_neg hc]
          exact hs.withH (((hs.h.setLive k2 _).ticked).logged (by simp [eventSeen, renLoc]))

theorem SSim.advanced (hs : SSim c σ ρ n L s1 s) : SSim c σ ρ n L (s1.advanced E) (s.advanced E) := by
  unfold Sess.advanced
  exact { hs with updated := by simp [hs.updated], complete := by simp [hs.updated, hs.ty] }

theorem updateNext_sim (ho : OSim c orc1 orc) (hs : SSim c σ ρ n L s1 s) (f : NewFn) (g : UpdFn) :
    RRel c (SSim c σ ρ n L) (updateNext D E orc1 f g s1) (updateNext D E orc (renNew σ f) (renUpd σ g) s) := by
  unfold updateNext
  rw [hs.complete, hs.ty, hs.updated]
  by_cases hc : s1.complete = true
  · rw [if_pos hc, if_pos hc]; exact hs
  rw [if_neg hc, if_neg hc]
  cases h2 : (E.mixins s1.ty)[s1.updated]? with
  | none => trivial
  | some m =>
    simp only
    rw [(hs.oldIndex (E := E) m).1]
    cases h3 : s1.oldIndex E m with
    | some x =>
      obtain ⟨b, oi⟩ := x
      simp only [Option.map_some]
      cases h4 : s1.h.slot? b oi with
      | none => trivial
      | some sl =>
        rw [(hs.h.slot? h4).1]
        exact (updateCommon_sim ho hs g m s1.updated sl.loc).bind (fun a b k => k.advanced) (fun a b e1 e k he => ⟨k, he⟩)
    | none =>
      simp only [Option.map_none]
      rw [hs.data]
      cases h4 : s1.data with
      | none => trivial
      | some a =>
        simp only [Option.map_some]
        cases h5 : s1.h.slot? a s1.updated with
        | none => trivial
        | some sl =>
          rw [(hs.h.slot? h5).1]
          exact (constructNew_sim ho hs f m s1.updated sl.loc).bind (fun a b k => k.advanced) (fun a b e1 e k he => ⟨k, he⟩)

theorem updateLoop_sim (ho : OSim c orc1 orc) (f : NewFn) (g : UpdFn) : ∀ (k : Nat) (s1 s : Sess), SSim c σ ρ n L s1 s →
    RRel c (SSim c σ ρ n L) (updateLoop D E orc1 f g k s1) (updateLoop D E orc (renNew σ f) (renUpd σ g) k s) := by
  intro k
  induction k with
  | zero => intro s1 s hs; exact hs
  | succ k ih =>
    intro s1 s hs
    unfold updateLoop
    exact (updateNext_sim ho hs f g).bind (fun a b k => ih a b k) (fun a b e1 e k he => ⟨k, he⟩)

theorem updateEach_sim (ho : OSim c orc1 orc) (f : NewFn) (g : UpdFn) (upto : Option Nat) (hs : SSim c σ ρ n L s1 s) :
    RRel c (SSim c σ ρ n L) (updateEach D E orc1 f g upto s1) (updateEach D E orc (renNew σ f) (renUpd σ g) upto s) := by
  unfold updateEach
  rw [hs.ty, hs.updated]
  exact updateLoop_sim ho f g _ s1 s hs

theorem updateAt_sim (ho : OSim c orc1 orc) (i : Nat) (f : NewFn) (g : UpdFn) (hs : SSim c σ ρ n L s1 s) :
    RRel c (SSim c σ ρ n L) (updateAt D E orc1 i f g s1) (updateAt D E orc i (renNew σ f) (renUpd σ g) s) := by
  unfold updateAt
  rw [hs.ty, hs.updated]
  by_cases hc : i < s1.updated ∨ i > (E.mixins s1.ty).length
  · rw [if_pos hc, if_pos hc]; exact ⟨hs, rfl⟩
  rw [if_neg hc, if_neg hc]
  exact (updateEach_sim ho .dflt .noop (some i) hs).bind (fun a b k => updateNext_sim ho k f g) (fun a b e1 e k he => ⟨k, he⟩)

theorem dtor_sim (ho : OSim c orc1 orc) (u : Bool) (hs : SSim c σ ρ n L s1 s) : RRel c (HS c σ ρ n L) (s1.dtor D E orc1 u) (s.dtor D E orc u) := by
  unfold Sess.dtor
  rw [hs.movedOut]
  by_cases hc : s1.movedOut = true
  · rw [if_pos hc, if_pos hc]; exact hs.h
  rw [if_neg hc, if_neg hc]
  cases u with
  | true =>
    simp only [if_true]
    have hr := rollback_sim (D := D) (E := E) hs
    cases h2 : rollback D E s1 with
    | none => trivial
    | some s1' =>
      obtain ⟨s', h3, h4⟩ := hr.some h2
      rw [h3]; exact h4.h
  | false =>
    simp only [Bool.false_eq_true, if_false]
    have hr := updateEach_sim (D := D) (E := E) ho .dflt .noop none hs
    cases h2 : updateEach D E orc1 .dflt .noop none s1 with
    | ub => trivial
    | throw s1' e1 =>
      rw [h2] at hr
      cases h3 : updateEach D E orc .dflt .noop none s with
      | ub => rw [show renNew σ .dflt = .dflt from rfl, show renUpd σ .noop = .noop from rfl, h3] at hr; exact hr.elim
      | ok s' => rw [show renNew σ .dflt = .dflt from rfl, show renUpd σ .noop = .noop from rfl, h3] at hr; exact hr.elim
      | throw s' e =>
        rw [show renNew σ .dflt = .dflt from rfl, show renUpd σ .noop = .noop from rfl, h3] at hr
        simp only
        have hr2 := rollback_sim (D := D) (E := E) hr.1
        cases h4 : rollback D E s1' with
        | none => trivial
        | some t1 =>
          obtain ⟨t, h5, h6⟩ := hr2.some h4
          rw [h5]; exact ⟨h6.h, hr.2⟩
    | ok s1' =>
      rw [h2] at hr
      cases h3 : updateEach D E orc .dflt .noop none s with
      | ub => rw [show renNew σ .dflt = .dflt from rfl, show renUpd σ .noop = .noop from rfl, h3] at hr; exact hr.elim
      | throw s' e => rw [show renNew σ .dflt = .dflt from rfl, show renUpd σ .noop = .noop from rfl, h3] at hr; exact hr.elim
      | ok s' =>
        rw [show renNew σ .dflt = .dflt from rfl, show renUpd σ .noop = .noop from rfl, h3] at hr
        simp only
        have hr' : SSim c σ ρ n L s1' s' := hr
        have hq : SSim c σ ρ n L (if s1'.complete then s1' else { s1' with h := s1'.h.logged .assertFailed }) (if s'.complete then s' else { s' with h := s'.h.logged .assertFailed }) := by
          rw [hr'.complete]
          by_cases hc : s1'.complete = true
          · rw [if_pos hc, if_pos hc]; exact hr'
          · rw [if_neg hc, if_neg hc]; exact { hr'.withH (hr'.h.logged (e1 := .assertFailed) (e := .assertFailed) rfl) with complete := rfl }
        have hr2 := finalize_sim (D := D) (E := E) ho hq
        cases h4 : finalize D E orc1 (if s1'.complete then s1' else { s1' with h := s1'.h.logged .assertFailed }) with
        | none => trivial
        | some t1 =>
          obtain ⟨t, h5, h6⟩ := hr2.some h4
          rw [h5]; exact h6.h

theorem mstep_sim (ho : OSim c orc1 orc) (st : MStep) (hs : SSim c σ ρ n L s1 s) : RRel c (SSim c σ ρ n L) (mstep D E orc1 s1 st) (mstep D E orc s (renStep σ st)) := by
  cases st with
  | next f g => exact updateNext_sim ho hs f g
  | each f g u => exact updateEach_sim ho f g u hs
  | «at» i f g => exact updateAt_sim ho i f g hs
  | finalize =>
    simp only [mstep, renStep]
    have hr := finalize_sim (D := D) (E := E) ho hs
    cases h2 : finalize D E orc1 s1 with
    | none => trivial
    | some t1 => obtain ⟨t, h5, h6⟩ := hr.some h2; rw [h5]; exact h6
  | rollback =>
    simp only [mstep, renStep]
    have hr := rollback_sim (D := D) (E := E) hs
    cases h2 : rollback D E s1 with
    | none => trivial
    | some t1 => obtain ⟨t, h5, h6⟩ := hr.some h2; rw [h5]; exact h6
  | throw => exact ⟨hs, rfl⟩

theorem msteps_sim (ho : OSim c orc1 orc) : ∀ (steps : List (MStep × Bool)) (s1 s : Sess), SSim c σ ρ n L s1 s →
    RRel c (SSim c σ ρ n L) (msteps D E orc1 steps s1) (msteps D E orc (steps.map (fun x => (renStep σ x.1, x.2))) s) := by
  intro steps
  induction steps with
  | nil => intro s1 s hs; exact hs
  | cons st rest ih =>
    intro s1 s hs
    obtain ⟨st, caught⟩ := st
    simp only [List.map_cons, msteps]
    refine (mstep_sim ho st hs).bind (fun a b k => ih a b k) (fun a b e1 e k he => ?_)
    cases caught with
    | true => exact ih a b k
    | false => exact ⟨k, he⟩

theorem unwindWith_sim (ho : OSim c orc1 orc) (hs : SSim c σ ρ n L s1 s) {e1 e : XErr} (he : errorSince c.h.tick e = errorSince c.h1.tick e1) :
    RRel c (HS c σ ρ n L) (unwindWith D E orc1 s1 e1) (unwindWith D E orc s e) := by
  unfold unwindWith
  exact (dtor_sim ho true hs).bind (fun a b k => ⟨k, he⟩) (fun a b e1 e k he => trivial)

end

end Dnmx.Indep
