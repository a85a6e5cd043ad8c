import Verif.Proofs.IndependentSessions

/-!
# Lemmas on the independence of objects: operations

Each operation in the part of a heap is simulated by the same operation in the whole heap.
-/

set_option linter.unusedSimpArgs false
set_option linter.unusedVariables false

namespace Dnmx.Indep
open Spec

section
variable {D : Decls} {E : TyEnv} {orc1 orc : Orc} {c : Base} {σ ρ : Nat → Nat} {n L : Nat} {h1 h : Heap} {s1 s : Sess}

/-- With some renaming of addresses. -/
def RS (c : Base) (σ : Nat → Nat) (L : Nat) (s1 s : Sess) : Prop := ∃ ρ n, SSim c σ ρ n L s1 s
def RH (c : Base) (σ : Nat → Nat) (L : Nat) (h1 h : Heap) : Prop := ∃ ρ n, HS c σ ρ n L h1 h

theorem HS.allocate (hs : HS c σ ρ n L h1 h) (b : Blk) : HS c σ (extend ρ n h.next) (n + 1) L (h1.allocate b) (h.allocate b) := by
  obtain ⟨hs, hn, hl⟩ := hs
  subst hn
  exact ⟨hs.allocate b, rfl, hl⟩

theorem map_extend {m : Nat} {x : Option Nat} (hx : ∀ a, x = some a → a < n) : x.map (extend ρ n m) = x.map ρ := by
  cases x with
  | none => rfl
  | some a => simp [extend_old (hx a rfl)]

/-- After an allocation. -/
theorem SSim.extended (hs : SSim c σ ρ n L s1 s) {m : Nat} {h1 h : Heap} (hh : HS c σ (extend ρ n m) (n + 1) L h1 h) :
    SSim c σ (extend ρ n m) (n + 1) L { s1 with h := h1 } { s with h := h } :=
  { hs with
    h := hh
    oldData := by rw [map_extend hs.oldIn]; exact hs.oldData
    oldIn := fun a ha => Nat.lt_succ_of_lt (hs.oldIn a ha)
    data := by rw [map_extend hs.dataIn]; exact hs.data
    dataIn := fun a ha => Nat.lt_succ_of_lt (hs.dataIn a ha) }

theorem allocOne_sim (ho : OSim c orc1 orc) (hs : SSim c σ ρ n L s1 s) : RRel c (RS c σ L) (allocOne D E orc1 s1) (allocOne D E orc s) := by
  unfold allocOne
  rw [hs.data, hs.ty]
  cases h2 : s1.data with
  | none => trivial
  | some a =>
    have ha := hs.dataIn a h2
    have hda : ∀ x, some a = some x → x < n := fun x hx => by simp at hx; subst hx; exact ha
    simp only [Option.map_some]
    rw [hs.alloced]
    cases h3 : (E.mixins s1.ty)[s1.alloced]? with
    | none => trivial
    | some m =>
      simp only
      by_cases hc : E.internal s1.ty s1.alloced = true
      · rw [if_pos hc, if_pos hc]
        have hh := (hs.h.setSlot (a := a) (i := s1.alloced) (sl := ⟨none, (a, s1.alloced)⟩) ha ha (by intro e he; simp at he)).setOwner (l := (a, s1.alloced)) ha hs.oIn
        simp only [renSlot, renLoc, Option.map_none] at hh
        rw [← hs.o] at hh
        exact ⟨ρ, n, { hs with h := hh, data := rfl, dataIn := hda, ty := rfl, alloced := rfl }⟩
      · rw [if_neg hc, if_neg hc, (hs.oldIndex (E := E) m).1]
        cases h4 : s1.oldIndex E m with
        | some x =>
          obtain ⟨b, i⟩ := x
          simp only [Option.map_some]
          cases h5 : s1.h.slot? b i with
          | none => trivial
          | some sl =>
            obtain ⟨k1, k2, k3⟩ := hs.h.slot? h5
            rw [k1]
            exact ⟨ρ, n, { hs with h := hs.h.setSlot ha k2 k3, data := rfl, dataIn := hda, ty := rfl, alloced := rfl }⟩
        | none =>
          simp only [Option.map_none]
          rw [hs.h.toHSim.fails ho, hs.al]
          by_cases hf : orc1.fail s1.h.tick = true
          · rw [if_pos hf, if_pos hf]
            exact ⟨⟨ρ, n, { hs with h := hs.h.ticked, al := rfl, data := rfl, dataIn := hda, ty := rfl, alloced := rfl }⟩, rfl⟩
          · rw [if_neg hf, if_neg hf]
            have hb := hs.h.ticked.allocate (provenance D m s1.al)
            have hh := (hb.setSlot (a := a) (i := s1.alloced) (sl := ⟨some n, (n, 0)⟩) (Nat.lt_succ_of_lt ha) (Nat.lt_succ_self _) (by intro e he; simp at he; omega)).setOwner
              (l := (n, 0)) (Nat.lt_succ_self _) hs.oIn
            simp only [renSlot, renLoc, Option.map_some, extend_new] at hh
            rw [extend_old ha, ← hs.o] at hh
            have hx := hs.extended hh
            have hn : s1.h.next = n := hs.h.nx
            refine ⟨extend ρ n s.h.next, n + 1, ?_⟩
            subst hn
            exact { hx with
              al := rfl, ty := rfl, alloced := rfl
              data := by simp [extend_old ha]
              dataIn := fun x hx => Nat.lt_succ_of_lt (hda x hx) }

theorem allocLoop_sim (ho : OSim c orc1 orc) : ∀ (k : Nat) (s1 s : Sess), RS c σ L s1 s → RRel c (RS c σ L) (allocLoop D E orc1 k s1) (allocLoop D E orc k s) := by
  intro k
  induction k with
  | zero => intro s1 s hs; exact hs
  | succ k ih =>
    intro s1 s hs
    obtain ⟨ρ, n, hs⟩ := hs
    unfold allocLoop
    exact (allocOne_sim ho hs).bind (fun a b k => ih a b k) (fun a b e1 e k he => ⟨k, he⟩)

theorem allocateMixinData_sim (ho : OSim c orc1 orc) (hs : SSim c σ ρ n L s1 s) : RRel c (RS c σ L) (allocateMixinData D E orc1 s1) (allocateMixinData D E orc s) := by
  unfold allocateMixinData
  rw [hs.oldTy, hs.ty]
  by_cases hc : s1.oldTy = some s1.ty
  · rw [if_pos hc, if_pos hc]
    exact ⟨ρ, n, { hs with oldTy := rfl, ty := rfl, data := hs.oldData, dataIn := hs.oldIn }⟩
  rw [if_neg hc, if_neg hc, hs.h.toHSim.fails ho]
  by_cases hf : orc1.fail s1.h.tick = true
  · rw [if_pos hf, if_pos hf]
    exact ⟨⟨ρ, n, { hs with h := hs.h.ticked, oldTy := rfl, ty := rfl }⟩, rfl⟩
  · rw [if_neg hf, if_neg hf]
    have hb := (hs.h.ticked.allocate (.unified s1.ty s1.al)).countUp s1.ty 1
    have hx := hs.extended hb
    refine allocLoop_sim ho _ _ _ ⟨extend ρ n s.h.next, n + 1, ?_⟩
    have hn : s1.h.next = n := hs.h.nx
    rw [hs.al]
    exact { hx with
      oldTy := rfl, ty := rfl, al := rfl
      data := by simp [hn, extend_new]
      dataIn := by intro a h2; simp at h2; omega }

theorem RRel.match_bind {R : α → α → Prop} {S : β → β → Prop} {r1 r : Res α} {f1 f : α → Res β} {g1 g : α → XErr → Res β} (hr : RRel c R r1 r)
    (hf : ∀ a b, R a b → RRel c S (f1 a) (f b))
    (hg : ∀ a b e1 e, R a b → errorSince c.h.tick e = errorSince c.h1.tick e1 → RRel c S (g1 a e1) (g b e)) :
    RRel c S (match r1 with | .ub => .ub | .throw a e => g1 a e | .ok a => f1 a) (match r with | .ub => .ub | .throw a e => g a e | .ok a => f a) := by
  cases r1 with
  | ub => trivial
  | ok a =>
    cases r with
    | ok b => exact hf a b hr
    | throw b e => exact hr.elim
    | ub => exact hr.elim
  | throw a e1 =>
    cases r with
    | ok b => exact hr.elim
    | throw b e => exact hg a b e1 e hr.1 hr.2
    | ub => exact hr.elim

theorem RRel.cases {R : α → α → Prop} {r1 r : Res α} (hr : RRel c R r1 r) :
    r1 = .ub ∨ (∃ a b, r1 = .ok a ∧ r = .ok b ∧ R a b) ∨ ∃ a b e1 e, r1 = .throw a e1 ∧ r = .throw b e ∧ R a b ∧ errorSince c.h.tick e = errorSince c.h1.tick e1 := by
  cases r1 with
  | ub => exact .inl rfl
  | ok a =>
    cases r with
    | ok b => exact .inr (.inl ⟨a, b, rfl, rfl, hr⟩)
    | throw b e => exact hr.elim
    | ub => exact hr.elim
  | throw a e1 =>
    cases r with
    | ok b => exact hr.elim
    | throw b e => exact .inr (.inr ⟨a, b, e1, e, rfl, rfl, hr.1, hr.2⟩)
    | ub => exact hr.elim

theorem withMutation_sim (ho : OSim c orc1 orc) (hh : HS c σ ρ n L h1 h) (u : Bool) (o : Nat) (t : TypeId) (steps : List (MStep × Bool)) :
    RRel c (RH c σ L) (withMutation D E orc1 u h1 o t steps) (withMutation D E orc u h (σ o) t (steps.map (fun x => (renStep σ x.1, x.2)))) := by
  unfold withMutation
  cases h2 : h1.obj? o with
  | none => trivial
  | some ob =>
    obtain ⟨k1, k2, k3⟩ := hh.obj_some h2
    rw [k1]
    simp only [renObj]
    have hs : SSim c σ ρ n L (Sess.begin h1 o ob t) (Sess.begin h (σ o) (renObj ρ ob) t) := by
      refine ⟨hh, rfl, k2, rfl, rfl, rfl, k3, rfl, rfl, ?_, rfl, rfl, rfl, rfl⟩
      intro a ha; simp [Sess.begin] at ha
    by_cases hc : ob.isSealed = true
    · rw [if_pos hc, if_pos hc]
      exact (unwindWith_sim ho hs rfl).mono (fun a b k => ⟨ρ, n, k⟩)
    rw [if_neg hc, if_neg hc]
    have hr := allocateMixinData_sim (D := D) (E := E) ho hs
    rcases hr.cases with hr | ⟨a, b, hr1, hr2, ρ', n', hr3⟩ | ⟨a, b, e1, e, hr1, hr2, ⟨ρ', n', hr3⟩, hr4⟩
    · rw [hr]; trivial
    · simp only [renObj] at hr2
      rw [hr1, hr2]
      exact (msteps_sim ho steps a b hr3).bind (fun x y k => (dtor_sim ho u k).mono (fun a b k => ⟨ρ', n', k⟩))
        (fun x y e1 e k he => (unwindWith_sim ho k he).mono (fun a b k => ⟨ρ', n', k⟩))
    · simp only [renObj] at hr2
      rw [hr1, hr2]
      exact (unwindWith_sim ho hr3 hr4).mono (fun a b k => ⟨ρ', n', k⟩)

theorem perform_sim (ho : OSim c orc1 orc) (hh : HS c σ ρ n L h1 h) (u : Bool) (o : Nat) (t : TypeId) (f : NewFn) (g : UpdFn) :
    RRel c (RH c σ L) (perform D E orc1 u h1 o t f g) (perform D E orc u h (σ o) t (renNew σ f) (renUpd σ g)) :=
  withMutation_sim ho hh u o t [(.each f g none, false)]

theorem clearMixinData_sim (hh : HS c σ ρ n L h1 h) (o : Nat) : ORel (HS c σ ρ n L) (clearMixinData D E h1 o) (clearMixinData D E h (σ o)) := by
  unfold clearMixinData
  cases h2 : h1.obj? o with
  | none => trivial
  | some ob =>
    obtain ⟨k1, k2, k3⟩ := hh.obj_some h2
    rw [k1]
    simp only [renObj]
    cases h3 : ob.data with
    | none => exact hh
    | some a =>
      cases h4 : ob.ty with
      | none => trivial
      | some t =>
        simp only [Option.map_some]
        refine (rollback_sim (s1 := ⟨h1, o, ob.alloc, none, none, t, some a, _, _, false, false⟩) (s := ⟨h, σ o, ob.alloc, none, none, t, some (ρ a), _, _, false, false⟩) (c := c) (σ := σ) (ρ := ρ) (n := n) (L := L) ?_).map (fun x y k => ?_)
        · refine ⟨hh, rfl, k2, rfl, rfl, rfl, ?_, rfl, rfl, ?_, rfl, rfl, rfl, rfl⟩
          · intro x hx; simp at hx
          · intro x hx; simp at hx; subst hx; exact k3 a h3
        · have := k.h.setObj k2 (x := some { ob with data := none }) (by intro ob' a h5 h6; simp at h5; subst h5; simp at h6)
          simpa [renObj, h4] using this

theorem redirect_sim {o a : Nat} (hoL : o < L) : ∀ (i : Nat) (h1 h : Heap), HS c σ ρ n L h1 h → ORel (HS c σ ρ n L) (redirect o a i h1) (redirect (σ o) (ρ a) i h) := by
  intro i
  induction i with
  | zero => intro h1 h hh; exact hh
  | succ i ih =>
    intro h1 h hh
    unfold redirect
    have hr := ih h1 h hh
    cases h2 : redirect o a i h1 with
    | none => trivial
    | some h1' =>
      obtain ⟨h', h3, h4⟩ := hr.some h2
      rw [h3]
      simp only
      cases h5 : h1'.slot? a i with
      | none => trivial
      | some sl =>
        obtain ⟨k1, k2, k3⟩ := h4.slot? h5
        rw [k1]
        exact h4.setOwner k2 hoL

theorem usurp_sim (hh : HS c σ ρ n L h1 h) (o src : Nat) : ORel (HS c σ ρ n L) (usurp E h1 o src) (usurp E h (σ o) (σ src)) := by
  unfold usurp
  cases h2 : h1.obj? o with
  | none => trivial
  | some ob =>
    obtain ⟨k1, k2, k3⟩ := hh.obj_some h2
    rw [k1]
    cases h3 : h1.obj? src with
    | none => trivial
    | some sb =>
      obtain ⟨k4, k5, k6⟩ := hh.obj_some h3
      rw [k4]
      simp only [renObj]
      cases h4 : sb.ty with
      | none => trivial
      | some t =>
        simp only
        have hq := hh.setObj k2 (x := some { ob with ty := some t, data := sb.data, isSealed := sb.isSealed }) (by
          intro ob' a h5 h6; simp at h5; subst h5; exact k6 a h6)
        simp only [Option.map_some, renObj] at hq
        have hend : ∀ x y, HS c σ ρ n L x y → HS c σ ρ n L (x.setObj src (some { sb with ty := some (E.emptyOf t), data := none }))
            (y.setObj (σ src) (some { sb with ty := some (E.emptyOf t), data := none })) := by
          intro x y k
          have := k.setObj k5 (x := some { sb with ty := some (E.emptyOf t), data := none }) (by intro ob' a h5 h6; simp at h5; subst h5; simp at h6)
          simpa [renObj] using this
        cases h5 : sb.data with
        | none =>
          simp only [h5, Option.map_none] at hq
          simp only [Option.map_none]
          by_cases hc : (E.mixins t).length = 0
          · rw [if_pos hc, if_pos hc]; exact hend _ _ hq
          · rw [if_neg hc]; trivial
        | some a =>
          simp only [h5, Option.map_some] at hq
          simp only [Option.map_some]
          exact (redirect_sim k2 _ _ _ hq).map hend

theorem resetType_sim (ho : OSim c orc1 orc) (hh : HS c σ ρ n L h1 h) (u : Bool) (o : Nat) (t : TypeId) :
    RRel c (RH c σ L) (resetType D E orc1 u h1 o t) (resetType D E orc u h (σ o) t) := by
  unfold resetType
  cases h2 : h1.obj? o with
  | none => trivial
  | some ob =>
    obtain ⟨k1, k2, k3⟩ := hh.obj_some h2
    rw [k1]
    simp only [renObj]
    by_cases hc : ob.isSealed = true
    · rw [if_pos hc, if_pos hc]; exact ⟨⟨ρ, n, hh⟩, rfl⟩
    rw [if_neg hc, if_neg hc]
    by_cases hc : ob.ty = some t
    · rw [if_pos hc, if_pos hc]; exact ⟨ρ, n, hh⟩
    rw [if_neg hc, if_neg hc]
    by_cases hc : (E.mixins t).length = 0
    · rw [if_pos hc, if_pos hc]
      have hr := clearMixinData_sim (D := D) (E := E) hh o
      cases h3 : clearMixinData D E h1 o with
      | none => trivial
      | some h1' =>
        obtain ⟨h', h4, h5⟩ := hr.some h3
        rw [h4]
        simp only
        cases h6 : h1'.obj? o with
        | none => trivial
        | some ob' =>
          obtain ⟨k4, k5, k6⟩ := h5.obj_some h6
          rw [k4]
          refine ⟨ρ, n, ?_⟩
          exact h5.setObj k5 (x := some { ob' with ty := some t }) (by intro x a h7 h8; simp at h7; subst h7; exact k6 a h8)
    · rw [if_neg hc, if_neg hc]; exact perform_sim ho hh u o t .dflt .noop

/-- A new object. -/
theorem HS.addObj (hs : HS c σ ρ n L h1 h) (ob : Obj) (hd : ob.data = none) :
    HS c (extend σ L h.objs.length) ρ n (L + 1) { h1 with objs := h1.objs ++ [some ob] } { h with objs := h.objs ++ [some ob] } := by
  obtain ⟨hs, hn, hl⟩ := hs
  subst hl
  have hlt : ∀ {a}, a < (h1.objs ++ [some ob]).length → a = h1.objs.length ∨ a < h1.objs.length := by
    intro a ha; simp at ha; omega
  refine ⟨?_, hn, by simp⟩
  refine { hs with
    fresh1 := hs.fresh1.of_same rfl (fun _ h => h) rfl rfl rfl, fresh := hs.fresh.of_same rfl (fun _ h => h) rfl rfl rfl
    owner := ?_, ownerIn := ?_, sinj := ?_, sbound := ?_, obj := ?_, objIn := ?_, sold := ?_, snew := ?_, sle1 := ?_, sle := ?_, objFrame := ?_ }
  · intro a i ha
    show h.owner (ρ a, i) = (h1.owner (a, i)).map _
    rw [hs.owner a i ha]
    exact (map_extend (fun o h2 => hs.ownerIn a i o ha h2)).symm
  · intro a i o ha h2
    have := hs.ownerIn a i o ha h2
    simp; omega
  · intro o p h2 h3 h4
    rcases hlt h2 with rfl | h2' <;> rcases hlt h3 with rfl | h3'
    · rfl
    · rw [extend_new, extend_old h3'] at h4; have := hs.sbound p h3'; omega
    · rw [extend_new, extend_old h2'] at h4; have := hs.sbound o h2'; omega
    · rw [extend_old h2', extend_old h3'] at h4; exact hs.sinj o p h2' h3' h4
  · intro o h2
    show _ < (h.objs ++ [some ob]).length
    rcases hlt h2 with rfl | h2'
    · rw [extend_new]; simp
    · rw [extend_old h2']; have := hs.sbound o h2'; simp; omega
  · intro o h2
    unfold Heap.obj?
    rcases hlt h2 with rfl | h2'
    · rw [extend_new]; simp [renObj, hd]; rw [← hd]
    · rw [extend_old h2']
      have := hs.obj o h2'
      unfold Heap.obj? at this
      simp only
      rw [List.getElem?_append_left (hs.sbound o h2'), List.getElem?_append_left h2']; exact this
  · intro o ob' a h2 h3
    unfold Heap.obj? at h2
    simp only at h2
    by_cases h4 : o < h1.objs.length
    · rw [List.getElem?_append_left h4] at h2; exact hs.objIn o ob' a h2 h3
    · rw [List.getElem?_append_right (by omega)] at h2
      by_cases h5 : o - h1.objs.length = 0
      · rw [h5] at h2; simp at h2; subst h2; rw [hd] at h3; simp at h3
      · rw [List.getElem?_eq_none (by simp; omega)] at h2; simp at h2
  · intro o h2
    rw [extend_old (Nat.lt_of_lt_of_le h2 hs.sle1)]; exact hs.sold o h2
  · intro o h2 h3
    rcases hlt h3 with rfl | h3'
    · rw [extend_new]; exact hs.sle
    · rw [extend_old h3']; exact hs.snew o h2 h3'
  · have := hs.sle1; simp; omega
  · have := hs.sle; simp; omega
  · intro o h2 h3
    have := hs.objFrame o h2 h3
    rw [← this]
    unfold Heap.obj?
    have h4 := hs.sle
    simp only
    rw [List.getElem?_append_left (by omega)]

theorem destroyObject_sim (hh : HS c σ ρ n L h1 h) (o : Nat) : RRel c (HS c σ ρ n L) (destroyObject D E h1 o) (destroyObject D E h (σ o)) := by
  unfold destroyObject
  have hr := clearMixinData_sim (D := D) (E := E) hh o
  cases h3 : clearMixinData D E h1 o with
  | none => trivial
  | some h1' =>
    obtain ⟨h', h4, h5⟩ := hr.some h3
    rw [h4]
    have hlt : o < L := by
      cases h6 : h1.obj? o with
      | none => unfold clearMixinData at h3; rw [h6] at h3; simp at h3
      | some ob => exact (hh.obj_some h6).2.1
    exact h5.setObj hlt (x := none) (by intro ob a h6; simp at h6)

theorem unwindObject_sim (hh : HS c σ ρ n L h1 h) (o : Nat) {e1 e : XErr} (he : errorSince c.h.tick e = errorSince c.h1.tick e1) :
    RRel c (HS c σ ρ n L) (unwindObject D E o h1 e1) (unwindObject D E (σ o) h e) := by
  unfold unwindObject
  exact (destroyObject_sim hh o).bind (fun a b k => ⟨k, he⟩) (fun a b e1 e k he => trivial)

theorem newOfType_sim (ho : OSim c orc1 orc) (hh : HS c σ ρ n L h1 h) (u : Bool) (t : TypeId) (al : Nat) (sd : Bool) :
    RRel c (RH c (extend σ L h.objs.length) (L + 1)) (newOfType D E orc1 u h1 t al sd) (newOfType D E orc u h t al sd) := by
  unfold newOfType
  have hn := hh.addObj ⟨none, none, false, al⟩ rfl
  have hl := hh.len
  simp only
  have hr := resetType_sim (D := D) (E := E) ho hn u L t
  rw [extend_new] at hr
  rw [hl]
  refine hr.bind (fun a b k => ?_) (fun a b e1 e k he => ?_)
  · obtain ⟨ρ', n', k⟩ := k
    cases h2 : a.obj? L with
    | none => trivial
    | some ob =>
      obtain ⟨k1, k2, k3⟩ := k.obj_some h2
      rw [extend_new] at k1
      rw [k1]
      have := k.setObj k2 (x := some { ob with isSealed := sd }) (by intro x a h7 h8; simp at h7; subst h7; exact k3 a h8)
      rw [extend_new] at this
      exact ⟨ρ', n', this⟩
  · obtain ⟨ρ', n', k⟩ := k
    have := unwindObject_sim (D := D) (E := E) k L he
    rw [extend_new] at this
    exact this.mono (fun a b k => ⟨ρ', n', k⟩)

theorem moveConstruct_sim (hh : HS c σ ρ n L h1 h) (src : Nat) : RRel c (RH c (extend σ L h.objs.length) (L + 1)) (moveConstruct E h1 src) (moveConstruct E h (σ src)) := by
  unfold moveConstruct
  cases h2 : h1.obj? src with
  | none => trivial
  | some sb =>
    obtain ⟨k1, k2, k3⟩ := hh.obj_some h2
    rw [k1]
    simp only [renObj]
    have hn := hh.addObj ⟨none, none, false, sb.alloc⟩ rfl
    have hr := usurp_sim (E := E) hn L src
    rw [extend_new, extend_old k2] at hr
    rw [hh.len]
    unfold newNull
    cases h3 : usurp E { h1 with objs := h1.objs ++ [some ⟨none, none, false, sb.alloc⟩] } L src with
    | none => trivial
    | some h1' =>
      obtain ⟨h', h4, h5⟩ := hr.some h3
      rw [h4]; exact ⟨ρ, n, h5⟩

theorem moveAssign_sim (hh : HS c σ ρ n L h1 h) (o src : Nat) : RRel c (RH c σ L) (moveAssign D E h1 o src) (moveAssign D E h (σ o) (σ src)) := by
  unfold moveAssign
  by_cases hc : o = src
  · rw [if_pos hc, if_pos (by rw [hc])]; exact ⟨ρ, n, hh⟩
  rw [if_neg hc]
  cases h2 : h1.obj? o with
  | none => trivial
  | some ob =>
    cases h3 : h1.obj? src with
    | none => trivial
    | some sb =>
      obtain ⟨k1, k2, k3⟩ := hh.obj_some h2
      obtain ⟨k4, k5, k6⟩ := hh.obj_some h3
      rw [if_neg (fun h4 => hc (hh.sinj o src (hh.len ▸ k2) (hh.len ▸ k5) h4)), k1, k4]
      simp only [renObj]
      by_cases hc : ob.alloc = sb.alloc
      · rw [if_pos hc, if_pos hc]
        by_cases hc : ob.isSealed = true
        · rw [if_pos hc, if_pos hc]; exact ⟨⟨ρ, n, hh⟩, rfl⟩
        rw [if_neg hc, if_neg hc]
        have hr := (clearMixinData_sim (D := D) (E := E) hh o).bind (f1 := fun h => usurp E h o src) (f := fun h => usurp E h (σ o) (σ src)) (fun a b k => usurp_sim k o src)
        cases h4 : (clearMixinData D E h1 o).bind (fun h => usurp E h o src) with
        | none => trivial
        | some h1' =>
          obtain ⟨h', h5, h6⟩ := hr.some h4
          rw [h5]; exact ⟨ρ, n, h6⟩
      · rw [if_neg hc, if_neg hc]; exact ⟨⟨ρ, n, hh⟩, rfl⟩

theorem copyObject_sim (ho : OSim c orc1 orc) (hh : HS c σ ρ n L h1 h) (u : Bool) (src al : Nat) :
    RRel c (RH c (extend σ L h.objs.length) (L + 1)) (copyObject D E orc1 u h1 src al) (copyObject D E orc u h (σ src) al) := by
  unfold copyObject
  cases h2 : h1.obj? src with
  | none => trivial
  | some sb =>
    obtain ⟨k1, k2, k3⟩ := hh.obj_some h2
    rw [k1]
    simp only [renObj]
    have hn := hh.addObj ⟨none, none, false, al⟩ rfl
    rw [hh.len]
    unfold newNull
    cases h3 : sb.data with
    | none =>
      have := hn.setObj (o := L) (Nat.lt_succ_self _) (x := some ⟨sb.ty, none, false, al⟩) (by intro x a h7 h8; simp at h7; subst h7; simp at h8)
      rw [extend_new] at this
      exact ⟨ρ, n, this⟩
    | some a =>
      cases h4 : sb.ty with
      | none => trivial
      | some t =>
        simp only [Option.map_some]
        have hr := perform_sim (D := D) (E := E) ho hn u L t (.copy src true) .noop
        rw [extend_new] at hr
        simp only [renNew, renUpd] at hr
        rw [extend_old k2] at hr
        refine hr.bind (fun a b k => k) (fun a b e1 e k he => ?_)
        obtain ⟨ρ', n', k⟩ := k
        have := unwindObject_sim (D := D) (E := E) k L he
        rw [extend_new] at this
        exact this.mono (fun a b k => ⟨ρ', n', k⟩)

theorem copyFrom_sim (ho : OSim c orc1 orc) (hh : HS c σ ρ n L h1 h) (u : Bool) (o src : Nat) :
    RRel c (RH c σ L) (copyFrom D E orc1 u h1 o src) (copyFrom D E orc u h (σ o) (σ src)) := by
  unfold copyFrom
  cases h2 : h1.obj? o with
  | none => trivial
  | some ob =>
    cases h3 : h1.obj? src with
    | none => trivial
    | some sb =>
      obtain ⟨k1, k2, k3⟩ := hh.obj_some h2
      obtain ⟨k4, k5, k6⟩ := hh.obj_some h3
      rw [k1, k4]
      simp only [renObj]
      cases h4 : sb.data with
      | none =>
        simp only [Option.map_none]
        by_cases hc : ob.isSealed = true
        · rw [if_pos hc, if_pos hc]; exact ⟨⟨ρ, n, hh⟩, rfl⟩
        rw [if_neg hc, if_neg hc]
        have hr := clearMixinData_sim (D := D) (E := E) hh o
        cases h5 : clearMixinData D E h1 o with
        | none => trivial
        | some h1' =>
          obtain ⟨h', h6, h7⟩ := hr.some h5
          rw [h6]
          simp only
          cases h8 : h1'.obj? o with
          | none => trivial
          | some ob' =>
            obtain ⟨k7, k8, k9⟩ := h7.obj_some h8
            rw [k7]
            refine ⟨ρ, n, ?_⟩
            exact h7.setObj k8 (x := some { ob' with ty := sb.ty }) (by intro x a h7 h8; simp at h7; subst h7; exact k9 a h8)
      | some a =>
        cases h5 : sb.ty with
        | none => trivial
        | some t =>
          cases h6 : ob.ty with
          | none => trivial
          | some own =>
            simp only [Option.map_some]
            cases h7 : copyFromCheck D E own (E.mixins t) with
            | some m => exact ⟨⟨ρ, n, hh⟩, rfl⟩
            | none => exact perform_sim ho hh u o t (.copy src false) (.assign src)

/-- Mixins in possibly missing buffers. -/
theorem mixinAt_bind_sim (hh : HS c σ ρ n L h1 h) {a : Option Nat} {i : Nat} {x : Loc × Mix × Nat} (hx : a.bind (fun a => mixinAt h1 a i) = some x) :
    (a.map ρ).bind (fun a => mixinAt h a i) = some (renLoc ρ x.1, x.2) ∧ x.1.1 < n := by
  cases a with
  | none => simp at hx
  | some a => exact mixinAt_sim hh hx

theorem copyMatchingLoop_sim (ho : OSim c orc1 orc) (own : TypeId) (a b : Option Nat) : ∀ (ms : List Mix) (i : Nat) (h1 h : Heap), HS c σ ρ n L h1 h →
    RRel c (HS c σ ρ n L) (copyMatchingLoop D E orc1 own a b i ms h1) (copyMatchingLoop D E orc own (a.map ρ) (b.map ρ) i ms h) := by
  intro ms
  induction ms with
  | nil => intro i h1 h hh; exact hh
  | cons m ms ih =>
    intro i h1 h hh
    unfold copyMatchingLoop
    cases h2 : E.indexOf own m with
    | none => exact ih _ _ _ hh
    | some oi =>
      simp only
      cases h3 : a.bind (fun a => mixinAt h1 a oi) with
      | none => trivial
      | some x =>
        obtain ⟨l, m', v0⟩ := x
        obtain ⟨k1, k2⟩ := mixinAt_bind_sim hh h3
        cases h4 : b.bind (fun b => mixinAt h1 b i) with
        | none => trivial
        | some y =>
          obtain ⟨sl, m'', v⟩ := y
          obtain ⟨k3, k4⟩ := mixinAt_bind_sim hh h4
          rw [k1, k3]
          simp only
          by_cases hc : m' ≠ m ∨ m'' ≠ m ∨ (D.mix m).hasCopyAsgn = false
          · rw [if_pos hc]; trivial
          rw [if_neg hc, if_neg hc, hh.toHSim.fails ho, hh.toHSim.vals ho]
          by_cases hf : orc1.fail h1.tick = true
          · rw [if_pos hf, if_pos hf]
            exact ⟨((hh.setLive k2 _).ticked).logged (by simp [eventSeen, renLoc]), hh.toHSim.userErr⟩
          · rw [if_neg hf, if_neg hf]
            exact ih _ _ _ (((hh.setLive k2 _).ticked).logged (by simp [eventSeen, renLoc]))

theorem copyMatchingFrom_sim (ho : OSim c orc1 orc) (hh : HS c σ ρ n L h1 h) (o src : Nat) :
    RRel c (HS c σ ρ n L) (copyMatchingFrom D E orc1 h1 o src) (copyMatchingFrom D E orc h (σ o) (σ src)) := by
  unfold copyMatchingFrom
  cases h2 : h1.obj? o with
  | none => trivial
  | some ob =>
    cases h3 : h1.obj? src with
    | none => trivial
    | some sb =>
      rw [(hh.obj_some h2).1, (hh.obj_some h3).1]
      simp only [renObj]
      cases h4 : ob.ty with
      | none => trivial
      | some own =>
        cases h5 : sb.ty with
        | none => trivial
        | some t =>
          simp only
          cases h7 : copyMatchingCheck D E own (E.mixins t) with
          | some m => exact ⟨hh, rfl⟩
          | none => exact copyMatchingLoop_sim ho own _ _ _ _ _ _ hh

theorem moveMatchingLoop_sim (ho : OSim c orc1 orc) (own : TypeId) (a b : Option Nat) : ∀ (ms : List Mix) (i : Nat) (h1 h : Heap), HS c σ ρ n L h1 h →
    RRel c (HS c σ ρ n L) (moveMatchingLoop D E orc1 own a b i ms h1) (moveMatchingLoop D E orc own (a.map ρ) (b.map ρ) i ms h) := by
  intro ms
  induction ms with
  | nil => intro i h1 h hh; exact hh
  | cons m ms ih =>
    intro i h1 h hh
    unfold moveMatchingLoop
    cases h2 : E.indexOf own m with
    | none => exact ih _ _ _ hh
    | some oi =>
      simp only
      cases h3 : a.bind (fun a => mixinAt h1 a oi) with
      | none => trivial
      | some x =>
        obtain ⟨l, m', v0⟩ := x
        obtain ⟨k1, k2⟩ := mixinAt_bind_sim hh h3
        cases h4 : b.bind (fun b => mixinAt h1 b i) with
        | none => trivial
        | some y =>
          obtain ⟨sl, m'', v⟩ := y
          obtain ⟨k3, k4⟩ := mixinAt_bind_sim hh h4
          rw [k1, k3]
          simp only
          by_cases hc : m' ≠ m ∨ m'' ≠ m
          · rw [if_pos hc]; trivial
          rw [if_neg hc, if_neg hc]
          by_cases hf : (D.mix m).hasMoveAsgn = true
          · rw [if_pos hf, if_pos hf, hh.toHSim.vals ho]
            exact ih _ _ _ ((((hh.setLive k2 _).setLive k4 _).ticked).logged (by simp [eventSeen, renLoc]))
          · rw [if_neg hf, if_neg hf]
            have hr := hh.destroy (D := D) (l := l) (m := m)
            cases h5 : h1.destroy D l m with
            | none => trivial
            | some h1' =>
              obtain ⟨h', h6, h7⟩ := hr.some h5
              rw [h6]
              simp only
              cases h8 : h1'.live sl with
              | none => trivial
              | some z =>
                obtain ⟨m3, v3⟩ := z
                rw [(h7.live_some h8).1]
                simp only
                by_cases hg : (D.mix m).hasMoveInit = false
                · rw [if_pos hg]; trivial
                rw [if_neg hg, if_neg hg]
                have hr := h7.construct (l := l) (m := m) (v := v3) (k := .moved sl) (k' := .moved (renLoc ρ sl)) (by simp [howSeen, renLoc])
                cases h9 : h1'.construct l m v3 (.moved sl) with
                | none => trivial
                | some h1'' =>
                  obtain ⟨h'', h10, h11⟩ := hr.some h9
                  rw [h10]
                  simp only
                  rw [h11.toHSim.vals ho]
                  exact ih _ _ _ ((h11.setLive k4 _).ticked)

theorem moveMatchingFrom_sim (ho : OSim c orc1 orc) (hh : HS c σ ρ n L h1 h) (o src : Nat) (fb : Bool) :
    RRel c (HS c σ ρ n L) (moveMatchingFrom D E orc1 h1 o src fb) (moveMatchingFrom D E orc h (σ o) (σ src) fb) := by
  unfold moveMatchingFrom
  cases h2 : h1.obj? o with
  | none => trivial
  | some ob =>
    cases h3 : h1.obj? src with
    | none => trivial
    | some sb =>
      rw [(hh.obj_some h2).1, (hh.obj_some h3).1]
      simp only [renObj]
      cases h4 : ob.ty with
      | none => trivial
      | some own =>
        cases h5 : sb.ty with
        | none => trivial
        | some t =>
          simp only
          cases h7 : moveMatchingCheck D E own fb (E.mixins t) with
          | some m => exact ⟨hh, rfl⟩
          | none => exact moveMatchingLoop_sim ho own _ _ _ _ _ _ hh

theorem clearObject_sim (hh : HS c σ ρ n L h1 h) (o : Nat) : RRel c (HS c σ ρ n L) (clearObject D E h1 o) (clearObject D E h (σ o)) := by
  unfold clearObject
  cases h2 : h1.obj? o with
  | none => trivial
  | some ob =>
    rw [(hh.obj_some h2).1]
    simp only [renObj]
    by_cases hc : ob.isSealed = true
    · rw [if_pos hc, if_pos hc]; exact ⟨hh, rfl⟩
    rw [if_neg hc, if_neg hc]
    have hr := clearMixinData_sim (D := D) (E := E) hh o
    cases h3 : clearMixinData D E h1 o with
    | none => trivial
    | some h1' =>
      obtain ⟨h', h4, h5⟩ := hr.some h3
      rw [h4]
      cases h6 : ob.ty with
      | none => trivial
      | some t =>
        simp only
        cases h7 : h1'.obj? o with
        | none => trivial
        | some ob' =>
          obtain ⟨k4, k5, k6⟩ := h5.obj_some h7
          rw [k4]
          exact h5.setObj k5 (x := some { ob' with ty := some (E.emptyOf t) }) (by intro x a h7 h8; simp at h7; subst h7; exact k6 a h8)

theorem sealObject_sim (hh : HS c σ ρ n L h1 h) (o : Nat) : RRel c (HS c σ ρ n L) (sealObject h1 o) (sealObject h (σ o)) := by
  unfold sealObject
  cases h2 : h1.obj? o with
  | none => trivial
  | some ob =>
    obtain ⟨k4, k5, k6⟩ := hh.obj_some h2
    rw [k4]
    exact hh.setObj k5 (x := some { ob with isSealed := true }) (by intro x a h7 h8; simp at h7; subst h7; exact k6 a h8)

theorem mutateToSteps_ren (l : List (Nat × Nat)) : (mutateToSteps l).map (fun x => (renStep σ x.1, x.2)) = mutateToSteps l := by
  induction l with
  | nil => rfl
  | cons x l ih =>
    obtain ⟨i, k⟩ := x
    unfold mutateToSteps at ih ⊢
    simp only [List.flatMap_cons, List.map_append, ih]
    rfl

theorem mutateTo_sim (ho : OSim c orc1 orc) (hh : HS c σ ρ n L h1 h) (u : Bool) (o : Nat) (t : TypeId) (ops : List InitOp) :
    RRel c (RH c σ L) (mutateTo D E orc1 u h1 o t ops) (mutateTo D E orc u h (σ o) t ops) := by
  unfold mutateTo
  cases h2 : h1.obj? o with
  | none => trivial
  | some ob =>
    rw [(hh.obj_some h2).1]
    simp only [renObj]
    by_cases hc : ob.ty = some t
    · rw [if_pos hc, if_pos hc]; exact ⟨ρ, n, hh⟩
    rw [if_neg hc, if_neg hc]
    have := withMutation_sim (D := D) (E := E) ho hh u o t (mutateToSteps (sortedOps E t ops))
    rw [mutateToSteps_ren] at this
    exact this

/-- The numbers of objects after an operation. -/
def nextσ (op : OOp) (σ : Nat → Nat) (L M : Nat) : Nat → Nat := if addsObject op then extend σ L M else σ
def nextL (op : OOp) (L : Nat) : Nat := if addsObject op then L + 1 else L

theorem ostep_sim (ho : OSim c orc1 orc) (hh : HS c σ ρ n L h1 h) (u : Bool) (op : OOp) :
    RRel c (RH c (nextσ op σ L h.objs.length) (nextL op L)) (ostep D E orc1 u h1 op) (ostep D E orc u h (renOp σ op)) := by
  have hin : ∀ {L σ} a b, HS c σ ρ n L a b → RH c σ L a b := fun {L σ} a b k => ⟨ρ, n, k⟩
  cases op with
  | newEmpty t al => exact ⟨ρ, n, hh.addObj _ rfl⟩
  | newOfType t al sd => exact newOfType_sim ho hh u t al sd
  | moveNew src => exact moveConstruct_sim hh src
  | destroy o => exact (destroyObject_sim hh o).mono hin
  | moveAssign o src => exact moveAssign_sim hh o src
  | copy src al => exact copyObject_sim ho hh u src al
  | copyFrom o src => exact copyFrom_sim ho hh u o src
  | copyMatching o src => exact (copyMatchingFrom_sim ho hh o src).mono hin
  | moveMatching o src fb => exact (moveMatchingFrom_sim ho hh o src fb).mono hin
  | clear o => exact (clearObject_sim hh o).mono hin
  | reset o t => exact resetType_sim ho hh u o t
  | «seal» o => exact (sealObject_sim hh o).mono hin
  | mutation o t steps => exact withMutation_sim ho hh u o t steps
  | mutateTo o t ops => exact mutateTo_sim ho hh u o t ops

end

end Dnmx.Indep
