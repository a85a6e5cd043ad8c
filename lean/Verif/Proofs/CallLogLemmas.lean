import Verif.Spec.Calls
import Verif.Proofs.HeapLemmas

/-!
# Calls and the log
-/

set_option linter.unusedSimpArgs false
set_option linter.unusedVariables false
set_option linter.unusedSectionVars false

namespace Dnmx
open Spec

variable {D : Decls} {E : TyEnv} {orc : Orc}

theorem explains_same {h h' : Heap} (c : Seen) (hl : h'.log = h.log) : Explains c h h' :=
  ⟨[], by simp [hl], fun g1 e g2 x hx => by simp at hx⟩

theorem explains_quiet {h h' : Heap} (c : Seen) {e : Ev} (hl : h'.log = h.log ++ [e]) (he : callOf e = none) : Explains c h h' := by
  refine ⟨[e], hl, ?_⟩
  intro g1 e' g2 x hx hc
  cases g1 with
  | nil => simp at hx; rw [hx.1] at he; rw [he] at hc; simp at hc
  | cons y ys => simp at hx

theorem explains_one {h h' : Heap} {c : Seen} {e : Ev} {x : MixinCall} {h1 : Heap} (hl : h'.log = h.log ++ [e]) (he : callOf e = some x) (hm : (x, h1) ∈ c) (hl1 : h1.log = h.log) :
    Explains c h h' := by
  refine ⟨[e], hl, ?_⟩
  intro g1 e' g2 x' hx hc
  cases g1 with
  | nil =>
    simp at hx
    rw [← hx.1, he] at hc; simp at hc; subst hc
    exact ⟨h1, hm, by simp [hl1]⟩
  | cons y ys => simp at hx

theorem _root_.Spec.Explains.trans {h h1 h2 : Heap} {c1 c2 : Seen} (a : Explains c1 h h1) (b : Explains c2 h1 h2) : Explains (c1 ++ c2) h h2 := by
  obtain ⟨ga, a1, a2⟩ := a
  obtain ⟨gb, b1, b2⟩ := b
  refine ⟨ga ++ gb, by rw [b1, a1, List.append_assoc], ?_⟩
  intro g1 e g2 c hg hc
  rcases List.append_eq_append_iff.1 hg with ⟨as, h3, h4⟩ | ⟨bs, h3, h4⟩
  · obtain ⟨x, h5, h6⟩ := b2 as e g2 c h4 hc
    exact ⟨x, by simp [h5], by rw [h6, a1, h3, List.append_assoc]⟩
  · cases bs with
    | nil =>
      simp at h3 h4
      obtain ⟨x, h5, h6⟩ := b2 [] e g2 c (by simpa using h4.symm) hc
      exact ⟨x, by simp [h5], by rw [h6, a1, h3]; simp⟩
    | cons y ys =>
      simp at h4
      obtain ⟨h7, h8⟩ := h4
      subst h7
      obtain ⟨x, h5, h6⟩ := a2 g1 e ys c h3 hc
      exact ⟨x, by simp [h5], h6⟩

theorem _root_.Spec.Explains.mono {h h1 : Heap} {c c' : Seen} (a : Explains c h h1) (hs : ∀ x ∈ c, x ∈ c') : Explains c' h h1 := by
  obtain ⟨g, a1, a2⟩ := a
  exact ⟨g, a1, fun g1 e g2 x hg hc => by obtain ⟨y, h1, h2⟩ := a2 g1 e g2 x hg hc; exact ⟨y, hs _ h1, h2⟩⟩

theorem _root_.Spec.Explains.left {h h1 : Heap} {c : Seen} (c' : Seen) (a : Explains c h h1) : Explains (c ++ c') h h1 := a.mono (fun x hx => by simp [hx])
theorem _root_.Spec.Explains.right {h h1 : Heap} {c : Seen} (c' : Seen) (a : Explains c h h1) : Explains (c' ++ c) h h1 := a.mono (fun x hx => by simp [hx])
theorem _root_.Spec.Explains.relog {h h1 h2 : Heap} {c : Seen} (a : Explains c h h1) (hl : h2.log = h1.log) : Explains c h h2 := by
  obtain ⟨g, a1, a2⟩ := a; exact ⟨g, by rw [hl, a1], a2⟩
theorem _root_.Spec.Explains.relogFrom {h h0 h1 : Heap} {c : Seen} (a : Explains c h h1) (hl : h0.log = h.log) : Explains c h0 h1 := by
  obtain ⟨g, a1, a2⟩ := a; exact ⟨g, by rw [hl, a1], fun g1 e g2 x hg hc => by obtain ⟨y, h1, h2⟩ := a2 g1 e g2 x hg hc; exact ⟨y, h1, by rw [h2, hl]⟩⟩

/-- The same for results. -/
def ExplainsS (c : Seen) (h : Heap) : Res Sess → Prop
  | .ok s => Explains c h s.h
  | .throw s _ => Explains c h s.h
  | .ub => True

def ExplainsR (c : Seen) (h : Heap) : Res Heap → Prop
  | .ok s => Explains c h s
  | .throw s _ => Explains c h s
  | .ub => True

def ExplainsO (c : Seen) (h : Heap) : Option Heap → Prop
  | some h' => Explains c h h'
  | none => True

theorem destroy_explains {h : Heap} {l : Loc} {m : Mix} {c : Seen} (hc : (D.mix m).hasDestroy = true → ∃ h1, (MixinCall.destroy m l, h1) ∈ c ∧ h1.log = h.log) :
    ExplainsO c h (h.destroy D l m) := by
  unfold Heap.destroy
  split
  · split
    · unfold ExplainsO
      by_cases hd : (D.mix m).hasDestroy = true
      · simp only [hd, if_true]
        obtain ⟨h1, k1, k2⟩ := hc hd
        exact explains_one rfl rfl k1 k2
      · simp only [hd, Bool.false_eq_true, if_false]
        exact explains_same _ rfl
    · trivial
  · trivial

theorem construct_explains {h : Heap} {l : Loc} {m : Mix} {v : Nat} {how : How} {c : Seen} {x : MixinCall} (hx : callOf (.init m l how) = some x)
    (hc : ∃ h1, (x, h1) ∈ c ∧ h1.log = h.log) : ExplainsO c h (h.construct l m v how) := by
  unfold Heap.construct
  split
  · obtain ⟨h1, k1, k2⟩ := hc
    exact explains_one rfl hx k1 k2
  · trivial

theorem deallocate_explains {h : Heap} {a : Nat} {b : Blk} (c : Seen) : ExplainsO c h (h.deallocate a b) := by
  unfold Heap.deallocate
  split
  · exact explains_quiet _ rfl rfl
  · trivial

theorem deallocBuffer_explains {h : Heap} {t : TypeId} {al a : Nat} (c : Seen) : ExplainsO c h (deallocBuffer h t al a) := by
  unfold deallocBuffer
  have := deallocate_explains (h := h) (a := a) (b := .unified t al) c
  cases hd : h.deallocate a (.unified t al) with
  | none => trivial
  | some h' => rw [hd] at this; exact this.relog rfl

theorem allocOne_log {s : Sess} (c : Seen) : ExplainsS c s.h (allocOne D E orc s) := by
  unfold allocOne
  split
  · split
    · exact explains_same _ rfl
    · split
      · split
        · trivial
        · exact explains_same _ rfl
      · split
        · exact explains_same _ rfl
        · exact explains_quiet _ rfl rfl
  · trivial

theorem allocLoop_log : ∀ (k : Nat) (s : Sess), ExplainsS [] s.h (allocLoop D E orc k s)
  | 0, s => explains_same _ rfl
  | k + 1, s => by
    unfold allocLoop
    have := allocOne_log (D := D) (E := E) (orc := orc) (s := s) []
    cases hr : allocOne D E orc s with
    | ub => trivial
    | throw s' e => rw [hr] at this; exact this
    | ok s' =>
      rw [hr] at this
      have ih := allocLoop_log k s'
      simp only [Res.bind]
      cases hr2 : allocLoop D E orc k s' with
      | ub => trivial
      | throw s2 e => rw [hr2] at ih; exact Explains.trans this ih
      | ok s2 => rw [hr2] at ih; exact Explains.trans this ih

theorem allocate_log (s : Sess) : ExplainsS [] s.h (allocateMixinData D E orc s) := by
  unfold allocateMixinData
  split
  · exact explains_same _ rfl
  · split
    · exact explains_same _ rfl
    · have h1 := allocLoop_log (D := D) (E := E) (orc := orc) (E.mixins s.ty).length
        { s with h := (s.h.ticked.allocate (.unified s.ty s.al)).countUp s.ty 1, data := some s.h.next }
      have h0 : Explains [] s.h ((s.h.ticked.allocate (.unified s.ty s.al)).countUp s.ty 1) := explains_quiet _ rfl rfl
      cases hr : allocLoop D E orc (E.mixins s.ty).length { s with h := (s.h.ticked.allocate (.unified s.ty s.al)).countUp s.ty 1, data := some s.h.next } with
      | ub => trivial
      | throw s2 e => rw [hr] at h1; exact Explains.trans h0 h1
      | ok s2 => rw [hr] at h1; exact Explains.trans h0 h1

theorem destroyLoop_log (s : Sess) : ∀ (n : Nat) (h : Heap), ExplainsO (callsDestroy D E s n h) h (destroyLoop D E s n h)
  | 0, h => explains_same _ rfl
  | n + 1, h => by
    unfold destroyLoop callsDestroy
    cases hda : s.data with
    | none => trivial
    | some a =>
     cases hmm : (E.mixins s.ty)[n]? with
     | none => trivial
     | some m =>
      simp only
      cases ho : s.oldIndex E m with
      | some x => simp only; exact destroyLoop_log s n h
      | none =>
        simp only
        cases hs : h.slot? a n with
        | none => trivial
        | some sl =>
          simp only
          have h1 := destroy_explains (D := D) (h := h) (l := sl.loc) (m := m) (c := if (D.mix m).hasDestroy then [(.destroy m sl.loc, h)] else [])
            (fun hd => ⟨h, by simp [hd], rfl⟩)
          cases hd : h.destroy D sl.loc m with
          | none => trivial
          | some h' =>
            rw [hd] at h1
            have h2 := destroyLoop_log s n h'
            simp only [Option.bind]
            cases hr : destroyLoop D E s n h' with
            | none => trivial
            | some h2' => rw [hr] at h2; exact Explains.trans h1 h2

theorem deallocLoop_log (s : Sess) : ∀ (n : Nat) (h : Heap), ExplainsO [] h (deallocLoop D E s n h)
  | 0, h => explains_same _ rfl
  | n + 1, h => by
    unfold deallocLoop
    cases hda : s.data with
    | none => trivial
    | some a =>
     cases hmm : (E.mixins s.ty)[n]? with
     | none => trivial
     | some m =>
      simp only
      cases hs : h.slot? a n with
      | none => trivial
      | some sl =>
        simp only
        cases hb : sl.buf with
        | none => exact deallocLoop_log s n h
        | some e =>
          simp only
          cases ho : s.oldIndex E m with
          | some x => exact deallocLoop_log s n h
          | none =>
            simp only
            have h1 := deallocate_explains (h := h) (a := e) (b := provenance D m s.al) []
            cases hd : h.deallocate e (provenance D m s.al) with
            | none => trivial
            | some h' =>
              rw [hd] at h1
              have h2 := deallocLoop_log s n h'
              simp only [Option.bind]
              cases hr : deallocLoop D E s n h' with
              | none => trivial
              | some h2' => rw [hr] at h2; exact Explains.trans h1 h2

theorem rollback_log (s : Sess) : ∀ s', rollback D E s = some s' → Explains (callsRollback D E s) s.h s'.h := by
  intro s' hr
  unfold rollback at hr
  unfold callsRollback
  by_cases hty : s.oldTy = some s.ty
  · rw [if_pos hty] at hr ⊢
    simp at hr; subst hr
    exact explains_same _ rfl
  · rw [if_neg hty] at hr ⊢
    have h1 := destroyLoop_log (D := D) (E := E) s s.updated s.h
    cases hd : destroyLoop D E s s.updated s.h with
    | none => rw [hd] at hr; simp at hr
    | some h' =>
      rw [hd] at h1 hr
      have h2 := deallocLoop_log (D := D) (E := E) s s.alloced h'
      simp only [Option.bind] at hr
      cases hd2 : deallocLoop D E s s.alloced h' with
      | none => rw [hd2] at hr; simp at hr
      | some h2' =>
        rw [hd2] at h2 hr
        simp only at hr
        have h3 : Explains (callsDestroy D E s s.updated s.h) s.h h2' := by simpa using Explains.trans h1 h2
        cases hda : s.data with
        | none => rw [hda] at hr; simp at hr; subst hr; exact h3
        | some a =>
          rw [hda] at hr
          simp only at hr
          have h4 := deallocBuffer_explains (h := h2') (t := s.ty) (al := s.al) (a := a) []
          cases hb : deallocBuffer h2' s.ty s.al a with
          | none => rw [hb] at hr; simp at hr
          | some h5 =>
            rw [hb] at h4 hr
            simp at hr; subst hr
            simpa using Explains.trans h3 h4

theorem finalizeOne_log (s : Sess) (b a oi : Nat) (m : Mix) (h : Heap) :
    ExplainsO (callsFinalizeOne D E orc s b a oi m h) h (finalizeOne D E orc s b a oi m h) := by
  unfold finalizeOne callsFinalizeOne
  cases hs : h.slot? b oi with
  | none => trivial
  | some old =>
    simp only
    cases hi : E.indexOf s.ty m with
    | none =>
      simp only
      have h1 := destroy_explains (D := D) (h := h) (l := old.loc) (m := m) (c := if (D.mix m).hasDestroy then [(.destroy m old.loc, h)] else [])
        (fun hd => ⟨h, by simp [hd], rfl⟩)
      cases hd : h.destroy D old.loc m with
      | none => trivial
      | some h' =>
        rw [hd] at h1
        simp only
        cases hb : old.buf with
        | none => exact h1
        | some e =>
          simp only
          have h2 := deallocate_explains (h := h') (a := e) (b := provenance D m s.al) []
          cases hd2 : h'.deallocate e (provenance D m s.al) with
          | none => trivial
          | some h2' =>
            rw [hd2] at h2
            have := Explains.trans h1 h2
            rw [List.append_nil] at this
            exact this
    | some ti =>
      simp only
      cases hb : old.buf with
      | some e => exact explains_same _ rfl
      | none =>
        simp only
        cases hsa : h.slot? a ti with
        | none => trivial
        | some new =>
          cases hl : h.live old.loc with
          | none => trivial
          | some y =>
            obtain ⟨m', v⟩ := y
            simp only
            by_cases hcond : m' = m ∧ (D.mix m).hasMoveInit = true
            · rw [if_pos hcond]
              have h1 := construct_explains (h := h) (l := new.loc) (m := m) (v := v) (how := .moved old.loc) (c := [(.move m new.loc old.loc, h)]) (x := .move m new.loc old.loc)
                rfl ⟨h, by simp, rfl⟩
              cases hc : h.construct new.loc m v (.moved old.loc) with
              | none => trivial
              | some h' =>
                rw [hc] at h1
                simp only [Option.bind]
                have h2 := destroy_explains (D := D) (h := (h'.setLive old.loc (some (m, orc.val h'.tick))).ticked) (l := old.loc) (m := m)
                  (c := if (D.mix m).hasDestroy then [(.destroy m old.loc, (h'.setLive old.loc (some (m, orc.val h'.tick))).ticked)] else [])
                  (fun hd => ⟨_, by rw [if_pos hd]; exact List.mem_singleton.2 rfl, rfl⟩)
                cases hd : Heap.destroy D ((h'.setLive old.loc (some (m, orc.val h'.tick))).ticked) old.loc m with
                | none => trivial
                | some h2' =>
                  rw [hd] at h2
                  exact Explains.trans h1 (h2.relogFrom (h0 := h') rfl)
            · rw [if_neg hcond]; trivial

theorem finalizeLoop_log (s : Sess) (b a : Nat) : ∀ (ms : List Mix) (oi : Nat) (h : Heap),
    ExplainsO (callsFinalizeLoop D E orc s b a oi ms h) h (finalizeLoop D E orc s b a oi ms h)
  | [], oi, h => explains_same _ rfl
  | m :: ms, oi, h => by
    unfold finalizeLoop callsFinalizeLoop
    have h1 := finalizeOne_log (D := D) (E := E) (orc := orc) s b a oi m h
    cases hr : finalizeOne D E orc s b a oi m h with
    | none => trivial
    | some h' =>
      rw [hr] at h1
      have h2 := finalizeLoop_log s b a ms (oi + 1) h'
      simp only [Option.bind]
      cases hr2 : finalizeLoop D E orc s b a (oi + 1) ms h' with
      | none => trivial
      | some h2' => rw [hr2] at h2; exact Explains.trans h1 h2

theorem attach_log (s : Sess) (h : Heap) : (attach s h).h.log = h.log := by
  unfold attach; split <;> rfl

theorem finalize_log (s : Sess) : ∀ s', finalize D E orc s = some s' → Explains (callsFinalize D E orc s) s.h s'.h := by
  intro s' hr
  unfold finalize at hr
  unfold callsFinalize
  by_cases hc : (!s.complete) = true
  · rw [if_pos hc] at hr ⊢; simp at hr; subst hr; exact explains_same _ rfl
  · rw [if_neg hc] at hr ⊢
    by_cases hty : s.oldTy = some s.ty
    · rw [if_pos hty] at hr ⊢; simp at hr; subst hr; exact explains_same _ rfl
    · rw [if_neg hty] at hr ⊢
      cases hb : s.oldData with
      | none => rw [hb] at hr; simp at hr; subst hr; exact explains_same _ (attach_log s s.h)
      | some b =>
        cases ht : s.oldTy with
        | none => rw [hb, ht] at hr; simp at hr
        | some t =>
          rw [hb, ht] at hr
          simp only at hr
          cases ha : s.data with
          | none => rw [ha] at hr; simp at hr
          | some a =>
            rw [ha] at hr
            simp only at hr
            have h1 := finalizeLoop_log (D := D) (E := E) (orc := orc) s b a (E.mixins t) 0 s.h
            cases hl : finalizeLoop D E orc s b a 0 (E.mixins t) s.h with
            | none => rw [hl] at hr; simp at hr
            | some h' =>
              rw [hl] at h1 hr
              simp only [Option.bind] at hr
              have h2 := deallocBuffer_explains (h := h') (t := t) (al := s.al) (a := b) []
              cases hd : deallocBuffer h' t s.al b with
              | none => rw [hd] at hr; simp at hr
              | some h2' =>
                rw [hd] at h2 hr
                simp at hr; subst hr
                have := Explains.trans h1 h2
                rw [List.append_nil] at this
                exact this.relog (attach_log s h2')

/-! ## Updates -/

theorem updateCommon_log (g : UpdFn) (s : Sess) (m : Mix) (ti : Nat) (l : Loc) : ExplainsS [] s.h (updateCommon D orc g s m ti l) := by
  unfold updateCommon
  cases g with
  | noop => exact explains_same _ rfl
  | custom k =>
    simp only
    split
    · trivial
    · split
      · trivial
      · split <;> exact explains_quiet _ rfl rfl
  | assign src =>
    simp only
    split
    · split
      · trivial
      · split <;> exact explains_quiet _ rfl rfl
    · trivial

theorem constructNew_log (f : NewFn) (s : Sess) (m : Mix) (ti : Nat) (l : Loc) :
    ExplainsS (if f.there D m then [(.init m l, s.h)] else []) s.h (constructNew D orc f s m ti l) := by
  unfold constructNew NewFn.there
  cases f with
  | dflt =>
    simp only
    cases hi : (D.mix m).hasInit with
    | false => exact explains_same _ rfl
    | true =>
      simp only [Bool.not_true, Bool.false_eq_true, if_false, if_true]
      split
      · exact explains_same _ rfl
      · have := construct_explains (h := s.h.ticked) (l := l) (m := m) (v := orc.val s.h.tick) (how := .dflt) (c := [(.init m l, s.h)]) (x := .init m l) rfl ⟨s.h, by simp, rfl⟩
        cases hc : s.h.ticked.construct l m (orc.val s.h.tick) .dflt with
        | none => trivial
        | some h' => rw [hc] at this; exact Explains.relogFrom this rfl
  | custom k =>
    simp only [if_true]
    split
    · exact explains_same _ rfl
    · have := construct_explains (h := s.h.ticked) (l := l) (m := m) (v := orc.val s.h.tick) (how := .custom k) (c := [(.init m l, s.h)]) (x := .init m l) rfl ⟨s.h, by simp, rfl⟩
      cases hc : s.h.ticked.construct l m (orc.val s.h.tick) (.custom k) with
      | none => trivial
      | some h' => rw [hc] at this; exact Explains.relogFrom this rfl
  | copy src checked =>
    simp only
    cases hsrc : sourceAt s.h src ti with
    | none => trivial
    | some y =>
      obtain ⟨sl, m', v⟩ := y
      simp only
      by_cases hm : m' ≠ m
      · rw [if_pos hm]; trivial
      · rw [if_neg hm]
        cases hi : (D.mix m).hasCopyInit with
        | false => simp only [Bool.not_false, if_true, Bool.false_eq_true, if_false]; cases checked <;> simp <;> first | exact explains_same _ rfl | trivial
        | true =>
          simp only [Bool.not_true, Bool.false_eq_true, if_false, if_true]
          split
          · exact explains_same _ rfl
          · have := construct_explains (h := s.h.ticked) (l := l) (m := m) (v := v) (how := .copied sl) (c := [(.init m l, s.h)]) (x := .init m l) rfl ⟨s.h, by simp, rfl⟩
            cases hc : s.h.ticked.construct l m v (.copied sl) with
            | none => trivial
            | some h' => rw [hc] at this; exact Explains.relogFrom this rfl

theorem updateNext_log (f : NewFn) (g : UpdFn) (s : Sess) : ExplainsS (callsNext D E f s) s.h (updateNext D E orc f g s) := by
  unfold updateNext callsNext
  by_cases hc : s.complete = true
  · rw [if_pos hc, if_pos hc]; exact explains_same _ rfl
  · rw [if_neg hc, if_neg hc]
    cases hm : (E.mixins s.ty)[s.updated]? with
    | none => trivial
    | some m =>
      simp only
      cases ho : s.oldIndex E m with
      | some y =>
        obtain ⟨b, oi⟩ := y
        simp only
        cases hs : s.h.slot? b oi with
        | none => trivial
        | some sl =>
          simp only
          have := updateCommon_log (D := D) (orc := orc) g s m s.updated sl.loc
          cases hr : updateCommon D orc g s m s.updated sl.loc with
          | ub => trivial
          | throw s' e => rw [hr] at this; exact this
          | ok s' => rw [hr] at this; exact Explains.relog this rfl
      | none =>
        simp only
        cases hd : s.data with
        | none => trivial
        | some a =>
          simp only
          cases hs : s.h.slot? a s.updated with
          | none => trivial
          | some sl =>
            simp only
            have := constructNew_log (D := D) (orc := orc) f s m s.updated sl.loc
            cases hr : constructNew D orc f s m s.updated sl.loc with
            | ub => trivial
            | throw s' e => rw [hr] at this; exact this
            | ok s' => rw [hr] at this; exact Explains.relog this rfl

theorem updateLoop_log (f : NewFn) (g : UpdFn) : ∀ (n : Nat) (s : Sess), ExplainsS (callsLoop D E orc f g n s) s.h (updateLoop D E orc f g n s)
  | 0, s => explains_same _ rfl
  | n + 1, s => by
    unfold updateLoop callsLoop
    have h1 := updateNext_log (D := D) (E := E) (orc := orc) f g s
    cases hr : updateNext D E orc f g s with
    | ub => trivial
    | throw s' e => rw [hr] at h1; exact Explains.left _ h1
    | ok s' =>
      rw [hr] at h1
      have h2 := updateLoop_log f g n s'
      simp only [Res.bind]
      cases hr2 : updateLoop D E orc f g n s' with
      | ub => trivial
      | throw s2 e => rw [hr2] at h2; exact Explains.trans h1 h2
      | ok s2 => rw [hr2] at h2; exact Explains.trans h1 h2

theorem updateEach_log (f : NewFn) (g : UpdFn) (upto : Option Nat) (s : Sess) :
    ExplainsS (callsEach D E orc f g upto s) s.h (updateEach D E orc f g upto s) := updateLoop_log f g _ s

theorem mstep_log (s : Sess) (st : MStep) : ExplainsS (callsStep D E orc s st) s.h (mstep D E orc s st) := by
  cases st with
  | next f g => exact updateNext_log f g s
  | each f g upto => exact updateEach_log f g upto s
  | «at» i f g =>
    simp only [mstep, callsStep, updateAt, callsAt]
    by_cases hc : i < s.updated ∨ i > (E.mixins s.ty).length
    · rw [if_pos hc, if_pos hc]; exact explains_same _ rfl
    · rw [if_neg hc, if_neg hc]
      have h1 := updateEach_log (D := D) (E := E) (orc := orc) .dflt .noop (some i) s
      cases hr : updateEach D E orc .dflt .noop (some i) s with
      | ub => trivial
      | throw s' e => rw [hr] at h1; exact Explains.left _ h1
      | ok s' =>
        rw [hr] at h1
        have h2 := updateNext_log (D := D) (E := E) (orc := orc) f g s'
        simp only [Res.bind]
        cases hr2 : updateNext D E orc f g s' with
        | ub => trivial
        | throw s2 e => rw [hr2] at h2; exact Explains.trans h1 h2
        | ok s2 => rw [hr2] at h2; exact Explains.trans h1 h2
  | finalize =>
    simp only [mstep, callsStep]
    cases hr : finalize D E orc s with
    | none => trivial
    | some s' => exact finalize_log s s' hr
  | rollback =>
    simp only [mstep, callsStep]
    cases hr : rollback D E s with
    | none => trivial
    | some s' => exact rollback_log s s' hr
  | throw => exact explains_same _ rfl

theorem msteps_log : ∀ (steps : List (MStep × Bool)) (s : Sess), ExplainsS (callsSteps D E orc steps s) s.h (msteps D E orc steps s)
  | [], s => explains_same _ rfl
  | (st, caught) :: rest, s => by
    unfold msteps callsSteps
    have h1 := mstep_log (D := D) (E := E) (orc := orc) s st
    have cont : ∀ s', Explains (callsStep D E orc s st) s.h s'.h →
        ExplainsS (callsStep D E orc s st ++ callsSteps D E orc rest s') s.h (msteps D E orc rest s') := by
      intro s' h1
      have h2 := msteps_log rest s'
      cases hr2 : msteps D E orc rest s' with
      | ub => trivial
      | throw s2 e => rw [hr2] at h2; exact Explains.trans h1 h2
      | ok s2 => rw [hr2] at h2; exact Explains.trans h1 h2
    cases hr : mstep D E orc s st with
    | ub => trivial
    | throw s' e =>
      rw [hr] at h1
      simp only [Res.bind]
      cases caught with
      | true => exact cont s' h1
      | false => exact Explains.left _ h1
    | ok s' => rw [hr] at h1; exact cont s' h1

theorem dtor_log (u : Bool) (s : Sess) : ExplainsR (callsDtor D E orc u s) s.h (s.dtor D E orc u) := by
  unfold Sess.dtor callsDtor
  by_cases hm : s.movedOut = true
  · rw [if_pos hm, if_pos hm]; exact explains_same _ rfl
  · rw [if_neg hm, if_neg hm]
    cases u with
    | true =>
      simp only [if_true]
      cases hr : rollback D E s with
      | none => trivial
      | some s' => exact rollback_log s s' hr
    | false =>
      simp only [Bool.false_eq_true, if_false]
      have h1 := updateEach_log (D := D) (E := E) (orc := orc) .dflt .noop none s
      cases hr : updateEach D E orc .dflt .noop none s with
      | ub => trivial
      | throw s' e =>
        rw [hr] at h1
        simp only
        cases hr2 : rollback D E s' with
        | none => trivial
        | some s2 => exact Explains.trans h1 (rollback_log s' s2 hr2)
      | ok s' =>
        rw [hr] at h1
        simp only
        have key : ∀ s2 : Sess, Explains [] s'.h s2.h →
            ExplainsR (callsEach D E orc .dflt .noop none s ++ callsFinalize D E orc s2) s.h (match finalize D E orc s2 with
              | none => .ub
              | some s => .ok s.h) := by
          intro s2 h3
          cases hf : finalize D E orc s2 with
          | none => trivial
          | some s4 =>
            have := Explains.trans (Explains.trans h1 h3) (finalize_log s2 s4 hf)
            rw [List.append_nil] at this
            exact this
        by_cases hc : s'.complete = true
        · rw [if_pos hc]; exact key s' (explains_same _ rfl)
        · rw [if_neg hc]; exact key _ (explains_quiet _ rfl rfl)

theorem unwindWith_log (s : Sess) (e : XErr) : ExplainsR (callsDtor D E orc true s) s.h (unwindWith D E orc s e) := by
  unfold unwindWith
  have := dtor_log (D := D) (E := E) (orc := orc) true s
  cases hr : s.dtor D E orc true with
  | ub => trivial
  | throw h' e' => trivial
  | ok h' => rw [hr] at this; exact this

theorem withMutation_log (u : Bool) (h : Heap) (o : Nat) (t : TypeId) (steps : List (MStep × Bool)) :
    ExplainsR (callsMutation D E orc u h o t steps) h (withMutation D E orc u h o t steps) := by
  unfold withMutation callsMutation
  cases ho : h.obj? o with
  | none => trivial
  | some ob =>
    simp only
    by_cases hsl : ob.isSealed = true
    · rw [if_pos hsl, if_pos hsl]; exact unwindWith_log (Sess.begin h o ob t) _
    · rw [if_neg hsl, if_neg hsl]
      have h1 := allocate_log (D := D) (E := E) (orc := orc) (Sess.begin h o ob t)
      have pre : ∀ (s : Sess) (c : Seen) (r : Res Heap), Explains [] h s.h → ExplainsR c s.h r → ExplainsR c h r := by
        intro s c r h1 h2
        cases r with
        | ub => trivial
        | throw h' e => have := Explains.trans h1 h2; rw [List.nil_append] at this; exact this
        | ok h' => have := Explains.trans h1 h2; rw [List.nil_append] at this; exact this
      cases hr : allocateMixinData D E orc (Sess.begin h o ob t) with
      | ub => trivial
      | throw s e => rw [hr] at h1; exact pre s _ _ h1 (unwindWith_log s e)
      | ok s =>
        rw [hr] at h1
        simp only
        refine pre s _ _ h1 ?_
        have h2 := msteps_log (D := D) (E := E) (orc := orc) steps s
        have join : ∀ (s' : Sess) (c : Seen) (r : Res Heap), Explains (callsSteps D E orc steps s) s.h s'.h → ExplainsR c s'.h r →
            ExplainsR (callsSteps D E orc steps s ++ c) s.h r := by
          intro s' c r h1 h2
          cases r with
          | ub => trivial
          | throw h' e => exact Explains.trans h1 h2
          | ok h' => exact Explains.trans h1 h2
        cases hr2 : msteps D E orc steps s with
        | ub => trivial
        | throw s' e => rw [hr2] at h2; exact join s' _ _ h2 (unwindWith_log s' e)
        | ok s' => rw [hr2] at h2; exact join s' _ _ h2 (dtor_log u s')

/-! ## Operations -/

theorem clear_log (h : Heap) (o : Nat) : ExplainsO (callsClear D E h o) h (clearMixinData D E h o) := by
  unfold clearMixinData callsClear
  cases ho : h.obj? o with
  | none => trivial
  | some ob =>
    simp only
    cases hd : ob.data with
    | none => exact explains_same _ rfl
    | some a =>
      cases ht : ob.ty with
      | none => trivial
      | some t =>
        simp only
        cases hr : rollback D E ⟨h, o, ob.alloc, none, none, t, some a, (E.mixins t).length, (E.mixins t).length, false, false⟩ with
        | none => trivial
        | some s' => exact (rollback_log _ s' hr).relog rfl

theorem redirect_log (o a : Nat) : ∀ (n : Nat) (h h' : Heap), redirect o a n h = some h' → h'.log = h.log
  | 0, h, h', hr => by simp [redirect] at hr; rw [hr]
  | n + 1, h, h', hr => by
    unfold redirect at hr
    cases hr1 : redirect o a n h with
    | none => rw [hr1] at hr; simp at hr
    | some h1 =>
      rw [hr1] at hr
      simp only [Option.map_eq_some_iff] at hr
      obtain ⟨sl, -, rfl⟩ := hr
      exact redirect_log o a n h h1 hr1

theorem usurp_log {h : Heap} {o src : Nat} {h' : Heap} (hu : usurp E h o src = some h') : h'.log = h.log := by
  unfold usurp at hu
  split at hu
  · split at hu
    · simp at hu
    · simp only [Option.map_eq_some_iff] at hu
      obtain ⟨h2, h3, rfl⟩ := hu
      split at h3
      · split at h3
        · simp at h3; subst h3; rfl
        · simp at h3
      · have := redirect_log _ _ _ _ _ h3
        exact this
  · simp at hu

theorem reset_log (u : Bool) (h : Heap) (o : Nat) (t : TypeId) : ExplainsR (callsReset D E orc u h o t) h (resetType D E orc u h o t) := by
  unfold resetType callsReset
  cases ho : h.obj? o with
  | none => trivial
  | some ob =>
    simp only
    by_cases h1 : ob.isSealed = true
    · rw [if_pos h1, if_pos h1]; exact explains_same _ rfl
    · rw [if_neg h1, if_neg h1]
      by_cases h2 : ob.ty = some t
      · rw [if_pos h2, if_pos h2]; exact explains_same _ rfl
      · rw [if_neg h2, if_neg h2]
        by_cases h3 : (E.mixins t).length = 0
        · rw [if_pos h3, if_pos h3]
          have := clear_log (D := D) (E := E) h o
          cases hr : clearMixinData D E h o with
          | none => trivial
          | some h' =>
            rw [hr] at this
            simp only
            split
            · trivial
            · exact Explains.relog this rfl
        · rw [if_neg h3, if_neg h3]
          exact withMutation_log u h o t _

theorem unwindObject_log (o : Nat) (h : Heap) (e : XErr) : ExplainsR (callsClear D E h o) h (unwindObject D E o h e) := by
  unfold unwindObject destroyObject
  have := clear_log (D := D) (E := E) h o
  cases hr : clearMixinData D E h o with
  | none => trivial
  | some h' => rw [hr] at this; exact Explains.relog this rfl

theorem copyMatchingLoop_log (own : TypeId) (a b : Option Nat) : ∀ (ms : List Mix) (i : Nat) (h : Heap), ExplainsR [] h (copyMatchingLoop D E orc own a b i ms h)
  | [], i, h => explains_same _ rfl
  | m :: ms, i, h => by
    unfold copyMatchingLoop
    split
    · exact copyMatchingLoop_log own a b ms (i + 1) h
    · split
      · split
        · trivial
        · split
          · exact explains_quiet _ rfl rfl
          · rename_i l _ _ sl _ v _ _ _ _
            have h1 : Explains [] h ((h.setLive l (some (m, v))).ticked.logged (.copyAsgn m l sl)) := explains_quiet _ rfl rfl
            have h2 := copyMatchingLoop_log own a b ms (i + 1) ((h.setLive l (some (m, v))).ticked.logged (.copyAsgn m l sl))
            cases hr : copyMatchingLoop D E orc own a b (i + 1) ms ((h.setLive l (some (m, v))).ticked.logged (.copyAsgn m l sl)) with
            | ub => trivial
            | throw h' e => rw [hr] at h2; exact Explains.trans h1 h2
            | ok h' => rw [hr] at h2; exact Explains.trans h1 h2
      · trivial

theorem moveMatchingLoop_log (own : TypeId) (a b : Option Nat) : ∀ (ms : List Mix) (i : Nat) (h : Heap),
    ExplainsR (callsMoveMatching D E orc own a b i ms h) h (moveMatchingLoop D E orc own a b i ms h)
  | [], i, h => explains_same _ rfl
  | m :: ms, i, h => by
    have ih := fun h => moveMatchingLoop_log own a b ms (i + 1) h
    have join : ∀ (h h1 : Heap) (c c' : Seen) (r : Res Heap), Explains c h h1 → ExplainsR c' h1 r → ExplainsR (c ++ c') h r := by
      intro h h1 c c' r a b
      cases r with
      | ub => trivial
      | throw h' e => exact Explains.trans a b
      | ok h' => exact Explains.trans a b
    unfold moveMatchingLoop callsMoveMatching
    cases hi : E.indexOf own m with
    | none => exact ih h
    | some oi =>
      simp only
      cases h1 : a.bind (fun a => mixinAt h a oi) with
      | none => trivial
      | some x =>
        obtain ⟨l, m', v'⟩ := x
        cases h2 : b.bind (fun b => mixinAt h b i) with
        | none => trivial
        | some y =>
          obtain ⟨sl, m'', v⟩ := y
          simp only
          by_cases hc : m' ≠ m ∨ m'' ≠ m
          · rw [if_pos hc]; trivial
          · rw [if_neg hc]
            by_cases ha : (D.mix m).hasMoveAsgn = true
            · rw [if_pos ha, if_pos ha]
              have h3 : Explains [] h (((h.setLive l (some (m, v))).setLive sl (some (m, orc.val h.tick))).ticked.logged (.moveAsgn m l sl)) := explains_quiet _ rfl rfl
              exact join h _ [] _ _ h3 (ih _)
            · rw [if_neg ha, if_neg ha]
              have h3 := destroy_explains (D := D) (h := h) (l := l) (m := m) (c := if (D.mix m).hasDestroy then [(.destroy m l, h)] else [])
                (fun hd => ⟨h, by simp [hd], rfl⟩)
              cases hd : h.destroy D l m with
              | none => trivial
              | some h' =>
                rw [hd] at h3
                simp only
                cases hl : h'.live sl with
                | none => trivial
                | some z =>
                  obtain ⟨mz, vz⟩ := z
                  simp only [Option.bind]
                  by_cases hmi : (D.mix m).hasMoveInit = false
                  · rw [if_pos hmi]; trivial
                  · rw [if_neg hmi]
                    have h4 := construct_explains (h := h') (l := l) (m := m) (v := vz) (how := .moved sl) (c := [(.move m l sl, h')]) (x := .move m l sl) rfl ⟨h', by simp, rfl⟩
                    cases hc2 : h'.construct l m vz (.moved sl) with
                    | none => trivial
                    | some h5 =>
                      rw [hc2] at h4
                      refine join h h' _ _ _ h3 ?_
                      exact join h' _ [(.move m l sl, h')] _ _ (Explains.relog h4 (h2 := (h5.setLive sl (some (m, orc.val h5.tick))).ticked) rfl) (ih _)

theorem op_log (u : Bool) (h : Heap) (op : OOp) : ExplainsR (callsOp D E orc u h op) h (ostep D E orc u h op) := by
  have join : ∀ (h h1 : Heap) (c c' : Seen) (r : Res Heap), Explains c h h1 → ExplainsR c' h1 r → ExplainsR (c ++ c') h r := by
    intro h h1 c c' r a b
    cases r with
    | ub => trivial
    | throw h' e => exact Explains.trans a b
    | ok h' => exact Explains.trans a b
  cases op with
  | newEmpty t al => exact explains_same _ rfl
  | newOfType t al sd =>
    simp only [ostep, newOfType, callsOp]
    have h1 := reset_log (D := D) (E := E) (orc := orc) u (newNull h al) h.objs.length t
    cases hr : resetType D E orc u (newNull h al) h.objs.length t with
    | ub => trivial
    | throw h' e =>
      rw [hr] at h1
      exact join h h' _ _ _ (Explains.relogFrom h1 rfl) (unwindObject_log _ h' e)
    | ok h' =>
      rw [hr] at h1
      simp only [Res.bind]
      split
      · trivial
      · rw [List.append_nil]; exact Explains.relogFrom (Explains.relog h1 rfl) rfl
  | moveNew src =>
    simp only [ostep, moveConstruct]
    split
    · trivial
    · split
      · trivial
      · rename_i hu; have := usurp_log hu; exact explains_same _ this
  | destroy o =>
    simp only [ostep, destroyObject, callsOp]
    have := clear_log (D := D) (E := E) h o
    cases hr : clearMixinData D E h o with
    | none => trivial
    | some h' => rw [hr] at this; exact Explains.relog this rfl
  | moveAssign o src =>
    simp only [ostep, moveAssign, callsOp]
    by_cases hos : o = src
    · rw [if_pos hos]; exact explains_same _ rfl
    · rw [if_neg hos]
      cases ho : h.obj? o with
      | none => trivial
      | some ob =>
        cases hs : h.obj? src with
        | none => trivial
        | some sb =>
          simp only
          by_cases hal : ob.alloc = sb.alloc
          · rw [if_pos hal]
            by_cases hsl : ob.isSealed = true
            · rw [if_pos hsl]; exact explains_same _ rfl
            · rw [if_neg hsl, if_neg (by simp [hos, hal, hsl])]
              have := clear_log (D := D) (E := E) h o
              cases hr : clearMixinData D E h o with
              | none => trivial
              | some h' =>
                rw [hr] at this
                simp only [Option.bind]
                cases hu : usurp E h' o src with
                | none => trivial
                | some h2 => exact Explains.relog this (usurp_log hu)
          · rw [if_neg hal]; exact explains_same _ rfl
  | copy src al =>
    simp only [ostep, copyObject, callsOp]
    cases hs : h.obj? src with
    | none => trivial
    | some sb =>
      simp only
      cases hd : sb.data with
      | none => exact explains_same _ rfl
      | some a =>
        cases ht : sb.ty with
        | none => trivial
        | some t =>
          simp only
          have h1 := withMutation_log (D := D) (E := E) (orc := orc) u (newNull h al) h.objs.length t [(.each (.copy src true) .noop none, false)]
          unfold perform
          cases hr : withMutation D E orc u (newNull h al) h.objs.length t [(.each (.copy src true) .noop none, false)] with
          | ub => trivial
          | throw h' e =>
            rw [hr] at h1
            exact join h h' _ _ _ (Explains.relogFrom h1 rfl) (unwindObject_log _ h' e)
          | ok h' =>
            rw [hr] at h1
            simp only [Res.bind]
            rw [List.append_nil]; exact Explains.relogFrom h1 rfl
  | copyFrom o src =>
    simp only [ostep, copyFrom, callsOp]
    cases ho : h.obj? o with
    | none => trivial
    | some ob =>
      cases hs : h.obj? src with
      | none => trivial
      | some sb =>
        simp only
        cases hd : sb.data with
        | none =>
          simp only
          by_cases hsl : ob.isSealed = true
          · rw [if_pos hsl, if_pos hsl]; exact explains_same _ rfl
          · rw [if_neg hsl, if_neg hsl]
            have := clear_log (D := D) (E := E) h o
            cases hr : clearMixinData D E h o with
            | none => trivial
            | some h' =>
              rw [hr] at this
              simp only
              split
              · trivial
              · exact Explains.relog this rfl
        | some a =>
          cases ht : sb.ty with
          | none => trivial
          | some t =>
            cases hot : ob.ty with
            | none => trivial
            | some own =>
              simp only
              cases hck : copyFromCheck D E own (E.mixins t) with
              | some m => exact explains_same _ rfl
              | none => exact withMutation_log u h o t _
  | copyMatching o src =>
    simp only [ostep, copyMatchingFrom, callsOp]
    split
    · split
      · split
        · exact explains_same _ rfl
        · exact copyMatchingLoop_log _ _ _ _ _ _
      · trivial
    · trivial
  | moveMatching o src fb =>
    simp only [ostep, moveMatchingFrom, callsOp]
    cases ho : h.obj? o with
    | none => trivial
    | some ob =>
      cases hs : h.obj? src with
      | none => trivial
      | some sb =>
        simp only
        cases hot : ob.ty with
        | none => trivial
        | some own =>
          cases ht : sb.ty with
          | none => trivial
          | some t =>
            simp only
            cases hck : moveMatchingCheck D E own fb (E.mixins t) with
            | some m => exact explains_same _ rfl
            | none => exact moveMatchingLoop_log _ _ _ _ _ _
  | clear o =>
    simp only [ostep, clearObject, callsOp]
    cases ho : h.obj? o with
    | none => trivial
    | some ob =>
      simp only
      by_cases hsl : ob.isSealed = true
      · rw [if_pos hsl, if_pos hsl]; exact explains_same _ rfl
      · rw [if_neg hsl, if_neg hsl]
        have := clear_log (D := D) (E := E) h o
        cases hr : clearMixinData D E h o with
        | none => trivial
        | some h' =>
          rw [hr] at this
          cases ht : ob.ty with
          | none => trivial
          | some t =>
            simp only
            split
            · trivial
            · exact Explains.relog this rfl
  | reset o t => exact reset_log u h o t
  | «seal» o =>
    simp only [ostep, sealObject, callsOp]
    split
    · trivial
    · exact explains_same _ rfl
  | mutation o t steps => exact withMutation_log u h o t steps
  | mutateTo o t ops =>
    simp only [ostep, mutateTo, callsOp]
    cases ho : h.obj? o with
    | none => trivial
    | some ob =>
      simp only
      by_cases hty : ob.ty = some t
      · rw [if_pos hty, if_pos hty]; exact explains_same _ rfl
      · rw [if_neg hty, if_neg hty]; exact withMutation_log u h o t _

end Dnmx
