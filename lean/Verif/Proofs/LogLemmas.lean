import Verif.Spec.Heap

/-!
# The log agrees with what lives

This holds for all programs, whether they use objects properly or not, as long as there is no undefined behaviour.
-/

set_option linter.unusedSimpArgs false
set_option linter.unusedVariables false

namespace Dnmx
open Spec

variable {D : Decls} {E : TyEnv} {orc : Orc}

theorem _root_.Spec.LogOk.of {h h' : Heap} (hk : LogOk D h) (h1 : h'.blk = h.blk) (h2 : h'.live = h.live) (h3 : h'.next = h.next) (h4 : h'.log = h.log) : LogOk D h' := by
  obtain ⟨a1, a2, a3, a4, a5⟩ := hk
  exact ⟨by rw [h2, h4]; exact a1, by rw [h1, h4]; exact a2, by rw [h1, h3, h4]; exact a3, by rw [h4]; exact a4, by rw [h4]; exact a5⟩

theorem log_alloc {h : Heap} (hk : LogOk D h) (b : Blk) : LogOk D (h.allocate b) := by
  obtain ⟨a1, a2, a3, a4, a5⟩ := hk
  refine ⟨?_, ?_, ?_, ?_, ?_⟩ <;> simp only [Heap.allocate]
  · intro m l hm
    have := a1 m l hm
    simp only [births, deaths, List.countP_append, List.countP_cons, List.countP_nil] at this ⊢
    simpa using this
  · intro a
    have := a2 a
    by_cases ha : a = h.next
    · subst ha
      rw [(a3 h.next (Nat.le_refl _)).1] at this
      simp only [allocs, deallocs, List.countP_append, List.countP_cons, List.countP_nil] at this ⊢
      simp at this ⊢; exact this
    · have hn : ¬ h.next = a := fun h => ha h.symm
      simp only [allocs, deallocs, List.countP_append, List.countP_cons, List.countP_nil, ha, if_false] at this ⊢
      simpa [hn] using this
  · intro a ha
    have hne : a ≠ h.next := by omega
    have hn : ¬ h.next = a := fun h => hne h.symm
    have := a3 a (by omega)
    simp only [hne, if_false, allocs, List.countP_append, List.countP_cons, List.countP_nil] at this ⊢
    refine ⟨this.1, ?_⟩
    simpa [hn] using this.2
  · intro a
    have := a4 a
    by_cases ha : a = h.next
    · subst ha
      have := (a3 h.next (Nat.le_refl _)).2
      simp only [allocs, List.countP_append, List.countP_cons, List.countP_nil] at this ⊢
      simp [this]
    · have hn : ¬ h.next = a := fun h => ha h.symm
      simp only [allocs, List.countP_append, List.countP_cons, List.countP_nil] at this ⊢
      simpa [hn] using this
  · intro e he
    rw [List.mem_append] at he
    rcases he with he | he
    · exact a5 e he
    · simp at he; subst he; trivial

theorem log_dealloc {h h' : Heap} (hk : LogOk D h) {a : Nat} {b : Blk} (hd : h.deallocate a b = some h') : LogOk D h' := by
  obtain ⟨a1, a2, a3, a4, a5⟩ := hk
  unfold Heap.deallocate at hd
  split at hd
  · rename_i hb
    simp at hd; subst hd
    refine ⟨?_, ?_, ?_, ?_, ?_⟩ <;> simp only
    · intro m l hm
      have := a1 m l hm
      simp only [births, deaths, List.countP_append, List.countP_cons, List.countP_nil] at this ⊢
      simpa using this
    · intro x
      have := a2 x
      by_cases hx : x = a
      · subst hx
        rw [hb] at this
        simp only [allocs, deallocs, List.countP_append, List.countP_cons, List.countP_nil] at this ⊢
        simpa using this
      · have hn : ¬ a = x := fun h => hx h.symm
        simp only [allocs, deallocs, List.countP_append, List.countP_cons, List.countP_nil, hx, if_false] at this ⊢
        simpa [hn] using this
    · intro x hx
      have := a3 x hx
      refine ⟨by split; · rfl
                 · exact this.1, ?_⟩
      have := this.2
      simp only [allocs, List.countP_append, List.countP_cons, List.countP_nil] at this ⊢
      simpa using this
    · intro x
      have := a4 x
      simp only [allocs, List.countP_append, List.countP_cons, List.countP_nil] at this ⊢
      simpa using this
    · intro e he
      rw [List.mem_append] at he
      rcases he with he | he
      · exact a5 e he
      · simp at he; subst he; trivial
  · simp at hd

theorem log_construct {h h' : Heap} (hk : LogOk D h) {l : Loc} {m : Mix} {v : Nat} {how : How} (hf : FuncThere D (.init m l how))
    (hd : h.construct l m v how = some h') : LogOk D h' := by
  obtain ⟨a1, a2, a3, a4, a5⟩ := hk
  unfold Heap.construct at hd
  split at hd
  · rename_i hb
    simp at hd; subst hd
    refine ⟨?_, ?_, ?_, ?_, ?_⟩ <;> simp only [Heap.logged, Heap.setLive]
    · intro m' l' hm
      have := a1 m' l' hm
      by_cases hl : l' = l
      · subst hl
        rw [hb.2] at this
        by_cases he : m = m'
        · subst he
          simp only [births, deaths, List.countP_append, List.countP_cons, List.countP_nil] at this ⊢
          simp at this ⊢; exact this
        · simp only [births, deaths, List.countP_append, List.countP_cons, List.countP_nil] at this ⊢
          simp [he] at this ⊢; exact this
      · have hn : ¬ l = l' := fun h => hl h.symm
        simp only [births, deaths, List.countP_append, List.countP_cons, List.countP_nil, hl, if_false] at this ⊢
        simpa [hn] using this
    · intro x
      have := a2 x
      simp only [allocs, deallocs, List.countP_append, List.countP_cons, List.countP_nil] at this ⊢
      simpa using this
    · intro x hx
      have := a3 x hx
      refine ⟨this.1, ?_⟩
      have := this.2
      simp only [allocs, List.countP_append, List.countP_cons, List.countP_nil] at this ⊢
      simpa using this
    · intro x
      have := a4 x
      simp only [allocs, List.countP_append, List.countP_cons, List.countP_nil] at this ⊢
      simpa using this
    · intro e he
      rw [List.mem_append] at he
      rcases he with he | he
      · exact a5 e he
      · simp at he; subst he; exact hf
  · simp at hd

theorem log_destroy {h h' : Heap} (hk : LogOk D h) {l : Loc} {m : Mix} (hd : h.destroy D l m = some h') : LogOk D h' := by
  obtain ⟨a1, a2, a3, a4, a5⟩ := hk
  unfold Heap.destroy at hd
  cases hl : h.live l with
  | none => rw [hl] at hd; simp at hd
  | some x =>
    obtain ⟨m0, v⟩ := x
    rw [hl] at hd
    simp only at hd
    split at hd
    · rename_i hb
      obtain ⟨rfl, hb⟩ := hb
      cases hdes : (D.mix m0).hasDestroy with
      | true =>
        rw [hdes] at hd; simp at hd; subst hd
        refine ⟨?_, ?_, ?_, ?_, ?_⟩ <;> simp only [Heap.logged, Heap.setLive]
        · intro m' l' hm
          have := a1 m' l' hm
          by_cases hll : l' = l
          · subst hll
            rw [hl] at this
            by_cases he : m0 = m'
            · subst he
              simp only [births, deaths, List.countP_append, List.countP_cons, List.countP_nil] at this ⊢
              simp at this ⊢; exact this
            · simp only [births, deaths, List.countP_append, List.countP_cons, List.countP_nil] at this ⊢
              simp [he] at this ⊢; exact this
          · have hn : ¬ l = l' := fun h => hll h.symm
            simp only [births, deaths, List.countP_append, List.countP_cons, List.countP_nil, hll, if_false] at this ⊢
            simpa [hn] using this
        · intro x
          have := a2 x
          simp only [allocs, deallocs, List.countP_append, List.countP_cons, List.countP_nil] at this ⊢
          simpa using this
        · intro x hx
          have := a3 x hx
          refine ⟨this.1, ?_⟩
          have := this.2
          simp only [allocs, List.countP_append, List.countP_cons, List.countP_nil] at this ⊢
          simpa using this
        · intro x
          have := a4 x
          simp only [allocs, List.countP_append, List.countP_cons, List.countP_nil] at this ⊢
          simpa using this
        · intro e he
          rw [List.mem_append] at he
          rcases he with he | he
          · exact a5 e he
          · simp at he; subst he; exact hdes
      | false =>
        rw [hdes] at hd; simp at hd; subst hd
        refine ⟨?_, a2, a3, a4, a5⟩
        intro m' l' hm
        have := a1 m' l' hm
        by_cases hll : l' = l
        · subst hll
          rw [hl] at this
          have he : ¬ m0 = m' := by rintro rfl; rw [hdes] at hm; simp at hm
          simpa [he] using this
        · have e : (h.setLive l none).live l' = h.live l' := if_neg hll
          exact this.trans (congrArg (_ + ·) (ite_congr (by rw [← e]) (fun _ => rfl) (fun _ => rfl)))
    · simp at hd

/-- a mixin changes its value -/
theorem log_revalue {h : Heap} (hk : LogOk D h) {l : Loc} {m : Mix} {v0 : Nat} (hl : h.live l = some (m, v0)) (v : Nat) : LogOk D (h.setLive l (some (m, v))) := by
  obtain ⟨a1, a2, a3, a4, a5⟩ := hk
  refine ⟨?_, a2, a3, a4, a5⟩
  intro m' l' hm
  have := a1 m' l' hm
  by_cases hll : l' = l
  · subst hll; rw [hl] at this; simpa using this
  · have e : (h.setLive l (some (m, v))).live l' = h.live l' := if_neg hll
    exact this.trans (congrArg (_ + ·) (ite_congr (by rw [← e]) (fun _ => rfl) (fun _ => rfl)))

/-- Events that are neither about lives nor about memory. -/
def quiet : Ev → Bool
  | .update _ _ _ => true
  | .copyAsgn _ _ _ => true
  | .moveAsgn _ _ _ => true
  | .assertFailed => true
  | _ => false

theorem log_quiet {h : Heap} (hk : LogOk D h) {e : Ev} (he : quiet e = true) (hf : FuncThere D e := by trivial) : LogOk D (h.logged e) := by
  obtain ⟨a1, a2, a3, a4, a5⟩ := hk
  refine ⟨?_, ?_, ?_, ?_, ?_⟩ <;> simp only [Heap.logged]
  · intro m l hm
    have := a1 m l hm
    simp only [births, deaths, List.countP_append, List.countP_cons, List.countP_nil] at this ⊢
    cases e <;> simp [quiet] at he <;> simpa using this
  · intro x
    have := a2 x
    simp only [allocs, deallocs, List.countP_append, List.countP_cons, List.countP_nil] at this ⊢
    cases e <;> simp [quiet] at he <;> simpa using this
  · intro x hx
    have := a3 x hx
    refine ⟨this.1, ?_⟩
    have := this.2
    simp only [allocs, List.countP_append, List.countP_cons, List.countP_nil] at this ⊢
    cases e <;> simp [quiet] at he <;> simpa using this
  · intro x
    have := a4 x
    simp only [allocs, List.countP_append, List.countP_cons, List.countP_nil] at this ⊢
    cases e <;> simp [quiet] at he <;> simpa using this
  · intro e' he'
    rw [List.mem_append] at he'
    rcases he' with he' | he'
    · exact a5 e' he'
    · simp at he'; subst he'; exact hf

/-! ## Sessions -/

/-- The log is right in each outcome. -/
def RLog (D : Decls) (r : Res Sess) : Prop :=
  match r with
  | .ok s => LogOk D s.h
  | .throw s _ => LogOk D s.h
  | .ub => True

def HLog (D : Decls) (r : Res Heap) : Prop :=
  match r with
  | .ok h => LogOk D h
  | .throw h _ => LogOk D h
  | .ub => True

theorem RLog.bind {r : Res Sess} (hr : RLog D r) {f : Sess → Res Sess} {g : Sess → XErr → Res Sess} (hf : ∀ s, LogOk D s.h → RLog D (f s))
    (hg : ∀ s e, LogOk D s.h → RLog D (g s e)) : RLog D (r.bind f g) := by
  cases r with
  | ok s => exact hf s hr
  | throw s e => exact hg s e hr
  | ub => trivial

theorem RLog.bindH {r : Res Sess} (hr : RLog D r) {f : Sess → Res Heap} {g : Sess → XErr → Res Heap} (hf : ∀ s, LogOk D s.h → HLog D (f s))
    (hg : ∀ s e, LogOk D s.h → HLog D (g s e)) : HLog D (r.bind f g) := by
  cases r with
  | ok s => exact hf s hr
  | throw s e => exact hg s e hr
  | ub => trivial

theorem HLog.bind {r : Res Heap} (hr : HLog D r) {f : Heap → Res Heap} {g : Heap → XErr → Res Heap} (hf : ∀ s, LogOk D s → HLog D (f s))
    (hg : ∀ s e, LogOk D s → HLog D (g s e)) : HLog D (r.bind f g) := by
  cases r with
  | ok s => exact hf s hr
  | throw s e => exact hg s e hr
  | ub => trivial

theorem log_allocOne {s : Sess} (hs : LogOk D s.h) : RLog D (allocOne D E orc s) := by
  unfold allocOne
  split
  · split
    · exact hs.of rfl rfl rfl rfl
    · split
      · split
        · trivial
        · exact hs.of rfl rfl rfl rfl
      · split
        · exact hs.of rfl rfl rfl rfl
        · have h1 : LogOk D s.h.ticked := hs.of rfl rfl rfl rfl
          refine Spec.LogOk.of (log_alloc h1 (provenance D ?_ s.al)) ?_ ?_ ?_ ?_
          rotate_left
          · rfl
          · rfl
          · rfl
          · rfl
  · trivial

theorem log_allocLoop : ∀ (n : Nat) (s : Sess), LogOk D s.h → RLog D (allocLoop D E orc n s)
  | 0, s, hs => hs
  | n + 1, s, hs => by
    unfold allocLoop
    exact (log_allocOne hs).bind (fun s h => log_allocLoop n s h) (fun s e h => h)

theorem log_allocate {s : Sess} (hs : LogOk D s.h) : RLog D (allocateMixinData D E orc s) := by
  unfold allocateMixinData
  split
  · exact hs
  · split
    · exact hs.of rfl rfl rfl rfl
    · apply log_allocLoop
      have h1 : LogOk D s.h.ticked := hs.of rfl rfl rfl rfl
      exact (log_alloc h1 (.unified s.ty s.al)).of rfl rfl rfl rfl

theorem log_destroyLoop (s : Sess) : ∀ (n : Nat) (h h' : Heap), LogOk D h → destroyLoop D E s n h = some h' → LogOk D h'
  | 0, h, h', hk, he => by simp [destroyLoop] at he; subst he; exact hk
  | n + 1, h, h', hk, he => by
    unfold destroyLoop at he
    split at he
    · split at he
      · exact log_destroyLoop s n h h' hk he
      · split at he
        · simp at he
        · rw [Option.bind_eq_some_iff] at he
          obtain ⟨h1, k1, k2⟩ := he
          exact log_destroyLoop s n h1 h' (log_destroy hk k1) k2
    · simp at he

theorem log_deallocLoop (s : Sess) : ∀ (n : Nat) (h h' : Heap), LogOk D h → deallocLoop D E s n h = some h' → LogOk D h'
  | 0, h, h', hk, he => by simp [deallocLoop] at he; subst he; exact hk
  | n + 1, h, h', hk, he => by
    unfold deallocLoop at he
    split at he
    · split at he
      · simp at he
      · split at he
        · exact log_deallocLoop s n h h' hk he
        · split at he
          · exact log_deallocLoop s n h h' hk he
          · rw [Option.bind_eq_some_iff] at he
            obtain ⟨h1, k1, k2⟩ := he
            exact log_deallocLoop s n h1 h' (log_dealloc hk k1) k2
    · simp at he

theorem log_deallocBuffer {h h' : Heap} (hk : LogOk D h) {t : TypeId} {al a : Nat} (he : deallocBuffer h t al a = some h') : LogOk D h' := by
  unfold deallocBuffer at he
  rw [Option.map_eq_some_iff] at he
  obtain ⟨h1, k1, rfl⟩ := he
  exact (log_dealloc hk k1).of rfl rfl rfl rfl

theorem log_rollback {s s' : Sess} (hk : LogOk D s.h) (he : rollback D E s = some s') : LogOk D s'.h := by
  unfold rollback at he
  split at he
  · simp at he; subst he; exact hk
  · split at he
    · simp at he
    · rename_i h1 hb
      rw [Option.bind_eq_some_iff] at hb
      obtain ⟨h2, k1, k2⟩ := hb
      have hl := log_deallocLoop s _ _ _ (log_destroyLoop s _ _ _ hk k1) k2
      split at he
      · simp at he; subst he; exact hl
      · rw [Option.map_eq_some_iff] at he
        obtain ⟨h3, k3, rfl⟩ := he
        exact log_deallocBuffer hl k3

theorem log_finalizeOne {s : Sess} {b a oi : Nat} {m : Mix} {h h' : Heap} (hk : LogOk D h) (he : finalizeOne D E orc s b a oi m h = some h') : LogOk D h' := by
  unfold finalizeOne at he
  split at he
  · simp at he
  · split at he
    · split at he
      · simp at he; subst he; exact hk
      · split at he
        · rename_i old _ _ _ _ _ _ _ _ new m' v hnew hlive
          split at he
          · rename_i hc
            rw [Option.bind_eq_some_iff] at he
            obtain ⟨h1, k1, k2⟩ := he
            have hl1 := log_construct hk (show FuncThere D (.init m new.loc (.moved old.loc)) from hc.2) k1
            -- the old mixin still lives
            have hlive1 : h1.live old.loc = some (m, v) := by
              unfold Heap.construct at k1
              split at k1
              · rename_i hc2
                simp at k1; subst k1
                simp only [Heap.logged, Heap.setLive]
                have : old.loc ≠ new.loc := by intro h; rw [h, hc2.2] at hlive; simp at hlive
                simp [this, hlive, hc.1]
              · simp at k1
            have hl2 := log_revalue hl1 hlive1 (orc.val h1.tick)
            have hl3 : LogOk D (h1.setLive old.loc (some (m, orc.val h1.tick))).ticked := hl2.of rfl rfl rfl rfl
            exact log_destroy hl3 k2
          · simp at he
        · simp at he
    · split at he
      · simp at he
      · rename_i h1 k1
        have hl := log_destroy hk k1
        split at he
        · simp at he; subst he; exact hl
        · exact log_dealloc hl he

theorem log_finalizeLoop (s : Sess) (b a : Nat) : ∀ (ms : List Mix) (oi : Nat) (h h' : Heap), LogOk D h → finalizeLoop D E orc s b a oi ms h = some h' → LogOk D h'
  | [], oi, h, h', hk, he => by simp [finalizeLoop] at he; subst he; exact hk
  | m :: ms, oi, h, h', hk, he => by
    unfold finalizeLoop at he
    rw [Option.bind_eq_some_iff] at he
    obtain ⟨h1, k1, k2⟩ := he
    exact log_finalizeLoop s b a ms _ h1 h' (log_finalizeOne hk k1) k2

theorem log_attach {s : Sess} {h : Heap} (hk : LogOk D h) : LogOk D (attach s h).h := by
  unfold attach
  split
  · exact hk
  · exact hk.of rfl rfl rfl rfl

theorem log_finalize {s s' : Sess} (hk : LogOk D s.h) (he : finalize D E orc s = some s') : LogOk D s'.h := by
  unfold finalize at he
  split at he
  · simp at he; subst he; exact hk
  · split at he
    · simp at he; subst he; exact hk
    · split at he
      · simp at he; subst he; exact log_attach hk
      · split at he
        · simp at he
        · split at he
          · simp at he
          · rename_i h1 hb
            rw [Option.bind_eq_some_iff] at hb
            obtain ⟨h2, k1, k2⟩ := hb
            simp at he; subst he
            exact log_attach (log_deallocBuffer (log_finalizeLoop s _ _ _ _ _ _ hk k1) k2)
      · simp at he

theorem log_constructNew {f : NewFn} {s : Sess} {m : Mix} {ti : Nat} {l : Loc} (hs : LogOk D s.h) : RLog D (constructNew D orc f s m ti l) := by
  have h1 : LogOk D s.h.ticked := hs.of rfl rfl rfl rfl
  unfold constructNew
  cases f with
  | dflt =>
    simp only
    split
    · exact hs
    · rename_i hi
      split
      · exact h1
      · split
        · trivial
        · rename_i h2 k; exact log_construct h1 (show FuncThere D (.init m l .dflt) by simpa [FuncThere] using hi) k
  | custom c =>
    simp only
    split
    · exact h1
    · split
      · trivial
      · rename_i h2 k; exact log_construct h1 (show FuncThere D (.init m l (.custom c)) from trivial) k
  | copy src c =>
    simp only
    split
    · trivial
    · split
      · trivial
      · split
        · split
          · exact hs
          · trivial
        · rename_i hi
          split
          · exact h1
          · split
            · trivial
            · rename_i h2 k; exact log_construct h1 (by simpa [FuncThere] using hi) k

theorem log_updateCommon {g : UpdFn} {s : Sess} {m : Mix} {ti : Nat} {l : Loc} (hs : LogOk D s.h) : RLog D (updateCommon D orc g s m ti l) := by
  unfold updateCommon
  cases g with
  | noop => exact hs
  | custom k =>
    simp only
    split
    · trivial
    · rename_i m' v hl
      split
      · trivial
      · rename_i hm
        simp at hm; subst hm
        have h1 : LogOk D (s.h.setLive l (some (m', orc.val s.h.tick))).ticked := (log_revalue hs hl (orc.val s.h.tick)).of rfl rfl rfl rfl
        have h2 := log_quiet h1 (e := .update m' l k) rfl
        split <;> exact h2
  | assign src =>
    simp only
    split
    · rename_i m' v sl m'' v' hl hsrc
      split
      · trivial
      · rename_i hm
        simp at hm
        obtain ⟨rfl, -, hca⟩ := hm
        split
        · have h1 : LogOk D (s.h.setLive l (some (m', orc.val s.h.tick))).ticked := (log_revalue hs hl (orc.val s.h.tick)).of rfl rfl rfl rfl
          exact log_quiet h1 (e := .copyAsgn m' l sl) rfl hca
        · have h1 : LogOk D (s.h.setLive l (some (m', v'))).ticked := (log_revalue hs hl v').of rfl rfl rfl rfl
          exact log_quiet h1 (e := .copyAsgn m' l sl) rfl hca
    · trivial

theorem log_updateNext {f : NewFn} {g : UpdFn} {s : Sess} (hs : LogOk D s.h) : RLog D (updateNext D E orc f g s) := by
  unfold updateNext
  split
  · exact hs
  · split
    · trivial
    · split
      · split
        · trivial
        · exact (log_updateCommon hs).bind (fun s h => h) (fun s e h => h)
      · split
        · trivial
        · split
          · trivial
          · exact (log_constructNew hs).bind (fun s h => h) (fun s e h => h)

theorem log_updateLoop (f : NewFn) (g : UpdFn) : ∀ (n : Nat) (s : Sess), LogOk D s.h → RLog D (updateLoop D E orc f g n s)
  | 0, s, hs => hs
  | n + 1, s, hs => by
    unfold updateLoop
    exact (log_updateNext hs).bind (fun s h => log_updateLoop f g n s h) (fun s e h => h)

theorem log_updateEach {f : NewFn} {g : UpdFn} {upto : Option Nat} {s : Sess} (hs : LogOk D s.h) : RLog D (updateEach D E orc f g upto s) :=
  log_updateLoop f g _ s hs

theorem log_mstep {s : Sess} (st : MStep) (hs : LogOk D s.h) : RLog D (mstep D E orc s st) := by
  cases st with
  | next f g => exact log_updateNext hs
  | each f g upto => exact log_updateEach hs
  | «at» i f g =>
    simp only [mstep, updateAt]
    split
    · exact hs
    · exact (log_updateEach hs).bind (fun s h => log_updateNext h) (fun s e h => h)
  | finalize =>
    simp only [mstep]
    split
    · trivial
    · rename_i s' he; exact log_finalize hs he
  | rollback =>
    simp only [mstep]
    split
    · trivial
    · rename_i s' he; exact log_rollback hs he
  | throw => exact hs

theorem log_msteps : ∀ (steps : List (MStep × Bool)) (s : Sess), LogOk D s.h → RLog D (msteps D E orc steps s)
  | [], s, hs => hs
  | (st, caught) :: rest, s, hs => by
    unfold msteps
    refine (log_mstep st hs).bind (fun s h => log_msteps rest s h) (fun s e h => ?_)
    split
    · exact log_msteps rest s h
    · exact h

theorem log_dtor {u : Bool} {s : Sess} (hs : LogOk D s.h) : HLog D (s.dtor D E orc u) := by
  unfold Sess.dtor
  split
  · exact hs
  · split
    · split
      · trivial
      · rename_i s' he; exact log_rollback hs he
    · have := log_updateEach (E := E) (orc := orc) (f := .dflt) (g := .noop) (upto := none) hs
      split
      · trivial
      · rename_i s' e hr
        rw [hr] at this
        split
        · trivial
        · rename_i s'' he; exact log_rollback this he
      · rename_i s' hr
        rw [hr] at this
        simp only
        split
        · trivial
        · rename_i s'' he
          refine log_finalize ?_ he
          split
          · exact this
          · exact log_quiet this rfl

theorem log_unwindWith {s : Sess} (hs : LogOk D s.h) (e : XErr) : HLog D (unwindWith D E orc s e) := by
  unfold unwindWith
  exact (log_dtor hs).bind (fun h hk => hk) (fun _ _ _ => trivial)

theorem log_withMutation {u : Bool} {h : Heap} (hk : LogOk D h) {o : Nat} {t : TypeId} {steps : List (MStep × Bool)} : HLog D (withMutation D E orc u h o t steps) := by
  unfold withMutation
  split
  · trivial
  · rename_i ob _
    simp only
    have h0 : LogOk D (Sess.begin h o ob t).h := hk
    split
    · exact log_unwindWith h0 _
    · have := log_allocate (E := E) (orc := orc) h0
      split
      · trivial
      · rename_i s e hr; rw [hr] at this; exact log_unwindWith this e
      · rename_i s hr
        rw [hr] at this
        exact (log_msteps steps s this).bindH (fun s h => log_dtor h) (fun s e h => log_unwindWith h e)

/-! ## Objects -/

theorem log_clear {h h' : Heap} (hk : LogOk D h) {o : Nat} (he : clearMixinData D E h o = some h') : LogOk D h' := by
  unfold clearMixinData at he
  split at he
  · simp at he
  · split at he
    · simp at he; subst he; exact hk
    · simp only [Option.map_eq_some_iff] at he
      obtain ⟨s, k1, rfl⟩ := he
      exact (log_rollback (s := ⟨h, _, _, none, none, _, _, _, _, false, false⟩) hk k1).of rfl rfl rfl rfl
    · simp at he

theorem log_redirect (o a : Nat) : ∀ (n : Nat) (h h' : Heap), LogOk D h → redirect o a n h = some h' → LogOk D h'
  | 0, h, h', hk, he => by simp [redirect] at he; subst he; exact hk
  | n + 1, h, h', hk, he => by
    unfold redirect at he
    split at he
    · simp at he
    · rename_i h1 k1
      rw [Option.map_eq_some_iff] at he
      obtain ⟨sl, -, rfl⟩ := he
      exact (log_redirect o a n h h1 hk k1).of rfl rfl rfl rfl

theorem log_usurp {h h' : Heap} (hk : LogOk D h) {o src : Nat} (he : usurp E h o src = some h') : LogOk D h' := by
  unfold usurp at he
  split at he
  · split at he
    · simp at he
    · simp only [Option.map_eq_some_iff] at he
      obtain ⟨h1, k1, rfl⟩ := he
      split at k1
      · split at k1
        · simp at k1; subst k1; exact hk.of rfl rfl rfl rfl
        · simp at k1
      · have hk' := fun hh => log_redirect (D := D) o _ _ _ h1 hh k1
        have hk'' := hk' (hk.of rfl rfl rfl rfl)
        exact hk''.of rfl rfl rfl rfl
  · simp at he

theorem log_resetType {u : Bool} {h : Heap} (hk : LogOk D h) {o : Nat} {t : TypeId} : HLog D (resetType D E orc u h o t) := by
  unfold resetType
  split
  · trivial
  · split
    · exact hk
    · split
      · exact hk
      · split
        · split
          · trivial
          · rename_i h1 k1
            have := log_clear hk k1
            split
            · trivial
            · exact this.of rfl rfl rfl rfl
        · exact log_withMutation hk

theorem log_destroyObject {h : Heap} (hk : LogOk D h) {o : Nat} : HLog D (destroyObject D E h o) := by
  unfold destroyObject
  split
  · trivial
  · rename_i h1 k1; exact (log_clear hk k1).of rfl rfl rfl rfl

theorem log_unwindObject {h : Heap} (hk : LogOk D h) {o : Nat} (e : XErr) : HLog D (unwindObject D E o h e) := by
  unfold unwindObject
  exact (log_destroyObject hk).bind (fun h hk => hk) (fun _ _ _ => trivial)

theorem log_copyMatchingLoop {own : TypeId} {a b : Option Nat} : ∀ (ms : List Mix) (i : Nat) (h : Heap), LogOk D h → HLog D (copyMatchingLoop D E orc own a b i ms h)
  | [], i, h, hk => hk
  | m :: ms, i, h, hk => by
    unfold copyMatchingLoop
    split
    · exact log_copyMatchingLoop ms _ h hk
    · split
      · rename_i l m' v0 sl m'' v hl hs
        split
        · trivial
        · rename_i hm
          simp at hm
          obtain ⟨rfl, -, hca⟩ := hm
          have hlive : h.live l = some (m', v0) := by
            rw [Option.bind_eq_some_iff] at hl
            obtain ⟨a', -, hl⟩ := hl
            unfold mixinAt at hl
            split at hl
            · simp at hl
            · rw [Option.map_eq_some_iff] at hl
              obtain ⟨x, k1, k2⟩ := hl
              simp at k2
              obtain ⟨rfl, rfl⟩ := k2
              exact k1
          split
          · have h1 : LogOk D (h.setLive l (some (m', orc.val h.tick))).ticked := (log_revalue hk hlive (orc.val h.tick)).of rfl rfl rfl rfl
            exact log_quiet h1 (e := .copyAsgn m' l sl) rfl hca
          · have h1 : LogOk D (h.setLive l (some (m', v))).ticked := (log_revalue hk hlive v).of rfl rfl rfl rfl
            exact log_copyMatchingLoop ms _ _ (log_quiet h1 (e := .copyAsgn m' l sl) rfl hca)
      · trivial

theorem mixinAt_live {h : Heap} {a : Option Nat} {i : Nat} {l : Loc} {m : Mix} {v : Nat} (hl : a.bind (fun a => mixinAt h a i) = some (l, m, v)) : h.live l = some (m, v) := by
  rw [Option.bind_eq_some_iff] at hl
  obtain ⟨a', -, hl⟩ := hl
  unfold mixinAt at hl
  split at hl
  · simp at hl
  · rw [Option.map_eq_some_iff] at hl
    obtain ⟨x, k1, k2⟩ := hl
    simp at k2
    obtain ⟨rfl, rfl⟩ := k2
    exact k1

theorem log_moveMatchingLoop {own : TypeId} {a b : Option Nat} : ∀ (ms : List Mix) (i : Nat) (h : Heap), LogOk D h → HLog D (moveMatchingLoop D E orc own a b i ms h)
  | [], i, h, hk => hk
  | m :: ms, i, h, hk => by
    unfold moveMatchingLoop
    split
    · exact log_moveMatchingLoop ms _ h hk
    · split
      · rename_i l m' v0 sl m'' v hl hs
        split
        · trivial
        · rename_i hm
          simp at hm
          obtain ⟨hm1, hm2⟩ := hm
          subst hm2
          have hm1' : m' = m'' := hm1
          subst hm1'
          have hlive := mixinAt_live hl
          have hsrc := mixinAt_live hs
          split
          · rename_i hma
            have h1 := log_revalue hk hlive v
            have hsrc1 : ∃ v1, (h.setLive l (some (m', v))).live sl = some (m', v1) := by
              simp only [Heap.setLive]
              split
              · exact ⟨v, rfl⟩
              · exact ⟨v, hsrc⟩
            obtain ⟨v1, hsrc1⟩ := hsrc1
            have h2 : LogOk D ((h.setLive l (some (m', v))).setLive sl (some (m', orc.val h.tick))).ticked := (log_revalue h1 hsrc1 (orc.val h.tick)).of rfl rfl rfl rfl
            exact log_moveMatchingLoop ms _ _ (log_quiet h2 (e := .moveAsgn m' l sl) rfl hma)
          · split
            · trivial
            · rename_i h1 k1
              have hl1 := log_destroy hk k1
              split
              · trivial
              · rename_i m2 v2 hsrc1
                split
                · trivial
                · rename_i hmi
                  split
                  · trivial
                  · rename_i h2 k2
                    have hl2 := log_construct hl1 (show FuncThere D (.init m' l (.moved sl)) by simpa [FuncThere] using hmi) k2
                    -- the source lives on
                    have hm2 : m2 = m' := by
                      unfold Heap.destroy at k1
                      rw [hlive] at k1
                      simp only [true_and] at k1
                      split at k1
                      · simp at k1
                        have : h1.live sl = some (m2, v2) := hsrc1
                        by_cases hsl : sl = l
                        · subst hsl
                          exfalso
                          split at k1 <;> (subst k1; simp at this)
                        · split at k1 <;> (subst k1; simp [hsl, hsrc] at this; exact this.1.symm)
                      · simp at k1
                    have hsrc2 : h2.live sl = some (m', v2) := by
                      unfold Heap.construct at k2
                      split at k2
                      · rename_i hc
                        simp at k2; subst k2
                        have : sl ≠ l := by intro h; rw [h, hc.2] at hsrc1; simp at hsrc1
                        simp [this, hsrc1, hm2]
                      · simp at k2
                    exact log_moveMatchingLoop ms _ _ ((log_revalue hl2 hsrc2 (orc.val h2.tick)).of rfl rfl rfl rfl)
      · trivial

/-- Each operation keeps the log right. -/
theorem log_ostep (u : Bool) {h : Heap} (hk : LogOk D h) (op : OOp) : HLog D (ostep D E orc u h op) := by
  have hn : ∀ al, LogOk D (newNull h al) := fun al => hk.of rfl rfl rfl rfl
  cases op with
  | newEmpty t al => exact hk.of rfl rfl rfl rfl
  | newOfType t al sd =>
    show HLog D (newOfType D E orc u h t al sd)
    unfold newOfType
    refine (log_resetType (hn al)).bind (fun h1 hk1 => ?_) (fun h1 e hk1 => log_unwindObject hk1 e)
    split
    · trivial
    · exact hk1.of rfl rfl rfl rfl
  | moveNew src =>
    show HLog D (moveConstruct E h src)
    unfold moveConstruct
    split
    · trivial
    · split
      · trivial
      · rename_i he; exact log_usurp (hn _) he
  | destroy o => exact log_destroyObject hk
  | moveAssign o src =>
    show HLog D (moveAssign D E h o src)
    unfold moveAssign
    split
    · exact hk
    · split
      · split
        · split
          · exact hk
          · split
            · trivial
            · rename_i he
              rw [Option.bind_eq_some_iff] at he
              obtain ⟨h1, k1, k2⟩ := he
              exact log_usurp (log_clear hk k1) k2
        · exact hk
      · trivial
  | copy src al =>
    show HLog D (copyObject D E orc u h src al)
    unfold copyObject
    split
    · trivial
    · simp only
      split
      · exact hk.of rfl rfl rfl rfl
      · rename_i t _ _
        have hp : HLog D (perform D E orc u (newNull h al) h.objs.length t (.copy src true) .noop) := log_withMutation (hn al)
        exact hp.bind (fun h1 hk1 => hk1) (fun h1 e hk1 => log_unwindObject hk1 e)
      · trivial
  | copyFrom o src =>
    show HLog D (copyFrom D E orc u h o src)
    unfold copyFrom
    split
    · split
      · split
        · exact hk
        · split
          · trivial
          · rename_i h1 k1
            have := log_clear hk k1
            split
            · trivial
            · exact this.of rfl rfl rfl rfl
      · split
        · exact hk
        · exact log_withMutation hk
      · trivial
    · trivial
  | copyMatching o src =>
    show HLog D (copyMatchingFrom D E orc h o src)
    unfold copyMatchingFrom
    split
    · split
      · split
        · exact hk
        · exact log_copyMatchingLoop _ _ _ hk
      · trivial
    · trivial
  | moveMatching o src fb =>
    show HLog D (moveMatchingFrom D E orc h o src fb)
    unfold moveMatchingFrom
    split
    · split
      · split
        · exact hk
        · exact log_moveMatchingLoop _ _ _ hk
      · trivial
    · trivial
  | clear o =>
    show HLog D (clearObject D E h o)
    unfold clearObject
    split
    · trivial
    · split
      · exact hk
      · split
        · rename_i h1 t k1 _
          have := log_clear hk k1
          split
          · trivial
          · exact this.of rfl rfl rfl rfl
        · trivial
  | reset o t => exact log_resetType hk
  | «seal» o =>
    show HLog D (sealObject h o)
    unfold sealObject
    split
    · trivial
    · exact hk.of rfl rfl rfl rfl
  | mutation o t steps => exact log_withMutation hk
  | mutateTo o t ops =>
    show HLog D (mutateTo D E orc u h o t ops)
    unfold mutateTo
    split
    · trivial
    · split
      · exact hk
      · exact log_withMutation hk

theorem log_orun : ∀ (ops : List (Bool × OOp)) (h h' : Heap), LogOk D h → orun D E orc ops h = some h' → LogOk D h'
  | [], h, h', hk, he => by simp [orun] at he; subst he; exact hk
  | (u, op) :: ops, h, h', hk, he => by
    have := log_ostep (E := E) (orc := orc) u hk op
    unfold orun at he
    split at he
    · rename_i h1 hr; rw [hr] at this; exact log_orun ops h1 h' this he
    · rename_i h1 e hr; rw [hr] at this; exact log_orun ops h1 h' this he
    · simp at he

theorem log_start : LogOk D {} :=
  ⟨fun _ _ _ => rfl, fun _ => rfl, fun _ _ => ⟨rfl, rfl⟩, fun _ => Nat.zero_le _, fun _ h => by simp at h⟩

end Dnmx
