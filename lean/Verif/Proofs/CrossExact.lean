import Verif.Proofs.CrossLemmas
import Verif.Proofs.OperationLemmas

/-!
# Objects of several domains: what a clash of ids does
-/

set_option linter.unusedSimpArgs false
set_option linter.unusedVariables false
set_option linter.unusedSectionVars false

namespace Dnmx
open Spec

/-- Since `h0`, no mixin `m2` was made, and only object `o` and the mixin data in buffer `n0` were changed. -/
structure Barren (h0 : Heap) (n0 o : Nat) (m2 : Mix) (h : Heap) : Prop where
  lives : ∀ l v, h.live l = some (m2, v) → ∃ v', h0.live l = some (m2, v')
  slots : ∀ a i, a ≠ n0 → h.slot a i = h0.slot a i
  objs : ∀ o', o' ≠ o → h.obj? o' = h0.obj? o'

section
variable {D : Decls} {E : TyEnv} {orc : Orc} {h0 : Heap} {n0 o : Nat} {m2 : Mix}

theorem Barren.of_same {h h' : Heap} (hb : Barren h0 n0 o m2 h) (hl : h'.live = h.live) (hs : h'.slot = h.slot) (ho : h'.objs = h.objs) : Barren h0 n0 o m2 h' :=
  ⟨fun l v h1 => hb.lives l v (by rw [← hl]; exact h1), fun a i h1 => by rw [hs]; exact hb.slots a i h1,
   fun o' h1 => by rw [← hb.objs o' h1]; unfold Heap.obj?; rw [ho]⟩

theorem Barren.setLive {h : Heap} (hb : Barren h0 n0 o m2 h) {l : Loc} {m : Mix} {v : Nat} (hm : m = m2 → ∃ v', h.live l = some (m2, v')) :
    Barren h0 n0 o m2 (h.setLive l (some (m, v))) := by
  refine ⟨?_, hb.slots, hb.objs⟩
  intro l' v' h1
  have h1 : (if l' = l then some (m, v) else h.live l') = some (m2, v') := h1
  split at h1
  · rename_i h2
    injection h1 with h1
    injection h1 with h1 _
    obtain ⟨w, hw⟩ := hm h1
    rw [h2]; exact hb.lives l w hw
  · exact hb.lives l' v' h1

theorem Barren.construct {h h' : Heap} (hb : Barren h0 n0 o m2 h) {l : Loc} {m : Mix} {v : Nat} {w : How} (hm : m ≠ m2)
    (hr : h.construct l m v w = some h') : Barren h0 n0 o m2 h' := by
  unfold Heap.construct at hr
  split at hr
  · injection hr with hr
    subst hr
    exact (hb.setLive (l := l) (m := m) (v := v) (fun h => absurd h hm)).of_same rfl rfl rfl
  · cases hr

theorem Barren.destroy {h h' : Heap} (hb : Barren h0 n0 o m2 h) {l : Loc} {m : Mix} (hr : h.destroy D l m = some h') : Barren h0 n0 o m2 h' := by
  have h1 : Barren h0 n0 o m2 (h.setLive l none) := by
    refine ⟨?_, hb.slots, hb.objs⟩
    intro l' v' h1
    have h1 : (if l' = l then none else h.live l') = some (m2, v') := h1
    split at h1
    · cases h1
    · exact hb.lives l' v' h1
  unfold Heap.destroy at hr
  split at hr
  · split at hr
    · injection hr with hr
      subst hr
      split
      · exact h1.of_same rfl rfl rfl
      · exact h1
    · cases hr
  · cases hr

theorem Barren.deallocate {h h' : Heap} (hb : Barren h0 n0 o m2 h) {a : Nat} {b : Blk} (hr : h.deallocate a b = some h') : Barren h0 n0 o m2 h' := by
  unfold Heap.deallocate at hr
  split at hr
  · injection hr with hr
    subst hr
    exact hb.of_same rfl rfl rfl
  · cases hr

theorem Barren.setSlot {h : Heap} (hb : Barren h0 n0 o m2 h) (i : Nat) (sl : Slot) : Barren h0 n0 o m2 (h.setSlot n0 i sl) := by
  refine ⟨hb.lives, ?_, hb.objs⟩
  intro a j h1
  show (if a = n0 ∧ j = i then some sl else h.slot a j) = _
  rw [if_neg (fun h => h1 h.1)]
  exact hb.slots a j h1

/-- A mutation of object `o` from type `told` to a type with mixin `m2`, which is taken for one of the old mixins. -/
structure BSess (E : TyEnv) (h0 : Heap) (n0 o : Nat) (m2 : Mix) (told : TypeId) (s : Sess) : Prop where
  heap : Barren h0 n0 o m2 s.h
  o : s.o = o
  data : s.data = some n0
  oldTy : s.oldTy = some told
  oldData : ∃ b, s.oldData = some b
  found : ∃ i, E.indexOf told m2 = some i

variable {told : TypeId}

theorem BSess.still {s s' : Sess} (h : BSess E h0 n0 o m2 told s) (hs : Still s s') (hb : Barren h0 n0 o m2 s'.h) : BSess E h0 n0 o m2 told s' :=
  ⟨hb, hs.o.trans h.o, hs.data.trans h.data, hs.oldTy.trans h.oldTy, by rw [hs.oldData]; exact h.oldData, h.found⟩

theorem BSess.notNew {s : Sess} (h : BSess E h0 n0 o m2 told s) {m : Mix} (hn : s.oldIndex E m = none) : m ≠ m2 := by
  rintro rfl
  obtain ⟨b, hb⟩ := h.oldData
  obtain ⟨i, hi⟩ := h.found
  unfold Sess.oldIndex at hn
  rw [hb, h.oldTy] at hn
  simp [hi] at hn

theorem allocOne_barren {s : Sess} (h : BSess E h0 n0 o m2 told s) : RSess (BSess E h0 n0 o m2 told) (allocOne D E orc s) := by
  unfold allocOne
  rw [h.data]
  cases hm : (E.mixins s.ty)[s.alloced]? with
  | none => trivial
  | some m =>
    simp only
    split
    · exact ⟨(h.heap.setSlot _ _).of_same rfl rfl rfl, h.o, rfl, h.oldTy, h.oldData, h.found⟩
    · split
      · split
        · trivial
        · exact ⟨h.heap.setSlot _ _, h.o, rfl, h.oldTy, h.oldData, h.found⟩
      · split
        · exact ⟨h.heap.of_same rfl rfl rfl, h.o, rfl, h.oldTy, h.oldData, h.found⟩
        · refine ⟨?_, h.o, rfl, h.oldTy, h.oldData, h.found⟩
          have h1 : Barren h0 n0 o m2 (s.h.ticked.allocate (provenance D m s.al)) := h.heap.of_same rfl rfl rfl
          exact (h1.setSlot _ _).of_same rfl rfl rfl

theorem allocLoop_barren : ∀ (n : Nat) (s : Sess), BSess E h0 n0 o m2 told s → RSess (BSess E h0 n0 o m2 told) (allocLoop D E orc n s)
  | 0, s, h => h
  | n + 1, s, h => (allocOne_barren h).bind (fun s' h' => allocLoop_barren n s' h') (fun s' e h' => h')

theorem constructNew_barren {s : Sess} (h : BSess E h0 n0 o m2 told s) {f : NewFn} {m : Mix} {ti : Nat} {l : Loc} (hm : m ≠ m2) :
    RSess (BSess E h0 n0 o m2 told) (constructNew D orc f s m ti l) := by
  have ht : Barren h0 n0 o m2 s.h.ticked := h.heap.of_same rfl rfl rfl
  unfold constructNew
  cases f with
  | dflt =>
    simp only
    split
    · exact h
    · split
      · exact ⟨ht, h.o, h.data, h.oldTy, h.oldData, h.found⟩
      · split
        · trivial
        · rename_i hr
          exact ⟨ht.construct hm hr, h.o, h.data, h.oldTy, h.oldData, h.found⟩
  | custom k =>
    simp only
    split
    · exact ⟨ht, h.o, h.data, h.oldTy, h.oldData, h.found⟩
    · split
      · trivial
      · rename_i hr
        exact ⟨ht.construct hm hr, h.o, h.data, h.oldTy, h.oldData, h.found⟩
  | copy src c =>
    simp only
    split
    · trivial
    · split
      · trivial
      · split
        · split
          · exact h
          · trivial
        · split
          · exact ⟨ht, h.o, h.data, h.oldTy, h.oldData, h.found⟩
          · split
            · trivial
            · rename_i hr
              exact ⟨ht.construct hm hr, h.o, h.data, h.oldTy, h.oldData, h.found⟩

theorem updateCommon_barren {s : Sess} (h : BSess E h0 n0 o m2 told s) {g : UpdFn} {m : Mix} {ti : Nat} {l : Loc} :
    RSess (BSess E h0 n0 o m2 told) (updateCommon D orc g s m ti l) := by
  unfold updateCommon
  cases g with
  | noop => exact h
  | custom k =>
    simp only
    cases hl : s.h.live l with
    | none => trivial
    | some p =>
      obtain ⟨m', v⟩ := p
      simp only
      by_cases hm : m' ≠ m
      · rw [if_pos hm]; trivial
      · rw [if_neg hm]
        have hm' : m' = m := Classical.not_not.1 hm
        have h1 : Barren h0 n0 o m2 ((s.h.setLive l (some (m, orc.val s.h.tick))).ticked.logged (.update m l k)) :=
          (h.heap.setLive (l := l) (m := m) (v := orc.val s.h.tick) (fun h2 => ⟨v, by rw [hl, hm', h2]⟩)).of_same rfl rfl rfl
        split
        · exact ⟨h1, h.o, h.data, h.oldTy, h.oldData, h.found⟩
        · exact ⟨h1, h.o, h.data, h.oldTy, h.oldData, h.found⟩
  | assign src =>
    simp only
    cases hl : s.h.live l with
    | none => trivial
    | some p =>
      obtain ⟨m', v⟩ := p
      cases hs : sourceAt s.h src ti with
      | none => trivial
      | some q =>
        obtain ⟨sl, m'', w⟩ := q
        simp only
        by_cases hc : m' ≠ m ∨ m'' ≠ m ∨ (!(D.mix m).hasCopyAsgn) = true
        · rw [if_pos hc]; trivial
        · rw [if_neg hc]
          have hm' : m' = m := Classical.not_not.1 (fun h => hc (.inl h))
          have h1 : ∀ x, Barren h0 n0 o m2 ((s.h.setLive l (some (m, x))).ticked.logged (.copyAsgn m l sl)) := fun x =>
            (h.heap.setLive (l := l) (m := m) (v := x) (fun h2 => ⟨v, by rw [hl, hm', h2]⟩)).of_same rfl rfl rfl
          split
          · exact ⟨h1 _, h.o, h.data, h.oldTy, h.oldData, h.found⟩
          · exact ⟨h1 _, h.o, h.data, h.oldTy, h.oldData, h.found⟩

theorem BSess.advanced {s : Sess} (h : BSess E h0 n0 o m2 told s) : BSess E h0 n0 o m2 told (s.advanced E) :=
  ⟨h.heap, h.o, h.data, h.oldTy, h.oldData, h.found⟩

theorem updateNext_barren {f : NewFn} {g : UpdFn} {s : Sess} (h : BSess E h0 n0 o m2 told s) : RSess (BSess E h0 n0 o m2 told) (updateNext D E orc f g s) := by
  unfold updateNext
  by_cases h1 : s.complete = true
  · rw [if_pos h1]; exact h
  rw [if_neg h1]
  cases hm : (E.mixins s.ty)[s.updated]? with
  | none => trivial
  | some m =>
    simp only
    cases ho : s.oldIndex E m with
    | some p =>
      obtain ⟨b, oi⟩ := p
      simp only
      cases hl : s.h.slot? b oi with
      | none => trivial
      | some sl => exact (updateCommon_barren h).bind (fun s' h' => h'.advanced) (fun s' e h' => h')
    | none =>
      simp only
      cases hd : s.data with
      | none => trivial
      | some a =>
        simp only
        cases hl : s.h.slot? a s.updated with
        | none => trivial
        | some sl => exact (constructNew_barren h (h.notNew ho)).bind (fun s' h' => h'.advanced) (fun s' e h' => h')

theorem updateLoop_barren {f : NewFn} {g : UpdFn} : ∀ (n : Nat) (s : Sess), BSess E h0 n0 o m2 told s → RSess (BSess E h0 n0 o m2 told) (updateLoop D E orc f g n s)
  | 0, s, h => h
  | n + 1, s, h => (updateNext_barren h).bind (fun s' h' => updateLoop_barren n s' h') (fun s' e h' => h')

theorem mstep_barren {s : Sess} (h : BSess E h0 n0 o m2 told s) {st : MStep} (hst : st ≠ .finalize ∧ st ≠ .rollback) :
    RSess (BSess E h0 n0 o m2 told) (mstep D E orc s st) := by
  cases st with
  | next f g => exact updateNext_barren h
  | each f g upto => exact updateLoop_barren _ s h
  | «at» i f g =>
    show RSess (BSess E h0 n0 o m2 told) (updateAt D E orc i f g s)
    unfold updateAt
    split
    · exact h
    · exact (updateLoop_barren _ s h).bind (fun s' h' => updateNext_barren h') (fun s' e h' => h')
  | finalize => exact absurd rfl hst.1
  | rollback => exact absurd rfl hst.2
  | throw => exact h

theorem msteps_barren : ∀ (steps : List (MStep × Bool)) (s : Sess), BSess E h0 n0 o m2 told s → (∀ st ∈ steps, st.1 ≠ .finalize ∧ st.1 ≠ .rollback) →
    RSess (BSess E h0 n0 o m2 told) (msteps D E orc steps s)
  | [], s, h, _ => h
  | (st, c) :: rest, s, h, hst => by
    have ih := fun s' h' => msteps_barren rest s' h' (fun x hx => hst x (by simp [hx]))
    refine (mstep_barren h (hst (st, c) (by simp))).bind ih ?_
    intro s' e h'
    cases c with
    | true => exact ih s' h'
    | false => exact h'

theorem finalizeOne_barren {s : Sess} {b a oi : Nat} {m : Mix} {h h' : Heap} (hb : Barren h0 n0 o m2 h) (hm : m ≠ m2)
    (hr : finalizeOne D E orc s b a oi m h = some h') : Barren h0 n0 o m2 h' := by
  unfold finalizeOne at hr
  cases hs : h.slot? b oi with
  | none => rw [hs] at hr; cases hr
  | some old =>
    rw [hs] at hr
    simp only at hr
    cases hi : E.indexOf s.ty m with
    | some ti =>
      rw [hi] at hr
      simp only at hr
      cases hbuf : old.buf with
      | some e => rw [hbuf] at hr; injection hr with hr; subst hr; exact hb
      | none =>
        rw [hbuf] at hr
        simp only at hr
        split at hr
        · split at hr
          · obtain ⟨h1, h2, h3⟩ := Option.bind_eq_some_iff.1 hr
            have h4 := hb.construct hm h2
            have h5 : Barren h0 n0 o m2 ((h1.setLive old.loc (some (m, orc.val h1.tick))).ticked) :=
              (h4.setLive (l := old.loc) (m := m) (v := orc.val h1.tick) (fun h => absurd h hm)).of_same rfl rfl rfl
            exact h5.destroy h3
          · cases hr
        · cases hr
    | none =>
      rw [hi] at hr
      simp only at hr
      cases hd : h.destroy D old.loc m with
      | none => rw [hd] at hr; cases hr
      | some h1 =>
        rw [hd] at hr
        simp only at hr
        have h2 := hb.destroy hd
        cases hbuf : old.buf with
        | none => rw [hbuf] at hr; injection hr with hr; subst hr; exact h2
        | some e => rw [hbuf] at hr; exact h2.deallocate hr

theorem finalizeLoop_barren {s : Sess} {b a : Nat} : ∀ (ms : List Mix) (oi : Nat) (h h' : Heap), Barren h0 n0 o m2 h → m2 ∉ ms →
    finalizeLoop D E orc s b a oi ms h = some h' → Barren h0 n0 o m2 h'
  | [], _, h, h', hb, _, hr => by injection hr with hr; subst hr; exact hb
  | m :: ms, oi, h, h', hb, hm, hr => by
    unfold finalizeLoop at hr
    obtain ⟨h1, h2, h3⟩ := Option.bind_eq_some_iff.1 hr
    simp only [List.mem_cons, not_or] at hm
    exact finalizeLoop_barren ms (oi + 1) h1 h' (finalizeOne_barren hb (fun h => hm.1 h.symm) h2) hm.2 h3

theorem attach_barren {s : Sess} {h : Heap} (hb : Barren h0 n0 o m2 h) (ho : s.o = o) : Barren h0 n0 o m2 (attach s h).h := by
  unfold attach
  cases hx : h.obj? s.o with
  | none => exact hb
  | some ob =>
    refine ⟨hb.lives, hb.slots, ?_⟩
    intro o' h1
    rw [← hb.objs o' h1]
    show (h.objs.set s.o _)[o']?.getD none = _
    rw [List.getElem?_set_ne (by rw [ho]; exact fun h => h1 h.symm)]
    rfl

theorem finalize_barren {s s' : Sess} (h : BSess E h0 n0 o m2 told s) (hm : m2 ∉ E.mixins told) (hr : finalize D E orc s = some s') : Barren h0 n0 o m2 s'.h := by
  unfold finalize at hr
  split at hr
  · injection hr with hr; subst hr; exact h.heap
  · split at hr
    · injection hr with hr; subst hr; exact h.heap
    · obtain ⟨b, hb⟩ := h.oldData
      rw [hb, h.oldTy, h.data] at hr
      simp only at hr
      split at hr
      · cases hr
      · rename_i h1 hx
        injection hr with hr
        subst hr
        obtain ⟨h2, h3, h4⟩ := Option.bind_eq_some_iff.1 hx
        have h5 := finalizeLoop_barren _ _ _ _ h.heap hm h3
        unfold deallocBuffer at h4
        obtain ⟨h6, h7, h8⟩ := Option.map_eq_some_iff.1 h4
        have h9 : Barren h0 n0 o m2 h1 := by subst h8; exact (h5.deallocate h7).of_same rfl rfl rfl
        exact attach_barren h9 h.o

theorem dtor_barren {s : Sess} {h' : Heap} (h : BSess E h0 n0 o m2 told s) (hm : m2 ∉ E.mixins told) (hr : s.dtor D E orc false = .ok h') :
    Barren h0 n0 o m2 h' := by
  unfold Sess.dtor at hr
  split at hr
  · injection hr with hr; subst hr; exact h.heap
  · simp only [Bool.false_eq_true, if_false] at hr
    have h1 : RSess (BSess E h0 n0 o m2 told) (updateEach D E orc .dflt .noop none s) := updateLoop_barren _ s h
    cases hu : updateEach D E orc .dflt .noop none s with
    | ub => rw [hu] at hr; cases hr
    | throw s1 e =>
      rw [hu] at hr
      simp only at hr
      split at hr <;> cases hr
    | ok s1 =>
      rw [hu] at hr h1
      have h2 : BSess E h0 n0 o m2 told s1 := h1
      simp only at hr
      split at hr
      · cases hr
      · rename_i s2 hf
        injection hr with hr
        subst hr
        refine finalize_barren ?_ hm hf
        split
        · exact h2
        · exact ⟨h2.heap.of_same rfl rfl rfl, h2.o, h2.data, h2.oldTy, h2.oldData, h2.found⟩

/-- A mutation to a type with a mixin whose id an old mixin has does not make that mixin. -/
theorem withMutation_barren {h h' : Heap} {ob : Obj} {t : TypeId} {steps : List (MStep × Bool)} {b i : Nat}
    (ho : h.obj? o = some ob) (ht : ob.ty = some told) (hd : ob.data = some b) (hi : E.indexOf told m2 = some i) (hm : m2 ∉ E.mixins told) (hm2 : m2 ∈ E.mixins t)
    (hst : ∀ st ∈ steps, st.1 ≠ .finalize ∧ st.1 ≠ .rollback) (hr : withMutation D E orc false h o t steps = .ok h') :
    Barren h h.next o m2 h' := by
  have htt : told ≠ t := fun h => hm (h ▸ hm2)
  unfold withMutation at hr
  rw [ho] at hr
  simp only at hr
  split at hr
  · unfold unwindWith at hr
    cases hx : (Sess.begin h o ob t).dtor D E orc true <;> rw [hx] at hr <;> cases hr
  · have h0' : Barren h h.next o m2 ((h.ticked.allocate (.unified t ob.alloc)).countUp t 1) :=
      ⟨fun l v h1 => ⟨v, h1⟩, fun _ _ _ => rfl, fun _ _ => rfl⟩
    have h1 : ∀ s, allocateMixinData D E orc (Sess.begin h o ob t) = .ok s → BSess E h h.next o m2 told s := by
      intro s hs
      unfold allocateMixinData at hs
      rw [if_neg (by show ¬ ob.ty = some t; rw [ht]; intro h; injection h with h; exact htt h)] at hs
      split at hs
      · cases hs
      · have := allocLoop_barren (D := D) (orc := orc) (E.mixins t).length
          { Sess.begin h o ob t with h := (h.ticked.allocate (.unified t ob.alloc)).countUp t 1, data := some h.next }
          (⟨h0', rfl, rfl, ht, ⟨b, hd⟩, ⟨i, hi⟩⟩ : BSess E h h.next o m2 told _)
        have hs' : allocLoop D E orc (E.mixins t).length
          { Sess.begin h o ob t with h := (h.ticked.allocate (.unified t ob.alloc)).countUp t 1, data := some h.next } = .ok s := hs
        rw [hs'] at this
        exact this
    split at hr
    · cases hr
    · rename_i s e _
      unfold unwindWith at hr
      cases hx : s.dtor D E orc true <;> rw [hx] at hr <;> cases hr
    · rename_i s hs
      have h2 := msteps_barren (D := D) (orc := orc) steps s (h1 s hs) hst
      cases hx : msteps D E orc steps s with
      | ub => rw [hx] at hr; cases hr
      | throw s' e =>
        rw [hx] at hr
        have hr : unwindWith D E orc s' e = .ok h' := hr
        unfold unwindWith at hr
        cases hy : s'.dtor D E orc true <;> rw [hy] at hr <;> cases hr
      | ok s' =>
        rw [hx] at hr h2
        exact dtor_barren h2 hm hr

/-- After such a mutation the object does not have all the mixins of its type. -/
theorem barren_bad {h h' : Heap} {ob : Obj} {t : TypeId} (hk : HeapOk D E h) (ho : h.obj? o = some ob) (ht : ob.ty = some told)
    (hm : m2 ∉ E.mixins told) (hm2 : m2 ∈ E.mixins t) (hb : Barren h h.next o m2 h') {ob' : Obj} (ho' : h'.obj? o = some ob') (ht' : ob'.ty = some t) :
    ¬ HeapOk D E h' := by
  intro hk'
  have h1 := hk'.objs o ob' ho'
  unfold ObjOk at h1
  cases hd : ob'.data with
  | none =>
    rw [hd] at h1
    have := h1 t ht'
    rw [this] at hm2
    cases hm2
  | some a =>
    rw [hd] at h1
    obtain ⟨t1, h2, -, -, h3⟩ := h1
    rw [ht'] at h2
    injection h2 with h2
    subst h2
    obtain ⟨i, hi⟩ := List.getElem?_of_mem hm2
    obtain ⟨sl, v, -, -, h4, h5⟩ := h3 i m2 hi
    obtain ⟨v', h6⟩ := hb.lives _ _ h4
    obtain ⟨o', j, m, sl', ⟨ob1, t1, a1, k1, k2, k3, k4, k5⟩, h8⟩ := hk.lives _ _ h6
    have h9 := hk.objs o' ob1 k1
    unfold ObjOk at h9
    rw [k3] at h9
    obtain ⟨t2, e1, -, e2, e3⟩ := h9
    rw [k2] at e1
    injection e1 with e1
    subst e1
    obtain ⟨sl2, v2, f1, -, f2, -⟩ := e3 j m k4
    rw [k5] at f1
    injection f1 with f1
    subst f1
    rw [h8, h6] at f2
    injection f2 with f2
    injection f2 with f2 _
    subst f2
    have hne : o' ≠ o := by
      rintro rfl
      rw [ho] at k1
      injection k1 with k1
      subst k1
      rw [ht] at k2
      injection k2 with k2
      subst k2
      exact hm (List.mem_of_getElem? k4)
    have ha : a1 ≠ h.next := fun h => Nat.lt_irrefl _ (h ▸ hk.fresh _ _ e2)
    have g1 : h'.obj? o' = some ob1 := by rw [hb.objs o' hne, k1]
    have g2 := hk'.objs o' ob1 g1
    unfold ObjOk at g2
    rw [k3] at g2
    obtain ⟨t3, g3, -, -, g4⟩ := g2
    rw [k2] at g3
    injection g3 with g3
    subst g3
    obtain ⟨sl3, v3, g5, -, -, g6⟩ := g4 j m2 k4
    rw [hb.slots a1 j ha, k5] at g5
    injection g5 with g5
    subst g5
    rw [h8, h5] at g6
    injection g6 with g6
    exact hne g6.symm

end

end Dnmx
