import Verif.Model.ObjectSteps

/-! # Programs of steps and the operations of `Model/Object` -/

set_option linter.unusedSimpArgs false
set_option linter.unusedVariables false

namespace Dnmx

def Res.on {σ τ : Type} (f : σ → τ) : Res σ → Res τ
  | .ok s => .ok (f s)
  | .throw s e => .throw (f s) e
  | .ub => .ub

namespace Steps

/-- A session with its heap. -/
@[reducible] def Ses.at (s : Ses) (h : Heap) : Sess := ⟨h, s.o, s.al, s.oldTy, s.oldData, s.ty, s.data, s.alloced, s.updated, s.complete, s.movedOut⟩

@[reducible] def both (x : Heap × Ses) : Sess := x.2.at x.1

@[reducible] def mem (x : Heap × Unit) : Heap := x.1

def ofOpt {σ : Type} : Option σ → Res σ
  | none => .ub
  | some s => .ok s

variable {D : Decls} {E : TyEnv} {orc : Orc}

theorem run_bind {α β : Type} (f : α → Prog β) (g : α → XErr → Prog β) (P : Prog α) (h : Heap) :
    (P.bind f g).run D orc h = (P.run D orc h).bind (fun x => (f x.2).run D orc x.1) (fun x e => (g x.2 e).run D orc x.1) := by
  induction P generalizing h with
  | ok a => rfl
  | throw a e => rfl
  | ub => rfl
  | getObj o k ih => exact ih _ _
  | setObj o x k ih => exact ih _
  | addObj ob k ih => exact ih _ _
  | outside k ih => exact ih _ _ _ _
  | alloc b k ih => exact ih _ _
  | dealloc a b k ih =>
    simp only [Prog.bind, Prog.run]
    cases h.deallocate a b with
    | none => rfl
    | some h' => exact ih _
  | getSlot a i k ih =>
    simp only [Prog.bind, Prog.run]
    cases h.slot? a i with
    | none => rfl
    | some sl => exact ih _ _
  | setSlot a i s k ih => exact ih _
  | setOwner l o k ih => exact ih _
  | getLive l k ih => exact ih _ _
  | setLive l v k ih => exact ih _
  | construct l m v how k ih =>
    simp only [Prog.bind, Prog.run]
    cases h.construct l m v how with
    | none => rfl
    | some h' => exact ih _
  | destroy l m k ih =>
    simp only [Prog.bind, Prog.run]
    cases h.destroy D l m with
    | none => rfl
    | some h' => exact ih _
  | count t n k ih => exact ih _
  | log e k ih => exact ih _

theorem bind_ref {α β σ τ : Type} {k1 : Heap × α → σ} {k2 : Heap × β → τ} {P : Prog α} {f : α → Prog β} {g : α → XErr → Prog β} {h : Heap} {R : Res σ}
    {F : σ → Res τ} {G : σ → XErr → Res τ} (hP : (P.run D orc h).on k1 = R) (hf : ∀ (a : α) (h : Heap), ((f a).run D orc h).on k2 = F (k1 (h, a)))
    (hg : ∀ (a : α) (e : XErr) (h : Heap), ((g a e).run D orc h).on k2 = G (k1 (h, a)) e) : ((P.bind f g).run D orc h).on k2 = R.bind F G := by
  rw [run_bind, ← hP]
  cases P.run D orc h with
  | ok x => exact hf x.2 x.1
  | throw x e => exact hg x.2 e x.1
  | ub => rfl

theorem next_ref {α β σ τ : Type} {k1 : Heap × α → σ} {k2 : Heap × β → τ} {P : Prog α} {f : α → Prog β} {h : Heap} {R : Option σ}
    {F : σ → Res τ} : (P.run D orc h).on k1 = ofOpt R → (∀ (a : α) (h : Heap), ((f a).run D orc h).on k2 = F (k1 (h, a))) →
    ((P.next f).run D orc h).on k2 = (match R with | none => .ub | some x => F x) := by
  intro hP hf
  have := bind_ref (g := fun _ _ => .ub) (G := fun _ _ => .ub) hP hf (fun _ _ _ => rfl)
  unfold Prog.next
  rw [this]
  cases R <;> rfl

theorem nextOpt_ref {α β σ τ : Type} {k1 : Heap × α → σ} {k2 : Heap × β → τ} {P : Prog α} {f : α → Prog β} {h : Heap} {R : Option σ}
    {F : σ → Option τ} (hP : (P.run D orc h).on k1 = ofOpt R) (hf : ∀ (a : α) (h : Heap), ((f a).run D orc h).on k2 = ofOpt (F (k1 (h, a)))) :
    ((P.next f).run D orc h).on k2 = ofOpt (R.bind F) := by
  have := next_ref (F := fun x => ofOpt (F x)) hP hf
  rw [this]
  cases R <;> rfl

theorem andThen_ref {P : Prog Ses} {f : Ses → Prog Ses} {h : Heap} {R : Res Sess} {F : Sess → Res Sess} (hP : (P.run D orc h).on both = R)
    (hf : ∀ (s : Ses) (h : Heap), ((f s).run D orc h).on both = F (s.at h)) : ((P.andThen f).run D orc h).on both = R.bind F .throw :=
  bind_ref hP hf (fun _ _ _ => rfl)

theorem allocOne_ref (s : Ses) (h : Heap) : ((allocOne D E s).run D orc h).on both = Dnmx.allocOne D E orc (s.at h) := by
  obtain ⟨o, al, oldTy, oldData, ty, data, alloced, updated, complete, movedOut⟩ := s
  unfold allocOne Dnmx.allocOne
  simp only []
  cases data with
  | none => rfl
  | some a =>
    cases (E.mixins ty)[alloced]? with
    | none => rfl
    | some m =>
      simp only []
      cases E.internal ty alloced with
      | true => rfl
      | false =>
        simp only [Bool.false_eq_true, if_false]
        have ho : Sess.oldIndex E ((⟨o, al, oldTy, oldData, ty, some a, alloced, updated, complete, movedOut⟩ : Ses).at h) m =
          Ses.oldIndex E ⟨o, al, oldTy, oldData, ty, some a, alloced, updated, complete, movedOut⟩ m := rfl
        rw [ho]
        cases Ses.oldIndex E ⟨o, al, oldTy, oldData, ty, some a, alloced, updated, complete, movedOut⟩ m with
        | some bi =>
          obtain ⟨b, i⟩ := bi
          simp only [Prog.run]
          cases h.slot? b i with
          | none => rfl
          | some sl => rfl
        | none =>
          simp only [Prog.run]
          cases orc.fail h.tick with
          | true => rfl
          | false => rfl

theorem allocLoop_ref (n : Nat) (s : Ses) (h : Heap) : ((allocLoop D E n s).run D orc h).on both = Dnmx.allocLoop D E orc n (s.at h) := by
  induction n generalizing s h with
  | zero => rfl
  | succ n ih => exact andThen_ref (allocOne_ref s h) ih

theorem allocateMixinData_ref (s : Ses) (h : Heap) : ((allocateMixinData D E s).run D orc h).on both = Dnmx.allocateMixinData D E orc (s.at h) := by
  unfold allocateMixinData Dnmx.allocateMixinData
  by_cases hc : s.oldTy = some s.ty
  · simp only [hc, if_true]; simp only [Prog.run, Res.on, both, hc]
  · simp only [hc, if_false, Prog.run]
    cases orc.fail h.tick with
    | true => rfl
    | false =>
      simp only [Bool.false_eq_true, if_false, Prog.run]
      exact allocLoop_ref _ _ _

theorem destroyLoop_ref (s : Ses) (n : Nat) (h0 h : Heap) : ((destroyLoop E s n).run D orc h).on mem = ofOpt (Dnmx.destroyLoop D E (s.at h0) n h) := by
  induction n generalizing h with
  | zero => rfl
  | succ i ih =>
    unfold destroyLoop Dnmx.destroyLoop
    have ho : ∀ m, Sess.oldIndex E (s.at h0) m = Ses.oldIndex E s m := fun _ => rfl
    simp only [ho]
    cases hd : s.data with
    | none => rfl
    | some a =>
      cases hm : (E.mixins s.ty)[i]? with
      | none => rfl
      | some m =>
        simp only []
        cases Ses.oldIndex E s m with
        | some x => exact ih h
        | none =>
          simp only [Prog.run]
          cases h.slot? a i with
          | none => rfl
          | some sl =>
            simp only []
            cases h.destroy D sl.loc m with
            | none => rfl
            | some h' => exact ih h'

theorem deallocLoop_ref (s : Ses) (n : Nat) (h0 h : Heap) : ((deallocLoop D E s n).run D orc h).on mem = ofOpt (Dnmx.deallocLoop D E (s.at h0) n h) := by
  induction n generalizing h with
  | zero => rfl
  | succ i ih =>
    unfold deallocLoop Dnmx.deallocLoop
    have ho : ∀ m, Sess.oldIndex E (s.at h0) m = Ses.oldIndex E s m := fun _ => rfl
    simp only [ho]
    cases hd : s.data with
    | none => rfl
    | some a =>
      cases hm : (E.mixins s.ty)[i]? with
      | none => rfl
      | some m =>
        simp only [Prog.run]
        cases h.slot? a i with
        | none => rfl
        | some sl =>
          simp only []
          cases sl.buf with
          | none => exact ih h
          | some e =>
            simp only []
            cases Ses.oldIndex E s m with
            | some x => exact ih h
            | none =>
              simp only [Prog.run]
              cases h.deallocate e (provenance D m s.al) with
              | none => rfl
              | some h' => exact ih h'

theorem rollback_ref (s : Ses) (h : Heap) : ((rollback D E s).run D orc h).on both = ofOpt (Dnmx.rollback D E (s.at h)) := by
  unfold rollback Dnmx.rollback
  by_cases hc : s.oldTy = some s.ty
  · simp only [hc, if_true]; simp only [Prog.run, Res.on, both, ofOpt, hc]
  · simp only [hc, if_false]
    rw [next_ref (F := fun h' => ofOpt ((Dnmx.deallocLoop D E (s.at h) s.alloced h').bind (fun h' => match s.data with
      | none => some { s.at h with h := h', updated := 0, alloced := 0, complete := false, movedOut := true }
      | some a => (deallocBuffer h' s.ty s.al a).map
          (fun h' => { s.at h with h := h', updated := 0, alloced := 0, data := none, complete := false, movedOut := true }))))
      (destroyLoop_ref s s.updated h h)
      (fun _ h' => nextOpt_ref (deallocLoop_ref s s.alloced h h') (fun _ h'' => by
        cases hd : s.data with
        | none => simp only [Prog.run, Res.on, both, ofOpt, hd]
        | some a =>
          simp only [Prog.run, deallocBuffer]
          cases h''.deallocate a (.unified s.ty s.al) with
          | none => rfl
          | some h3 => rfl))]
    cases Dnmx.destroyLoop D E (s.at h) s.updated h with
    | none => rfl
    | some h' =>
      simp only [Option.bind_some]
      cases Dnmx.deallocLoop D E (s.at h) s.alloced h' with
      | none => rfl
      | some h'' => rfl

theorem finalizeOne_ref (s : Ses) (b a oi : Nat) (m : Mix) (h0 h : Heap) :
    ((finalizeOne D E s b a oi m).run D orc h).on mem = ofOpt (Dnmx.finalizeOne D E orc (s.at h0) b a oi m h) := by
  unfold finalizeOne Dnmx.finalizeOne
  simp only [Prog.run]
  cases h.slot? b oi with
  | none => rfl
  | some old =>
    simp only []
    cases E.indexOf s.ty m with
    | none =>
      simp only [Prog.run]
      cases h.destroy D old.loc m with
      | none => rfl
      | some h' =>
        simp only []
        cases old.buf with
        | none => rfl
        | some e =>
          simp only [Prog.run]
          cases h'.deallocate e (provenance D m s.al) <;> rfl
    | some ti =>
      simp only []
      cases old.buf with
      | some e => rfl
      | none =>
        simp only [Prog.run]
        cases h.slot? a ti with
        | none => rfl
        | some new =>
          simp only []
          cases h.live old.loc with
          | none => rfl
          | some x =>
            obtain ⟨m', v⟩ := x
            simp only []
            by_cases hc : m' = m ∧ (D.mix m).hasMoveInit = true
            · rw [if_pos hc, if_pos hc]
              simp only [Prog.run]
              cases h.construct new.loc m v (.moved old.loc) with
              | none => rfl
              | some h' =>
                simp only [Prog.run, Option.bind_some]
                cases (h'.ticked.setLive old.loc (some (m, orc.val h'.tick))).destroy D old.loc m <;> rfl
            · rw [if_neg hc, if_neg hc]; rfl

theorem finalizeLoop_ref (s : Ses) (b a : Nat) (ms : List Mix) (oi : Nat) (h0 h : Heap) :
    ((finalizeLoop D E s b a oi ms).run D orc h).on mem = ofOpt (Dnmx.finalizeLoop D E orc (s.at h0) b a oi ms h) := by
  induction ms generalizing oi h with
  | nil => rfl
  | cons m ms ih => exact nextOpt_ref (finalizeOne_ref s b a oi m h0 h) (fun _ h' => ih (oi + 1) h')

theorem attach_ref (s s' : Ses) (h : Heap) :
    ((attach s s').run D orc h).on both = .ok { s'.at h with h := (Dnmx.attach (s.at h) h).h } := by
  unfold attach Dnmx.attach
  simp only [Prog.run]
  cases h.obj? s.o <;> rfl

theorem finalize_ref (s : Ses) (h : Heap) : ((finalize D E s).run D orc h).on both = ofOpt (Dnmx.finalize D E orc (s.at h)) := by
  obtain ⟨o, al, oldTy, oldData, ty, data, alloced, updated, complete, movedOut⟩ := s
  unfold finalize Dnmx.finalize
  simp only []
  cases complete with
  | false => rfl
  | true =>
    simp only [Bool.not_true, Bool.false_eq_true, if_false]
    by_cases hc : oldTy = some ty
    · simp only [hc, if_true]; rfl
    · simp only [hc, if_false]
      cases oldData with
      | none =>
        simp only []
        rw [attach_ref]
        simp only [Dnmx.attach]
        cases h.obj? o <;> rfl
      | some b =>
        cases oldTy with
        | none => rfl
        | some t =>
          simp only []
          cases data with
          | none => rfl
          | some a =>
            simp only []
            rw [nextOpt_ref (F := fun h' => (deallocBuffer h' t al b).map (fun h' =>
                { Dnmx.attach ((⟨o, al, some t, some b, ty, some a, alloced, updated, true, movedOut⟩ : Ses).at h) h' with oldData := none, oldTy := none }))
              (finalizeLoop_ref _ b a (E.mixins t) 0 h h) (fun _ h' => by
                simp only [Prog.run, deallocBuffer]
                cases h'.deallocate b (.unified t al) with
                | none => rfl
                | some h'' =>
                  simp only [Option.map_some]
                  rw [attach_ref]
                  simp only [Dnmx.attach]
                  cases Heap.obj? (h''.countUp t (-1)) o <;> rfl)]
            cases Dnmx.finalizeLoop D E orc ((⟨o, al, some t, some b, ty, some a, alloced, updated, true, movedOut⟩ : Ses).at h) b a 0 (E.mixins t) h with
            | none => rfl
            | some h' =>
              simp only [Option.bind_some]
              cases deallocBuffer h' t al b with
              | none => rfl
              | some h'' => rfl

theorem readMixin_run {α : Type} (b i : Nat) (k : Loc → Mix → Nat → Prog α) (h : Heap) :
    (readMixin b i k).run D orc h = (match mixinAt h b i with | none => .ub | some (l, m, v) => (k l m v).run D orc h) := by
  unfold readMixin mixinAt
  simp only [Prog.run]
  cases h.slot? b i with
  | none => rfl
  | some sl =>
    simp only []
    cases h.live sl.loc with
    | none => rfl
    | some x => rfl

theorem readSource_run {α : Type} (src i : Nat) (k : Loc → Mix → Nat → Prog α) (h : Heap) :
    (readSource src i k).run D orc h = (match sourceAt h src i with | none => .ub | some (l, m, v) => (k l m v).run D orc h) := by
  unfold readSource sourceAt
  simp only [Prog.run]
  cases (h.obj? src).bind (·.data) with
  | none => rfl
  | some b =>
    simp only []
    rw [readMixin_run]
    rfl

theorem constructNew_ref (f : NewFn) (s : Ses) (m : Mix) (ti : Nat) (l : Loc) (h : Heap) :
    ((constructNew D f s m ti l).run D orc h).on both = Dnmx.constructNew D orc f (s.at h) m ti l := by
  unfold constructNew Dnmx.constructNew
  cases f with
  | dflt =>
    simp only []
    cases (D.mix m).hasInit with
    | false => rfl
    | true =>
      simp only [Bool.not_true, Bool.false_eq_true, if_false, Prog.run]
      cases orc.fail h.tick with
      | true => rfl
      | false =>
        simp only [Bool.false_eq_true, if_false, Prog.run]
        cases h.ticked.construct l m (orc.val h.tick) .dflt <;> rfl
  | custom k =>
    simp only [Prog.run]
    cases orc.fail h.tick with
    | true => rfl
    | false =>
      simp only [Bool.false_eq_true, if_false, Prog.run]
      cases h.ticked.construct l m (orc.val h.tick) (.custom k) <;> rfl
  | copy src checked =>
    simp only []
    rw [readSource_run]
    cases sourceAt h src ti with
    | none => rfl
    | some x =>
      obtain ⟨sl, m', v⟩ := x
      simp only []
      by_cases hc : m' ≠ m
      · rw [if_pos hc, if_pos hc]; rfl
      · rw [if_neg hc, if_neg hc]
        cases (D.mix m).hasCopyInit with
        | false => cases checked <;> rfl
        | true =>
          simp only [Bool.not_true, Bool.false_eq_true, if_false, Prog.run]
          cases orc.fail h.tick with
          | true => rfl
          | false =>
            simp only [Bool.false_eq_true, if_false, Prog.run]
            cases h.ticked.construct l m v (.copied sl) <;> rfl

theorem updateCommon_ref (g : UpdFn) (s : Ses) (m : Mix) (ti : Nat) (l : Loc) (h : Heap) :
    ((updateCommon D g s m ti l).run D orc h).on both = Dnmx.updateCommon D orc g (s.at h) m ti l := by
  unfold updateCommon Dnmx.updateCommon
  cases g with
  | noop => rfl
  | custom k =>
    simp only [Prog.run]
    cases h.live l with
    | none => rfl
    | some x =>
      obtain ⟨m', v⟩ := x
      simp only []
      by_cases hc : m' ≠ m
      · rw [if_pos hc, if_pos hc]; rfl
      · rw [if_neg hc, if_neg hc]
        simp only [Prog.run]
        cases orc.fail h.tick <;> rfl
  | assign src =>
    simp only [Prog.run]
    cases h.live l with
    | none => rfl
    | some x =>
      obtain ⟨m', v'⟩ := x
      simp only []
      rw [readSource_run]
      cases sourceAt h src ti with
      | none => rfl
      | some y =>
        obtain ⟨sl, m'', v⟩ := y
        simp only []
        by_cases hc : m' ≠ m ∨ m'' ≠ m ∨ (!(D.mix m).hasCopyAsgn) = true
        · rw [if_pos hc, if_pos hc]; rfl
        · rw [if_neg hc, if_neg hc]
          simp only [Prog.run]
          cases orc.fail h.tick <;> rfl

theorem updateNext_ref (f : NewFn) (g : UpdFn) (s : Ses) (h : Heap) :
    ((updateNext D E f g s).run D orc h).on both = Dnmx.updateNext D E orc f g (s.at h) := by
  unfold updateNext Dnmx.updateNext
  have ho : ∀ m, Sess.oldIndex E (s.at h) m = Ses.oldIndex E s m := fun _ => rfl
  simp only [ho]
  by_cases hc : s.complete = true
  · rw [if_pos hc, if_pos hc]; rfl
  · rw [if_neg hc, if_neg hc]
    cases (E.mixins s.ty)[s.updated]? with
    | none => rfl
    | some m =>
      simp only []
      cases Ses.oldIndex E s m with
      | some x =>
        obtain ⟨b, oi⟩ := x
        simp only [Prog.run]
        cases h.slot? b oi with
        | none => rfl
        | some sl => exact andThen_ref (F := fun s => .ok (s.advanced E)) (updateCommon_ref g s m s.updated sl.loc h) (fun _ _ => rfl)
      | none =>
        simp only []
        cases hd : s.data with
        | none => rfl
        | some a =>
          simp only [Prog.run]
          cases h.slot? a s.updated with
          | none => rfl
          | some sl =>
            have := andThen_ref (F := fun s => .ok (s.advanced E)) (constructNew_ref (D := D) (orc := orc) f s m s.updated sl.loc h)
              (f := fun s => .ok (s.advanced E)) (fun s h => rfl)
            exact this

theorem updateLoop_ref (f : NewFn) (g : UpdFn) (n : Nat) (s : Ses) (h : Heap) :
    ((updateLoop D E f g n s).run D orc h).on both = Dnmx.updateLoop D E orc f g n (s.at h) := by
  induction n generalizing s h with
  | zero => rfl
  | succ n ih => exact andThen_ref (updateNext_ref f g s h) ih

theorem updateEach_ref (f : NewFn) (g : UpdFn) (upto : Option Nat) (s : Ses) (h : Heap) :
    ((updateEach D E f g upto s).run D orc h).on both = Dnmx.updateEach D E orc f g upto (s.at h) := updateLoop_ref f g _ s h

theorem updateAt_ref (i : Nat) (f : NewFn) (g : UpdFn) (s : Ses) (h : Heap) :
    ((updateAt D E i f g s).run D orc h).on both = Dnmx.updateAt D E orc i f g (s.at h) := by
  unfold updateAt Dnmx.updateAt
  by_cases hc : i < s.updated ∨ i > (E.mixins s.ty).length
  · simp only [hc, if_true]; rfl
  · simp only [hc, if_false]
    exact andThen_ref (updateEach_ref .dflt .noop (some i) s h) (updateNext_ref f g)

theorem dtor_ref (u : Bool) (s : Ses) (h : Heap) : ((s.dtor D E u).run D orc h).on mem = (s.at h).dtor D E orc u := by
  unfold Ses.dtor Sess.dtor
  by_cases hc : s.movedOut = true
  · rw [if_pos hc, if_pos hc]; rfl
  · rw [if_neg hc, if_neg hc]
    have hroll : ∀ (s : Ses) (h : Heap) (P : Prog Unit) (F : Sess → Res Heap), (∀ (s' : Ses) (h' : Heap), (P.run D orc h').on mem = F (s'.at h')) →
        ((((rollback D E s).next (fun _ => P)).run D orc h).on mem = match Dnmx.rollback D E (s.at h) with | none => .ub | some x => F x) :=
      fun s h P F hp => (next_ref (F := F) (rollback_ref (D := D) (E := E) s h) (fun s' h' => hp s' h')).trans (by
        cases Dnmx.rollback D E (s.at h) <;> rfl)
    have hfin : ∀ (s : Ses) (h : Heap), ((((finalize D E s).next (fun _ => (.ok () : Prog Unit))).run D orc h).on mem =
        match Dnmx.finalize D E orc (s.at h) with | none => .ub | some x => .ok x.h) :=
      fun s h => (next_ref (k2 := mem) (f := fun _ => (.ok () : Prog Unit)) (F := fun x => .ok x.h) (finalize_ref (D := D) (E := E) (orc := orc) s h) (fun s' h' => rfl)).trans (by
        cases Dnmx.finalize D E orc (s.at h) <;> rfl)
    cases u with
    | true =>
      simp only [if_true]
      exact hroll s h (.ok ()) (fun s => .ok s.h) (fun _ _ => rfl)
    | false =>
      simp only [Bool.false_eq_true, if_false]
      rw [bind_ref (F := fun s => match Dnmx.finalize D E orc (if s.complete then s else { s with h := s.h.logged .assertFailed }) with
          | none => .ub
          | some s => .ok s.h)
        (G := fun s e => match Dnmx.rollback D E s with
          | none => .ub
          | some s => .throw s.h e) (updateEach_ref .dflt .noop none s h)
        (fun s h => by
          obtain ⟨o, al, oldTy, oldData, ty, data, alloced, updated, complete, movedOut⟩ := s
          cases complete with
          | true => exact hfin _ _
          | false => exact hfin _ _)
        (fun s e h => hroll s h (.throw () e) (fun s => .throw s.h e) (fun _ _ => rfl))]
      cases Dnmx.updateEach D E orc .dflt .noop none (s.at h) <;> rfl

theorem mstep_ref (s : Ses) (st : MStep) (h : Heap) : ((mstep D E s st).run D orc h).on both = Dnmx.mstep D E orc (s.at h) st := by
  cases st with
  | next f g => exact updateNext_ref f g s h
  | each f g upto => exact updateEach_ref f g upto s h
  | «at» i f g => exact updateAt_ref i f g s h
  | finalize =>
    show ((finalize D E s).run D orc h).on both = _
    rw [finalize_ref]
    unfold Dnmx.mstep
    cases Dnmx.finalize D E orc (s.at h) <;> rfl
  | rollback =>
    show ((rollback D E s).run D orc h).on both = _
    rw [rollback_ref]
    unfold Dnmx.mstep
    cases Dnmx.rollback D E (s.at h) <;> rfl
  | throw => rfl

theorem msteps_ref (l : List (MStep × Bool)) (s : Ses) (h : Heap) : ((msteps D E l s).run D orc h).on both = Dnmx.msteps D E orc l (s.at h) := by
  induction l generalizing s h with
  | nil => rfl
  | cons x rest ih =>
    obtain ⟨st, caught⟩ := x
    refine bind_ref (mstep_ref s st h) ih (fun s e h => ?_)
    cases caught with
    | true => exact ih s h
    | false => rfl

theorem unwindWith_ref (s : Ses) (e : XErr) (h : Heap) : ((unwindWith D E s e).run D orc h).on mem = Dnmx.unwindWith D E orc (s.at h) e :=
  bind_ref (dtor_ref true s h) (fun _ _ => rfl) (fun _ _ _ => rfl)

theorem withMutation_ref (u : Bool) (o : Nat) (t : TypeId) (steps : List (MStep × Bool)) (h : Heap) :
    ((withMutation D E u o t steps).run D orc h).on mem = Dnmx.withMutation D E orc u h o t steps := by
  unfold withMutation Dnmx.withMutation
  simp only [Prog.run]
  cases h.obj? o with
  | none => rfl
  | some ob =>
    simp only []
    by_cases hc : ob.isSealed = true
    · rw [if_pos hc, if_pos hc]; exact unwindWith_ref _ _ _
    · rw [if_neg hc, if_neg hc]
      rw [bind_ref (F := fun s => (Dnmx.msteps D E orc steps s).bind (Sess.dtor D E orc u) (Dnmx.unwindWith D E orc)) (G := Dnmx.unwindWith D E orc)
        (allocateMixinData_ref (Ses.begin o ob t) h) (fun s h => bind_ref (msteps_ref steps s h) (dtor_ref u) unwindWith_ref) unwindWith_ref]
      show (Dnmx.allocateMixinData D E orc (Sess.begin h o ob t)).bind _ _ = _
      cases Dnmx.allocateMixinData D E orc (Sess.begin h o ob t) <;> rfl

theorem perform_ref (u : Bool) (o : Nat) (t : TypeId) (f : NewFn) (g : UpdFn) (h : Heap) :
    ((perform D E u o t f g).run D orc h).on mem = Dnmx.perform D E orc u h o t f g := withMutation_ref u o t _ h

theorem clearMixinData_ref (o : Nat) (h : Heap) : ((clearMixinData D E o).run D orc h).on mem = ofOpt (Dnmx.clearMixinData D E h o) := by
  unfold clearMixinData Dnmx.clearMixinData
  simp only [Prog.run]
  cases h.obj? o with
  | none => rfl
  | some ob =>
    simp only []
    cases hd : ob.data with
    | none => rfl
    | some a =>
      cases ht : ob.ty with
      | none => rfl
      | some t =>
        simp only []
        rw [nextOpt_ref (F := fun s => some (s.h.setObj o (some { ob with data := none }))) (rollback_ref _ h) (fun s h => by
          simp only [Prog.run, Res.on, ofOpt, ht])]
        simp only [ht]
        cases Dnmx.rollback D E ⟨h, o, ob.alloc, none, none, t, some a, (E.mixins t).length, (E.mixins t).length, false, false⟩ <;> rfl

theorem redirect_ref (o a n : Nat) (h : Heap) : ((redirect o a n).run D orc h).on mem = ofOpt (Dnmx.redirect o a n h) := by
  induction n generalizing h with
  | zero => rfl
  | succ i ih =>
    unfold redirect Dnmx.redirect
    rw [nextOpt_ref (F := fun h => (h.slot? a i).map (fun sl => h.setOwner sl.loc o)) (ih h) (fun _ h => by
      simp only [Prog.run]
      cases h.slot? a i <;> rfl)]
    cases Dnmx.redirect o a i h <;> rfl

theorem usurp_ref (o src : Nat) (h : Heap) : ((usurp E o src).run D orc h).on mem = ofOpt (Dnmx.usurp E h o src) := by
  unfold usurp Dnmx.usurp
  simp only [Prog.run]
  cases h.obj? o with
  | none => cases h.obj? src <;> rfl
  | some ob =>
    cases h.obj? src with
    | none => rfl
    | some sb =>
      simp only []
      cases ht : sb.ty with
      | none => rfl
      | some t =>
        simp only [Prog.run]
        cases hd : sb.data with
        | none =>
          simp only []
          by_cases hc : (E.mixins t).length = 0
          · simp only [hc, if_true]; rfl
          · simp only [hc, if_false]; rfl
        | some a =>
          simp only []
          rw [nextOpt_ref (F := fun h => some (h.setObj src (some { sb with ty := some (E.emptyOf t), data := none }))) (redirect_ref o a _ _) (fun _ h => rfl)]
          generalize Dnmx.redirect o a _ _ = r
          cases r <;> rfl

/-- What `setType` does. -/
def setTyped (o : Nat) (f : Obj → Obj) (h : Heap) : Res Heap :=
  match h.obj? o with
  | none => .ub
  | some ob => .ok (h.setObj o (some (f ob)))

theorem setType_ref (o : Nat) (f : Obj → Obj) (h : Heap) : ((setType o f).run D orc h).on mem = setTyped o f h := by
  unfold setType setTyped
  simp only [Prog.run]
  cases h.obj? o <;> rfl

theorem resetType_ref (u : Bool) (o : Nat) (t : TypeId) (h : Heap) : ((resetType D E u o t).run D orc h).on mem = Dnmx.resetType D E orc u h o t := by
  unfold resetType Dnmx.resetType
  simp only [Prog.run]
  cases h.obj? o with
  | none => rfl
  | some ob =>
    simp only []
    by_cases h1 : ob.isSealed = true
    · rw [if_pos h1, if_pos h1]; rfl
    · rw [if_neg h1, if_neg h1]
      by_cases h2 : ob.ty = some t
      · rw [if_pos h2, if_pos h2]; rfl
      · rw [if_neg h2, if_neg h2]
        by_cases h3 : (E.mixins t).length = 0
        · rw [if_pos h3, if_pos h3]
          rw [next_ref (F := setTyped o (fun ob => { ob with ty := some t })) (clearMixinData_ref o h) (fun _ h => setType_ref o _ h)]
          cases Dnmx.clearMixinData D E h o <;> rfl
        · rw [if_neg h3, if_neg h3]
          exact perform_ref u o t .dflt .noop h

theorem destroyObject_ref (o : Nat) (h : Heap) : ((destroyObject D E o).run D orc h).on mem = Dnmx.destroyObject D E h o := by
  unfold destroyObject Dnmx.destroyObject
  rw [next_ref (F := fun h => .ok (h.setObj o none)) (clearMixinData_ref o h) (fun _ h => rfl)]
  cases Dnmx.clearMixinData D E h o <;> rfl

theorem unwindObject_ref (o : Nat) (e : XErr) (h : Heap) : ((unwindObject D E o e).run D orc h).on mem = Dnmx.unwindObject D E o h e :=
  bind_ref (destroyObject_ref o h) (fun _ _ => rfl) (fun _ _ _ => rfl)

theorem newOfType_ref (u : Bool) (t : TypeId) (al : Nat) (sd : Bool) (h : Heap) :
    ((newOfType D E u t al sd).run D orc h).on mem = Dnmx.newOfType D E orc u h t al sd :=
  bind_ref (F := setTyped h.objs.length (fun ob => { ob with isSealed := sd })) (G := Dnmx.unwindObject D E h.objs.length) (resetType_ref u h.objs.length t _)
    (fun _ h => setType_ref _ _ h) (fun _ e h => unwindObject_ref _ e h)

theorem moveConstruct_ref (src : Nat) (h : Heap) : ((moveConstruct E src).run D orc h).on mem = Dnmx.moveConstruct E h src := by
  unfold moveConstruct Dnmx.moveConstruct
  simp only [Prog.run]
  cases h.obj? src with
  | none => rfl
  | some sb =>
    simp only [Prog.run]
    rw [usurp_ref]
    show ofOpt (Dnmx.usurp E (newNull h sb.alloc) h.objs.length src) = _
    cases Dnmx.usurp E (newNull h sb.alloc) h.objs.length src <;> rfl

theorem moveAssign_ref (o src : Nat) (h : Heap) : ((moveAssign D E o src).run D orc h).on mem = Dnmx.moveAssign D E h o src := by
  unfold moveAssign Dnmx.moveAssign
  by_cases hc : o = src
  · rw [if_pos hc, if_pos hc]; rfl
  · rw [if_neg hc, if_neg hc]
    simp only [Prog.run]
    cases h.obj? o with
    | none => cases h.obj? src <;> rfl
    | some ob =>
      cases h.obj? src with
      | none => rfl
      | some sb =>
        simp only []
        by_cases h1 : ob.alloc = sb.alloc
        · rw [if_pos h1, if_pos h1]
          by_cases h2 : ob.isSealed = true
          · rw [if_pos h2, if_pos h2]; rfl
          · rw [if_neg h2, if_neg h2]
            rw [nextOpt_ref (F := fun h => Dnmx.usurp E h o src) (clearMixinData_ref o h) (fun _ h => usurp_ref o src h)]
            cases (Dnmx.clearMixinData D E h o).bind (fun h => Dnmx.usurp E h o src) <;> rfl
        · rw [if_neg h1, if_neg h1]; rfl

theorem copyObject_ref (u : Bool) (src al : Nat) (h : Heap) : ((copyObject D E u src al).run D orc h).on mem = Dnmx.copyObject D E orc u h src al := by
  unfold copyObject Dnmx.copyObject
  simp only [Prog.run]
  cases h.obj? src with
  | none => rfl
  | some sb =>
    simp only []
    cases sb.data with
    | none => rfl
    | some a =>
      cases sb.ty with
      | none => rfl
      | some t =>
        simp only [Prog.run]
        exact bind_ref (perform_ref u _ t (.copy src true) .noop _) (fun _ _ => rfl) (fun _ e h => unwindObject_ref _ e h)

theorem copyFrom_ref (u : Bool) (o src : Nat) (h : Heap) : ((copyFrom D E u o src).run D orc h).on mem = Dnmx.copyFrom D E orc u h o src := by
  unfold copyFrom Dnmx.copyFrom
  simp only [Prog.run]
  cases h.obj? o with
  | none => cases h.obj? src <;> rfl
  | some ob =>
    cases h.obj? src with
    | none => rfl
    | some sb =>
      simp only []
      cases sb.data with
      | none =>
        simp only []
        by_cases h1 : ob.isSealed = true
        · rw [if_pos h1, if_pos h1]; rfl
        · rw [if_neg h1, if_neg h1]
          rw [next_ref (F := setTyped o (fun ob => { ob with ty := sb.ty })) (clearMixinData_ref o h) (fun _ h => setType_ref o _ h)]
          cases Dnmx.clearMixinData D E h o <;> rfl
      | some a =>
        cases sb.ty with
        | none => rfl
        | some t =>
          cases ob.ty with
          | none => rfl
          | some own =>
            simp only []
            cases copyFromCheck D E own (E.mixins t) with
            | some m => rfl
            | none => exact perform_ref u o t _ _ h

theorem readMixin?_run {α : Type} (b : Option Nat) (i : Nat) (k : Loc → Mix → Nat → Prog α) (h : Heap) :
    (readMixin? b i k).run D orc h = (match b.bind (fun b => mixinAt h b i) with | none => .ub | some (l, m, v) => (k l m v).run D orc h) := by
  cases b with
  | none => rfl
  | some b => exact readMixin_run b i k h

theorem copyMatchingLoop_ref (own : TypeId) (a b : Option Nat) (ms : List Mix) (i : Nat) (h : Heap) :
    ((copyMatchingLoop D E own a b i ms).run D orc h).on mem = Dnmx.copyMatchingLoop D E orc own a b i ms h := by
  induction ms generalizing i h with
  | nil => rfl
  | cons m ms ih =>
    unfold copyMatchingLoop Dnmx.copyMatchingLoop
    cases E.indexOf own m with
    | none => exact ih (i + 1) h
    | some oi =>
      simp only []
      rw [readMixin?_run]
      cases a.bind (fun a => mixinAt h a oi) with
      | none => rfl
      | some x =>
        obtain ⟨l, m', v'⟩ := x
        simp only []
        rw [readMixin?_run]
        cases b.bind (fun b => mixinAt h b i) with
        | none => rfl
        | some y =>
          obtain ⟨sl, m'', v⟩ := y
          simp only []
          by_cases hc : m' ≠ m ∨ m'' ≠ m ∨ (D.mix m).hasCopyAsgn = false
          · rw [if_pos hc, if_pos hc]; rfl
          · rw [if_neg hc, if_neg hc]
            simp only [Prog.run]
            cases orc.fail h.tick with
            | true => rfl
            | false =>
              simp only [Bool.false_eq_true, if_false]
              exact ih (i + 1) _

theorem copyMatchingFrom_ref (o src : Nat) (h : Heap) : ((copyMatchingFrom D E o src).run D orc h).on mem = Dnmx.copyMatchingFrom D E orc h o src := by
  unfold copyMatchingFrom Dnmx.copyMatchingFrom
  simp only [Prog.run]
  cases h.obj? o with
  | none => cases h.obj? src <;> rfl
  | some ob =>
    cases h.obj? src with
    | none => rfl
    | some sb =>
      simp only []
      cases ob.ty with
      | none => cases sb.ty <;> rfl
      | some own =>
        cases sb.ty with
        | none => rfl
        | some t =>
          simp only []
          cases copyMatchingCheck D E own (E.mixins t) with
          | some m => rfl
          | none => exact copyMatchingLoop_ref own ob.data sb.data _ 0 h

theorem moveMatchingLoop_ref (own : TypeId) (a b : Option Nat) (ms : List Mix) (i : Nat) (h : Heap) :
    ((moveMatchingLoop D E own a b i ms).run D orc h).on mem = Dnmx.moveMatchingLoop D E orc own a b i ms h := by
  induction ms generalizing i h with
  | nil => rfl
  | cons m ms ih =>
    unfold moveMatchingLoop Dnmx.moveMatchingLoop
    cases E.indexOf own m with
    | none => exact ih (i + 1) h
    | some oi =>
      simp only []
      rw [readMixin?_run]
      cases a.bind (fun a => mixinAt h a oi) with
      | none => rfl
      | some x =>
        obtain ⟨l, m', v'⟩ := x
        simp only []
        rw [readMixin?_run]
        cases b.bind (fun b => mixinAt h b i) with
        | none => rfl
        | some y =>
          obtain ⟨sl, m'', v⟩ := y
          simp only []
          by_cases hc : m' ≠ m ∨ m'' ≠ m
          · rw [if_pos hc, if_pos hc]; rfl
          · rw [if_neg hc, if_neg hc]
            cases (D.mix m).hasMoveAsgn with
            | true =>
              simp only [if_true, Prog.run]
              exact ih (i + 1) _
            | false =>
              simp only [Bool.false_eq_true, if_false, Prog.run]
              cases h.destroy D l m with
              | none => rfl
              | some h' =>
                simp only [Prog.run]
                cases h'.live sl with
                | none => rfl
                | some z =>
                  obtain ⟨m3, v3⟩ := z
                  simp only []
                  by_cases h4 : (D.mix m).hasMoveInit = false
                  · rw [if_pos h4, if_pos h4]; rfl
                  · rw [if_neg h4, if_neg h4]
                    simp only [Prog.run]
                    cases h'.construct l m v3 (.moved sl) with
                    | none => rfl
                    | some h'' =>
                      simp only [Prog.run]
                      exact ih (i + 1) _

theorem moveMatchingFrom_ref (o src : Nat) (fb : Bool) (h : Heap) :
    ((moveMatchingFrom D E o src fb).run D orc h).on mem = Dnmx.moveMatchingFrom D E orc h o src fb := by
  unfold moveMatchingFrom Dnmx.moveMatchingFrom
  simp only [Prog.run]
  cases h.obj? o with
  | none => cases h.obj? src <;> rfl
  | some ob =>
    cases h.obj? src with
    | none => rfl
    | some sb =>
      simp only []
      cases ob.ty with
      | none => cases sb.ty <;> rfl
      | some own =>
        cases sb.ty with
        | none => rfl
        | some t =>
          simp only []
          cases moveMatchingCheck D E own fb (E.mixins t) with
          | some m => rfl
          | none => exact moveMatchingLoop_ref own ob.data sb.data _ 0 h

theorem clearObject_ref (o : Nat) (h : Heap) : ((clearObject D E o).run D orc h).on mem = Dnmx.clearObject D E h o := by
  unfold clearObject Dnmx.clearObject
  simp only [Prog.run]
  cases h.obj? o with
  | none => rfl
  | some ob =>
    simp only []
    by_cases h1 : ob.isSealed = true
    · rw [if_pos h1, if_pos h1]; rfl
    · rw [if_neg h1, if_neg h1]
      cases ob.ty with
      | none => cases Dnmx.clearMixinData D E h o <;> rfl
      | some t =>
        simp only []
        rw [next_ref (F := setTyped o (fun ob => { ob with ty := some (E.emptyOf t) })) (clearMixinData_ref o h) (fun _ h => setType_ref o _ h)]
        cases Dnmx.clearMixinData D E h o <;> rfl

theorem sealObject_ref (o : Nat) (h : Heap) : ((sealObject o).run D orc h).on mem = Dnmx.sealObject h o := setType_ref o _ h

theorem mutateTo_ref (u : Bool) (o : Nat) (t : TypeId) (ops : List InitOp) (h : Heap) :
    ((mutateTo D E u o t ops).run D orc h).on mem = Dnmx.mutateTo D E orc u h o t ops := by
  unfold mutateTo Dnmx.mutateTo
  simp only [Prog.run]
  cases h.obj? o with
  | none => rfl
  | some ob =>
    simp only []
    by_cases h1 : ob.ty = some t
    · rw [if_pos h1, if_pos h1]; rfl
    · rw [if_neg h1, if_neg h1]
      exact withMutation_ref u o t _ h

theorem program_ref (u : Bool) (op : OOp) (h : Heap) : ((program D E u op).run D orc h).on mem = ostep D E orc u h op := by
  cases op with
  | newEmpty t al => rfl
  | newOfType t al sd => exact newOfType_ref u t al sd h
  | moveNew src => exact moveConstruct_ref src h
  | destroy o => exact destroyObject_ref o h
  | moveAssign o src => exact moveAssign_ref o src h
  | copy src al => exact copyObject_ref u src al h
  | copyFrom o src => exact copyFrom_ref u o src h
  | copyMatching o src => exact copyMatchingFrom_ref o src h
  | moveMatching o src fb => exact moveMatchingFrom_ref o src fb h
  | clear o => exact clearObject_ref o h
  | reset o t => exact resetType_ref u o t h
  | «seal» o => exact sealObject_ref o h
  | mutation o t steps => exact withMutation_ref u o t steps h
  | mutateTo o t ops => exact mutateTo_ref u o t ops h

end Steps
end Dnmx
