import Verif.Model.Object

/-! # Lemmas on the exceptions that operations on objects throw -/

set_option linter.unusedSimpArgs false
set_option linter.unusedVariables false
set_option linter.unusedSectionVars false

namespace Dnmx

/-- Exceptions satisfy `P`, results satisfy `Q`. -/
def Ends {σ : Type} (P : XErr → Prop) (Q : σ → Prop) : Res σ → Prop
  | .ok s => Q s
  | .throw _ e => P e
  | .ub => True

theorem Ends.bind {σ τ : Type} {P : XErr → Prop} {Q : σ → Prop} {R : τ → Prop} {r : Res σ} {f : σ → Res τ} {g : σ → XErr → Res τ} (h : Ends P Q r) (hf : ∀ s, Q s → Ends P R (f s))
    (hg : ∀ s e, P e → Ends P R (g s e)) : Ends P R (r.bind f g) := by
  cases r with
  | ok s => exact hf s h
  | throw s e => exact hg s e h
  | ub => trivial

theorem Ends.mono {σ : Type} {P : XErr → Prop} {Q R : σ → Prop} {r : Res σ} (h : Ends P Q r) (hf : ∀ s, Q s → R s) : Ends P R r := by
  cases r with
  | ok s => exact hf s h
  | throw s e => exact h
  | ub => trivial

theorem Ends.rethrow {σ : Type} {P : XErr → Prop} {Q : σ → Prop} (s : σ) (e : XErr) (h : P e) : Ends P Q (.throw s e) := h

variable {D : Decls} {E : TyEnv} {orc : Orc} {sl : Prop}

/-- The function that a way of making new mixins needs is not there (and the lack of it is noticed). -/
def Lacks (D : Decls) (m : Mix) : NewFn → Prop
  | .dflt => (D.mix m).hasInit = false
  | .custom _ => False
  | .copy _ checked => checked = true ∧ (D.mix m).hasCopyInit = false

/-- The reasons of exceptions of a mutation to type `t`: the object is sealed (`sl`), functions for making new mixins are not there, or something from outside failed. -/
def ErrOf (D : Decls) (E : TyEnv) (orc : Orc) (sl : Prop) (t : TypeId) (f : NewFn) : XErr → Prop
  | .isSealed => sl
  | .missingFunc m => m ∈ E.mixins t ∧ Lacks D m f
  | .user n => orc.fail n = true
  | .badAlloc => ∃ n, orc.fail n = true
  | _ => False

/-- Where a mutation to type `t` is. -/
structure Prog (E : TyEnv) (t : TypeId) (k : Nat) (s : Sess) : Prop where
  ty : s.ty = t
  upd : s.updated = k
  compl : s.complete = true → k = (E.mixins t).length

theorem constructNew_ends {t : TypeId} (f : NewFn) {s : Sess} {m : Mix} (hm : m ∈ E.mixins t) {k : Nat} (hs : Prog E t k s) (ti : Nat) (l : Loc) :
    Ends (ErrOf D E orc sl t f) (Prog E t k) (constructNew D orc f s m ti l) := by
  unfold constructNew
  cases f with
  | dflt =>
    simp only
    by_cases h1 : (D.mix m).hasInit = true
    · simp only [h1, Bool.not_true, Bool.false_eq_true, if_false]
      by_cases h2 : orc.fail s.h.tick = true
      · simp only [h2, if_true]; exact h2
      · simp only [h2, if_false]
        cases hc : s.h.ticked.construct l m (orc.val s.h.tick) .dflt with
        | none => trivial
        | some h => exact ⟨hs.ty, hs.upd, hs.compl⟩
    · simp only [h1, Bool.not_false, if_true]
      exact ⟨hm, by simpa [Lacks] using h1⟩
  | custom k =>
    simp only
    by_cases h2 : orc.fail s.h.tick = true
    · simp only [h2, if_true]; exact h2
    · simp only [h2, if_false]
      cases hc : s.h.ticked.construct l m (orc.val s.h.tick) (.custom k) with
      | none => trivial
      | some h => exact ⟨hs.ty, hs.upd, hs.compl⟩
  | copy src checked =>
    simp only
    cases hsrc : sourceAt s.h src ti with
    | none => trivial
    | some x =>
      obtain ⟨sl, m', v⟩ := x
      simp only
      by_cases h0 : m' ≠ m
      · rw [if_pos h0]; trivial
      rw [if_neg h0]
      by_cases h1 : (D.mix m).hasCopyInit = true
      · simp only [h1, Bool.not_true, Bool.false_eq_true, if_false]
        by_cases h2 : orc.fail s.h.tick = true
        · simp only [h2, if_true]; exact h2
        · simp only [h2, if_false]
          cases hc : s.h.ticked.construct l m v (.copied sl) with
          | none => trivial
          | some h => exact ⟨hs.ty, hs.upd, hs.compl⟩
      · simp only [h1, Bool.not_false, if_true]
        by_cases h2 : checked = true
        · simp only [h2, if_true]
          exact ⟨hm, by simpa [Lacks] using h1⟩
        · simp only [h2, if_false]; trivial

theorem updateCommon_ends {t : TypeId} {f : NewFn} (g : UpdFn) {s : Sess} (m : Mix) {k : Nat} (hs : Prog E t k s) (ti : Nat) (l : Loc) :
    Ends (ErrOf D E orc sl t f) (Prog E t k) (updateCommon D orc g s m ti l) := by
  unfold updateCommon
  cases g with
  | noop => exact hs
  | custom k =>
    simp only
    cases h1 : s.h.live l with
    | none => trivial
    | some x =>
      obtain ⟨m', v⟩ := x
      simp only
      by_cases h0 : m' ≠ m
      · rw [if_pos h0]; trivial
      rw [if_neg h0]
      by_cases h2 : orc.fail s.h.tick = true
      · simp only [h2, if_true]; exact h2
      · simp only [h2, if_false]; exact ⟨hs.ty, hs.upd, hs.compl⟩
  | assign src =>
    simp only
    cases h1 : s.h.live l with
    | none => trivial
    | some x =>
      cases h2 : sourceAt s.h src ti with
      | none => trivial
      | some y =>
        obtain ⟨m', v⟩ := x
        obtain ⟨sl, m'', w⟩ := y
        simp only
        by_cases h0 : m' ≠ m ∨ m'' ≠ m ∨ (!(D.mix m).hasCopyAsgn) = true
        · rw [if_pos h0]; trivial
        rw [if_neg h0]
        by_cases h2 : orc.fail s.h.tick = true
        · simp only [h2, if_true]; exact h2
        · simp only [h2, if_false]; exact ⟨hs.ty, hs.upd, hs.compl⟩

theorem advanced_prog {t : TypeId} {s : Sess} {k : Nat} (hs : Prog E t k s) : Prog E t (k + 1) (s.advanced E) := by
  refine ⟨hs.ty, by simp [Sess.advanced, hs.upd], fun h => ?_⟩
  simp [Sess.advanced, hs.ty, hs.upd] at h
  exact h

theorem updateNext_ends {t : TypeId} (f : NewFn) (g : UpdFn) {s : Sess} {k : Nat} (hs : Prog E t k s) (hk : k < (E.mixins t).length) :
    Ends (ErrOf D E orc sl t f) (Prog E t (k + 1)) (updateNext D E orc f g s) := by
  unfold updateNext
  have hc : s.complete = false := by
    cases h : s.complete with
    | false => rfl
    | true => have := hs.compl h; omega
  simp only [hc, Bool.false_eq_true, if_false, hs.ty, hs.upd]
  cases hm : (E.mixins t)[k]? with
  | none => trivial
  | some m =>
    simp only
    cases ho : s.oldIndex E m with
    | some x =>
      obtain ⟨b, oi⟩ := x
      simp only
      cases hsl : s.h.slot? b oi with
      | none => trivial
      | some slt => exact (updateCommon_ends g m hs k slt.loc).bind (fun s hs => advanced_prog hs) (fun s e h => h)
    | none =>
      simp only
      cases hd : s.data with
      | none => trivial
      | some a =>
        simp only
        cases hsl : s.h.slot? a k with
        | none => trivial
        | some slt => exact (constructNew_ends f (List.mem_of_getElem? hm) hs k slt.loc).bind (fun s hs => advanced_prog hs) (fun s e h => h)

theorem updateLoop_ends {t : TypeId} (f : NewFn) (g : UpdFn) : ∀ (n : Nat) {s : Sess} {k : Nat}, Prog E t k s → k + n ≤ (E.mixins t).length →
    Ends (ErrOf D E orc sl t f) (Prog E t (k + n)) (updateLoop D E orc f g n s)
  | 0, s, k, hs, _ => hs
  | n + 1, s, k, hs, hk => by
    unfold updateLoop
    refine (updateNext_ends f g hs (by omega)).bind (fun s hs => ?_) (fun s e h => h)
    have := updateLoop_ends f g n hs (by omega)
    rwa [show k + 1 + n = k + (n + 1) by omega] at this

theorem updateEach_ends {t : TypeId} (f : NewFn) (g : UpdFn) {s : Sess} {k : Nat} (hs : Prog E t k s) (hk : k ≤ (E.mixins t).length) :
    Ends (ErrOf D E orc sl t f) (Prog E t (E.mixins t).length) (updateEach D E orc f g none s) := by
  unfold updateEach
  simp only [Option.getD_none, Nat.min_self, hs.ty, hs.upd]
  have := updateLoop_ends (D := D) (orc := orc) (sl := sl) f g ((E.mixins t).length - k) hs (by omega)
  rwa [show k + ((E.mixins t).length - k) = (E.mixins t).length by omega] at this

theorem allocOne_ends {t : TypeId} {f : NewFn} {s : Sess} {k : Nat} (hs : Prog E t k s) : Ends (ErrOf D E orc sl t f) (Prog E t k) (allocOne D E orc s) := by
  unfold allocOne
  split
  · rename_i a m h1 h2
    split
    · exact ⟨hs.ty, hs.upd, hs.compl⟩
    · split
      · split
        · trivial
        · exact ⟨hs.ty, hs.upd, hs.compl⟩
      · split
        · rename_i h; exact ⟨_, h⟩
        · exact ⟨hs.ty, hs.upd, hs.compl⟩
  · trivial

theorem allocLoop_ends {t : TypeId} {f : NewFn} : ∀ (n : Nat) {s : Sess} {k : Nat}, Prog E t k s → Ends (ErrOf D E orc sl t f) (Prog E t k) (allocLoop D E orc n s)
  | 0, s, k, hs => hs
  | n + 1, s, k, hs => by
    unfold allocLoop
    exact (allocOne_ends hs).bind (fun s hs => allocLoop_ends n hs) (fun s e h => h)

theorem allocateMixinData_ends {t : TypeId} {f : NewFn} {s : Sess} {k : Nat} (hs : Prog E t k s) : Ends (ErrOf D E orc sl t f) (Prog E t k) (allocateMixinData D E orc s) := by
  unfold allocateMixinData
  split
  · exact ⟨hs.ty, hs.upd, hs.compl⟩
  · split
    · rename_i h; exact ⟨_, h⟩
    · exact allocLoop_ends _ ⟨hs.ty, hs.upd, hs.compl⟩

theorem dtor_ends {t : TypeId} {f : NewFn} (u : Bool) {s : Sess} (hs : Prog E t (E.mixins t).length s) : Ends (ErrOf D E orc sl t f) (fun _ => True) (s.dtor D E orc u) := by
  unfold Sess.dtor
  split
  · trivial
  · split
    · split <;> trivial
    · have h1 : updateEach D E orc .dflt .noop none s = .ok s := by
        unfold updateEach
        simp [hs.ty, hs.upd, updateLoop]
      rw [h1]
      simp only
      split <;> trivial

theorem unwindWith_ends {t : TypeId} {f : NewFn} (s : Sess) {e : XErr} (he : ErrOf D E orc sl t f e) : Ends (ErrOf D E orc sl t f) (fun _ => True) (unwindWith D E orc s e) := by
  unfold unwindWith
  cases s.dtor D E orc true with
  | ok h => exact he
  | throw h e => trivial
  | ub => trivial

/-- Why a mutation can fail. -/
theorem perform_ends (u : Bool) (h : Heap) (o : Nat) (t : TypeId) (f : NewFn) (g : UpdFn) (hsl : ∀ ob, h.obj? o = some ob → ob.isSealed = true → sl) :
    Ends (ErrOf D E orc sl t f) (fun _ => True) (perform D E orc u h o t f g) := by
  unfold perform withMutation
  cases ho : h.obj? o with
  | none => trivial
  | some ob =>
    simp only
    split
    · rename_i h1
      exact unwindWith_ends _ (hsl ob ho h1)
    · have hp : Prog E t 0 (Sess.begin h o ob t) := ⟨rfl, rfl, fun h => by simp at h⟩
      have ha := allocateMixinData_ends (D := D) (orc := orc) (sl := sl) (f := f) hp
      cases hr : allocateMixinData D E orc (Sess.begin h o ob t) with
      | ub => trivial
      | throw s e =>
        rw [hr] at ha
        exact unwindWith_ends _ ha
      | ok s =>
        rw [hr] at ha
        simp only
        have hm : Ends (ErrOf D E orc sl t f) (Prog E t (E.mixins t).length) (msteps D E orc [(.each f g none, false)] s) := by
          unfold msteps mstep
          exact (updateEach_ends f g ha (by omega)).bind (fun s hs => by unfold msteps; exact hs) (fun s e h => h)
        exact hm.bind (fun s hs => dtor_ends u hs) (fun s e he => unwindWith_ends s he)

theorem unwindObject_ends {P : XErr → Prop} (o : Nat) (h : Heap) {e : XErr} (he : P e) : Ends P (fun _ => True) (unwindObject D E o h e) := by
  unfold unwindObject destroyObject
  cases clearMixinData D E h o with
  | none => trivial
  | some h => exact he

theorem resetType_ends (u : Bool) (h : Heap) (o : Nat) (t : TypeId) (hsl : ∀ ob, h.obj? o = some ob → ob.isSealed = true → sl) :
    Ends (ErrOf D E orc sl t .dflt) (fun _ => True) (resetType D E orc u h o t) := by
  unfold resetType
  cases ho : h.obj? o with
  | none => trivial
  | some ob =>
    simp only
    split
    · rename_i h1; exact hsl ob ho h1
    · split
      · trivial
      · split
        · split
          · trivial
          · split <;> trivial
        · exact perform_ends u h o t .dflt .noop hsl

theorem newNull_unsealed {h : Heap} {al : Nat} (ob : Obj) (ho : (newNull h al).obj? h.objs.length = some ob) (hs : ob.isSealed = true) : False := by
  simp [newNull, Heap.obj?] at ho
  subst ho; simp at hs

theorem newOfType_ends (u : Bool) (h : Heap) (t : TypeId) (al : Nat) (sd : Bool) : Ends (ErrOf D E orc False t .dflt) (fun _ => True) (newOfType D E orc u h t al sd) := by
  unfold newOfType
  refine (resetType_ends u _ _ t newNull_unsealed).bind (fun h _ => ?_) (fun h e he => unwindObject_ends _ h he)
  split <;> trivial

theorem copyObject_ends (u : Bool) (h : Heap) (src al : Nat) {sb : Obj} (hs : h.obj? src = some sb) {t : TypeId} (ht : sb.ty = some t) :
    Ends (ErrOf D E orc False t (.copy src true)) (fun _ => True) (copyObject D E orc u h src al) := by
  unfold copyObject
  simp only [hs, ht]
  cases hd : sb.data with
  | none => trivial
  | some a => exact (perform_ends u _ _ t (.copy src true) .noop newNull_unsealed).bind (fun h _ => trivial) (fun h e he => unwindObject_ends _ h he)

theorem copyCheck_some {own : TypeId} {m : Mix} : ∀ {ms : List Mix}, copyFromCheck D E own ms = some m → m ∈ ms ∧
    ((E.indexOf own m).isSome = true ∧ (D.mix m).hasCopyAsgn = false ∨ (E.indexOf own m).isSome = false ∧ (D.mix m).hasCopyInit = false)
  | [], h => by simp [copyFromCheck] at h
  | m' :: ms, h => by
    unfold copyFromCheck at h
    by_cases h1 : (E.indexOf own m').isSome = true
    · simp only [h1, if_true] at h
      by_cases h2 : (D.mix m').hasCopyAsgn = true
      · simp only [h2, if_true] at h
        obtain ⟨h3, h4⟩ := copyCheck_some h
        exact ⟨by simp [h3], h4⟩
      · simp only [h2, if_false, Bool.false_eq_true] at h
        simp at h; subst h
        exact ⟨by simp, .inl ⟨h1, by simpa using h2⟩⟩
    · simp only [h1, if_false, Bool.false_eq_true] at h
      by_cases h2 : (D.mix m').hasCopyInit = true
      · simp only [h2, if_true] at h
        obtain ⟨h3, h4⟩ := copyCheck_some h
        exact ⟨by simp [h3], h4⟩
      · simp only [h2, if_false, Bool.false_eq_true] at h
        simp at h; subst h
        exact ⟨by simp, .inr ⟨by simpa using h1, by simpa using h2⟩⟩

/-- The check succeeds exactly if there is a function for each mixin. -/
theorem copyCheck_none {own : TypeId} : ∀ {ms : List Mix}, copyFromCheck D E own ms = none → ∀ m ∈ ms, if (E.indexOf own m).isSome = true then (D.mix m).hasCopyAsgn = true else (D.mix m).hasCopyInit = true
  | [], h, m, hm => by simp at hm
  | m' :: ms, h, m, hm => by
    unfold copyFromCheck at h
    by_cases h1 : (E.indexOf own m').isSome = true
    · simp only [h1, if_true] at h
      by_cases h2 : (D.mix m').hasCopyAsgn = true
      · simp only [h2, if_true] at h
        rcases List.mem_cons.1 hm with rfl | hm
        · simp [h1, h2]
        · exact copyCheck_none h m hm
      · simp [h2] at h
    · simp only [h1, if_false, Bool.false_eq_true] at h
      by_cases h2 : (D.mix m').hasCopyInit = true
      · simp only [h2, if_true] at h
        rcases List.mem_cons.1 hm with rfl | hm
        · simp [h1, h2]
        · exact copyCheck_none h m hm
      · simp [h2] at h

/-- Why `copy_from` can fail. -/
theorem copyFrom_ends (u : Bool) (h : Heap) (o src : Nat) {ob sb : Obj} (ho : h.obj? o = some ob) (hs : h.obj? src = some sb) {t own : TypeId} (ht : sb.ty = some t) (hown : ob.ty = some own)
    (hd : sb.data ≠ none) (hc : copyFromCheck D E own (E.mixins t) = none) :
    Ends (fun e => (e = .isSealed → ob.isSealed = true) ∧ (∀ m, e ≠ .missingFunc m) ∧ ((∀ n, orc.fail n = false) → e = .isSealed)) (fun _ => True) (copyFrom D E orc u h o src) := by
  unfold copyFrom
  simp only [ho, hs, ht, hown]
  cases hd' : sb.data with
  | none => exact absurd hd' hd
  | some a =>
    simp only [hc]
    have := perform_ends (D := D) (E := E) (orc := orc) (sl := ob.isSealed = true) u h o t (.copy src false) (.assign src) (fun ob' h1 h2 => by rw [ho] at h1; simp at h1; subst h1; exact h2)
    cases hx : perform D E orc u h o t (.copy src false) (.assign src) with
    | ok h => trivial
    | ub => trivial
    | throw h e =>
      rw [hx] at this
      cases e with
      | isSealed => exact ⟨fun _ => this, by simp, fun _ => rfl⟩
      | missingFunc m => simp [Ends, ErrOf, Lacks] at this
      | user n => exact ⟨by simp, by simp, fun hn => by have h1 : orc.fail n = true := this; rw [hn] at h1; simp at h1⟩
      | badAlloc => exact ⟨by simp, by simp, fun hn => by obtain ⟨n, h1⟩ := this; rw [hn] at h1; simp at h1⟩
      | outOfOrder => exact this.elim
      | allocMismatch => exact this.elim
      | outside => exact this.elim

end Dnmx
