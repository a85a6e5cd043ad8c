import Verif.Proofs.ObjMessageExact

/-!
# Texts of exceptions of all operations on objects
-/

set_option linter.unusedSimpArgs false
set_option linter.unusedVariables false
set_option linter.unusedSectionVars false

namespace Dnmx
open Spec

variable {D : Decls} {E : TyEnv} {orc : Orc} {T : Telling}

/-! ## Steps by hand -/

/-- An exception about a mixin of the type. -/
def AboutMixin (D : Decls) (E : TyEnv) (orc : Orc) (T : Telling) (t : TypeId) (F : NewFn → UpdFn → Prop) (x : ObjThrown) : Prop :=
  ∃ m n already f g, m ∈ E.mixins t ∧ F f g ∧ FnSays D E orc T t m n already f g x

theorem typed_next (f : NewFn) (g : UpdFn) (s : Sess) :
    ToldBy (updateNext D E orc f g s) (nextThrows D E orc T f g s) (fun s' => s'.ty = s.ty) (AboutMixin D E orc T s.ty (fun f' g' => f' = f ∧ g' = g)) := by
  have hty := updateNext_ty (D := D) (E := E) (orc := orc) (f := f) (g := g) (s := s)
  cases hr : updateNext D E orc f g s with
  | ub => trivial
  | ok s' => rw [hr] at hty; exact ⟨nextThrows_ok hr, hty⟩
  | throw s' e =>
    obtain ⟨m, x, h1, h2, h3, h4⟩ := updateNext_throw_facts (T := T) hr
    exact ⟨x, h2, h3, m, _, _, f, g, mem_of_at h1, ⟨rfl, rfl⟩, h4⟩

theorem typed_loop (f : NewFn) (g : UpdFn) : ∀ (n : Nat) (s : Sess),
    ToldBy (updateLoop D E orc f g n s) (loopThrows D E orc T f g n s) (fun s' => s'.ty = s.ty) (AboutMixin D E orc T s.ty (fun f' g' => f' = f ∧ g' = g))
  | 0, s => ⟨rfl, rfl⟩
  | n + 1, s => by
    unfold updateLoop loopThrows
    have h1 := typed_next (D := D) (E := E) (orc := orc) (T := T) f g s
    revert h1
    cases updateNext D E orc f g s with
    | ub => intro _; trivial
    | throw s' e => intro h1; exact h1
    | ok s' =>
      intro ⟨_, h2⟩
      have := typed_loop f g n s'
      rw [h2] at this
      exact this

theorem typed_each (f : NewFn) (g : UpdFn) (upto : Option Nat) (s : Sess) :
    ToldBy (updateEach D E orc f g upto s) (eachThrows D E orc T f g upto s) (fun s' => s'.ty = s.ty) (AboutMixin D E orc T s.ty (fun f' g' => f' = f ∧ g' = g)) :=
  typed_loop f g _ s

theorem loop_ty (f : NewFn) (g : UpdFn) : ∀ (n : Nat) (s : Sess), RSess (fun s' => s'.ty = s.ty) (updateLoop D E orc f g n s)
  | 0, s => rfl
  | n + 1, s => by
    unfold updateLoop
    have h1 := updateNext_ty (D := D) (E := E) (orc := orc) (f := f) (g := g) (s := s)
    revert h1
    cases updateNext D E orc f g s with
    | ub => intro _; trivial
    | throw s' e => intro h1; exact h1
    | ok s' =>
      intro h2
      have := loop_ty f g n s'
      have h3 : s'.ty = s.ty := h2
      rw [h3] at this
      exact this

theorem rollback_ty {s s' : Sess} (hr : rollback D E s = some s') : s'.ty = s.ty := by
  unfold rollback at hr
  split at hr
  · injection hr with hr; subst hr; rfl
  · split at hr
    · cases hr
    · split at hr
      · injection hr with hr; subst hr; rfl
      · obtain ⟨h1, _, h2⟩ := Option.map_eq_some_iff.1 hr
        subst h2; rfl

theorem finalize_ty {s s' : Sess} (hr : finalize D E orc s = some s') : s'.ty = s.ty := by
  unfold finalize at hr
  split at hr
  · injection hr with hr; subst hr; rfl
  · split at hr
    · injection hr with hr; subst hr; rfl
    · split at hr
      · injection hr with hr; subst hr; exact (attach_parts _ _).2.2.1
      · split at hr
        · cases hr
        · split at hr
          · cases hr
          · injection hr with hr; subst hr; exact (attach_parts _ _).2.2.1
      · cases hr

/-- All exceptions of a step, in whichever state. -/
def StepSays (D : Decls) (E : TyEnv) (orc : Orc) (T : Telling) (t : TypeId) (st : MStep) (x : ObjThrown) : Prop :=
  AboutMixin D E orc T t (fun f g => (f = .dflt ∧ g = .noop) ∨ st = .next f g ∨ (∃ upto, st = .each f g upto) ∨ ∃ i, st = .at i f g) x ∨
  (∃ i f g, st = .at i f g ∧ x = ⟨.outOfOrder, some (about E T t "piecewise mutation out of order while mtating to")⟩) ∨
  (st = .throw ∧ x = ⟨.outside, none⟩)

theorem AboutMixin.mono {t : TypeId} {F F' : NewFn → UpdFn → Prop} {x : ObjThrown} (h : AboutMixin D E orc T t F x) (hF : ∀ f g, F f g → F' f g) :
    AboutMixin D E orc T t F' x := by
  obtain ⟨m, n, a, f, g, h1, h2, h3⟩ := h
  exact ⟨m, n, a, f, g, h1, hF f g h2, h3⟩

theorem typed_mstep (s : Sess) (st : MStep) :
    ToldBy (mstep D E orc s st) (mstepThrows D E orc T s st) (fun s' => s'.ty = s.ty) (StepSays D E orc T s.ty st) ∧
      RSess (fun s' => s'.ty = s.ty) (mstep D E orc s st) := by
  cases st with
  | next f g =>
    refine ⟨(typed_next f g s).mono (fun _ h => h) (fun x hx => .inl (hx.mono ?_)), updateNext_ty⟩
    rintro f' g' ⟨rfl, rfl⟩; exact .inr (.inl rfl)
  | each f g upto =>
    refine ⟨(typed_each f g upto s).mono (fun _ h => h) (fun x hx => .inl (hx.mono ?_)), loop_ty f g _ s⟩
    rintro f' g' ⟨rfl, rfl⟩; exact .inr (.inr (.inl ⟨upto, rfl⟩))
  | «at» i f g =>
    simp only [mstep, mstepThrows, updateAt, atThrows]
    by_cases hi : i < s.updated ∨ i > (E.mixins s.ty).length
    · rw [if_pos hi, if_pos hi]
      exact ⟨⟨_, rfl, rfl, .inr (.inl ⟨i, f, g, rfl, rfl⟩)⟩, rfl⟩
    · rw [if_neg hi, if_neg hi]
      have h1 := typed_each (D := D) (E := E) (orc := orc) (T := T) .dflt .noop (some i) s
      have h1' : RSess (fun s' => s'.ty = s.ty) (updateEach D E orc .dflt .noop (some i) s) := loop_ty _ _ _ s
      revert h1 h1'
      cases hr : updateEach D E orc .dflt .noop (some i) s with
      | ub => intro _ _; exact ⟨trivial, trivial⟩
      | throw s1 e =>
        intro h1 h1'
        refine ⟨?_, h1'⟩
        obtain ⟨x, h2, h3, h4⟩ := h1
        refine ⟨x, h2, h3, .inl (h4.mono ?_)⟩
        rintro f' g' ⟨rfl, rfl⟩; exact .inl ⟨rfl, rfl⟩
      | ok s1 =>
        intro ⟨_, h2⟩ _
        have h3 := typed_next (D := D) (E := E) (orc := orc) (T := T) f g s1
        have h4 := updateNext_ty (D := D) (E := E) (orc := orc) (f := f) (g := g) (s := s1)
        rw [h2] at h3 h4
        refine ⟨?_, h4⟩
        refine h3.mono (fun _ h => h) (fun x hx => .inl (hx.mono ?_))
        rintro f' g' ⟨rfl, rfl⟩; exact .inr (.inr (.inr ⟨i, rfl⟩))
  | finalize =>
    simp only [mstep, mstepThrows]
    cases hr : finalize D E orc s with
    | none => exact ⟨trivial, trivial⟩
    | some s' => exact ⟨⟨rfl, finalize_ty hr⟩, finalize_ty hr⟩
  | rollback =>
    simp only [mstep, mstepThrows]
    cases hr : rollback D E s with
    | none => exact ⟨trivial, trivial⟩
    | some s' => exact ⟨⟨rfl, rollback_ty hr⟩, rollback_ty hr⟩
  | throw => exact ⟨⟨_, rfl, rfl, .inr (.inr ⟨rfl, rfl⟩)⟩, rfl⟩

theorem typed_msteps : ∀ (steps : List (MStep × Bool)) (s : Sess),
    ToldBy (msteps D E orc steps s) (mstepsThrows D E orc T steps s) (fun s' => s'.ty = s.ty) (fun x => ∃ st, (st, false) ∈ steps ∧ StepSays D E orc T s.ty st x)
  | [], s => ⟨rfl, rfl⟩
  | (st, caught) :: rest, s => by
    rw [msteps, mstepsThrows]
    obtain ⟨h1, h2⟩ := typed_mstep (D := D) (E := E) (orc := orc) (T := T) s st
    revert h1 h2
    cases mstep D E orc s st with
    | ub => intro _ _; trivial
    | ok s' =>
      intro ⟨_, h1⟩ _
      have := typed_msteps rest s'
      rw [h1] at this
      exact this.mono (fun _ h => h) (fun x ⟨st, h3, h4⟩ => ⟨st, by simp [h3], h4⟩)
    | throw s' e =>
      intro h1 h2
      have h2' : s'.ty = s.ty := h2
      cases caught with
      | true =>
        have := typed_msteps rest s'
        rw [h2'] at this
        exact this.mono (fun _ h => h) (fun x ⟨st, h3, h4⟩ => ⟨st, by simp [h3], h4⟩)
      | false =>
        obtain ⟨x, h3, h4, h5⟩ := h1
        exact ⟨x, h3, h4, st, by simp, h5⟩

theorem stepsSay_of_step {h : Heap} {ob : Obj} {t : TypeId} {steps : List (MStep × Bool)} {st : MStep} (hst : (st, false) ∈ steps) {x : ObjThrown}
    (hx : StepSays D E orc T t st x) : StepsSay D E orc T h ob t steps x := by
  rcases hx with ⟨m, n, a, f, g, h1, h2, h3⟩ | ⟨i, f, g, h1, h2⟩ | ⟨h1, h2⟩
  · refine .mixin m n a f g h1 ?_ h3
    rcases h2 with h2 | h2
    · exact .inl h2
    · exact .inr ⟨st, false, hst, h2⟩
  · subst h1; exact .outOfOrder i f g hst h2
  · subst h1; exact .outside hst h2

section
variable (hE : EnvOk D E)
include hE

theorem told_steps (u : Bool) {h : Heap} {o : Nat} {ob : Obj} (ho : h.obj? o = some ob) (t : TypeId) (steps : List (MStep × Bool)) :
    ToldBy (withMutation D E orc u h o t steps) (mutationThrows D E orc T u h o t steps) (fun _ => True) (StepsSay D E orc T h ob t steps) := by
  unfold withMutation mutationThrows
  rw [ho]
  simp only
  cases hsl : ob.isSealed with
  | true =>
    simp only [if_true]
    exact told_of_unwind (unwindWith_cases hE _ _) ⟨_, rfl, rfl, .sealed ⟨hsl, rfl⟩⟩
  | false =>
    simp only [Bool.false_eq_true, if_false]
    have hal := told_allocate (orc := orc) (c := false) (fs := fun _ _ => True) hE (h := h) (ob := ob) (t := t) o
    revert hal
    cases allocateMixinData D E orc (Sess.begin h o ob t) with
    | ub => intro _; trivial
    | throw s1 e =>
      intro hal
      exact told_of_unwind (unwindWith_cases hE _ _) ⟨_, rfl, rfl, .alloc hal⟩
    | ok s1 =>
      intro ⟨h1, h2, h3⟩
      simp only
      have h4 := typed_msteps (D := D) (E := E) (orc := orc) (T := T) steps s1
      rw [h1.ty] at h4
      revert h4
      cases msteps D E orc steps s1 with
      | ub => intro _; trivial
      | throw s2 e =>
        intro ⟨x, h5, h6, st, h7, h8⟩
        exact told_of_unwind (unwindWith_cases hE _ _) ⟨x, h5, h6, stepsSay_of_step h7 h8⟩
      | ok s2 =>
        intro ⟨h5, h6⟩
        simp only [Res.bind]
        unfold Sess.dtor dtorThrows
        cases s2.movedOut with
        | true => exact ⟨rfl, trivial⟩
        | false =>
          simp only [Bool.false_eq_true, if_false]
          cases u with
          | true =>
            simp only [if_true]
            cases rollback D E s2 with
            | none => trivial
            | some s1 => exact ⟨rfl, trivial⟩
          | false =>
            simp only [Bool.false_eq_true, if_false]
            have hmain := typed_each (D := D) (E := E) (orc := orc) (T := T) .dflt .noop none s2
            rw [h6] at hmain
            revert hmain
            cases updateEach D E orc .dflt .noop none s2 with
            | ub => intro _; trivial
            | throw s3 e =>
              intro ⟨x, h7, h8, m, n, a, f, g, h9, ⟨hf, hg⟩, h10⟩
              subst hf; subst hg
              simp only
              cases rollback D E s3 with
              | none => trivial
              | some s4 => exact ⟨x, h7, h8, .mixin m n a .dflt .noop h9 (.inl ⟨rfl, rfl⟩) h10⟩
            | ok s3 =>
              intro hmain
              simp only
              split
              · trivial
              · exact ⟨hmain.1, trivial⟩

/-! ## Checks -/

theorem copyFromCheck_split {own t : TypeId} {m : Mix} : ∀ (l : List Mix), (∀ y ∈ l, y ∈ E.mixins t) → copyFromCheck D E own l = some m →
    ∃ pre post, l = pre ++ m :: post ∧ (∀ y ∈ pre, if y ∈ E.mixins own then (D.mix y).hasCopyAsgn = true else (D.mix y).hasCopyInit = true) ∧
      (if m ∈ E.mixins own then (D.mix m).hasCopyAsgn = false else (D.mix m).hasCopyInit = false)
  | [], _, hr => by simp [copyFromCheck] at hr
  | y :: l, hl, hr => by
    have hiff : (E.indexOf own y).isSome = true ↔ y ∈ E.mixins own := by
      constructor
      · intro h
        obtain ⟨i, hi⟩ := Option.isSome_iff_exists.1 h
        exact mem_of_at ((hE.index own t y i (hl y (by simp))).1 hi)
      · intro h
        obtain ⟨i, hi⟩ := List.mem_iff_getElem?.1 h
        rw [(hE.index own t y i (hl y (by simp))).2 hi]; rfl
    unfold copyFromCheck at hr
    have hrec : copyFromCheck D E own l = some m → (if y ∈ E.mixins own then (D.mix y).hasCopyAsgn = true else (D.mix y).hasCopyInit = true) →
        ∃ pre post, y :: l = pre ++ m :: post ∧ (∀ y ∈ pre, if y ∈ E.mixins own then (D.mix y).hasCopyAsgn = true else (D.mix y).hasCopyInit = true) ∧
          (if m ∈ E.mixins own then (D.mix m).hasCopyAsgn = false else (D.mix m).hasCopyInit = false) := by
      intro h1 h2
      obtain ⟨pre, post, h3, h4, h5⟩ := copyFromCheck_split l (fun z hz => hl z (by simp [hz])) h1
      exact ⟨y :: pre, post, by rw [h3]; rfl, fun z hz => (List.mem_cons.1 hz).elim (fun e => e ▸ h2) (h4 z), h5⟩
    by_cases hy : y ∈ E.mixins own
    · rw [if_pos (hiff.2 hy)] at hr
      cases hc : (D.mix y).hasCopyAsgn with
      | true => rw [hc, if_pos rfl] at hr; exact hrec hr (by rw [if_pos hy]; exact hc)
      | false =>
        rw [hc] at hr
        simp only [Bool.false_eq_true, if_false] at hr
        injection hr with hr; subst hr
        exact ⟨[], l, rfl, by simp, by rw [if_pos hy]; exact hc⟩
    · rw [if_neg (fun h => hy (hiff.1 h))] at hr
      cases hc : (D.mix y).hasCopyInit with
      | true => rw [hc, if_pos rfl] at hr; exact hrec hr (by rw [if_neg hy]; exact hc)
      | false =>
        rw [hc] at hr
        simp only [Bool.false_eq_true, if_false] at hr
        injection hr with hr; subst hr
        exact ⟨[], l, rfl, by simp, by rw [if_neg hy]; exact hc⟩

theorem copyFromCheck_all {own t : TypeId} : ∀ (l : List Mix), (∀ y ∈ l, y ∈ E.mixins t) → copyFromCheck D E own l = none →
    ∀ y ∈ l, if y ∈ E.mixins own then (D.mix y).hasCopyAsgn = true else (D.mix y).hasCopyInit = true
  | [], _, _ => by intro y hy; cases hy
  | z :: l, hl, hr => by
    have hiff : (E.indexOf own z).isSome = true ↔ z ∈ E.mixins own := by
      constructor
      · intro h
        obtain ⟨i, hi⟩ := Option.isSome_iff_exists.1 h
        exact mem_of_at ((hE.index own t z i (hl z (by simp))).1 hi)
      · intro h
        obtain ⟨i, hi⟩ := List.mem_iff_getElem?.1 h
        rw [(hE.index own t z i (hl z (by simp))).2 hi]; rfl
    have hrec := copyFromCheck_all (own := own) l (fun y hy => hl y (by simp [hy]))
    unfold copyFromCheck at hr
    intro y hy
    by_cases hz : z ∈ E.mixins own
    · rw [if_pos (hiff.2 hz)] at hr
      cases hc : (D.mix z).hasCopyAsgn with
      | false => rw [hc] at hr; simp at hr
      | true =>
        rw [hc, if_pos rfl] at hr
        rcases List.mem_cons.1 hy with hy | hy
        · subst hy; rw [if_pos hz]; exact hc
        · exact hrec hr y hy
    · rw [if_neg (fun h => hz (hiff.1 h))] at hr
      cases hc : (D.mix z).hasCopyInit with
      | false => rw [hc] at hr; simp at hr
      | true =>
        rw [hc, if_pos rfl] at hr
        rcases List.mem_cons.1 hy with hy | hy
        · subst hy; rw [if_neg hz]; exact hc
        · exact hrec hr y hy

theorem contains_index {own t : TypeId} {y : Mix} (hy : y ∈ E.mixins t) : (E.mixins own).contains y = (E.indexOf own y).isSome := by
  rw [Bool.eq_iff_iff, List.contains_iff_mem]
  constructor
  · intro h
    obtain ⟨i, hi⟩ := List.mem_iff_getElem?.1 h
    rw [(hE.index own t y i hy).2 hi]; rfl
  · intro h
    obtain ⟨i, hi⟩ := Option.isSome_iff_exists.1 h
    exact mem_of_at ((hE.index own t y i hy).1 hi)

omit hE in
/-- The first element for which something does not hold. -/
theorem first_of_split {p : Mix → Bool} {q : Mix → Bool} {m : Mix} (check : List Mix → Option Mix) (hnil : check [] = none)
    (hcons : ∀ y l, check (y :: l) = if p y && !q y then some y else check l) : ∀ (l : List Mix), check l = some m →
    ∃ pre post, l.filter p = pre ++ m :: post ∧ (∀ y ∈ pre, q y = true) ∧ q m = false
  | [], hr => by rw [hnil] at hr; cases hr
  | y :: l, hr => by
    rw [hcons] at hr
    cases hp : p y with
    | false =>
      simp only [hp, Bool.false_and, Bool.false_eq_true, if_false] at hr
      rw [List.filter_cons_of_neg (by simp [hp])]
      exact first_of_split check hnil hcons l hr
    | true =>
      rw [List.filter_cons_of_pos (by simp [hp])]
      cases hq : q y with
      | false =>
        simp only [hp, hq, Bool.not_false, Bool.and_self, if_true] at hr
        injection hr with hr; subst hr
        exact ⟨[], _, rfl, by simp, hq⟩
      | true =>
        simp only [hp, hq, Bool.not_true, Bool.and_false, Bool.false_eq_true, if_false] at hr
        obtain ⟨pre, post, h3, h4, h5⟩ := first_of_split check hnil hcons l hr
        exact ⟨y :: pre, post, by rw [h3]; rfl, fun z hz => (List.mem_cons.1 hz).elim (fun e => e ▸ hq) (h4 z), h5⟩

omit hE in
theorem all_of_none {p : Mix → Bool} {q : Mix → Bool} (check : List Mix → Option Mix)
    (hcons : ∀ y l, check (y :: l) = if p y && !q y then some y else check l) : ∀ (l : List Mix), check l = none → ∀ y ∈ l.filter p, q y = true
  | [], _ => by intro y hy; cases hy
  | z :: l, hr => by
    rw [hcons] at hr
    cases hpq : p z && !q z with
    | true => rw [hpq] at hr; simp at hr
    | false =>
      rw [hpq] at hr
      simp only [Bool.false_eq_true, if_false] at hr
      intro y hy
      obtain ⟨h1, h2⟩ := List.mem_filter.1 hy
      rcases List.mem_cons.1 h1 with h1 | h1
      · subst h1
        rw [h2] at hpq; simpa using hpq
      · exact all_of_none check hcons l hr y (List.mem_filter.2 ⟨h1, h2⟩)

omit hE in
theorem filter_same {p p' : Mix → Bool} : ∀ {l : List Mix}, (∀ y ∈ l, p y = p' y) → l.filter p = l.filter p'
  | [], _ => rfl
  | y :: l, h => by
    rw [List.filter_cons, List.filter_cons, h y (by simp), filter_same (fun z hz => h z (by simp [hz]))]

theorem common_index (own t : TypeId) : commonMixins E own t = (E.mixins t).filter (fun m => (E.indexOf own m).isSome) :=
  filter_same (fun y hy => contains_index hE hy)

theorem copyMatchingCheck_first {own t : TypeId} {m : Mix} (hr : copyMatchingCheck D E own (E.mixins t) = some m) :
    ∃ pre post, commonMixins E own t = pre ++ m :: post ∧ (∀ y ∈ pre, (D.mix y).hasCopyAsgn = true) ∧ (D.mix m).hasCopyAsgn = false := by
  rw [common_index hE]
  refine first_of_split (p := fun m => (E.indexOf own m).isSome) (q := fun m => (D.mix m).hasCopyAsgn) (copyMatchingCheck D E own) rfl ?_ _ hr
  intro y l
  rw [copyMatchingCheck]
  cases (E.indexOf own y).isSome <;> cases (D.mix y).hasCopyAsgn <;> simp

theorem moveMatchingCheck_first {own t : TypeId} {fb : Bool} {m : Mix} (hr : moveMatchingCheck D E own fb (E.mixins t) = some m) :
    ∃ pre post, commonMixins E own t = pre ++ m :: post ∧ (∀ y ∈ pre, (D.mix y).hasMoveAsgn = true ∨ (fb = true ∧ (D.mix y).hasMoveInit = true)) ∧
      (D.mix m).hasMoveAsgn = false ∧ (fb = true → (D.mix m).hasMoveInit = false) := by
  rw [common_index hE]
  obtain ⟨pre, post, h1, h2, h3⟩ := first_of_split (p := fun m => (E.indexOf own m).isSome) (q := fun m => (D.mix m).hasMoveAsgn || (fb && (D.mix m).hasMoveInit))
    (moveMatchingCheck D E own fb) rfl (by
      intro y l
      rw [moveMatchingCheck]
      cases (E.indexOf own y).isSome <;> cases (D.mix y).hasMoveAsgn <;> cases fb <;> cases (D.mix y).hasMoveInit <;> simp) _ hr
  refine ⟨pre, post, h1, fun y hy => ?_, ?_⟩
  · have := h2 y hy
    simpa using this
  · simpa using h3

theorem copyMatchingCheck_all {own t : TypeId} (hr : copyMatchingCheck D E own (E.mixins t) = none) : ∀ y ∈ commonMixins E own t, (D.mix y).hasCopyAsgn = true := by
  rw [common_index hE]
  refine all_of_none (p := fun m => (E.indexOf own m).isSome) (q := fun m => (D.mix m).hasCopyAsgn) (copyMatchingCheck D E own) ?_ _ hr
  intro y l
  rw [copyMatchingCheck]
  cases (E.indexOf own y).isSome <;> cases (D.mix y).hasCopyAsgn <;> simp

theorem moveMatchingCheck_all {own t : TypeId} {fb : Bool} (hr : moveMatchingCheck D E own fb (E.mixins t) = none) :
    ∀ y ∈ commonMixins E own t, (D.mix y).hasMoveAsgn = true ∨ (fb = true ∧ (D.mix y).hasMoveInit = true) := by
  rw [common_index hE]
  intro y hy
  have := all_of_none (p := fun m => (E.indexOf own m).isSome) (q := fun m => (D.mix m).hasMoveAsgn || (fb && (D.mix m).hasMoveInit))
    (moveMatchingCheck D E own fb) (by
      intro y l
      rw [moveMatchingCheck]
      cases (E.indexOf own y).isSome <;> cases (D.mix y).hasMoveAsgn <;> cases fb <;> cases (D.mix y).hasMoveInit <;> simp) _ hr y hy
  simpa using this

/-- The loop of `copy_matching_from`. -/
theorem told_copyMatchingLoop {own : TypeId} (a b : Option Nat) {n : Nat} {all : List Mix} : ∀ (ms : List Mix) (i : Nat) (h : Heap) (pre : List Mix),
    all = pre ++ ms.filter (fun m => (E.indexOf own m).isSome) → h.tick = n + pre.length → (∀ j, j < pre.length → orc.fail (n + j) = false) →
    ToldBy (copyMatchingLoop D E orc own a b i ms h) (copyMatchingLoopThrows D E orc T own a b i ms h) (fun _ => ∀ j, j < all.length → orc.fail (n + j) = false)
      (fun x => ∃ (i : Nat) (m : Mix), all[i]? = some m ∧ orc.fail (n + i) = true ∧ (∀ j, j < i → orc.fail (n + j) = false) ∧
        x = failedWith E T own "copy_matching_from" "copy assign" m (n + i))
  | [], i, h, pre, hall, _, hok => ⟨rfl, by rw [hall]; simpa using hok⟩
  | m :: ms, i, h, pre, hall, ht, hok => by
    rw [copyMatchingLoop, copyMatchingLoopThrows]
    cases hix : E.indexOf own m with
    | none =>
      simp only
      rw [List.filter_cons_of_neg (by simp [hix])] at hall
      exact told_copyMatchingLoop a b ms (i + 1) h pre hall ht hok
    | some oi =>
      simp only
      rw [List.filter_cons_of_pos (by simp [hix])] at hall
      split
      · next l m' v' sl m'' v h1 h2 =>
        simp only [h1, h2]
        by_cases hbad : m' ≠ m ∨ m'' ≠ m ∨ (D.mix m).hasCopyAsgn = false
        · rw [if_pos hbad]; trivial
        · rw [if_neg hbad, if_neg hbad]
          cases hf : orc.fail h.tick with
          | true =>
            simp only [if_true]
            refine ⟨_, rfl, rfl, pre.length, m, by rw [hall]; simp, by rw [← ht]; exact hf, hok, ?_⟩
            rw [← ht]; rfl
          | false =>
            simp only [Bool.false_eq_true, if_false]
            refine told_copyMatchingLoop a b ms (i + 1) _ (pre ++ [m]) (by rw [hall]; simp) (by simp [ht]; omega) ?_
            intro j hj
            by_cases hlast : j = pre.length
            · subst hlast; rw [← ht]; exact hf
            · exact hok j (by simp at hj; omega)
      · trivial

/-! ## Operations -/

omit hE in
theorem newNull_obj (h : Heap) (al : Nat) : (newNull h al).obj? h.objs.length = some ⟨none, none, false, al⟩ := by
  unfold newNull Heap.obj?; simp

omit hE in
theorem mutSays_new {h : Heap} {al : Nat} {ob : Obj} {t : TypeId} {fs : Mix → NewFn → Prop} {g : UpdFn} {x : ObjThrown} (hx : MutSays D E orc T (newNull h al) ob t fs g x) :
    MutSays D E orc T h ob t fs g x := by
  cases hx with
  | «sealed» h1 => exact .sealed h1
  | alloc h1 h2 => exact .alloc h1 h2
  | mixin h1 h2 h3 => exact .mixin h1 h2 h3

omit hE in
theorem mutSays_old {h : Heap} {al : Nat} {ob : Obj} {t : TypeId} {fs : Mix → NewFn → Prop} {g : UpdFn} {x : ObjThrown} (hx : MutSays D E orc T h ob t fs g x) :
    MutSays D E orc T (newNull h al) ob t fs g x := by
  cases hx with
  | «sealed» h1 => exact .sealed h1
  | alloc h1 h2 => exact .alloc h1 h2
  | mixin h1 h2 h3 => exact .mixin h1 h2 h3

theorem unwindObject_cases (o : Nat) (h : Heap) (e : XErr) : unwindObject D E o h e = .ub ∨ ∃ h', unwindObject D E o h e = .throw h' e := by
  unfold unwindObject destroyObject
  cases clearMixinData D E h o with
  | none => exact .inl rfl
  | some h1 => exact .inr ⟨_, rfl⟩

omit hE in
theorem moveMatchingLoop_nothrow (own : TypeId) (a b : Option Nat) : ∀ (ms : List Mix) (i : Nat) (h h' : Heap) (e : XErr), moveMatchingLoop D E orc own a b i ms h ≠ .throw h' e
  | [], i, h, h', e => by simp [moveMatchingLoop]
  | m :: ms, i, h, h', e => by
    rw [moveMatchingLoop]
    repeat' split
    all_goals first
      | exact moveMatchingLoop_nothrow own a b ms _ _ _ _
      | simp

/-- Exceptions of `reset_type`. -/
def ResetSays (D : Decls) (E : TyEnv) (orc : Orc) (T : Telling) (h : Heap) (ob : Obj) (t : TypeId) (x : ObjThrown) : Prop :=
  SealedSays E T ob "reset_type" x ∨ (ob.isSealed = false ∧ ob.ty ≠ some t ∧ E.mixins t ≠ [] ∧ MutSays D E orc T h ob t (always .dflt) .noop x)

theorem told_reset (u : Bool) {h : Heap} {o : Nat} {ob : Obj} (ho : h.obj? o = some ob) (t : TypeId) :
    ToldBy (resetType D E orc u h o t) (resetThrows D E orc T u h o t) (fun _ => u = false → ∀ x, ¬ ResetSays D E orc T h ob t x) (ResetSays D E orc T h ob t) := by
  unfold resetType resetThrows
  rw [ho]
  simp only
  cases hsl : ob.isSealed with
  | true => simp only [if_true]; exact ⟨_, rfl, rfl, .inl ⟨hsl, rfl⟩⟩
  | false =>
    simp only [Bool.false_eq_true, if_false]
    by_cases hty : ob.ty = some t
    · rw [if_pos hty, if_pos hty]
      refine ⟨rfl, fun _ x => ?_⟩
      rintro (⟨hx, _⟩ | ⟨_, hx, _⟩)
      · rw [hsl] at hx; cases hx
      · exact hx hty
    · rw [if_neg hty, if_neg hty]
      by_cases hne : (E.mixins t).length = 0
      · rw [if_pos hne, if_pos hne]
        split
        · trivial
        · split
          · trivial
          · refine ⟨rfl, fun _ x => ?_⟩
            rintro (⟨hx, _⟩ | ⟨_, _, hx, _⟩)
            · rw [hsl] at hx; cases hx
            · exact hx (List.length_eq_zero_iff.1 hne)
      · rw [if_neg hne, if_neg hne]
        refine (told_perform hE u ho t .dflt .noop).mono (fun _ hw hu x => ?_) (fun x hx => .inr ⟨hsl, hty, fun h => hne (by rw [h]; rfl), hx⟩)
        rintro (⟨hx, _⟩ | ⟨_, _, _, hx⟩)
        · rw [hsl] at hx; cases hx
        · exact wentWell_not (always_functional _) (hw hu) x hx

/-- The exceptions of all operations are those that `oopThrows` gives, and what they say is true; if there is none, there was no reason. -/
theorem told_op (u : Bool) (h : Heap) (op : OOp) (hp : PlainOps E op) :
    ToldBy (ostep D E orc u h op) (oopThrows D E orc T u h op) (fun _ => u = false → byHand op = false → ∀ x, ¬ OpSays D E orc T h op x) (OpSays D E orc T h op) := by
  cases op with
  | newEmpty t al => exact ⟨rfl, fun _ _ x hx => by cases hx⟩
  | newOfType t al sd =>
    simp only [ostep, oopThrows, newOfType]
    have := told_reset (orc := orc) (T := T) hE u (newNull_obj h al) t
    revert this
    cases resetType D E orc u (newNull h al) h.objs.length t with
    | ub => intro _; trivial
    | ok h1 =>
      intro h2
      simp only [Res.bind]
      split
      · trivial
      · refine ⟨h2.1, fun hu _ x hx => ?_⟩
        cases hx with
        | newOfType _ _ _ _ h3 h4 => exact h2.2 hu x (.inr ⟨rfl, by simp, h3, mutSays_old h4⟩)
    | throw h1 e =>
      intro ⟨x, h2, h3, h4⟩
      refine told_of_unwind (unwindObject_cases hE _ _ _) ⟨x, h2, h3, ?_⟩
      rcases h4 with ⟨h4, _⟩ | ⟨_, _, h5, h6⟩
      · simp at h4
      · refine .newOfType t al sd x h5 ?_
        exact mutSays_new h6
  | moveNew src =>
    simp only [ostep, oopThrows, moveConstruct]
    split
    · trivial
    · split
      · trivial
      · exact ⟨rfl, fun _ _ x hx => by cases hx⟩
  | destroy o =>
    simp only [ostep, oopThrows, destroyObject]
    split
    · trivial
    · exact ⟨rfl, fun _ _ x hx => by cases hx⟩
  | moveAssign o src =>
    simp only [ostep, oopThrows, moveAssign, moveAssignThrows]
    by_cases hos : o = src
    · rw [if_pos hos, if_pos hos]
      refine ⟨rfl, fun _ _ x hx => ?_⟩
      cases hx with
      | moveSealed _ _ _ _ _ h1 => exact h1 hos
      | moveAllocators _ _ _ _ h1 => exact h1 hos
    · rw [if_neg hos, if_neg hos]
      cases ho : h.obj? o with
      | none => trivial
      | some ob =>
        cases hs : h.obj? src with
        | none => trivial
        | some sb =>
          simp only
          by_cases hal : ob.alloc = sb.alloc
          · rw [if_pos hal, if_pos hal]
            cases hsl : ob.isSealed with
            | true => simp only [if_true]; exact ⟨_, rfl, rfl, .moveSealed o src ob sb _ hos ho hs hal ⟨hsl, rfl⟩⟩
            | false =>
              simp only [Bool.false_eq_true, if_false]
              split
              · trivial
              · refine ⟨rfl, fun _ _ x hx => ?_⟩
                cases hx with
                | moveSealed _ _ ob' sb' _ _ h1 h2 h3 h4 =>
                  rw [ho] at h1; injection h1 with h1; subst h1
                  rw [h4.1] at hsl; cases hsl
                | moveAllocators _ _ ob' sb' _ h1 h2 h3 =>
                  rw [ho] at h1; injection h1 with h1; subst h1
                  rw [hs] at h2; injection h2 with h2; subst h2
                  exact h3 hal
          · rw [if_neg hal, if_neg hal]
            exact ⟨_, rfl, rfl, .moveAllocators o src ob sb hos ho hs hal⟩
  | copy src al =>
    simp only [ostep, oopThrows, copyObject, copyThrows]
    cases hs : h.obj? src with
    | none => trivial
    | some sb =>
      simp only
      cases hd : sb.data with
      | none =>
        refine ⟨rfl, fun _ _ x hx => ?_⟩
        cases hx with
        | copy _ _ sb' t' _ h1 h2 =>
          rw [hs] at h1; injection h1 with h1; subst h1
          exact h2 hd
      | some a =>
        cases ht : sb.ty with
        | none => trivial
        | some t =>
          simp only
          have := told_perform (orc := orc) (T := T) hE u (newNull_obj h al) t (.copy src true) .noop
          revert this
          cases perform D E orc u (newNull h al) h.objs.length t (.copy src true) .noop with
          | ub => intro _; trivial
          | ok h1 =>
            intro h2
            refine ⟨h2.1, fun hu _ x hx => ?_⟩
            cases hx with
            | copy _ _ sb' t' _ h3 _ h4 h5 =>
              rw [hs] at h3; injection h3 with h3; subst h3
              rw [ht] at h4; injection h4 with h4; subst h4
              exact wentWell_not (always_functional _) (h2.2 hu) x (mutSays_old h5)
          | throw h1 e =>
            intro ⟨x, h2, h3, h4⟩
            exact told_of_unwind (unwindObject_cases hE _ _ _) ⟨x, h2, h3, .copy src al sb t x hs (by rw [hd]; simp) ht (mutSays_new h4)⟩
  | copyFrom o src =>
    simp only [ostep, oopThrows, copyFrom, copyFromThrows]
    cases ho : h.obj? o with
    | none => trivial
    | some ob =>
      cases hs : h.obj? src with
      | none => trivial
      | some sb =>
        simp only
        cases hd : sb.data with
        | none =>
          simp only
          cases hsl : ob.isSealed with
          | true => simp only [if_true]; exact ⟨_, rfl, rfl, .copyFromSealed o src ob sb _ ho hs hd ⟨hsl, rfl⟩⟩
          | false =>
            simp only [Bool.false_eq_true, if_false]
            split
            · trivial
            · split
              · trivial
              · refine ⟨rfl, fun _ _ x hx => ?_⟩
                cases hx with
                | copyFromSealed _ _ ob' sb' _ h1 h2 h3 h4 =>
                  rw [ho] at h1; injection h1 with h1; subst h1
                  rw [h4.1] at hsl; cases hsl
                | copyFromLacks _ _ ob' sb' own' t' m pre post h1 h2 h3 =>
                  rw [hs] at h2; injection h2 with h2; subst h2
                  exact h3 hd
                | copyFrom _ _ ob' sb' own' t' _ h1 h2 h3 =>
                  rw [hs] at h2; injection h2 with h2; subst h2
                  exact h3 hd
        | some a =>
          have hdn : sb.data ≠ none := by rw [hd]; simp
          cases ht : sb.ty with
          | none => trivial
          | some t =>
            cases hown : ob.ty with
            | none => trivial
            | some own =>
              simp only
              cases hc : copyFromCheck D E own (E.mixins t) with
              | some m =>
                simp only
                obtain ⟨pre, post, h1, h2, h3⟩ := copyFromCheck_split hE (t := t) (E.mixins t) (fun _ h => h) hc
                have hmem : m ∈ E.mixins t := by rw [h1]; simp
                refine ⟨_, rfl, rfl, ?_⟩
                have := OpSays.copyFromLacks (D := D) (E := E) (orc := orc) (T := T) (h := h) o src ob sb own t m pre post ho hs hdn hown ht h1 h2 h3
                unfold copyFromText
                rw [← contains_index hE (own := own) hmem]
                unfold lacking at this
                simp only [List.contains_iff_mem]
                exact this
              | none =>
                simp only
                have hall := copyFromCheck_all hE (t := t) (E.mixins t) (fun _ h => h) hc
                refine (told_perform hE u ho t (.copy src false) (.assign src)).mono (fun _ hw hu _ x hx => ?_)
                  (fun x hx => .copyFrom o src ob sb own t x ho hs hdn hown ht hall hx)
                cases hx with
                | copyFromSealed _ _ ob' sb' _ h1 h2 h3 =>
                  rw [hs] at h2; injection h2 with h2; subst h2
                  exact hdn h3
                | copyFromLacks _ _ ob' sb' own' t' m pre post h1 h2 h3 h4 h5 h6 h7 h8 =>
                  rw [ho] at h1; injection h1 with h1; subst h1
                  rw [hs] at h2; injection h2 with h2; subst h2
                  rw [hown] at h4; injection h4 with h4; subst h4
                  rw [ht] at h5; injection h5 with h5; subst h5
                  have := hall m (by rw [h6]; simp)
                  split at this <;> simp_all
                | copyFrom _ _ ob' sb' own' t' _ h1 h2 h3 h4 h5 h6 h7 =>
                  rw [ho] at h1; injection h1 with h1; subst h1
                  rw [hs] at h2; injection h2 with h2; subst h2
                  rw [ht] at h5; injection h5 with h5; subst h5
                  exact wentWell_not (always_functional _) (hw hu) x h7
  | copyMatching o src =>
    simp only [ostep, oopThrows, copyMatchingFrom, copyMatchingThrows]
    cases ho : h.obj? o with
    | none => trivial
    | some ob =>
      cases hs : h.obj? src with
      | none => trivial
      | some sb =>
        simp only
        cases hown : ob.ty with
        | none => trivial
        | some own =>
          cases ht : sb.ty with
          | none => trivial
          | some t =>
            simp only
            cases hc : copyMatchingCheck D E own (E.mixins t) with
            | some m =>
              simp only
              obtain ⟨pre, post, h1, h2, h3⟩ := copyMatchingCheck_first hE hc
              exact ⟨_, rfl, rfl, .copyMatchingLacks o src ob sb own t m pre post ho hs hown ht h1 h2 h3⟩
            | none =>
              simp only
              have hall := copyMatchingCheck_all hE hc
              refine (told_copyMatchingLoop hE ob.data sb.data (n := h.tick) (all := commonMixins E own t) (E.mixins t) 0 h [] ?_ rfl (by simp)).mono ?_ ?_
              · rw [common_index hE]; rfl
              · intro h' hw _ _ x hx
                cases hx with
                | copyMatchingLacks _ _ ob' sb' own' t' m pre post h1 h2 h3 h4 h5 h6 h7 =>
                  rw [ho] at h1; injection h1 with h1; subst h1
                  rw [hs] at h2; injection h2 with h2; subst h2
                  rw [hown] at h3; injection h3 with h3; subst h3
                  rw [ht] at h4; injection h4 with h4; subst h4
                  have := hall m (by rw [h5]; simp)
                  rw [h7] at this; cases this
                | copyMatching _ _ ob' sb' own' t' i m h1 h2 h3 h4 h5 h6 h7 =>
                  rw [ho] at h1; injection h1 with h1; subst h1
                  rw [hs] at h2; injection h2 with h2; subst h2
                  rw [hown] at h3; injection h3 with h3; subst h3
                  rw [ht] at h4; injection h4 with h4; subst h4
                  obtain ⟨h8, _⟩ := List.getElem?_eq_some_iff.1 h6
                  rw [hw i h8] at h7; cases h7
              · intro x ⟨i, m, h1, h2, h3, h4⟩
                rw [h4]
                exact .copyMatching o src ob sb own t i m ho hs hown ht hall h1 h2 h3
  | moveMatching o src fb =>
    simp only [ostep, oopThrows, moveMatchingFrom, moveMatchingThrows]
    cases ho : h.obj? o with
    | none => trivial
    | some ob =>
      cases hs : h.obj? src with
      | none => trivial
      | some sb =>
        simp only
        cases hown : ob.ty with
        | none => trivial
        | some own =>
          cases ht : sb.ty with
          | none => trivial
          | some t =>
            simp only
            cases hc : moveMatchingCheck D E own fb (E.mixins t) with
            | some m =>
              simp only
              obtain ⟨pre, post, h1, h2, h3, h4⟩ := moveMatchingCheck_first hE hc
              exact ⟨_, rfl, rfl, .moveMatchingLacks o src fb ob sb own t m pre post ho hs hown ht h1 h2 h3 h4⟩
            | none =>
              simp only
              cases hr : moveMatchingLoop D E orc own ob.data sb.data 0 (E.mixins t) h with
              | ub => trivial
              | ok h1 =>
                refine ⟨rfl, fun _ _ x hx => ?_⟩
                cases hx with
                | moveMatchingLacks _ _ _ ob' sb' own' t' m pre post h1 h2 h3 h4 h5 h6 h7 h8 =>
                  rw [ho] at h1; injection h1 with h1; subst h1
                  rw [hs] at h2; injection h2 with h2; subst h2
                  rw [hown] at h3; injection h3 with h3; subst h3
                  rw [ht] at h4; injection h4 with h4; subst h4
                  rcases moveMatchingCheck_all hE hc m (by rw [h5]; simp) with h9 | ⟨h9, h10⟩
                  · rw [h7] at h9; cases h9
                  · rw [h8 h9] at h10; cases h10
              | throw h1 e => exact absurd hr (moveMatchingLoop_nothrow _ _ _ _ _ _ _ _)
  | clear o =>
    simp only [ostep, oopThrows, clearObject, clearThrows]
    cases ho : h.obj? o with
    | none => trivial
    | some ob =>
      simp only
      cases hsl : ob.isSealed with
      | true => simp only [if_true]; exact ⟨_, rfl, rfl, .clear o ob _ ho ⟨hsl, rfl⟩⟩
      | false =>
        simp only [Bool.false_eq_true, if_false]
        split
        · split
          · trivial
          · refine ⟨rfl, fun _ _ x hx => ?_⟩
            cases hx with
            | clear _ ob' _ h1 h2 =>
              rw [ho] at h1; injection h1 with h1; subst h1
              rw [h2.1] at hsl; cases hsl
        · trivial
  | reset o t =>
    simp only [ostep, oopThrows]
    cases ho : h.obj? o with
    | none => unfold resetType; rw [ho]; trivial
    | some ob =>
      refine (told_reset hE u ho t).mono (fun _ hw hu _ x hx => ?_) ?_
      · cases hx with
        | reset _ _ ob' _ h1 h2 h3 h4 h5 =>
          rw [ho] at h1; injection h1 with h1; subst h1
          exact hw hu x (.inr ⟨h2, h3, h4, h5⟩)
        | resetSealed _ _ ob' _ h1 h2 =>
          rw [ho] at h1; injection h1 with h1; subst h1
          exact hw hu x (.inl h2)
      · rintro x (hx | ⟨h1, h2, h3, h4⟩)
        · exact .resetSealed o t ob x ho hx
        · exact .reset o t ob x ho h1 h2 h3 h4
  | «seal» o =>
    simp only [ostep, oopThrows, sealObject]
    split
    · trivial
    · exact ⟨rfl, fun _ _ x hx => by cases hx⟩
  | mutation o t steps =>
    simp only [ostep, oopThrows]
    cases ho : h.obj? o with
    | none => unfold withMutation; rw [ho]; trivial
    | some ob => exact (told_steps hE u ho t steps).mono (fun _ _ _ hb => by simp [byHand] at hb) (fun x hx => .mutation o t steps ob x ho hx)
  | mutateTo o t ops =>
    simp only [ostep, oopThrows, mutateTo, mutateToThrows]
    cases ho : h.obj? o with
    | none => trivial
    | some ob =>
      simp only
      by_cases hty : ob.ty = some t
      · rw [if_pos hty, if_pos hty]
        refine ⟨rfl, fun _ _ x hx => ?_⟩
        cases hx with
        | mutateTo _ _ _ ob' _ h1 h2 =>
          rw [ho] at h1; injection h1 with h1; subst h1
          exact h2 hty
      · rw [if_neg hty, if_neg hty]
        refine (told_mutateTo hE u ho t ops hp.1 hp.2).mono (fun _ hw hu _ x hx => ?_) (fun x hx => .mutateTo o t ops ob x ho hty hx)
        cases hx with
        | mutateTo _ _ _ ob' _ h1 h2 h3 =>
          rw [ho] at h1; injection h1 with h1; subst h1
          exact wentWell_not (chosenBy_functional hp.1) (hw hu) x h3

omit hE in
/-- Two lists split at the first element that fails. -/
theorem split_same {p : Mix → Prop} {pre pre' post post' : List Mix} {m m' : Mix} (h : pre ++ m :: post = pre' ++ m' :: post') (h1 : ∀ y ∈ pre, p y) (h2 : ¬ p m)
    (h1' : ∀ y ∈ pre', p y) (h2' : ¬ p m') : m = m' := by
  induction pre generalizing pre' with
  | nil =>
    cases pre' with
    | nil => injection h
    | cons y pre' => injection h with h3 h4; subst h3; exact absurd (h1' m (by simp)) h2
  | cons y pre ih =>
    cases pre' with
    | nil => injection h with h3 h4; subst h3; exact absurd (h1 y (by simp)) h2'
    | cons y' pre' =>
      injection h with h3 h4
      exact ih h4 (fun z hz => h1 z (by simp [hz])) (fun z hz => h1' z (by simp [hz]))

omit hE in
/-- For each operation (without steps by hand) at most one exception fits. -/
theorem opSays_unique {h : Heap} {op : OOp} (hp : PlainOps E op) (hb : byHand op = false) {x x' : ObjThrown} (hx : OpSays D E orc T h op x) (hx' : OpSays D E orc T h op x') : x = x' := by
  cases hx with
  | newOfType t al sd _ h1 h2 =>
    cases hx' with
    | newOfType _ _ _ _ h3 h4 => exact mutSays_unique (always_functional _) h2 h4
  | reset o t ob _ h1 h2 h3 h4 h5 =>
    cases hx' with
    | reset _ _ ob' _ k1 k2 k3 k4 k5 =>
      rw [h1] at k1; injection k1 with k1; subst k1
      exact mutSays_unique (always_functional _) h5 k5
    | resetSealed _ _ ob' _ k1 k2 =>
      rw [h1] at k1; injection k1 with k1; subst k1
      rw [k2.1] at h2; cases h2
  | resetSealed o t ob _ h1 h2 =>
    cases hx' with
    | reset _ _ ob' _ k1 k2 k3 k4 k5 =>
      rw [h1] at k1; injection k1 with k1; subst k1
      rw [h2.1] at k2; cases k2
    | resetSealed _ _ ob' _ k1 k2 =>
      rw [h1] at k1; injection k1 with k1; subst k1
      rw [h2.2, k2.2]
  | moveSealed o src ob sb _ h0 h1 h2 h3 h4 =>
    cases hx' with
    | moveSealed _ _ ob' sb' _ _ k1 k2 k3 k4 =>
      rw [h1] at k1; injection k1 with k1; subst k1
      rw [h4.2, k4.2]
    | moveAllocators _ _ ob' sb' _ k1 k2 k3 =>
      rw [h1] at k1; injection k1 with k1; subst k1
      rw [h2] at k2; injection k2 with k2; subst k2
      exact absurd h3 k3
  | moveAllocators o src ob sb h0 h1 h2 h3 =>
    cases hx' with
    | moveSealed _ _ ob' sb' _ _ k1 k2 k3 k4 =>
      rw [h1] at k1; injection k1 with k1; subst k1
      rw [h2] at k2; injection k2 with k2; subst k2
      exact absurd k3 h3
    | moveAllocators _ _ ob' sb' _ k1 k2 k3 =>
      rw [h1] at k1; injection k1 with k1; subst k1
      rfl
  | copy src al sb t _ h1 h2 h3 h4 =>
    cases hx' with
    | copy _ _ sb' t' _ k1 k2 k3 k4 =>
      rw [h1] at k1; injection k1 with k1; subst k1
      rw [h3] at k3; injection k3 with k3; subst k3
      exact mutSays_unique (always_functional _) h4 k4
  | copyFromSealed o src ob sb _ h1 h2 h3 h4 =>
    cases hx' with
    | copyFromSealed _ _ ob' sb' _ k1 k2 k3 k4 =>
      rw [h1] at k1; injection k1 with k1; subst k1
      rw [h4.2, k4.2]
    | copyFromLacks _ _ ob' sb' own' t' m pre post k1 k2 k3 =>
      rw [h2] at k2; injection k2 with k2; subst k2
      exact absurd h3 k3
    | copyFrom _ _ ob' sb' own' t' _ k1 k2 k3 =>
      rw [h2] at k2; injection k2 with k2; subst k2
      exact absurd h3 k3
  | copyFromLacks o src ob sb own t m pre post h1 h2 h3 h4 h5 h6 h7 h8 =>
    cases hx' with
    | copyFromSealed _ _ ob' sb' _ k1 k2 k3 k4 =>
      rw [h2] at k2; injection k2 with k2; subst k2
      exact absurd k3 h3
    | copyFromLacks _ _ ob' sb' own' t' m' pre' post' k1 k2 k3 k4 k5 k6 k7 k8 =>
      rw [h1] at k1; injection k1 with k1; subst k1
      rw [h2] at k2; injection k2 with k2; subst k2
      rw [h4] at k4; injection k4 with k4; subst k4
      rw [h5] at k5; injection k5 with k5; subst k5
      have : m = m' := by
        refine split_same (p := fun y => if y ∈ E.mixins own then (D.mix y).hasCopyAsgn = true else (D.mix y).hasCopyInit = true) (h6.symm.trans k6) h7 ?_ k7 ?_
        · intro hn; split at hn <;> simp_all
        · intro hn; split at hn <;> simp_all
      rw [this]
    | copyFrom _ _ ob' sb' own' t' _ k1 k2 k3 k4 k5 k6 =>
      rw [h1] at k1; injection k1 with k1; subst k1
      rw [h2] at k2; injection k2 with k2; subst k2
      rw [h4] at k4; injection k4 with k4; subst k4
      rw [h5] at k5; injection k5 with k5; subst k5
      have := k6 m (by rw [h6]; simp)
      exfalso
      split at this <;> simp_all
  | copyFrom o src ob sb own t _ h1 h2 h3 h4 h5 h6 h7 =>
    cases hx' with
    | copyFromSealed _ _ ob' sb' _ k1 k2 k3 k4 =>
      rw [h2] at k2; injection k2 with k2; subst k2
      exact absurd k3 h3
    | copyFromLacks _ _ ob' sb' own' t' m' pre' post' k1 k2 k3 k4 k5 k6 k7 k8 =>
      rw [h1] at k1; injection k1 with k1; subst k1
      rw [h2] at k2; injection k2 with k2; subst k2
      rw [h4] at k4; injection k4 with k4; subst k4
      rw [h5] at k5; injection k5 with k5; subst k5
      have := h6 m' (by rw [k6]; simp)
      exfalso
      split at this <;> simp_all
    | copyFrom _ _ ob' sb' own' t' _ k1 k2 k3 k4 k5 k6 k7 =>
      rw [h1] at k1; injection k1 with k1; subst k1
      rw [h2] at k2; injection k2 with k2; subst k2
      rw [h5] at k5; injection k5 with k5; subst k5
      exact mutSays_unique (always_functional _) h7 k7
  | copyMatchingLacks o src ob sb own t m pre post h1 h2 h3 h4 h5 h6 h7 =>
    cases hx' with
    | copyMatchingLacks _ _ ob' sb' own' t' m' pre' post' k1 k2 k3 k4 k5 k6 k7 =>
      rw [h1] at k1; injection k1 with k1; subst k1
      rw [h2] at k2; injection k2 with k2; subst k2
      rw [h3] at k3; injection k3 with k3; subst k3
      rw [h4] at k4; injection k4 with k4; subst k4
      rw [split_same (p := fun y => (D.mix y).hasCopyAsgn = true) (h5.symm.trans k5) h6 (by simp [h7]) k6 (by simp [k7])]
    | copyMatching _ _ ob' sb' own' t' i m' k1 k2 k3 k4 k5 =>
      rw [h1] at k1; injection k1 with k1; subst k1
      rw [h2] at k2; injection k2 with k2; subst k2
      rw [h3] at k3; injection k3 with k3; subst k3
      rw [h4] at k4; injection k4 with k4; subst k4
      have := k5 m (by rw [h5]; simp)
      rw [h7] at this; cases this
  | copyMatching o src ob sb own t i m h1 h2 h3 h4 h5 h6 h7 h8 =>
    cases hx' with
    | copyMatchingLacks _ _ ob' sb' own' t' m' pre' post' k1 k2 k3 k4 k5 k6 k7 =>
      rw [h1] at k1; injection k1 with k1; subst k1
      rw [h2] at k2; injection k2 with k2; subst k2
      rw [h3] at k3; injection k3 with k3; subst k3
      rw [h4] at k4; injection k4 with k4; subst k4
      have := h5 m' (by rw [k5]; simp)
      rw [k7] at this; cases this
    | copyMatching _ _ ob' sb' own' t' i' m' k1 k2 k3 k4 k5 k6 k7 k8 =>
      rw [h1] at k1; injection k1 with k1; subst k1
      rw [h2] at k2; injection k2 with k2; subst k2
      rw [h3] at k3; injection k3 with k3; subst k3
      rw [h4] at k4; injection k4 with k4; subst k4
      have e : i = i' := by
        rcases Nat.lt_trichotomy i i' with hlt | heq | hlt
        · rw [k8 i hlt] at h7; cases h7
        · exact heq
        · rw [h8 i' hlt] at k7; cases k7
      subst e
      rw [h6] at k6; injection k6 with k6; subst k6
      rfl
  | moveMatchingLacks o src fb ob sb own t m pre post h1 h2 h3 h4 h5 h6 h7 h8 =>
    cases hx' with
    | moveMatchingLacks _ _ _ ob' sb' own' t' m' pre' post' k1 k2 k3 k4 k5 k6 k7 k8 =>
      rw [h1] at k1; injection k1 with k1; subst k1
      rw [h2] at k2; injection k2 with k2; subst k2
      rw [h3] at k3; injection k3 with k3; subst k3
      rw [h4] at k4; injection k4 with k4; subst k4
      rw [split_same (p := fun y => (D.mix y).hasMoveAsgn = true ∨ (fb = true ∧ (D.mix y).hasMoveInit = true)) (h5.symm.trans k5) h6
        (by intro hn; rcases hn with hn | ⟨hn, hn'⟩
            · rw [h7] at hn; cases hn
            · rw [h8 hn] at hn'; cases hn') k6
        (by intro hn; rcases hn with hn | ⟨hn, hn'⟩
            · rw [k7] at hn; cases hn
            · rw [k8 hn] at hn'; cases hn')]
  | clear o ob _ h1 h2 =>
    cases hx' with
    | clear _ ob' _ k1 k2 =>
      rw [h1] at k1; injection k1 with k1; subst k1
      rw [h2.2, k2.2]
  | mutation o t steps ob _ h1 h2 => simp [byHand] at hb
  | mutateTo o t ops ob _ h1 h2 h3 =>
    cases hx' with
    | mutateTo _ _ _ ob' _ k1 k2 k3 =>
      rw [h1] at k1; injection k1 with k1; subst k1
      exact mutSays_unique (chosenBy_functional hp.1) h3 k3

end

end Dnmx
