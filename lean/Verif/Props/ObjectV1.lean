import Verif.Props.Compare
import Verif.Props.Dispatch
import Verif.Proofs.ObjectV1Lemmas

/-!
# Objects of version 1 (C89)

Full statement: for the user of the old interface `copy` of an object is the same as `copy` of the new interface, `copyable` tells whether it can be done,
`call_next_bidder` works exactly if `has_next_bidder` says so. The first is proved if the mixins of the object can be copied, and otherwise
the difference is described exactly (`C89_missing_function`); a copy that is made while an exception is in flight differs (`C89_copy_during_unwinding`);
`copyable` is sufficient, not necessary (`C89_copyable_refuted`).
-/

set_option linter.unusedSimpArgs false
set_option linter.unusedVariables false

namespace Dnmx.Props
open Spec

section
variable {D : Decls} {E : TyEnv} {orc : Orc}

/-- the object of the local variable of `copy` -/
theorem v1New_self (t0 : TypeId) (al : Nat) (h : Heap) : (v1New t0 al h).obj? h.objs.length = some ⟨some t0, none, false, al⟩ := by
  unfold Heap.obj? v1New; simp

theorem v1New_other (t0 : TypeId) (al : Nat) (h : Heap) {o : Nat} (ho : o ≠ h.objs.length) : (v1New t0 al h).obj? o = h.obj? o := by
  unfold Heap.obj? v1New
  simp only
  by_cases h1 : o < h.objs.length
  · rw [List.getElem?_append_left h1]
  · rw [List.getElem?_eq_none (by simp; omega), List.getElem?_eq_none (by omega)]

theorem v1New_eq (t0 : TypeId) (al : Nat) (h : Heap) : v1New t0 al h = (newNull h al).setObj h.objs.length (some ⟨some t0, none, false, al⟩) := by
  unfold v1New newNull Heap.setObj; simp

theorem newNull_there (h : Heap) (al : Nat) : (newNull h al).objs[h.objs.length]? = some (some ⟨none, none, false, al⟩) := by
  unfold newNull; simp

/-- `m` is the first of the mixins without copy constructor. -/
def FirstWithout (D : Decls) (ms : List Mix) (m : Mix) : Prop :=
  ∃ xs ys, ms = xs ++ m :: ys ∧ (∀ x ∈ xs, (D.mix x).hasCopyInit = true) ∧ (D.mix m).hasCopyInit = false

theorem copyFromCheck_empty (hE : EnvOk D E) {t0 t : TypeId} (h0 : E.mixins t0 = []) : ∀ (ms : List Mix), (∀ m ∈ ms, m ∈ E.mixins t) →
    match copyFromCheck D E t0 ms with
    | none => ∀ m ∈ ms, (D.mix m).hasCopyInit = true
    | some m => FirstWithout D ms m
  | [], _ => by simp [copyFromCheck]
  | x :: ms, hm => by
    have hn : E.indexOf t0 x = none := by
      cases hi : E.indexOf t0 x with
      | none => rfl
      | some i =>
        have := (hE.index t0 t x i (hm x (by simp))).1 hi
        rw [h0] at this; simp at this
    have hr := copyFromCheck_empty hE h0 ms (fun m h => hm m (by simp [h]))
    unfold copyFromCheck
    rw [hn]
    simp only [Option.isSome_none, Bool.false_eq_true, if_false]
    by_cases hc : (D.mix x).hasCopyInit = true
    · rw [if_pos hc]
      cases h1 : copyFromCheck D E t0 ms with
      | none => rw [h1] at hr; simp only at hr ⊢; simpa using ⟨hc, hr⟩
      | some m =>
        rw [h1] at hr
        obtain ⟨xs, ys, h2, h3, h4⟩ := hr
        exact ⟨x :: xs, ys, by rw [h2]; rfl, by simpa using ⟨hc, h3⟩, h4⟩
    · rw [if_neg hc]
      exact ⟨[], ms, rfl, by simp, by simpa using hc⟩

theorem v1Copy_data (t0 : TypeId) (al : Nat) (u : Bool) (h : Heap) (src : Nat) (sb : Obj) (hs : h.obj? src = some sb) (a : Nat) (hd : sb.data = some a)
    (t : TypeId) (ht : sb.ty = some t) : v1Copy D E orc t0 al u h src =
    (match copyFromCheck D E t0 (E.mixins t) with
      | some m => .throw (v1New t0 al h) (.missingFunc m)
      | none => perform D E orc u (v1New t0 al h) h.objs.length t (.copy src false) (.assign src) : Res Heap).bind .ok (unwindObject D E h.objs.length) := by
  unfold v1Copy copyFrom
  rw [v1New_self, v1New_other t0 al h (length_not_obj hs), hs]
  simp only [hd, ht]
  cases copyFromCheck D E t0 (E.mixins t) <;> rfl

end

/-- C89: if all mixins of an object have a copy constructor, `copy` of version 1 does the same as that of version 2 with the same allocator: the same objects, values,
calls of user functions in the same order, allocations and exceptions. -/
theorem C89_same_as_version2 (D : Decls) (E : TyEnv) (orc : Orc) (hE : EnvOk D E) (t0 : TypeId) (h0 : E.mixins t0 = []) (h : Heap) (hk : HeapOk D E h) (ht : AllTyped h)
    (src : Nat) (sb : Obj) (hs : h.obj? src = some sb) (hc : ∀ m ∈ ownMixins E sb, (D.mix m).hasCopyInit = true) (al : Nat) :
    v1Copy D E orc t0 al false h src = copyObject D E orc false h src al := by
  cases hd : sb.data with
  | none =>
    unfold v1Copy copyFrom copyObject
    rw [v1New_self, v1New_other t0 al h (length_not_obj hs), hs]
    simp only [hd]
    unfold clearMixinData
    rw [v1New_self]
    simp only [Bool.false_eq_true, if_false, v1New_self, Res.bind]
    rw [v1New_eq]
    simp only [Heap.setObj, List.set_set]
  | some a =>
    cases htp : sb.ty with
    | none => exact absurd htp (ht src sb hs)
    | some t =>
      have hown : ownMixins E sb = E.mixins t := by unfold ownMixins; rw [htp]; rfl
      rw [hown] at hc
      have hne : t0 ≠ t := by
        intro e
        have := hk.objs src sb hs
        unfold ObjOk at this
        rw [hd] at this
        obtain ⟨t', h1, h2, -⟩ := this
        rw [htp] at h1; simp only [Option.some.injEq] at h1; subst h1
        rw [← e] at h2
        exact h2 h0
      rw [v1Copy_data t0 al false h src sb hs a hd t htp]
      have hck := copyFromCheck_empty (D := D) hE h0 (E.mixins t) (t := t) (fun m hm => hm)
      cases h1 : copyFromCheck D E t0 (E.mixins t) with
      | some m =>
        rw [h1] at hck
        obtain ⟨xs, ys, h2, -, h3⟩ := hck
        rw [hc m (by rw [h2]; simp)] at h3; simp at h3
      | none =>
        simp only
        have hpl := perform_lift (D := D) (E := E) (orc := orc) (x0 := ⟨none, none, false, al⟩) (x1 := ⟨some t0, none, false, al⟩) hne rfl rfl rfl rfl
          (length_not_obj hs) hc (newNull_there h al) false
        have hcp : ∀ h', copyObject D E orc false h src al = .ok h' → Copied D E h src sb al h' := fun h' hr => copyObject_copied hE ⟨hk, ht⟩ hs al hr
        have hco : copyObject D E orc false h src al =
            (perform D E orc false (newNull h al) h.objs.length t (.copy src true) .noop).bind .ok (unwindObject D E h.objs.length) := by
          unfold copyObject; rw [hs]; simp only [hd, htp]
        rw [hco] at hcp ⊢
        rw [v1New_eq]
        generalize hA : perform D E orc false (newNull h al) h.objs.length t (.copy src true) .noop = A at hpl hcp ⊢
        generalize hB : perform D E orc false ((newNull h al).setObj h.objs.length (some ⟨some t0, none, false, al⟩)) h.objs.length t (.copy src false) (.assign src) = B at hpl ⊢
        cases A with
        | ub => cases B <;> first | exact hpl.elim | rfl
        | throw h1 e1 =>
          cases B with
          | ok h2 => exact hpl.elim
          | ub => exact hpl.elim
          | throw h2 e2 =>
            obtain ⟨h3, rfl⟩ := hpl
            exact (unwindObject_lift rfl rfl h3 e1).symm
        | ok h1 =>
          cases B with
          | throw h2 e2 => exact hpl.elim
          | ub => exact hpl.elim
          | ok h2 =>
            have hpl : EndsLift h.objs.length ⟨none, none, false, al⟩ ⟨some t0, none, false, al⟩ h1 h2 := hpl
            rcases hpl with rfl | ⟨h3, h4⟩
            · rfl
            · obtain ⟨b, hb⟩ := (hcp h1 rfl).target
              unfold Heap.obj? at hb
              rw [h3, htp] at hb
              simp at hb

-- copies of object 2, successful and failing at the third copy
example : let r := v1Copy objDecls objEnv objOrc 0 0 false objHeap 2
    (∀ m ∈ objEnv.mixins 2, (objDecls.mix m).hasCopyInit = true) ∧ objEnv.mixins 0 = [] ∧ finished r = true ∧ (after r).log.drop objHeap.log.length =
      [.alloc 6 (.unified 2 0), .alloc 7 (.ext 3 (some 0)), .init 2 (6, 0) (.copied (4, 0)), .init 1 (6, 1) (.copied (4, 1)), .init 3 (7, 0) (.copied (5, 0))] ∧
    threw (v1Copy objDecls objEnv (failAt 17) 0 0 false objHeap 2) = some (.user 17) :=
  ⟨by decide +kernel, by decide +kernel, by decide +kernel, by decide +kernel, by decide +kernel⟩

/-- C89: if a mixin of an object has no copy constructor, `copy` of version 1 reports the first such mixin before it does anything: no function of the user is called, nothing is
allocated, and all objects are as they were. -/
theorem C89_missing_function (D : Decls) (E : TyEnv) (orc : Orc) (hE : EnvOk D E) (t0 : TypeId) (h0 : E.mixins t0 = []) (h : Heap) (hk : HeapOk D E h) (ht : AllTyped h)
    (src : Nat) (sb : Obj) (hs : h.obj? src = some sb) (hc : ∃ m ∈ ownMixins E sb, (D.mix m).hasCopyInit = false) (al : Nat) (u : Bool) :
    ∃ m, FirstWithout D (ownMixins E sb) m ∧ v1Copy D E orc t0 al u h src = .throw { h with objs := h.objs ++ [none] } (.missingFunc m) := by
  obtain ⟨m, hm, hm2⟩ := hc
  cases htp : sb.ty with
  | none => exact absurd htp (ht src sb hs)
  | some t =>
    have hown : ownMixins E sb = E.mixins t := by unfold ownMixins; rw [htp]; rfl
    rw [hown] at hm ⊢
    cases hd : sb.data with
    | none =>
      have := hk.objs src sb hs
      unfold ObjOk at this
      rw [hd] at this
      rw [this t htp] at hm; simp at hm
    | some a =>
      rw [v1Copy_data t0 al u h src sb hs a hd t htp]
      have hck := copyFromCheck_empty (D := D) hE h0 (E.mixins t) (t := t) (fun m hm => hm)
      cases h1 : copyFromCheck D E t0 (E.mixins t) with
      | none =>
        rw [h1] at hck
        rw [hck m hm] at hm2; simp at hm2
      | some x =>
        rw [h1] at hck
        refine ⟨x, hck, ?_⟩
        simp only [Res.bind]
        unfold unwindObject destroyObject clearMixinData
        rw [v1New_self]
        simp only [Res.bind]
        congr 1
        unfold v1New Heap.setObj
        simp

/-- an object of type 4 = [3, 5], where 5 cannot be copied -/
def uncopyable : Heap := runOf [.newOfType 4 0 false]

-- version 2 copies mixin 3 before it finds out
example : HeapOk objDecls objEnv uncopyable ∧ AllTyped uncopyable ∧ (uncopyable.obj? 0).map (·.ty) = some (some 4) ∧
    threw (v1Copy objDecls objEnv objOrc 0 0 false uncopyable 0) = some (.missingFunc 5) ∧
    (after (v1Copy objDecls objEnv objOrc 0 0 false uncopyable 0)).log = uncopyable.log ∧
    threw (copyObject objDecls objEnv objOrc false uncopyable 0 0) = some (.missingFunc 5) ∧
    (after (copyObject objDecls objEnv objOrc false uncopyable 0 0)).log.drop uncopyable.log.length =
      [.alloc 2 (.unified 4 0), .alloc 3 (.ext 3 (some 0)), .init 3 (3, 0) (.copied (1, 0)), .destroy 3 (3, 0), .dealloc 3, .dealloc 2] :=
  ⟨(runOf_good _ (by decide +kernel)).1, (runOf_good _ (by decide +kernel)).2, by decide +kernel, by decide +kernel, by decide +kernel, by decide +kernel, by decide +kernel⟩

/-- C89: without copy constructors the two are not the same. -/
theorem C89_copy_functions_needed : ∃ (D : Decls) (E : TyEnv) (orc : Orc) (t0 : TypeId) (h : Heap) (src al : Nat), EnvOk D E ∧ E.mixins t0 = [] ∧ HeapOk D E h ∧ AllTyped h ∧
    Alive h src ∧ v1Copy D E orc t0 al false h src ≠ copyObject D E orc false h src al :=
  ⟨objDecls, objEnv, objOrc, 0, uncopyable, 0, 0, objEnv_ok, by decide +kernel, (runOf_good _ (by decide +kernel)).1, (runOf_good _ (by decide +kernel)).2,
    by unfold Alive; decide +kernel, fun hc => by
      have : (after (v1Copy objDecls objEnv objOrc 0 0 false uncopyable 0)).log = (after (copyObject objDecls objEnv objOrc false uncopyable 0 0)).log := by rw [hc]
      revert this; decide +kernel⟩

/-- C89: copies that are made while an exception is in flight (see C16): where version 2 returns an object without type, version 1 returns one of the
empty type; all the rest is the same. -/
theorem C89_copy_during_unwinding (D : Decls) (E : TyEnv) (orc : Orc) (hE : EnvOk D E) (t0 : TypeId) (h0 : E.mixins t0 = []) (h : Heap) (hk : HeapOk D E h)
    (src : Nat) (sb : Obj) (hs : h.obj? src = some sb) (hd : sb.data ≠ none) (hc : ∀ m ∈ ownMixins E sb, (D.mix m).hasCopyInit = true) (al : Nat) (h' : Heap)
    (hr : copyObject D E orc true h src al = .ok h') :
    h'.obj? h.objs.length = some ⟨none, none, false, al⟩ ∧
      v1Copy D E orc t0 al true h src = .ok (h'.setObj h.objs.length (some ⟨some t0, none, false, al⟩)) := by
  obtain ⟨a, hd⟩ := Option.ne_none_iff_exists'.1 hd
  have := hk.objs src sb hs
  unfold ObjOk at this
  rw [hd] at this
  obtain ⟨t, htp, h2, -⟩ := this
  have hown : ownMixins E sb = E.mixins t := by unfold ownMixins; rw [htp]; rfl
  rw [hown] at hc
  have hne : t0 ≠ t := by rintro rfl; exact h2 h0
  have hck := copyFromCheck_empty (D := D) hE h0 (E.mixins t) (t := t) (fun m hm => hm)
  rw [v1Copy_data t0 al true h src sb hs a hd t htp]
  unfold copyObject at hr
  rw [hs] at hr
  simp only [hd, htp] at hr
  cases h1 : copyFromCheck D E t0 (E.mixins t) with
  | some m =>
    rw [h1] at hck
    obtain ⟨xs, ys, h2, -, h3⟩ := hck
    rw [hc m (by rw [h2]; simp)] at h3; simp at h3
  | none =>
    have hpl := perform_lift (D := D) (E := E) (orc := orc) (x0 := ⟨none, none, false, al⟩) (x1 := ⟨some t0, none, false, al⟩) hne rfl rfl rfl rfl
      (length_not_obj hs) hc (newNull_there h al) true
    simp only
    rw [v1New_eq]
    generalize hA : perform D E orc true (newNull h al) h.objs.length t (.copy src true) .noop = A at hpl hr
    generalize hB : perform D E orc true ((newNull h al).setObj h.objs.length (some ⟨some t0, none, false, al⟩)) h.objs.length t (.copy src false) (.assign src) = B at hpl ⊢
    cases A with
    | ub => simp [Res.bind] at hr
    | throw h1 e1 =>
      simp only [Res.bind] at hr
      unfold unwindObject at hr
      cases hx : destroyObject D E h1 h.objs.length <;> rw [hx] at hr <;> simp [Res.bind] at hr
    | ok h1 =>
      simp only [Res.bind, Res.ok.injEq] at hr
      subst hr
      cases B with
      | throw h2 e2 => exact hpl.elim
      | ub => exact hpl.elim
      | ok h2 =>
        have hpl : LiftH h.objs.length ⟨none, none, false, al⟩ ⟨some t0, none, false, al⟩ h1 h2 := hpl
        obtain ⟨h3, rfl⟩ := hpl
        exact ⟨by unfold Heap.obj?; rw [h3]; rfl, rfl⟩

example : finished (copyObject objDecls objEnv objOrc true objHeap 2 0) = true ∧ (objHeap.obj? 2).map (·.data) = some (some 4) ∧
    ((after (copyObject objDecls objEnv objOrc true objHeap 2 0)).obj? 3).map (·.ty) = some none ∧
    ((after (v1Copy objDecls objEnv objOrc 0 0 true objHeap 2)).obj? 3).map (·.ty) = some (some 0) :=
  ⟨by decide +kernel, by decide +kernel, by decide +kernel, by decide +kernel⟩

/-- C89: `copy` of an object that is `copyable` never lacks a function, and succeeds if nothing fails. -/
theorem C89_copyable (D : Decls) (E : TyEnv) (orc : Orc) (hE : EnvOk D E) (t0 : TypeId) (h0 : E.mixins t0 = []) (h : Heap) (hk : HeapOk D E h) (ht : AllTyped h)
    (src : Nat) (sb : Obj) (hs : h.obj? src = some sb) (hc : v1Copyable D (ownMixins E sb) = true) (al : Nat) :
    (∀ h' m, v1Copy D E orc t0 al false h src ≠ .throw h' (.missingFunc m)) ∧ ((∀ n, orc.fail n = false) → ∃ h', v1Copy D E orc t0 al false h src = .ok h' ∧ Copied D E h src sb al h') := by
  have hall : ∀ m ∈ ownMixins E sb, (D.mix m).hasCopyInit = true := by
    unfold v1Copyable at hc
    simp only [Bool.and_eq_true, List.all_eq_true] at hc
    exact hc.1
  rw [C89_same_as_version2 D E orc hE t0 h0 h hk ht src sb hs hall al]
  cases htp : sb.ty with
  | none => exact absurd htp (ht src sb hs)
  | some t =>
    have hown : ownMixins E sb = E.mixins t := by unfold ownMixins; rw [htp]; rfl
    rw [hown] at hall
    have hends := copyObject_ends (D := D) (E := E) (orc := orc) false h src al hs htp
    have hgood := good_copy (orc := orc) hE ⟨hk, ht⟩ (src := src) (by unfold Alive; rw [hs]; simp) al
    constructor
    · intro h' m he
      rw [he] at hends
      have hends : m ∈ E.mixins t ∧ true = true ∧ (D.mix m).hasCopyInit = false := hends
      rw [hall m hends.1] at hends; simp at hends
    · intro hn
      cases he : copyObject D E orc false h src al with
      | ok h' => exact ⟨h', rfl, copyObject_copied hE ⟨hk, ht⟩ hs al he⟩
      | ub => rw [he] at hgood; exact hgood.elim
      | throw h' e =>
        rw [he] at hends
        have hends : ErrOf D E orc False t (.copy src true) e := hends
        cases e with
        | missingFunc m => have h2 := hends.2.2; rw [hall m hends.1] at h2; simp at h2
        | user n => have h1 : orc.fail n = true := hends; rw [hn] at h1; simp at h1
        | badAlloc => obtain ⟨n, h1⟩ := hends; rw [hn] at h1; simp at h1
        | isSealed => exact hends.elim
        | outOfOrder => exact hends.elim
        | allocMismatch => exact hends.elim
        | outside => exact hends.elim

example : v1Copyable objDecls (objEnv.mixins 2) = true ∧ v1Copyable objDecls (objEnv.mixins 4) = false ∧ finished (v1Copy objDecls objEnv objOrc 0 0 false objHeap 2) = true :=
  ⟨by decide +kernel, by decide +kernel, by decide +kernel⟩

/-- C89: `copyable` is not necessary: `copy` works for objects whose mixins have no copy assignment, which it never uses. -/
theorem C89_copyable_refuted : ¬ ∀ (D : Decls) (E : TyEnv) (orc : Orc) (t0 : TypeId) (h : Heap) (src : Nat) (sb : Obj) (al : Nat) (h' : Heap), EnvOk D E → E.mixins t0 = [] →
    HeapOk D E h → AllTyped h → h.obj? src = some sb → v1Copy D E orc t0 al false h src = .ok h' → v1Copyable D (ownMixins E sb) = true := by
  intro hc
  have h1 : ∃ sb, (runOf [.newOfType 5 0 false]).obj? 0 = some sb ∧ v1Copyable objDecls (ownMixins objEnv sb) = false :=
    ⟨⟨some 5, some 0, false, 0⟩, by decide +kernel, by decide +kernel⟩
  obtain ⟨sb, h2, h3⟩ := h1
  have hf : finished (v1Copy objDecls objEnv objOrc 0 0 false (runOf [.newOfType 5 0 false]) 0) = true := by decide +kernel
  cases h4 : v1Copy objDecls objEnv objOrc 0 0 false (runOf [.newOfType 5 0 false]) 0 with
  | ub => rw [h4] at hf; simp [finished] at hf
  | throw h' e => rw [h4] at hf; simp [finished] at hf
  | ok h' =>
    have := hc objDecls objEnv objOrc 0 _ 0 sb 0 h' objEnv_ok (by decide +kernel) (runOf_good _ (by decide +kernel)).1 (runOf_good _ (by decide +kernel)).2 h2 h4
    rw [h3] at this; simp at this

/-- C89: `call_next_bidder` throws `next` errors exactly if `has_next_bidder` is false. Otherwise a multicast message calls every implementation with the next lower bid, in
the order of multicasts, and a unicast message the best one of them. -/
theorem C89_next_bidder {σ R : Type} (D : Decls) (I : Impls σ R) (t : TypeRec) (f : Feat) (fid : Option Nat) (hb : BuiltFor D t f fid)
    (mid : Mix → Option Nat) (hix : IndexedBy t mid) (hone : ListsOnce D t.mixins f) (x : Nat × FeatFor)
    (hx : x ∈ allImpls D t.mixins f) (m : Mix) (hm : t.mixins[x.1]? = some m) :
    (v1HasNextBidder t fid (mid m) = false ∧ nextTopImpls D t.mixins f x.2.bid = [] ∧ ∀ multicast s, v1CallNextBidder multicast I t fid (mid m) s = (.error .noNext, s)) ∨
    (v1HasNextBidder t fid (mid m) = true ∧ ∃ xs w, (xs ++ [w]).Perm (nextTopImpls D t.mixins f x.2.bid) ∧ (xs ++ [w]).Pairwise CalledBefore ∧
      (∀ y ∈ nextTopImpls D t.mixins f x.2.bid, WinsOrSame w y) ∧
      (∀ s, v1CallNextBidder true I t fid (mid m) s = callInOrder I w xs s) ∧
      (∀ s, v1CallNextBidder false I t fid (mid m) s = callImpl I w s)) := by
  have hset := C31_next_bidder_set D t f fid hb mid hix hone x hx m hm
  rcases C31_call_next_bidders D I t f fid hb mid hix hone x hx m hm with ⟨h1, h2⟩ | ⟨xs, w, h1, h2, h3, h4, h5⟩
  · left
    refine ⟨?_, h1, fun mc s => ?_⟩
    · have := hset.1
      rw [h1] at this
      have h3 := this.eq_nil
      unfold v1HasNextBidder
      cases h4 : t.findNextBidderSet fid (mid m) with
      | nil => rfl
      | cons p ps => rw [h4] at h3; simp at h3
    · unfold v1CallNextBidder
      cases mc
      · exact (h2 s).2
      · exact (h2 s).1
  · right
    refine ⟨?_, xs, w, h1, h2, h3, h4, h5⟩
    have h6 := hset.1.length_eq
    have h7 := h1.length_eq
    unfold v1HasNextBidder
    cases h8 : t.findNextBidderSet fid (mid m) with
    | nil => rw [h8] at h6; simp at h6 h7; omega
    | cons p ps => rfl

end Dnmx.Props
