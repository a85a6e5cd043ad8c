import Verif.Proofs.FrameLemmas

/-!
# Lemmas: copies of objects
-/

set_option linter.unusedSimpArgs false
set_option linter.unusedVariables false
set_option linter.unusedSectionVars false

namespace Dnmx
open Spec

variable {D : Decls} {E : TyEnv} {orc : Orc}

/-- What a copy reads is what the source holds. -/
theorem source_holds {h : Heap} {src : Nat} {sb : Obj} (hs : h.obj? src = some sb) {t : TypeId} (hty : sb.ty = some t) {i : Nat} {m : Mix} (hm : (E.mixins t)[i]? = some m)
    {x : Loc} {v : Nat} (h1 : sourceAt h src i = some (x, m, v)) : Holds E h src m x v := by
  unfold sourceAt at h1
  rw [hs] at h1
  cases hd : sb.data with
  | none => simp [hd] at h1
  | some b =>
    simp only [Option.bind, hd] at h1
    cases hsl : h.slot? b i with
    | none => simp [hsl] at h1
    | some sl =>
      simp only [hsl] at h1
      cases hl : h.live sl.loc with
      | none => simp [hl] at h1
      | some y =>
        simp [hl] at h1
        obtain ⟨rfl, rfl⟩ := h1
        unfold Heap.slot? at hsl
        split at hsl
        · exact ⟨i, sl, ⟨sb, t, b, hs, hty, hd, hm, hsl⟩, rfl, hl⟩
        · simp at hsl

/-- An object without data has no mixins. -/
theorem no_holds {h : Heap} {o : Nat} {ob : Obj} (ho : h.obj? o = some ob) (hd : ob.data = none) {m : Mix} {l : Loc} {v : Nat} : ¬ Holds E h o m l v := by
  rintro ⟨i, sl, ⟨ob', t, a, h1, -, h2, -⟩, -, -⟩
  rw [ho] at h1; simp at h1; subst h1
  rw [hd] at h2; simp at h2

theorem holds_mem {h : Heap} {o : Nat} {ob : Obj} (ho : h.obj? o = some ob) {t : TypeId} (hty : ob.ty = some t) {m : Mix} {l : Loc} {v : Nat} (hh : Holds E h o m l v) :
    m ∈ E.mixins t := by
  obtain ⟨i, sl, ⟨ob', t', a, h1, h2, -, h3, -⟩, -, -⟩ := hh
  rw [ho] at h1; simp at h1; subst h1
  rw [hty] at h2; simp at h2; subst h2
  exact List.mem_of_getElem? h3

/-- Equal values follow from equal values at each mixin. -/
theorem values_of (hE : EnvOk D E) {h h' : Heap} {o src : Nat} {ob sb : Obj} (hs : h.obj? src = some sb) (ho : h'.obj? o = some ob) {t : TypeId}
    (hty : sb.ty = some t) (hty' : ob.ty = some t)
    (hv : ∀ (i : Nat) (m : Mix), (E.mixins t)[i]? = some m → ∃ l v x, Holds E h' o m l v ∧ Holds E h src m x v) (m : Mix) (v : Nat) :
    (∃ l, Holds E h' o m l v) ↔ ∃ l, Holds E h src m l v := by
  constructor
  · rintro ⟨l, hl⟩
    obtain ⟨i, hi⟩ := List.getElem?_of_mem (holds_mem ho hty' hl)
    obtain ⟨l', v', x, h1, h2⟩ := hv i m hi
    obtain ⟨rfl, rfl⟩ := holds_unique hE hl h1
    exact ⟨x, h2⟩
  · rintro ⟨l, hl⟩
    obtain ⟨i, hi⟩ := List.getElem?_of_mem (holds_mem hs hty hl)
    obtain ⟨l', v', x, h1, h2⟩ := hv i m hi
    obtain ⟨rfl, rfl⟩ := holds_unique hE hl h2
    exact ⟨l', h1⟩

theorem copyObject_copied (hE : EnvOk D E) {h : Heap} (hg : Good D E h) {src : Nat} {sb : Obj} (hs : h.obj? src = some sb) (al : Nat) {h' : Heap}
    (hr : copyObject D E orc false h src al = .ok h') : Copied D E h src sb al h' := by
  obtain ⟨t, hty⟩ := typed_obj hE hg hs
  have hlen := length_not_obj hs
  have hk1 : HeapOk D E (newNull h al) := addObj_ok hg.1 (bare_null al)
  have ho1 : (newNull h al).obj? h.objs.length = some ⟨none, none, false, al⟩ := by rw [newNull_addObj, addObj_obj, if_pos rfl]
  have hs1 : (newNull h al).obj? src = some sb := by rw [newNull_addObj, addObj_obj, if_neg hlen]; exact hs
  have hnull : ∀ o m l v, Holds E (newNull h al) o m l v ↔ Holds E h o m l v := by intro o m l v; rw [newNull_addObj, addObj_holds (bare_null al)]
  have hob := hg.1.objs src sb hs
  unfold ObjOk at hob
  unfold copyObject at hr
  simp only [hs] at hr
  cases hd : sb.data with
  | none =>
    rw [hd] at hob
    simp only [hd] at hr
    injection hr with hr
    subst hr
    have hb : Bare E (some (⟨sb.ty, none, false, al⟩ : Obj)) := by
      intro y hy; simp at hy; subst hy; exact ⟨rfl, fun t' ht' => hob t' ht'⟩
    have hom : ownMixins E sb = [] := by unfold ownMixins; rw [hty]; exact hob t hty
    refine ⟨⟨none, obj?_setObj_same ho1 _⟩, ?_, ?_, ?_, ?_, ?_, rfl, setObj_bare hE hk1 ho1 rfl hb⟩
    · intro m v
      constructor
      · rintro ⟨l, hl⟩; exact absurd hl (no_holds (obj?_setObj_same ho1 _) rfl)
      · rintro ⟨l, hl⟩; exact absurd hl (no_holds hs hd)
    · intro m l v hl; exact absurd hl (no_holds (obj?_setObj_same ho1 _) rfl)
    · intro o' hn; rw [obj?_setObj_ne _ hn, newNull_addObj, addObj_obj, if_neg hn]
    · intro o' m l v hn; rw [holds_setObj_ne _ hn]; exact hnull o' m l v
    · exact ⟨[], by simp [newNull], by simp [hom], by simp⟩
  | some a =>
    rw [hd] at hob
    obtain ⟨t', p1, hnet, -, -⟩ := hob
    rw [hty] at p1; simp at p1; subst p1
    simp only [hd, hty] at hr
    have hnf : NewFnOk D E (newNull h al) h.objs.length ⟨none, none, false, al⟩ t (.copy src true) :=
      ⟨hlen, ⟨sb, hs1, hty, by rw [hd]; simp⟩, fun h => by simp at h⟩
    have := perform_ok (orc := orc) hE hk1 ho1 rfl (by simp) hnet false hnf (g := .noop) trivial
    cases hx : perform D E orc false (newNull h al) h.objs.length t (.copy src true) .noop with
    | ub => rw [hx] at hr; simp [Res.bind] at hr
    | throw h1 e =>
      rw [hx] at hr this
      simp only [Res.bind] at hr
      have := untouched_new hE hg.1 this e
      rw [hr] at this
      exact this.elim
    | ok h1 =>
      rw [hx] at hr this
      simp only [Res.bind] at hr
      injection hr with hr
      subst hr
      obtain ⟨F, G, hc, hF⟩ := this
      have hobj := completed_obj hE hk1 ho1 hnet hc
      have hnew : ∀ (i : Nat) (m : Mix), (E.mixins t)[i]? = some m → ∃ l v x, Holds E h1 h.objs.length m l v ∧ Holds E h src m x v ∧ h.next ≤ l.1 := by
        intro i m hm
        obtain ⟨l, v, h2, h3, h4⟩ := completed_new hE hk1 ho1 hnet hc hm (by simp [ownMixins])
        obtain ⟨x, hx⟩ := h4 src true (hF i).1
        exact ⟨l, v, x, h2, (hnull _ _ _ _).1 (source_holds hs1 hty hm hx), h3⟩
      have hself : h1.obj? h.objs.length = some ⟨some t, some (newNull h al).next, false, al⟩ := by rw [hobj, if_pos rfl]; rfl
      refine ⟨⟨some (newNull h al).next, by rw [hself, hty]⟩, ?_, ?_, ?_, ?_, ?_, ?_, completed_heapOk hE hk1 ho1 hnet hc⟩
      · exact values_of hE hs hself hty rfl (fun i m hm => by obtain ⟨l, v, x, h2, h3, -⟩ := hnew i m hm; exact ⟨l, v, x, h2, h3⟩)
      · intro m l v hl
        obtain ⟨i, hi⟩ := List.getElem?_of_mem (holds_mem hself rfl hl)
        obtain ⟨l', v', x, h2, -, h3⟩ := hnew i m hi
        obtain ⟨rfl, rfl⟩ := holds_unique hE hl h2
        cases hb : h.blk l.1 with
        | none => rfl
        | some b => have := hg.1.fresh _ _ hb; omega
      · intro o' hn; rw [hobj, if_neg hn, newNull_addObj, addObj_obj, if_neg hn]
      · intro o' m l v hn; rw [completed_other hE hk1 ho1 hnet hc hn]; exact hnull o' m l v
      · obtain ⟨l, h2, h3, h4⟩ := completed_inits hE hk1 ho1 hnet hc
        refine ⟨l, h2, ?_, ?_⟩
        · rw [h3]; simp [ownMixins, hty]
        · rintro ⟨m, p, k⟩ hx
          obtain ⟨-, i, -, h5⟩ := h4 m p k hx
          simp only at h5 ⊢
          rw [h5, (hF i).1]; rfl
      · obtain ⟨d, h2, h3, -⟩ := completed_destroys hE hk1 ho1 hnet hc
        simp [ownMixins] at h3
        rw [h2, h3]; simp [newNull]

theorem copyFrom_copied (hE : EnvOk D E) {h : Heap} (hg : Good D E h) {o src : Nat} {ob sb : Obj} (ho : h.obj? o = some ob) (hs : h.obj? src = some sb) {h' : Heap}
    (hr : copyFrom D E orc false h o src = .ok h') : CopiedOver D E h o ob src sb h' := by
  obtain ⟨own, hty⟩ := typed_obj hE hg ho
  obtain ⟨t, hsty⟩ := typed_obj hE hg hs
  have hob := hg.1.objs src sb hs
  unfold ObjOk at hob
  unfold copyFrom at hr
  simp only [ho, hs] at hr
  cases hd : sb.data with
  | none =>
    rw [hd] at hob
    simp only [hd] at hr
    cases hsl : ob.isSealed with
    | true => simp [hsl] at hr
    | false =>
      simp only [hsl, Bool.false_eq_true, if_false] at hr
      obtain ⟨h1, k1, k2⟩ := clear_ok (D := D) hE hg.1 ho
      simp only [k1, k2.obj ho] at hr
      injection hr with hr
      subst hr
      have hb : Bare E (some ({ ob with data := none, ty := sb.ty } : Obj)) := by
        intro y hy; simp at hy; subst hy; exact ⟨rfl, fun t' ht' => hob t' ht'⟩
      have hself := obj?_setObj_same (k2.obj ho) (some ({ ob with data := none, ty := sb.ty } : Obj))
      refine ⟨⟨none, hself⟩, ?_, ?_, ?_, k2.heapOk hE hg.1 ho hb⟩
      · intro m v
        constructor
        · rintro ⟨l, hl⟩; exact absurd hl (no_holds hself rfl)
        · rintro ⟨l, hl⟩; exact absurd hl (no_holds hs hd)
      · intro o' hn; rw [k2.objs' ho, if_neg hn]
      · intro o' m l v hn; exact k2.holds hE hg.1 ho hb hn
  | some a =>
    rw [hd] at hob
    obtain ⟨t', p1, hnet, -, -⟩ := hob
    rw [hsty] at p1; simp at p1; subst p1
    simp only [hd, hsty, hty] at hr
    cases hck : copyFromCheck D E own (E.mixins t) with
    | some m => simp [hck] at hr
    | none =>
      simp only [hck] at hr
      obtain ⟨f1, f2⟩ := copyFrom_fns hE hg.1 ho hs hty hsty (by rw [hd]; simp) hck
      cases hsl : ob.isSealed with
      | true => unfold perform at hr; rw [withMutation_sealed ho hsl] at hr; simp at hr
      | false =>
        by_cases heq : own = t
        · subst heq
          have := perform_same_ok (orc := orc) hE hg.1 ho hsl hty hnet false (.copy src false) (f2 rfl)
          rw [hr] at this
          obtain ⟨hkept, h1⟩ := this
          obtain ⟨s1, hs1, hup, rfl⟩ := h1 rfl
          have hself : s1.h.obj? o = some ob := by rw [undone_obj hE hg.1 ho hkept.1]; exact ho
          refine ⟨⟨ob.data, by rw [hself, hsty, ← hty]⟩, ?_, ?_, ?_, hkept.1.heapOk hE hg.1 ho⟩
          · refine values_of hE hs hself hsty hty ?_
            intro i m hm
            obtain ⟨b, sl, q1, q2, q3, q4⟩ := same_slot hE hg.1 ho hty hm
            obtain ⟨x, v, r1, r2⟩ := hs1.assigned i m b i sl src (by rw [hup]; exact lt_of_at hm) hm q2 q3 rfl
            exact ⟨sl.loc, v, x, ⟨i, sl, (undone_slots hE hg.1 ho hkept.1).2 q4, rfl, r2⟩, source_holds hs hsty hm r1⟩
          · intro o' hn; exact undone_obj hE hg.1 ho hkept.1 o'
          · intro o' m l v hn; exact undone_holds hE hg.1 ho hkept.1 (.inl hn)
        · have hne : ob.ty ≠ some t := by rw [hty]; simpa using heq
          have := perform_ok (orc := orc) hE hg.1 ho hsl hne hnet false (f1 heq).1 (f1 heq).2
          rw [hr] at this
          obtain ⟨F, G, hc, hF⟩ := this
          have hobj := completed_obj hE hg.1 ho hnet hc
          have hself : h'.obj? o = some (mutatedObj h ob t) := by rw [hobj, if_pos rfl]
          refine ⟨⟨some h.next, by rw [hself, hsty]; rfl⟩, ?_, ?_, ?_, completed_heapOk hE hg.1 ho hnet hc⟩
          · refine values_of hE hs hself hsty rfl ?_
            intro i m hm
            by_cases hmem : m ∈ ownMixins E ob
            · obtain ⟨l, v, hl⟩ := (holds_iff hE hg.1 ho).2 hmem
              obtain ⟨l', v', h2, -, -, -, h3⟩ := completed_common hE hg.1 ho hnet hc hm hl
              obtain ⟨x, hx⟩ := h3 src (hF i).2
              exact ⟨l', v', x, h2, source_holds hs hsty hm hx⟩
            · obtain ⟨l, v, h2, -, h3⟩ := completed_new hE hg.1 ho hnet hc hm hmem
              obtain ⟨x, hx⟩ := h3 src false (hF i).1
              exact ⟨l, v, x, h2, source_holds hs hsty hm hx⟩
          · intro o' hn; rw [hobj, if_neg hn]
          · intro o' m l v hn; exact completed_other hE hg.1 ho hnet hc hn

end Dnmx
