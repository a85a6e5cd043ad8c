import Verif.Proofs.CopyLemmas
import Verif.Proofs.StopLemmas

/-!
# Lemmas: what `copy_matching_from`, `move_matching_from` and failing `copy_from` do
-/

set_option linter.unusedSimpArgs false
set_option linter.unusedVariables false
set_option linter.unusedSectionVars false

namespace Dnmx
open Spec

variable {D : Decls} {E : TyEnv} {orc : Orc}

theorem copyFromCheck_some (hE : EnvOk D E) {own t : TypeId} : ∀ (ms : List Mix), (∀ m ∈ ms, m ∈ E.mixins t) → ∀ m, copyFromCheck D E own ms = some m →
    m ∈ ms ∧ ((m ∈ E.mixins own ∧ (D.mix m).hasCopyAsgn = false) ∨ (m ∉ E.mixins own ∧ (D.mix m).hasCopyInit = false))
  | [], _, m, hc => by simp [copyFromCheck] at hc
  | x :: ms, hsub, m, hc => by
    unfold copyFromCheck at hc
    have hix : (E.indexOf own x).isSome = true ↔ x ∈ E.mixins own := by
      constructor
      · intro h
        obtain ⟨i, hi⟩ := Option.isSome_iff_exists.1 h
        exact mem_of_at ((hE.index own t x i (hsub x (by simp))).1 hi)
      · intro h
        obtain ⟨i, hi⟩ := List.mem_iff_getElem?.1 h
        rw [(hE.index own t x i (hsub x (by simp))).2 hi]; rfl
    have hrec := fun hc => copyFromCheck_some (own := own) hE ms (fun m hm => hsub m (by simp [hm])) m hc
    by_cases h1 : (E.indexOf own x).isSome = true
    · rw [if_pos h1] at hc
      by_cases h2 : (D.mix x).hasCopyAsgn = true
      · rw [if_pos h2] at hc
        obtain ⟨h3, h4⟩ := hrec hc
        exact ⟨by simp [h3], h4⟩
      · rw [if_neg h2] at hc; simp at hc; subst hc
        exact ⟨by simp, .inl ⟨hix.1 h1, by simpa using h2⟩⟩
    · rw [if_neg h1] at hc
      by_cases h2 : (D.mix x).hasCopyInit = true
      · rw [if_pos h2] at hc
        obtain ⟨h3, h4⟩ := hrec hc
        exact ⟨by simp [h3], h4⟩
      · rw [if_neg h2] at hc; simp at hc; subst hc
        exact ⟨by simp, .inr ⟨fun h => h1 (hix.2 h), by simpa using h2⟩⟩

section
variable (hE : EnvOk D E) {h : Heap} (hg : Good D E h) {o src : Nat} {ob sb : Obj} (ho : h.obj? o = some ob) (hs : h.obj? src = some sb)
include hE hg ho hs

theorem copyFrom_throw (u : Bool) {t : TypeId} (hsty : sb.ty = some t) {h' : Heap} {e : XErr} (hr : copyFrom D E orc u h o src = .throw h' e) :
    UntouchedBut D E o h h' ∧ ∃ k, CopyStopped E h o src t k h' := by
  obtain ⟨own, hty⟩ := typed_obj hE hg ho
  have hrefl : UntouchedBut D E o h h ∧ ∃ k, CopyStopped E h o src t k h :=
    ⟨untouched_but (untouched_refl h) o, 0, fun m l v hh => ⟨fun j _ hj => by omega, fun _ => hh⟩⟩
  unfold copyFrom at hr
  rw [ho, hs] at hr
  simp only at hr
  cases hd : sb.data with
  | none =>
    rw [hd] at hr
    simp only at hr
    cases hsl : ob.isSealed with
    | true => simp only [hsl, if_true] at hr; injection hr with h1; subst h1; exact hrefl
    | false =>
      simp only [hsl, Bool.false_eq_true, if_false] at hr
      obtain ⟨h1, k1, k2⟩ := clear_ok (D := D) hE hg.1 ho
      simp [k1, k2.obj ho] at hr
  | some b =>
    have hob := hg.1.objs src sb hs
    unfold ObjOk at hob
    rw [hd] at hob
    obtain ⟨t', p1, hnet, -⟩ := hob
    rw [hsty] at p1; simp at p1; subst p1
    simp only [hd, hsty, hty] at hr
    cases hck : copyFromCheck D E own (E.mixins t) with
    | some m => rw [hck] at hr; simp only at hr; injection hr with h1; subst h1; exact hrefl
    | none =>
      rw [hck] at hr
      simp only at hr
      obtain ⟨f1, f2⟩ := copyFrom_fns hE hg.1 ho hs hty hsty (by rw [hd]; simp) hck
      cases hsl : ob.isSealed with
      | true => unfold perform at hr; rw [withMutation_sealed ho hsl] at hr; injection hr with h1; subst h1; exact hrefl
      | false =>
        obtain ⟨k, hst⟩ := perform_stopped hE hg.1 ho hnet hsl u (f := .copy src false) (src := src)
          (fun hne => (f1 (fun h => hne (by rw [hty, h]))).1) (fun hne => (f1 (fun h => hne (by rw [hty, h]))).2)
          (fun heq => f2 (by rw [hty] at heq; simpa using heq)) hr
        exact ⟨untouchedBut_failed hE hg.1 ho hst.1, k, fun m l v hh => stopped_holds hE hg.1 ho hs hsty hst hh⟩

theorem copyFrom_missing (u : Bool) {own t : TypeId} (hty : ob.ty = some own) (hsty : sb.ty = some t)
    (hex : ∃ m ∈ E.mixins t, (m ∈ E.mixins own ∧ (D.mix m).hasCopyAsgn = false) ∨ (m ∉ E.mixins own ∧ (D.mix m).hasCopyInit = false)) :
    ∃ m ∈ E.mixins t, ((m ∈ E.mixins own ∧ (D.mix m).hasCopyAsgn = false) ∨ (m ∉ E.mixins own ∧ (D.mix m).hasCopyInit = false)) ∧
      copyFrom D E orc u h o src = .throw h (.missingFunc m) := by
  obtain ⟨m, hm, hbad⟩ := hex
  have hob := hg.1.objs src sb hs
  unfold ObjOk at hob
  unfold copyFrom
  rw [ho, hs]
  simp only
  cases hd : sb.data with
  | none => rw [hd] at hob; rw [hob t hsty] at hm; simp at hm
  | some b =>
    simp only [hsty, hty]
    cases hck : copyFromCheck D E own (E.mixins t) with
    | some m' =>
      obtain ⟨h1, h2⟩ := copyFromCheck_some hE (t := t) (E.mixins t) (fun _ h => h) m' hck
      exact ⟨m', h1, h2, rfl⟩
    | none =>
      have := copyFromCheck_none hE (own := own) (t := t) (E.mixins t) (fun m hm => hm) hck m hm
      rcases hbad with ⟨h1, h2⟩ | ⟨h1, h2⟩
      · rw [this.1 h1] at h2; simp at h2
      · rw [this.2 h1] at h2; simp at h2

theorem copyMatching_missing {own t : TypeId} (hty : ob.ty = some own) (hsty : sb.ty = some t)
    (hex : ∃ m ∈ E.mixins t, m ∈ E.mixins own ∧ (D.mix m).hasCopyAsgn = false) :
    ∃ m ∈ E.mixins t, (m ∈ E.mixins own ∧ (D.mix m).hasCopyAsgn = false) ∧ copyMatchingFrom D E orc h o src = .throw h (.missingFunc m) := by
  obtain ⟨m, hm, hm', hbad⟩ := hex
  unfold copyMatchingFrom
  rw [ho, hs]
  simp only [hsty, hty]
  cases hck : copyMatchingCheck D E own (E.mixins t) with
  | some m' =>
    obtain ⟨h1, h2⟩ := copyMatchingCheck_some hE (t := t) (E.mixins t) (fun _ h => h) m' hck
    exact ⟨m', h1, h2, rfl⟩
  | none =>
    have := copyMatchingCheck_none hE (own := own) (t := t) (E.mixins t) (fun m hm => hm) hck m hm hm'
    rw [this] at hbad; simp at hbad

theorem moveMatching_missing {own t : TypeId} (hty : ob.ty = some own) (hsty : sb.ty = some t) (fb : Bool)
    (hex : ∃ m ∈ E.mixins t, m ∈ E.mixins own ∧ (D.mix m).hasMoveAsgn = false ∧ (fb = true → (D.mix m).hasMoveInit = false)) :
    ∃ m ∈ E.mixins t, (m ∈ E.mixins own ∧ (D.mix m).hasMoveAsgn = false ∧ (fb = true → (D.mix m).hasMoveInit = false)) ∧
      moveMatchingFrom D E orc h o src fb = .throw h (.missingFunc m) := by
  obtain ⟨m, hm, hm', hbad, hbad'⟩ := hex
  unfold moveMatchingFrom
  rw [ho, hs]
  simp only [hsty, hty]
  cases hck : moveMatchingCheck D E own fb (E.mixins t) with
  | some m' =>
    obtain ⟨h1, h2, h3, h4⟩ := moveMatchingCheck_some hE (t := t) (E.mixins t) (fun _ h => h) m' hck
    exact ⟨m', h1, ⟨h2, h3, fun hf => by subst hf; simpa using h4⟩, rfl⟩
  | none =>
    have := moveMatchingCheck_none hE (own := own) (t := t) (E.mixins t) (fun m hm => hm) hck m hm hm'
    rcases this with h | ⟨h1, h2⟩
    · rw [h] at hbad; simp at hbad
    · rw [hbad' h1] at h2; simp at h2

theorem places_revalued {h' : Heap} (hr : Revalued h h') (o' : Nat) (m : Mix) (l : Loc) : (∃ v, Holds E h' o' m l v) ↔ ∃ v, Holds E h o' m l v := by
  constructor
  · rintro ⟨v, i, sl, h1, rfl, h2⟩
    have h1 := hr.slots.1 h1
    have := hr.live sl.loc
    rw [h2] at this
    simp only [Option.map_some] at this
    obtain ⟨⟨m', v'⟩, e1, e2⟩ := Option.map_eq_some_iff.1 this.symm
    simp at e2; subst e2
    exact ⟨v', i, sl, h1, rfl, e1⟩
  · rintro ⟨v, i, sl, h1, rfl, h2⟩
    have := hr.live sl.loc
    rw [h2] at this
    simp only [Option.map_some] at this
    obtain ⟨⟨m', v'⟩, e1, e2⟩ := Option.map_eq_some_iff.1 this
    simp at e2; subst e2
    exact ⟨v', i, sl, hr.slots.2 h1, rfl, e1⟩

theorem copyMatching_common {own t : TypeId} (hty : ob.ty = some own) (hsty : sb.ty = some t) {h' : Heap} (hr : copyMatchingFrom D E orc h o src = .ok h') : CommonCopied E h o src h' := by
  unfold copyMatchingFrom at hr
  rw [ho, hs] at hr
  simp only [hty, hsty] at hr
  cases hck : copyMatchingCheck D E own (E.mixins t) with
  | some m => rw [hck] at hr; simp at hr
  | none =>
    rw [hck] at hr
    simp only at hr
    have hch := copyMatchingCheck_none hE (own := own) (t := t) (E.mixins t) (fun m hm => hm) hck
    have := copyMatchingLoop_ok (orc := orc) hE hg.1 ho hs hty hsty hch (E.mixins t) 0 h rfl (Nat.zero_le _)
      ⟨Revalued.refl h, fun j _ _ _ hj => by omega, fun _ _ => rfl, rfl, rfl⟩
    rw [hr] at this
    obtain ⟨k1, k2, k3, k4, k5⟩ : CopiedUpto E h o src (E.mixins t).length h' := this
    refine ⟨fun o' => by unfold Heap.obj?; rw [k1.objs], fun m l => places_revalued hE hg ho hs k1 o m l, ?_, ?_, ?_, fun a => by rw [k1.blk], fun x => by rw [k1.count], k4, k5⟩
    · rintro m l v x w ⟨i, sl, h1, rfl, h2⟩ ⟨j, sl', h3, rfl, h4⟩
      refine ⟨i, sl, k1.slots.2 h1, rfl, ?_⟩
      rw [k2 j m sl sl' (lt_of_at (slotOf_lt hE h3 hs hsty)) ⟨h3, i, h1⟩, h4]
    · rintro m l v ⟨i, sl, h1, rfl, h2⟩ hn
      refine ⟨i, sl, k1.slots.2 h1, rfl, ?_⟩
      rw [k3, h2]
      intro j m' sl2 sl2' hj hmt heq
      obtain ⟨h5, oi, h6⟩ := hmt
      obtain ⟨-, -, h8⟩ := h6.same hE hg.1 h1 heq
      subst h8
      obtain ⟨_, _, _, v0, -, -, -, -, -, -, f7, -⟩ := h5.facts hg.1
      exact hn _ v0 ⟨j, sl2', h5, rfl, f7⟩
    · intro o' m l v hne
      refine revalued_holds k1 ?_ m l v
      intro i m' sl h1
      apply k3
      intro j m2 sl2 sl2' hj hmt heq
      obtain ⟨h5, oi, h6⟩ := hmt
      exact hne ((h6.same hE hg.1 h1 heq).1.symm)

theorem copyMatching_throw {own t : TypeId} (hty : ob.ty = some own) (hsty : sb.ty = some t) {h' : Heap} {e : XErr} (hr : copyMatchingFrom D E orc h o src = .throw h' e) :
    UntouchedBut D E o h h' ∧ ∃ k, CopyStopped E h o src t k h' := by
  unfold copyMatchingFrom at hr
  rw [ho, hs] at hr
  simp only [hty, hsty] at hr
  cases hck : copyMatchingCheck D E own (E.mixins t) with
  | some m =>
    rw [hck] at hr; simp only at hr; injection hr with h1; subst h1
    exact ⟨untouched_but (untouched_refl h) o, 0, fun m l v hh => ⟨fun j _ hj => by omega, fun _ => hh⟩⟩
  | none =>
    rw [hck] at hr
    simp only at hr
    have hch := copyMatchingCheck_none hE (own := own) (t := t) (E.mixins t) (fun m hm => hm) hck
    have := copyMatchingLoop_ok (orc := orc) hE hg.1 ho hs hty hsty hch (E.mixins t) 0 h rfl (Nat.zero_le _)
      ⟨Revalued.refl h, fun j _ _ _ hj => by omega, fun _ _ => rfl, rfl, rfl⟩
    rw [hr] at this
    obtain ⟨k, h1, m, sl, sl', v, tk, L, k1, k2, rfl, hL1, hL2⟩ := this
    obtain ⟨h3, oi, hsl⟩ := k2
    obtain ⟨_, _, _, v0, -, -, -, -, -, -, f7, -⟩ := hsl.facts hg.1
    have hrev := k1.rev.set f7 v tk L
    have hmk := slotOf_lt hE h3 hs hsty
    refine ⟨⟨fun o' => by unfold Heap.obj?; rw [hrev.objs], fun m l => places_revalued hE hg ho hs hrev o m l, ?_, fun a => by rw [hrev.blk], fun x => by rw [hrev.count],
      [], by simp [hL1, k1.inits], by simp [hL2, k1.destroys]⟩, k, ?_⟩
    · intro o' m' l v' hne
      refine revalued_holds hrev ?_ m' l v'
      intro i m2 sl2 h4
      have : sl2.loc ≠ sl.loc := fun heq => hne (h4.same hE hg.1 hsl heq).1
      simp only [this, if_false]
      apply k1.rest
      intro j m3 sl3 sl3' hj hmt heq
      obtain ⟨h5, oi', h6⟩ := hmt
      exact hne ((h6.same hE hg.1 h4 heq).1.symm)
    · rintro m' l v' ⟨i, sl2, h4, rfl, h5⟩
      have hmm : m' ≠ m → sl2.loc ≠ sl.loc := fun hn heq => hn (h4.same hE hg.1 hsl heq).2.2
      constructor
      · intro j hj hlt
        have hne : m' ≠ m := by
          rintro rfl
          have := nodup_index (hE.nodup t) hj hmk
          omega
        obtain ⟨b, sls, w, -, g2, -, g4⟩ := typed_slot hE hg.1 hs hsty hj
        refine ⟨sls.loc, w, ⟨j, sls, g2, rfl, g4⟩, i, sl2, hrev.slots.2 h4, rfl, ?_⟩
        simp only [hmm hne, if_false]
        rw [k1.copied j m' sl2 sls hlt ⟨g2, i, h4⟩, g4]
      · intro hgt
        refine ⟨i, sl2, hrev.slots.2 h4, rfl, ?_⟩
        have hne : m' ≠ m := by
          rintro rfl
          have := hgt k hmk
          omega
        simp only [hmm hne, if_false]
        rw [k1.rest, h5]
        intro j m3 sl3 sl3' hj hmt heq
        obtain ⟨h6, oi', h7⟩ := hmt
        obtain ⟨-, -, h8⟩ := h7.same hE hg.1 h4 heq
        subst h8
        have := hgt j (slotOf_lt hE h6 hs hsty)
        omega

theorem moveMatching_common {own t : TypeId} (hty : ob.ty = some own) (hsty : sb.ty = some t) (fb : Bool) (hne : src ≠ o) {h' : Heap}
    (hr : moveMatchingFrom D E orc h o src fb = .ok h') : CommonMoved E h o src h' := by
  unfold moveMatchingFrom at hr
  rw [ho, hs] at hr
  simp only [hty, hsty] at hr
  cases hck : moveMatchingCheck D E own fb (E.mixins t) with
  | some m => rw [hck] at hr; simp at hr
  | none =>
    rw [hck] at hr
    simp only at hr
    have hch := moveMatchingCheck_none hE (own := own) (t := t) (E.mixins t) (fun m hm => hm) hck
    have := moveMatchingLoop_ok (orc := orc) hE hg.1 ho hs hty hsty fb (fun h => absurd h.symm hne) hch (E.mixins t) 0 h rfl (Nat.zero_le _)
      ⟨Revalued.refl h, fun _ j _ _ _ hj => by omega, fun _ _ => rfl⟩
    rw [hr] at this
    obtain ⟨k1, k2, k3⟩ : MovedUpto E h o src (E.mixins t).length h' := this
    have k2 := k2 hne
    refine ⟨fun o' => by unfold Heap.obj?; rw [k1.objs], fun o' m l => places_revalued hE hg ho hs k1 o' m l, ?_, ?_, ?_, ?_, fun a => by rw [k1.blk], fun x => by rw [k1.count]⟩
    · rintro m l v x w ⟨i, sl, h1, rfl, h2⟩ ⟨j, sl', h3, rfl, h4⟩
      refine ⟨i, sl, k1.slots.2 h1, rfl, ?_⟩
      rw [k2 j m sl sl' (lt_of_at (slotOf_lt hE h3 hs hsty)) ⟨h3, i, h1⟩, h4]
    · rintro m l v ⟨i, sl, h1, rfl, h2⟩ hn
      refine ⟨i, sl, k1.slots.2 h1, rfl, ?_⟩
      rw [k3, h2]
      intro j m' sl2 sl2' hj hmt
      obtain ⟨h5, oi, h6⟩ := hmt
      constructor
      · intro heq
        obtain ⟨-, -, h8⟩ := h6.same hE hg.1 h1 heq
        subst h8
        obtain ⟨_, _, _, v0, -, -, -, -, -, -, f7, -⟩ := h5.facts hg.1
        exact hn _ v0 ⟨j, sl2', h5, rfl, f7⟩
      · intro heq
        exact hne (h5.same hE hg.1 h1 heq).1
    · rintro m x w ⟨i, sl, h1, rfl, h2⟩ hn
      refine ⟨i, sl, k1.slots.2 h1, rfl, ?_⟩
      rw [k3, h2]
      intro j m' sl2 sl2' hj hmt
      obtain ⟨h5, oi, h6⟩ := hmt
      constructor
      · intro heq
        exact hne (h6.same hE hg.1 h1 heq).1.symm
      · intro heq
        obtain ⟨-, -, h8⟩ := h5.same hE hg.1 h1 heq
        subst h8
        obtain ⟨_, _, _, v0, -, -, -, -, -, -, f7, -⟩ := h6.facts hg.1
        exact hn _ v0 ⟨oi, sl2, h6, rfl, f7⟩
    · intro o' m l v h1 h2
      refine revalued_holds k1 ?_ m l v
      intro i m' sl h3
      apply k3
      intro j m2 sl2 sl2' hj hmt
      obtain ⟨h5, oi, h6⟩ := hmt
      exact ⟨fun heq => h1 ((h6.same hE hg.1 h3 heq).1.symm), fun heq => h2 ((h5.same hE hg.1 h3 heq).1.symm)⟩

end

end Dnmx
