import Verif.Proofs.TransferLemmas
import Verif.Proofs.OutcomeLemmas
import Verif.Proofs.CopyLemmas

/-! # Lemmas on the construction of objects -/

set_option linter.unusedSimpArgs false
set_option linter.unusedVariables false
set_option linter.unusedSectionVars false

namespace Dnmx
open Spec

variable {D : Decls} {E : TyEnv} {orc : Orc}

theorem newOfType_made (hE : EnvOk D E) {h : Heap} (hg : Good D E h) {t : TypeId} {al : Nat} {sd : Bool} {h' : Heap} (hr : newOfType D E orc false h t al sd = .ok h') : Made D E h t al sd h' := by
  unfold newOfType at hr
  simp only at hr
  have hk1 : HeapOk D E (newNull h al) := addObj_ok hg.1 (bare_null al)
  have ho1 : (newNull h al).obj? h.objs.length = some ⟨none, none, false, al⟩ := by rw [newNull_addObj, addObj_obj, if_pos rfl]
  have hnull : ∀ o m l v, Holds E (newNull h al) o m l v ↔ Holds E h o m l v := by intro o m l v; rw [newNull_addObj, addObj_holds (bare_null al)]
  have hok := resetType_ok (orc := orc) hE hk1 ho1 rfl false t
  cases hx : resetType D E orc false (newNull h al) h.objs.length t with
  | ub => rw [hx] at hok; exact hok.elim
  | throw h1 e =>
    rw [hx] at hok hr
    simp only [Res.bind] at hr
    have hf : Failed D E (newNull h al) ⟨none, none, false, al⟩ t (fun _ => false) h1 := hok
    have hk2 := hf.1.heapOk hE hk1 ho1
    have ho2 : h1.obj? h.objs.length = some ⟨none, none, false, al⟩ := by rw [undone_obj hE hk1 ho1 hf.1]; exact ho1
    obtain ⟨h2, k1, k2⟩ := unwindObject_ok (D := D) hE hk2 ho2 e
    rw [k1] at hr; simp at hr
  | ok h1 =>
    rw [hx] at hok hr
    simp only [Res.bind] at hr
    rcases hok with ⟨h2, -⟩ | ⟨-, hne, h2, hc, rfl⟩ | ⟨-, hne, -, F, G, hc, hF⟩ | ⟨-, -, h2, -⟩
    · simp at h2
    · have hb : Bare E (some (⟨some t, none, false, al⟩ : Obj)) := by
        intro y hy; simp at hy; subst hy; exact ⟨rfl, fun t' ht' => by simp at ht'; subst ht'; exact hne⟩
      have hself : (h2.setObj h.objs.length (some (⟨some t, none, false, al⟩ : Obj))).obj? h.objs.length = some ⟨some t, none, false, al⟩ := by rw [hc.objs' ho1, if_pos rfl]
      have hk2 := hc.heapOk hE hk1 ho1 hb
      simp only [hself] at hr
      injection hr with hr
      subst hr
      obtain ⟨s1, s2⟩ := setObj_sealed hk2 hself sd
      have hobj := obj?_set (h := (h2.setObj h.objs.length (some (⟨some t, none, false, al⟩ : Obj))).setObj h.objs.length (some ⟨some t, none, sd, al⟩)) rfl hself
      have hd := cleared_destroyed hE hk1 ho1 hc
      refine ⟨⟨none, by rw [hobj, if_pos rfl]⟩, ?_, ?_, ?_, ?_, ?_, s1⟩
      · intro m
        constructor
        · rintro ⟨l, v, hl⟩
          exact absurd hl (no_holds (by rw [hobj, if_pos rfl]) rfl)
        · rw [hne]; simp
      · intro o' hn
        rw [hobj, if_neg hn]
        show (h2.setObj h.objs.length _).obj? o' = _
        rw [hc.objs' ho1, if_neg hn, newNull_addObj, addObj_obj, if_neg hn]
      · intro o' m l v hn
        rw [s2, ← hnull]
        exact hc.holds hE hk1 ho1 hb hn
      · refine ⟨[], ?_, by simp [hne], by simp⟩
        have := hd.1
        simp [newNull] at this ⊢
        exact this
      · obtain ⟨d, h5, h6, -⟩ := hd.2
        simp [ownMixins] at h6
        simp [newNull, h6] at h5 ⊢
        exact h5
    · have hm := completed_mutated hE hk1 ho1 hne hc (kind := fun _ k => k = .dflt) (keeps := fun _ => True) (fun i m _ => by show kindOf (F i) = .dflt; rw [(hF i).1]; rfl) (fun _ _ _ _ => rfl)
      obtain ⟨a, -, hself⟩ := hm.obj
      simp only [hself] at hr
      injection hr with hr
      subst hr
      obtain ⟨s1, s2⟩ := setObj_sealed hm.healthy hself sd
      have hobj := obj?_set (h := h1.setObj h.objs.length (some ⟨some t, some a, sd, al⟩)) rfl hself
      refine ⟨⟨some a, by rw [hobj, if_pos rfl]⟩, ?_, ?_, ?_, ?_, ?_, s1⟩
      · intro m
        rw [← hm.mixins m]
        constructor
        · rintro ⟨l, v, hl⟩; exact ⟨l, v, (s2 _ _ _ _).1 hl⟩
        · rintro ⟨l, v, hl⟩; exact ⟨l, v, (s2 _ _ _ _).2 hl⟩
      · intro o' hn
        rw [hobj, if_neg hn]
        show h1.obj? o' = _
        rw [hm.otherObjs o' hn, newNull_addObj, addObj_obj, if_neg hn]
      · intro o' m l v hn
        rw [s2, hm.others o' m l v hn, hnull]
      · obtain ⟨l, h5, h6, h7⟩ := hm.inits
        refine ⟨l, by simpa [newNull] using h5, by rw [h6]; simp [ownMixins], fun m p k hx => ?_⟩
        obtain ⟨⟨v, h8⟩, h9⟩ := h7 m p k hx
        exact ⟨h9, v, (s2 _ _ _ _).2 h8⟩
      · obtain ⟨d, h5, h6, -⟩ := hm.destroys
        simp [ownMixins] at h6
        simpa [newNull, h6] using h5
    · simp at h2

end Dnmx
