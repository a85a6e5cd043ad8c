import Verif.Spec.RulesV1
import Verif.Proofs.TypeMutationLemmas
import Verif.Proofs.RulesLemmas

/-!
# Lemmas: rules of version 1
-/

set_option linter.unusedSimpArgs false
set_option linter.unusedVariables false

namespace Dnmx
open Spec

theorem addIfLacking_eq (ms : List Mix) (m : Mix) : (tmAddIfLacking ms m).1 = if m ∈ ms then ms else ms ++ [m] := by
  unfold tmAddIfLacking tmAdd
  by_cases h : m ∈ ms
  · rw [if_pos ((tmHas_iff ms m).2 h), if_pos h]
  · rw [if_neg (by rw [tmHas_iff]; exact h), if_neg h]

/-- The new mixins, without repetitions. -/
def newOnes : List Mix → List Mix → List Mix
  | _, [] => []
  | ms, i :: is => if i ∈ ms then newOnes ms is else i :: newOnes (ms ++ [i]) is

theorem addAll_eq : ∀ (is ms : List Mix), addAllIfLacking ms is = ms ++ newOnes ms is
  | [], ms => by simp [addAllIfLacking, newOnes]
  | i :: is, ms => by
    show addAllIfLacking (tmAddIfLacking ms i).1 is = ms ++ (if i ∈ ms then newOnes ms is else i :: newOnes (ms ++ [i]) is)
    rw [addIfLacking_eq]
    by_cases h : i ∈ ms
    · rw [if_pos h, if_pos h]; exact addAll_eq is ms
    · rw [if_neg h, if_neg h, addAll_eq is (ms ++ [i])]; simp

theorem newOnes_nodup : ∀ (is ms : List Mix), (newOnes ms is).Nodup ∧ ∀ x, x ∈ newOnes ms is ↔ x ∈ is ∧ x ∉ ms
  | [], ms => by simp [newOnes]
  | i :: is, ms => by
    unfold newOnes
    by_cases h : i ∈ ms
    · rw [if_pos h]
      obtain ⟨h1, h2⟩ := newOnes_nodup is ms
      refine ⟨h1, fun x => ?_⟩
      rw [h2]
      constructor
      · rintro ⟨h3, h4⟩; exact ⟨by simp [h3], h4⟩
      · rintro ⟨h3, h4⟩
        rcases List.mem_cons.1 h3 with rfl | h3
        · exact absurd h h4
        · exact ⟨h3, h4⟩
    · rw [if_neg h]
      obtain ⟨h1, h2⟩ := newOnes_nodup is (ms ++ [i])
      refine ⟨List.nodup_cons.2 ⟨by rw [h2]; simp, h1⟩, fun x => ?_⟩
      rw [List.mem_cons, h2]
      constructor
      · rintro (rfl | ⟨h3, h4⟩)
        · exact ⟨by simp, h⟩
        · simp at h4; exact ⟨by simp [h3], h4.1⟩
      · rintro ⟨h3, h4⟩
        by_cases hx : x = i
        · exact .inl hx
        · rcases List.mem_cons.1 h3 with h3 | h3
          · exact absurd h3 hx
          · exact .inr ⟨h3, by simp [h4, hx]⟩

theorem addAllDeps_eq (D : Decls) : ∀ (is ms : List Mix), addAllDeps D ms is = if ∀ i ∈ is, (D.mix i).dependency = true then .ok (addAllIfLacking ms is) else .error .missingMixin
  | [], ms => by simp [addAllDeps, addAllIfLacking]
  | i :: is, ms => by
    unfold addAllDeps
    cases h : (D.mix i).dependency with
    | false => simp [h]
    | true =>
      simp only [Bool.not_true, Bool.false_eq_true, if_false]
      rw [addAllDeps_eq D is]
      have : (∀ j ∈ i :: is, (D.mix j).dependency = true) ↔ ∀ j ∈ is, (D.mix j).dependency = true := by simp [h]
      rw [show addAllIfLacking ms (i :: is) = addAllIfLacking (tmAddIfLacking ms i).1 is from rfl]
      by_cases hq : ∀ j ∈ is, (D.mix j).dependency = true
      · rw [if_pos hq, if_pos (this.2 hq)]
      · rw [if_neg hq, if_neg (fun hh => hq (this.1 hh))]

/-! ## Exclusive mixins -/

theorem eraseExclusive_sublist (infos : List Mix) : ∀ (l : List Mix) (b : Bool), (eraseExclusive infos b l).Sublist l
  | [], b => by simp [eraseExclusive]
  | x :: l, b => by
    unfold eraseExclusive
    split
    · exact (eraseExclusive_sublist infos l b).cons_cons x
    · split
      · exact (eraseExclusive_sublist infos l b).cons x
      · exact (eraseExclusive_sublist infos l true).cons_cons x

theorem eraseExclusive_out (infos : List Mix) : ∀ (l : List Mix) (b : Bool), (eraseExclusive infos b l).filter (fun m => decide (m ∉ infos)) = l.filter (fun m => decide (m ∉ infos))
  | [], b => by simp [eraseExclusive]
  | x :: l, b => by
    unfold eraseExclusive
    by_cases h : x ∈ infos
    · have h1 : infos.contains x = true := by simpa using h
      simp only [h1, Bool.not_true, Bool.false_eq_true, if_false]
      cases b with
      | true => simpa [h] using eraseExclusive_out infos l true
      | false => simpa [h] using eraseExclusive_out infos l true
    · have h1 : infos.contains x = false := by simpa using h
      simp only [h1, Bool.not_false, if_true]
      simpa [h] using eraseExclusive_out infos l b

theorem eraseExclusive_in (infos : List Mix) : ∀ (l : List Mix) (b : Bool),
    (eraseExclusive infos b l).filter (fun m => decide (m ∈ infos)) = if b then [] else (l.filter (fun m => decide (m ∈ infos))).take 1
  | [], b => by cases b <;> simp [eraseExclusive]
  | x :: l, b => by
    unfold eraseExclusive
    by_cases h : x ∈ infos
    · have h1 : infos.contains x = true := by simpa using h
      simp only [h1, Bool.not_true, Bool.false_eq_true, if_false]
      cases b with
      | true => simpa using eraseExclusive_in infos l true
      | false =>
        have := eraseExclusive_in infos l true
        simp at this
        simpa [h] using this
    · have h1 : infos.contains x = false := by simpa using h
      simp only [h1, Bool.not_false, if_true]
      have := eraseExclusive_in infos l b
      simp only [h, decide_false, Bool.false_eq_true, not_false_eq_true, List.filter_cons_of_neg]
      exact this

theorem eraseExclusive_same (infos : List Mix) : ∀ (l : List Mix), (l.filter (fun m => decide (m ∈ infos))).length ≤ 1 → eraseExclusive infos false l = l := by
  have none : ∀ (l : List Mix) (b : Bool), l.filter (fun m => decide (m ∈ infos)) = [] → eraseExclusive infos b l = l := by
    intro l
    induction l with
    | nil => intro b _; simp [eraseExclusive]
    | cons x l ih =>
      intro b h
      by_cases hx : x ∈ infos
      · simp [hx] at h
      · have h1 : infos.contains x = false := by simpa using hx
        have h2 : l.filter (fun m => decide (m ∈ infos)) = [] := by simpa [hx] using h
        simp [eraseExclusive, hx, ih b h2]
  intro l
  induction l with
  | nil => intro _; simp [eraseExclusive]
  | cons x l ih =>
    intro h
    by_cases hx : x ∈ infos
    · have h2 : l.filter (fun m => decide (m ∈ infos)) = [] := by
        have : (l.filter (fun m => decide (m ∈ infos))).length = 0 := by simp [hx] at h; simp; exact h
        exact List.length_eq_zero_iff.1 this
      simp [eraseExclusive, hx, none l true h2]
    · have h2 : (l.filter (fun m => decide (m ∈ infos))).length ≤ 1 := by simpa [hx] using h
      simp [eraseExclusive, hx, ih h2]

theorem take_reverse_last {α : Type} (l : List α) : (l.reverse.take 1).reverse = l.getLast?.toList := by
  rcases List.eq_nil_or_concat l with rfl | ⟨l', a, rfl⟩
  · rfl
  · simp

/-- What `mutually_exclusive_mixins` does. -/
theorem exclusive_spec (infos ms : List Mix) :
    (eraseExclusive infos false ms.reverse).reverse.Sublist ms ∧
    (eraseExclusive infos false ms.reverse).reverse.filter (fun m => decide (m ∉ infos)) = ms.filter (fun m => decide (m ∉ infos)) ∧
    (eraseExclusive infos false ms.reverse).reverse.filter (fun m => decide (m ∈ infos)) = (ms.filter (fun m => decide (m ∈ infos))).getLast?.toList := by
  refine ⟨?_, ?_, ?_⟩
  · have := (eraseExclusive_sublist infos ms.reverse false).reverse
    rwa [List.reverse_reverse] at this
  · rw [List.filter_reverse, eraseExclusive_out, List.filter_reverse, List.reverse_reverse]
  · rw [List.filter_reverse, eraseExclusive_in, List.filter_reverse]
    simp only [Bool.false_eq_true, if_false]
    exact take_reverse_last _

theorem toList_length_le {α : Type} (o : Option α) : o.toList.length ≤ 1 := by cases o <;> simp

/-! ## Removal -/

theorem tmRemove_nodup : ∀ {ms : List Mix} (m : Mix), ms.Nodup → (tmRemove ms m).1 = ms.filter (fun x => decide (x ≠ m))
  | [], m, _ => rfl
  | x :: xs, m, h => by
    unfold tmRemove
    have h2 := List.nodup_cons.1 h
    by_cases hx : x = m
    · subst hx
      rw [if_pos rfl]
      simp only [ne_eq, not_true_eq_false, decide_false, Bool.false_eq_true, not_false_eq_true, List.filter_cons_of_neg]
      symm
      rw [List.filter_eq_self]
      intro a ha
      have : a ≠ x := fun e => h2.1 (e ▸ ha)
      simpa using this
    · rw [if_neg hx]
      simp [hx, tmRemove_nodup m h2.2]

theorem tmRemove_length (ms : List Mix) (m : Mix) : (tmRemove ms m).1.length ≤ ms.length ∧ ((tmRemove ms m).1.length = ms.length → m ∉ ms) := by
  induction ms with
  | nil => simp [tmRemove]
  | cons x xs ih =>
    unfold tmRemove
    by_cases hx : x = m
    · subst hx; rw [if_pos rfl]; simp
    · rw [if_neg hx]
      simp only [List.length_cons]
      refine ⟨by omega, fun h => ?_⟩
      have := ih.2 (by omega)
      simp [this, Ne.symm hx]

/-! ## The promises -/

variable {D : Decls}

theorem applyTo_promise {r : V1Rule} {ms ms' : List Mix} (hn : ms.Nodup) (h : r.applyTo D ms = .ok ms') : Promise r ms' := by
  cases r with
  | dependent master infos =>
    unfold V1Rule.applyTo at h
    by_cases hm : tmHas ms master = true
    · simp [hm] at h; subst h
      intro _ i hi
      rw [addAll_eq, List.mem_append, (newOnes_nodup infos ms).2]
      by_cases hx : i ∈ ms
      · exact .inl hx
      · exact .inr ⟨hi, hx⟩
    · simp [hm] at h; subst h
      intro hx
      exact absurd ((tmHas_iff _ _).2 hx) hm
  | dependentDep master infos =>
    unfold V1Rule.applyTo at h
    by_cases hm : tmHas ms master = true
    · simp [hm] at h
      rw [addAllDeps_eq] at h
      split at h
      · simp at h; subst h
        intro _ i hi
        rw [addAll_eq, List.mem_append, (newOnes_nodup infos ms).2]
        by_cases hx : i ∈ ms
        · exact .inl hx
        · exact .inr ⟨hi, hx⟩
      · simp at h
    · simp [hm] at h; subst h
      intro hx
      exact absurd ((tmHas_iff _ _).2 hx) hm
  | exclusive infos =>
    unfold V1Rule.applyTo at h
    simp at h; subst h
    show (List.filter _ _).length ≤ 1
    rw [(exclusive_spec infos ms).2.2]
    exact toList_length_le _
  | deprecated m =>
    unfold V1Rule.applyTo at h
    simp at h; subst h
    show m ∉ _
    rw [tmRemove_nodup m hn]; simp
  | mandatory m =>
    unfold V1Rule.applyTo at h
    simp at h; subst h
    show m ∈ _
    rw [addIfLacking_eq]
    split
    · assumption
    · simp
  | substitute source target =>
    unfold V1Rule.applyTo at h
    intro hne
    by_cases hm : tmHas ms source = true
    · simp [hm] at h; subst h
      unfold tmAdd
      rw [tmRemove_nodup source hn]; simp [hne]
    · simp [hm] at h; subst h
      intro hx
      exact absurd ((tmHas_iff _ _).2 hx) hm

/-- A rule whose promise is kept changes nothing (apart from substituting a mixin by itself). -/
theorem applyTo_kept {r : V1Rule} (hr : ∀ s t, r = .substitute s t → s ≠ t) {ms ms' : List Mix} (hp : Promise r ms) (h : r.applyTo D ms = .ok ms') : ms' = ms := by
  cases r with
  | dependent master infos =>
    unfold V1Rule.applyTo at h
    by_cases hm : tmHas ms master = true
    · simp [hm] at h; subst h
      have hp := hp ((tmHas_iff _ _).1 hm)
      rw [addAll_eq]
      have : newOnes ms infos = [] := by
        rw [List.eq_nil_iff_forall_not_mem]
        intro x hx
        rw [(newOnes_nodup infos ms).2] at hx
        exact hx.2 (hp x hx.1)
      rw [this]; simp
    · simp [hm] at h; exact h.symm
  | dependentDep master infos =>
    unfold V1Rule.applyTo at h
    by_cases hm : tmHas ms master = true
    · simp [hm] at h
      rw [addAllDeps_eq] at h
      split at h
      · simp at h; subst h
        have hp := hp ((tmHas_iff _ _).1 hm)
        rw [addAll_eq]
        have : newOnes ms infos = [] := by
          rw [List.eq_nil_iff_forall_not_mem]
          intro x hx
          rw [(newOnes_nodup infos ms).2] at hx
          exact hx.2 (hp x hx.1)
        rw [this]; simp
      · simp at h
    · simp [hm] at h; exact h.symm
  | exclusive infos =>
    unfold V1Rule.applyTo at h
    simp at h; subst h
    have hp : (ms.filter (fun m => decide (m ∈ infos))).length ≤ 1 := hp
    rw [eraseExclusive_same infos ms.reverse (by rw [List.filter_reverse, List.length_reverse]; exact hp), List.reverse_reverse]
  | deprecated m =>
    unfold V1Rule.applyTo at h
    simp at h; subst h
    rw [tmRemove_absent hp]
  | mandatory m =>
    unfold V1Rule.applyTo at h
    simp at h; subst h
    rw [addIfLacking_eq]; exact if_pos hp
  | substitute source target =>
    unfold V1Rule.applyTo at h
    have hp := hp (hr _ _ rfl)
    have : tmHas ms source = false := by
      cases hx : tmHas ms source with
      | false => rfl
      | true => exact absurd ((tmHas_iff _ _).1 hx) hp
    simp [this] at h; exact h.symm

/-! ## Several rules together -/

/-- A function on lists that only adds (or only removes) elements, or rearranges them. -/
def Grows (f : RuleFn) : Prop := ∀ ms ms', f ms = .ok ms' → ms.length ≤ ms'.length ∧ (ms.length = ms'.length → ms.Perm ms')
def Shrinks (f : RuleFn) : Prop := ∀ ms ms', f ms = .ok ms' → ms'.length ≤ ms.length ∧ (ms.length = ms'.length → ms.Perm ms')

/-- In a pass that gives back the list, every rule only rearranges. -/
theorem pass_perm : ∀ (rules : List RuleFn) (ms ms' : List Mix), ((∀ f ∈ rules, Grows f) ∨ ∀ f ∈ rules, Shrinks f) → applyPass rules ms = .ok ms' → ms.length = ms'.length →
    ∀ f ∈ rules, ∃ x y, f x = .ok y ∧ x.Perm ms ∧ y.Perm ms
  | [], ms, ms', _, _, _, f, hf => by simp at hf
  | r :: rs, ms, ms', hg, h, hl, f, hf => by
    unfold applyPass at h
    cases hr : r ms with
    | error e => rw [hr] at h; simp at h
    | ok x =>
      rw [hr] at h
      simp only at h
      have mono : ∀ (rs : List RuleFn) (a b : List Mix), applyPass rs a = .ok b → ((∀ f ∈ rs, Grows f) → a.length ≤ b.length) ∧ ((∀ f ∈ rs, Shrinks f) → b.length ≤ a.length) := by
        intro rs
        induction rs with
        | nil => intro a b h; simp [applyPass] at h; subst h; simp
        | cons q qs ih =>
          intro a b h
          unfold applyPass at h
          cases hq : q a with
          | error e => rw [hq] at h; simp at h
          | ok c =>
            rw [hq] at h
            obtain ⟨i1, i2⟩ := ih c b h
            constructor
            · intro hh
              have := (hh q (by simp) a c hq).1
              have := i1 (fun f hf => hh f (by simp [hf]))
              omega
            · intro hh
              have := (hh q (by simp) a c hq).1
              have := i2 (fun f hf => hh f (by simp [hf]))
              omega
      obtain ⟨m1, m2⟩ := mono rs x ms' h
      have hx : ms.length = x.length ∧ ms.Perm x := by
        rcases hg with hg | hg
        · obtain ⟨g1, g2⟩ := hg r (by simp) ms x hr
          have := m1 (fun f hf => hg f (by simp [hf]))
          have e : ms.length = x.length := by omega
          exact ⟨e, g2 e⟩
        · obtain ⟨g1, g2⟩ := hg r (by simp) ms x hr
          have := m2 (fun f hf => hg f (by simp [hf]))
          have e : ms.length = x.length := by omega
          exact ⟨e, g2 e⟩
      rcases List.mem_cons.1 hf with rfl | hf
      · exact ⟨ms, x, hr, List.Perm.refl _, hx.2.symm⟩
      · have hg' : (∀ f ∈ rs, Grows f) ∨ ∀ f ∈ rs, Shrinks f := by
          rcases hg with hg | hg
          · exact .inl (fun f hf => hg f (by simp [hf]))
          · exact .inr (fun f hf => hg f (by simp [hf]))
        obtain ⟨y, z, h1, h2, h3⟩ := pass_perm rs x ms' hg' h (by omega) f hf
        exact ⟨y, z, h1, h2.trans hx.2.symm, h3.trans hx.2.symm⟩

theorem promise_perm {r : V1Rule} {a b : List Mix} (h : a.Perm b) (hp : Promise r a) : Promise r b := by
  cases r with
  | dependent master infos => intro hm i hi; exact h.mem_iff.1 (hp (h.mem_iff.2 hm) i hi)
  | dependentDep master infos => intro hm i hi; exact h.mem_iff.1 (hp (h.mem_iff.2 hm) i hi)
  | exclusive infos =>
    show (List.filter _ _).length ≤ 1
    rw [← (h.filter _).length_eq]; exact hp
  | deprecated m => show m ∉ b; rw [← h.mem_iff]; exact hp
  | mandatory m => show m ∈ b; rw [← h.mem_iff]; exact hp
  | substitute s t => intro hne; rw [← h.mem_iff]; exact hp hne

theorem adds_grows {r : V1Rule} (h : V1Adds r = true) : Grows (r.applyTo D) := by
  intro ms ms' hr
  cases r with
  | dependent master infos =>
    unfold V1Rule.applyTo at hr
    by_cases hm : tmHas ms master = true
    rotate_left
    · simp [hm] at hr; subst hr; simp
    · simp [hm] at hr; subst hr
      rw [addAll_eq]
      refine ⟨by simp, fun e => ?_⟩
      have : newOnes ms infos = [] := by simp at e; exact e
      rw [this]; simp
  | dependentDep master infos =>
    unfold V1Rule.applyTo at hr
    by_cases hm : tmHas ms master = true
    rotate_left
    · simp [hm] at hr; subst hr; simp
    · simp only [hm, Bool.not_true, Bool.false_eq_true, if_false] at hr
      rw [addAllDeps_eq] at hr
      split at hr
      · simp at hr; subst hr
        rw [addAll_eq]
        refine ⟨by simp, fun e => ?_⟩
        have : newOnes ms infos = [] := by simp at e; exact e
        rw [this]; simp
      · simp at hr
  | mandatory m =>
    unfold V1Rule.applyTo at hr
    simp at hr; subst hr
    rw [addIfLacking_eq]
    split
    · simp
    · simp
  | exclusive _ => simp [V1Adds] at h
  | deprecated _ => simp [V1Adds] at h
  | substitute _ _ => simp [V1Adds] at h

theorem removes_shrinks {r : V1Rule} (h : V1Removes r = true) : Shrinks (r.applyTo D) := by
  intro ms ms' hr
  cases r with
  | exclusive infos =>
    unfold V1Rule.applyTo at hr
    simp at hr; subst hr
    have hs := (exclusive_spec infos ms).1
    refine ⟨hs.length_le, fun e => ?_⟩
    rw [hs.eq_of_length e.symm]
  | deprecated m =>
    unfold V1Rule.applyTo at hr
    simp at hr; subst hr
    obtain ⟨h1, h2⟩ := tmRemove_length ms m
    refine ⟨h1, fun e => ?_⟩
    rw [tmRemove_absent (h2 e.symm)]
  | dependent _ _ => simp [V1Removes] at h
  | dependentDep _ _ => simp [V1Removes] at h
  | mandatory _ => simp [V1Removes] at h
  | substitute _ _ => simp [V1Removes] at h

end Dnmx
