import Verif.Proofs.CompareLemmas
import Verif.Proofs.ErrorLemmas
import Verif.Proofs.MadeLemmas

/-!
# Lemmas: what comparisons mean and when operations are available
-/

set_option linter.unusedSimpArgs false
set_option linter.unusedVariables false
set_option linter.unusedSectionVars false

namespace Dnmx
open Spec

/-! ## compare -/

theorem listLess_nil {lt : Mix → Mix → Bool} {b : Mix} {bs : List Mix} : ListLess lt [] (b :: bs) := .inl ⟨b, bs, rfl⟩

theorem listLess_cons_nil {lt : Mix → Mix → Bool} {a : Mix} {as : List Mix} : ¬ ListLess lt (a :: as) [] := by
  rintro (⟨b, bs, h⟩ | ⟨p, a', b, as', bs', h1, h2, h3, h4⟩)
  · simp at h
  · simp at h2

theorem listLess_cons_eq {lt : Mix → Mix → Bool} {a : Mix} {as bs : List Mix} : ListLess lt (a :: as) (a :: bs) ↔ ListLess lt as bs := by
  constructor
  · rintro (⟨b, bs', h⟩ | ⟨p, a', b, as', bs', h1, h2, h3, h4⟩)
    · simp at h; exact .inl ⟨b, bs', h⟩
    · cases p with
      | nil => simp at h1 h2; exact absurd (h1.1.symm.trans h2.1) h3
      | cons x p => simp at h1 h2; exact .inr ⟨p, a', b, as', bs', h1.2, h2.2, h3, h4⟩
  · rintro (⟨b, bs', h⟩ | ⟨p, a', b, as', bs', h1, h2, h3, h4⟩)
    · exact .inl ⟨b, bs', by rw [h]; rfl⟩
    · exact .inr ⟨a :: p, a', b, as', bs', by rw [h1]; rfl, by rw [h2]; rfl, h3, h4⟩

theorem listLess_cons_ne {lt : Mix → Mix → Bool} {a b : Mix} {as bs : List Mix} (hne : a ≠ b) : ListLess lt (a :: as) (b :: bs) ↔ lt a b = true := by
  constructor
  · rintro (⟨b', bs', h⟩ | ⟨p, a', b', as', bs', h1, h2, h3, h4⟩)
    · simp at h; exact absurd h.1.symm hne
    · cases p with
      | nil => simp at h1 h2; rw [h1.1, h2.1]; exact h4
      | cons x p => simp at h1 h2; exact absurd (h1.1.trans h2.1.symm) hne
  · intro h
    exact .inr ⟨[], a, b, as, bs, rfl, rfl, hne, h⟩

theorem cmpMixins_meaning (lt : Mix → Mix → Bool) : ∀ as bs : List Mix, as ≠ bs →
    (cmpMixins lt as bs = -1 ∧ ListLess lt as bs ∨ cmpMixins lt as bs = 1 ∧ ¬ ListLess lt as bs)
  | [], [], h => absurd rfl h
  | [], b :: bs, _ => .inl ⟨rfl, listLess_nil⟩
  | a :: as, [], _ => .inr ⟨rfl, listLess_cons_nil⟩
  | a :: as, b :: bs, h => by
    show ((if a ≠ b then (if lt a b then -1 else 1) else cmpMixins lt as bs) = -1 ∧ _ ∨ (if a ≠ b then (if lt a b then -1 else 1) else cmpMixins lt as bs) = 1 ∧ _)
    by_cases hab : a = b
    · subst hab
      rw [if_neg (by simp), listLess_cons_eq]
      exact cmpMixins_meaning lt as bs (by intro e; exact h (by rw [e]))
    · rw [if_pos hab, listLess_cons_ne hab]
      by_cases hl : lt a b = true
      · left; simp [hl]
      · right; simp [hl]

variable {D : Decls} {F : CmpFns} {d : DomId}

theorem valsOf_tie {S : Sys} (hi : SysInv D d S) {o o' : Nat} {ob ob' : Obj} (ho : S.h.obj? o = some ob) (ho' : S.h.obj? o' = some ob') {t : TypeId} (ht : ob.ty = some t) (ht' : ob'.ty = some t) {k : Nat}
    (h : ∀ (j : Nat) (m : Mix), j < k → ((TyEnv.ofWorld S.W d).mixins t)[j]? = some m → (D.mix m).hasCompare = true ∧ F.cmp m (valsOf S.h ob (0 + j)) (valsOf S.h ob' (0 + j)) = 0) :
    TieUpto D (TyEnv.ofWorld S.W d) F S.h o o' t k := by
  have hn := ofWorld_nodup hi.types
  intro j m hj hm
  obtain ⟨h1, h2⟩ := h j m hj hm
  refine ⟨h1, fun l v l' w hv hw => ?_⟩
  obtain ⟨i, h3, h4⟩ := holds_val hn hi.good.1 ho ht (valsOf_ok hi.good.1 ho ht) hv
  obtain ⟨i', h5, h6⟩ := holds_val hn hi.good.1 ho' ht' (valsOf_ok hi.good.1 ho' ht') hw
  have e1 := index_unique hn h3 hm
  have e2 := index_unique hn h5 hm
  subst e1; subst e2
  rw [h4, h6]; simpa using h2

theorem objCompare_meaning {S : Sys} (hi : SysInv D d S) (addr : DomId → Nat) {o o' : Nat} {ob ob' : Obj} (ho : S.h.obj? o = some ob) (ho' : S.h.obj? o' = some ob') :
    ∃ r, objCompare D F addr d S o o' = some r ∧ Comparison D F d S o o' ob ob' r := by
  have := objCompare_cases (F := F) hi addr ho ho'
  generalize hr : objCompare D F addr d S o o' = x at this
  cases this with
  | same e => exact ⟨_, rfl, .same e⟩
  | types t t' r r' hne ht ht' htt h1 h2 =>
    refine ⟨_, rfl, .types t t' r.mixins r'.mixins _ hne ht ht' htt ?_ ?_ (cmpMixins_meaning _ _ _ (typeAt_mixins_inj hi.types h1 h2 htt))⟩
    · unfold compositionOf; rw [h1]; rfl
    · unfold compositionOf; rw [h2]; rfl
  | values t hne ht ht' =>
    refine ⟨_, rfl, ?_⟩
    have hm := cmpVals_meaning (D := D) (F := F) (valsOf S.h ob) (valsOf S.h ob') ((TyEnv.ofWorld S.W d).mixins t) 0
    cases hc : cmpVals D F (valsOf S.h ob) (valsOf S.h ob') 0 ((TyEnv.ofWorld S.W d).mixins t) with
    | ok c =>
      rcases hm.1 c hc with ⟨rfl, h1⟩ | ⟨h0, k, m, h1, h2, h3, h4⟩
      · exact .tie t hne ht ht' (valsOf_tie hi ho ho' ht ht' (fun j m _ hm => h1 j m hm))
      · obtain ⟨-, l, h5⟩ := valsOf_ok hi.good.1 ho ht k m h1
        obtain ⟨-, l', h6⟩ := valsOf_ok hi.good.1 ho' ht' k m h1
        rw [h3]
        rw [h3] at h0
        simp only [Nat.zero_add] at h0 ⊢
        exact .differ t k m l l' _ _ hne ht ht' h1 h2 h5 h6 h0 (valsOf_tie hi ho ho' ht ht' h4)
    | error e =>
      obtain ⟨k, m, h1, h2, h3, h4⟩ := hm.2 e hc
      subst h3
      exact .missing t k m hne ht ht' h1 h2 (valsOf_tie hi ho ho' ht ht' h4)

/-! ## Traits -/

variable {E : TyEnv} {orc : Orc}

theorem inits_dflt {log : List Ev} {m : Mix} {p : Loc} (h : (m, p, Kind.dflt) ∈ initsOf log) : Ev.init m p .dflt ∈ log := by
  unfold initsOf at h
  rw [List.mem_filterMap] at h
  obtain ⟨e, h1, h2⟩ := h
  unfold initOf at h2
  split at h2 <;> simp at h2
  all_goals (obtain ⟨rfl, rfl⟩ := h2; exact h1)

theorem inits_copied {log : List Ev} {m : Mix} {p : Loc} (h : (m, p, Kind.copied) ∈ initsOf log) : ∃ q, Ev.init m p (.copied q) ∈ log := by
  unfold initsOf at h
  rw [List.mem_filterMap] at h
  obtain ⟨e, h1, h2⟩ := h
  unfold initOf at h2
  split at h2 <;> simp at h2
  all_goals (obtain ⟨rfl, rfl⟩ := h2; exact ⟨_, h1⟩)

/-- Objects of a type can only be made if all its mixins have the function for it. -/
theorem newOfType_inits (hE : EnvOk D E) {h : Heap} (hg : Good D E h) (hl : LogOk D h) {t : TypeId} {al : Nat} {sd : Bool} {h' : Heap} (hr : newOfType D E orc false h t al sd = .ok h') :
    ∀ m ∈ E.mixins t, (D.mix m).hasInit = true := by
  intro m hm
  have hM := newOfType_made hE hg hr
  have hL := log_ostep (E := E) (orc := orc) false hl (.newOfType t al sd)
  rw [show ostep D E orc false h (.newOfType t al sd) = newOfType D E orc false h t al sd from rfl, hr] at hL
  have hL : LogOk D h' := hL
  obtain ⟨l, h1, h2, h3⟩ := hM.inits
  rw [← h2] at hm
  obtain ⟨⟨m', p, k⟩, h4, h5⟩ := List.mem_map.1 hm
  simp only at h5; subst h5
  obtain ⟨rfl, -⟩ := h3 _ _ _ h4
  exact hL.funcs _ (inits_dflt (by rw [h1]; exact List.mem_append_right _ h4))

theorem copyObject_inits (hE : EnvOk D E) {h : Heap} (hg : Good D E h) (hl : LogOk D h) {src al : Nat} {sb : Obj} (hs : h.obj? src = some sb) {h' : Heap} (hr : copyObject D E orc false h src al = .ok h') :
    ∀ m ∈ ownMixins E sb, (D.mix m).hasCopyInit = true := by
  intro m hm
  have hM := copyObject_copied hE hg hs al hr
  have hL := log_ostep (E := E) (orc := orc) false hl (.copy src al)
  rw [show ostep D E orc false h (.copy src al) = copyObject D E orc false h src al from rfl, hr] at hL
  have hL : LogOk D h' := hL
  obtain ⟨l, h1, h2, h3⟩ := hM.inits
  rw [← h2] at hm
  obtain ⟨⟨m', p, k⟩, h4, h5⟩ := List.mem_map.1 hm
  simp only at h5; subst h5
  have hk : k = .copied := h3 _ h4
  subst hk
  obtain ⟨q, h6⟩ := inits_copied (log := h'.log) (m := m') (p := p) (by rw [h1]; exact List.mem_append_right _ h4)
  exact hL.funcs _ h6

end Dnmx
