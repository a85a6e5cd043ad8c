import Verif.Proofs.CrossExact
import Verif.Proofs.ObservedLemmas

/-!
# The types of several domains
-/

set_option linter.unusedSimpArgs false
set_option linter.unusedVariables false
set_option linter.unusedSectionVars false

namespace Dnmx
open Spec

theorem idxOf?_some_iff {l : List Mix} (hn : l.Nodup) {m : Mix} {i : Nat} : l.idxOf? m = some i ↔ l[i]? = some m := by
  rw [List.idxOf?, List.findIdx?_eq_some_iff_getElem]
  constructor
  · rintro ⟨h1, h2, -⟩
    simp at h2
    rw [List.getElem?_eq_getElem h1, h2]
  · intro h
    obtain ⟨h1, h2⟩ := List.getElem?_eq_some_iff.1 h
    refine ⟨h1, by simp [h2], ?_⟩
    intro j hj
    simp only [Bool.not_eq_true, beq_eq_false_iff_ne, ne_eq]
    intro h3
    have := nodup_index hn (i := j) (j := i) (x := m) (by rw [List.getElem?_eq_getElem (by omega), h3]) h
    omega

section
variable {D : Decls} {W : World} {k : Nat}

theorem code_mod {d : DomId} {t : TypeId} (hd : d < k) : typeCode k d t % k = d := by
  unfold typeCode
  rw [Nat.add_comm, Nat.add_mul_mod_self_right, Nat.mod_eq_of_lt hd]

theorem code_div {d : DomId} {t : TypeId} (hd : d < k) : typeCode k d t / k = t := by
  unfold typeCode
  rw [Nat.add_comm, Nat.add_mul_div_right _ _ (by omega), Nat.div_eq_of_lt hd, Nat.zero_add]

/-- The types of several domains, with lookups by identity, are a proper environment. -/
theorem byIdentity_ok (hk : 0 < k) (hr : RegInv W) (hi : ∀ d, TypesInv D W d) (hf : ∀ d, d < k → TypesFit D W d) : EnvOk D (TyEnv.ofDomains W k).byIdentity := by
  have hE : ∀ n, EnvOk D (TyEnv.ofWorld W (n % k)) := fun n => ofWorld_ok hr (hi _) (hf _ (Nat.mod_lt _ hk))
  refine ⟨fun n => (hE n).nodup (n / k), ?_, fun n i m h => (hE n).internal (n / k) i m h, ?_⟩
  · intro n n' m i _
    exact idxOf?_some_iff ((hE n).nodup (n / k))
  · intro n
    show (TyEnv.ofWorld W (typeCode k (n % k) emptyTid % k)).mixins (typeCode k (n % k) emptyTid / k) = []
    rw [code_mod (Nat.mod_lt _ hk), code_div (Nat.mod_lt _ hk)]
    exact (hE n).empty 0

/-- The mixins of a type are registered in its domain. -/
theorem domains_reg (hi : ∀ d, TypesInv D W d) {n : TypeId} {m : Mix} (hm : m ∈ (TyEnv.ofDomains W k).mixins n) :
    (∃ x, W.mixId m = some x) ∧ W.mixDom m = some (n % k) := by
  have hm : m ∈ (TyEnv.ofWorld W (n % k)).mixins (n / k) := hm
  obtain ⟨r, h1, h2, h3⟩ := ofWorld_typed (hi (n % k)) (t := n / k) (by intro h; rw [h] at hm; cases hm)
  have : (TyEnv.ofWorld W (n % k)).mixins (n / k) = r.mixins := by simp [TyEnv.ofWorld, h2]
  rw [this] at hm
  exact h3.reg m hm

/-- Lookups find the mixin with the same id, of whichever domain. -/
theorem domains_index (hr : RegInv W) (hi : ∀ d, TypesInv D W d) {n : TypeId} {m : Mix} {i : Nat} :
    (TyEnv.ofDomains W k).indexOf n m = some i ↔ ∃ m', ((TyEnv.ofDomains W k).mixins n)[i]? = some m' ∧ W.mixId m' = W.mixId m ∧ W.mixId m ≠ none := by
  show (TyEnv.ofWorld W (n % k)).indexOf (n / k) m = some i ↔ ∃ m', ((TyEnv.ofWorld W (n % k)).mixins (n / k))[i]? = some m' ∧ _
  cases ht : (W.doms (n % k)).typeAt (n % k) (n / k) with
  | none =>
    have h4 : (TyEnv.ofWorld W (n % k)).mixins (n / k) = [] := by simp [TyEnv.ofWorld, ht]
    have h5 : (TyEnv.ofWorld W (n % k)).indexOf (n / k) m = none := by simp [TyEnv.ofWorld, ht]
    rw [h4, h5]; simp
  | some r =>
    have h6 : (TyEnv.ofWorld W (n % k)).mixins (n / k) = r.mixins := by simp [TyEnv.ofWorld, ht]
    have h7 : (TyEnv.ofWorld W (n % k)).indexOf (n / k) m = r.indexOf (W.mixId m) := by simp [TyEnv.ofWorld, ht]
    rw [h6, h7]
    rcases typeAt_some ht with ⟨h4, h5⟩ | ⟨-, h4, -⟩
    · subst h5
      cases W.mixId m <;> simp [emptyType, TypeRec.indexOf]
    · rw [((hi _).ok r h4).indexOf hr]
      constructor
      · rintro ⟨x, m', h8, h9, h10⟩
        exact ⟨m', h9, by rw [h8, h10], by rw [h8]; simp⟩
      · rintro ⟨m', h9, h10, h11⟩
        cases hx : W.mixId m with
        | none => exact absurd hx h11
        | some x => exact ⟨x, m', rfl, h9, by rw [h10, hx]⟩

/-- Without accidentally common ids, lookups by id are lookups by identity. -/
theorem noClash_finds (hk : 0 < k) (hr : RegInv W) (hi : ∀ d, TypesInv D W d) (hf : ∀ d, d < k → TypesFit D W d) {n : TypeId} {l : List Mix}
    (hc : NoClash W.mixId l ((TyEnv.ofDomains W k).mixins n)) : Finds (TyEnv.ofDomains W k) n l := by
  intro m hm
  have hnd : ((TyEnv.ofDomains W k).mixins n).Nodup := (byIdentity_ok hk hr hi hf).nodup n
  apply Option.ext
  intro i
  rw [idxOf?_some_iff hnd, domains_index hr hi]
  constructor
  · rintro ⟨m', h1, h2, -⟩
    rw [hc m hm m' (List.mem_of_getElem? h1) h2.symm]; exact h1
  · intro h1
    obtain ⟨⟨x, h2⟩, -⟩ := domains_reg hi (List.mem_of_getElem? h1)
    exact ⟨m, h1, rfl, by rw [h2]; simp⟩

theorem noClash_symm {f : Mix → Option Nat} {l l' : List Mix} (h : NoClash f l l') : NoClash f l' l := fun m hm m' hm' he => (h m' hm' m hm he.symm).symm

theorem noClash_both (hk : 0 < k) (hr : RegInv W) (hi : ∀ d, TypesInv D W d) (hf : ∀ d, d < k → TypesFit D W d) {n n' : TypeId}
    (hc : NoClash W.mixId ((TyEnv.ofDomains W k).mixins n) ((TyEnv.ofDomains W k).mixins n')) : FindsBoth (TyEnv.ofDomains W k) n n' :=
  ⟨noClash_finds hk hr hi hf (noClash_symm hc), noClash_finds hk hr hi hf hc⟩

theorem mixinsNow_of {E : TyEnv} {h : Heap} {o : Nat} {ob : Obj} {t : TypeId} (ho : h.obj? o = some ob) (ht : ob.ty = some t) : mixinsNow E h o = E.mixins t := by
  unfold mixinsNow ownMixins; rw [ho]; simp [ht]

theorem close_finds (hk : 0 < k) (hr : RegInv W) (hi : ∀ d, TypesInv D W d) (hf : ∀ d, d < k → TypesFit D W d) {h : Heap} {op : OOp}
    (hc : Close W.mixId (TyEnv.ofDomains W k) h op) : FindsFor (TyEnv.ofDomains W k) h op := by
  have h2 : ∀ o src, NoClash W.mixId (mixinsNow (TyEnv.ofDomains W k) h o) (mixinsNow (TyEnv.ofDomains W k) h src) →
      ∀ ob sb own t, h.obj? o = some ob → h.obj? src = some sb → ob.ty = some own → sb.ty = some t → FindsBoth (TyEnv.ofDomains W k) own t := by
    intro o src hc ob sb own t h3 h4 h5 h6
    rw [mixinsNow_of h3 h5, mixinsNow_of h4 h6] at hc
    exact noClash_both hk hr hi hf hc
  have h1 : ∀ o t, NoClash W.mixId (mixinsNow (TyEnv.ofDomains W k) h o) ((TyEnv.ofDomains W k).mixins t) →
      ∀ ob told, h.obj? o = some ob → ob.ty = some told → FindsBoth (TyEnv.ofDomains W k) told t := by
    intro o t hc ob told h3 h5
    rw [mixinsNow_of h3 h5] at hc
    exact noClash_both hk hr hi hf hc
  cases op with
  | copyFrom o src => exact h2 o src hc
  | copyMatching o src => exact h2 o src hc
  | moveMatching o src fb => exact h2 o src hc
  | reset o t => exact h1 o t hc
  | mutation o t steps => exact h1 o t hc
  | mutateTo o t ops => exact ⟨h1 o t hc.1, noClash_finds hk hr hi hf hc.2⟩
  | _ => trivial

/-- Mixins of one domain have different ids. -/
theorem noClash_domain (hr : RegInv W) {d : DomId} {l l' : List Mix} (hl : ∀ m ∈ l, W.mixDom m = some d ∨ W.mixDom m = none)
    (hl' : ∀ m ∈ l', (∃ x, W.mixId m = some x) ∧ W.mixDom m = some d) : NoClash W.mixId l l' := by
  intro m hm m' hm' he
  obtain ⟨⟨x, h1⟩, h2⟩ := hl' m' hm'
  rw [h1] at he
  obtain ⟨d1, h3, h4⟩ := hr.mixReg m x he
  obtain ⟨d2, h5, h6⟩ := hr.mixReg m' x h1
  rcases hl m hm with h7 | h7
  · rw [h7] at h3; injection h3 with h3; subst h3
    rw [h2] at h5; injection h5 with h5; subst h5
    rw [h4] at h6; injection h6 with h6; injection h6 with h6
  · rw [h7] at h3; cases h3

theorem mixinsNow_reg (hi : ∀ d, TypesInv D W d) {h : Heap} {o : Nat} {m : Mix} (hm : m ∈ mixinsNow (TyEnv.ofDomains W k) h o) :
    ∃ d, domainNow k h o = some d ∧ (∃ x, W.mixId m = some x) ∧ W.mixDom m = some d := by
  unfold mixinsNow at hm
  unfold domainNow
  cases ho : h.obj? o with
  | none => rw [ho] at hm; cases hm
  | some ob =>
    rw [ho] at hm
    have hm : m ∈ ownMixins (TyEnv.ofDomains W k) ob := hm
    unfold ownMixins at hm
    cases ht : ob.ty with
    | none => rw [ht] at hm; cases hm
    | some n =>
      rw [ht] at hm
      exact ⟨n % k, by simp [ht, codeDomain], domains_reg hi hm⟩

/-- Operations within one domain are close. -/
theorem within_close (hr : RegInv W) (hi : ∀ d, TypesInv D W d) {h : Heap} {op : OOp} (hw : WithinDomain W k h op) : Close W.mixId (TyEnv.ofDomains W k) h op := by
  have h2 : ∀ o src, domainNow k h o = domainNow k h src → NoClash W.mixId (mixinsNow (TyEnv.ofDomains W k) h o) (mixinsNow (TyEnv.ofDomains W k) h src) := by
    intro o src hd m hm m' hm' he
    obtain ⟨d, h1, h2, h3⟩ := mixinsNow_reg hi hm
    obtain ⟨d', h4, h5, h6⟩ := mixinsNow_reg hi hm'
    rw [hd, h4] at h1; injection h1 with h1; subst h1
    exact noClash_domain hr (d := d') (l := [m]) (l' := [m']) (by simp [h3]) (by simp [h5, h6]) m (by simp) m' (by simp) he
  have h1 : ∀ o t, domainNow k h o = some (codeDomain k t) → NoClash W.mixId (mixinsNow (TyEnv.ofDomains W k) h o) ((TyEnv.ofDomains W k).mixins t) := by
    intro o t hd m hm m' hm' he
    obtain ⟨d, h1, h2, h3⟩ := mixinsNow_reg hi hm
    obtain ⟨h5, h6⟩ := domains_reg hi hm'
    rw [hd] at h1; injection h1 with h1
    have h1 : t % k = d := h1
    rw [h1] at h6
    exact noClash_domain hr (d := d) (l := [m]) (l' := [m']) (by simp [h3]) (by simp [h5, h6]) m (by simp) m' (by simp) he
  cases op with
  | copyFrom o src => exact h2 o src hw
  | copyMatching o src => exact h2 o src hw
  | moveMatching o src fb => exact h2 o src hw
  | reset o t => exact h1 o t hw
  | mutation o t steps => exact h1 o t hw
  | mutateTo o t ops =>
    refine ⟨h1 o t hw.1, noClash_domain hr (d := codeDomain k t) ?_ (fun m hm => domains_reg hi hm)⟩
    intro m hm
    obtain ⟨op, h3, h4⟩ := List.mem_map.1 hm
    rw [← h4]; exact hw.2 op h3
  | _ => trivial

/-- Runs of close programs are those with lookups by identity. -/
theorem orun_same {orc : Orc} (hk : 0 < k) (hr : RegInv W) (hi : ∀ d, TypesInv D W d) (hf : ∀ d, d < k → TypesFit D W d) :
    ∀ (ops : List (Bool × OOp)) (h : Heap), CloseRun W.mixId D (TyEnv.ofDomains W k) orc ops h →
      orun D (TyEnv.ofDomains W k).byIdentity orc ops h = orun D (TyEnv.ofDomains W k) orc ops h ∧
      (ProperRun D (TyEnv.ofDomains W k) orc ops h → ProperRun D (TyEnv.ofDomains W k).byIdentity orc ops h)
  | [], h, _ => ⟨rfl, fun _ => trivial⟩
  | (u, op) :: ops, h, hc => by
    have h1 := ostep_same (D := D) (orc := orc) u h op (close_finds hk hr hi hf hc.1)
    refine ⟨?_, ?_⟩
    · unfold orun
      rw [h1]
      cases hx : ostep D (TyEnv.ofDomains W k) orc u h op with
      | ub => rfl
      | ok h' => exact (orun_same hk hr hi hf ops h' (hc.2 h' (.inl hx))).1
      | throw h' e => exact (orun_same hk hr hi hf ops h' (hc.2 h' (.inr ⟨e, hx⟩))).1
    · rintro ⟨h2, h3⟩
      refine ⟨⟨?_, h2.2⟩, ?_⟩
      · cases op <;> exact h2.1
      · intro h' h4
        rw [h1] at h4
        exact (orun_same hk hr hi hf ops h' (hc.2 h' h4)).2 (h3 h' h4)

theorem heapOk_same {E : TyEnv} {h : Heap} : HeapOk D E.byIdentity h ↔ HeapOk D E h := by
  constructor
  · intro hk; exact ⟨hk.objs, hk.blocks, hk.lives, hk.fresh, hk.counts⟩
  · intro hk; exact ⟨hk.objs, hk.blocks, hk.lives, hk.fresh, hk.counts⟩

/-- The type of an object. -/
theorem mutation_type {E : TyEnv} {orc : Orc} (hE : EnvOk D E) {h : Heap} (hk : HeapOk D E h) {o : Nat} {ob : Obj} (ho : h.obj? o = some ob) {t : TypeId} (hty : ob.ty ≠ some t)
    (hne : E.mixins t ≠ []) {steps : List (MStep × Bool)} (hst : ∀ st ∈ steps, properStep st.1 = true) {h' : Heap} (hr : withMutation D E orc false h o t steps = .ok h') :
    HeapOk D E h' ∧ ∃ ob', h'.obj? o = some ob' ∧ ob'.ty = some t := by
  cases hsl : ob.isSealed with
  | true => rw [withMutation_sealed ho hsl] at hr; cases hr
  | false =>
    have := withMutation_ok (orc := orc) hE hk ho hsl hty hne false steps true (by
      intro st hs
      have hp := hst st hs
      obtain ⟨st, c⟩ := st
      simp only at hp
      refine ⟨by cases st <;> simp_all [MStep.plain, properStep], ?_, ?_, fun _ _ _ => rfl⟩
      · intro g hu
        cases st <;> simp [MStep.newFn] at hu <;> (subst hu; unfold NewFnOk; split <;> first | trivial | (simp [properStep, ownNew] at hp))
      · intro g hu
        cases st <;> simp [MStep.updFn] at hu <;> (subst hu; unfold UpdFnOk; split <;> first | trivial | (simp [properStep, ownUpd] at hp)))
    rw [hr] at this
    obtain ⟨F, G, hc⟩ := this
    refine ⟨completed_heapOk hE hk ho hne hc, mutatedObj h ob t, ?_, rfl⟩
    rw [completed_obj hE hk ho hne hc, if_pos rfl]

/-- A mutation that ends is right exactly if there is no clash. -/
theorem mutation_exact {orc : Orc} (hk : 0 < k) (hr : RegInv W) (hi : ∀ d, TypesInv D W d) (hf : ∀ d, d < k → TypesFit D W d) {h : Heap}
    (hh : HeapOk D (TyEnv.ofDomains W k) h) {o : Nat} {ob : Obj} (ho : h.obj? o = some ob) {told t : TypeId} (ht : ob.ty = some told) (hne : (TyEnv.ofDomains W k).mixins t ≠ [])
    (htt : told ≠ t) {steps : List (MStep × Bool)} (hst : ∀ st ∈ steps, properStep st.1 = true) {h' : Heap} (he : withMutation D (TyEnv.ofDomains W k) orc false h o t steps = .ok h') :
    (HeapOk D (TyEnv.ofDomains W k) h' ∧ ∃ ob', h'.obj? o = some ob' ∧ ob'.ty = some t) ↔
      NoClash W.mixId ((TyEnv.ofDomains W k).mixins told) ((TyEnv.ofDomains W k).mixins t) := by
  constructor
  · rintro ⟨h1, ob', h2, h3⟩ m1 hm1 m2 hm2 hid
    refine Classical.byContradiction (fun hneq => ?_)
    have hm2' : m2 ∉ (TyEnv.ofDomains W k).mixins told := by
      intro hx
      obtain ⟨-, h4⟩ := domains_reg hi hm1
      obtain ⟨h5, h6⟩ := domains_reg hi hx
      exact hneq (noClash_domain hr (d := told % k) (l := [m1]) (l' := [m2]) (by simp [h4]) (by simp [h5, h6]) m1 (by simp) m2 (by simp) hid)
    obtain ⟨i, hi1⟩ := List.getElem?_of_mem hm1
    obtain ⟨⟨x, hx⟩, -⟩ := domains_reg hi hm1
    have hidx : (TyEnv.ofDomains W k).indexOf told m2 = some i := (domains_index hr hi).2 ⟨m1, hi1, hid, by rw [← hid, hx]; simp⟩
    have hd : ∃ b, ob.data = some b := by
      cases hd : ob.data with
      | some b => exact ⟨b, rfl⟩
      | none =>
        have := hh.objs o ob ho
        unfold ObjOk at this
        rw [hd] at this
        have h7 := this told ht
        rw [h7] at hm1; cases hm1
    obtain ⟨b, hd⟩ := hd
    have hb := withMutation_barren (o := o) (m2 := m2) (told := told) ho ht hd hidx hm2' hm2 (by
      intro st hs
      have := hst st hs
      constructor <;> (intro hx; rw [hx] at this; cases this)) he
    exact barren_bad hh ho ht hm2' hm2 hb h2 h3 h1
  · intro hc
    have h1 : withMutation D (TyEnv.ofDomains W k).byIdentity orc false h o t steps = .ok h' := by
      rw [withMutation_same false h o t steps, he]
      intro ob1 told1 h2 h3
      rw [ho] at h2; injection h2 with h2; subst h2
      rw [ht] at h3; injection h3 with h3; subst h3
      exact noClash_both hk hr hi hf hc
    obtain ⟨h2, h3⟩ := mutation_type (byIdentity_ok hk hr hi hf) (heapOk_same.2 hh) ho (by rw [ht]; intro h; injection h with h; exact htt h) hne hst h1
    exact ⟨heapOk_same.1 h2, h3⟩

end

end Dnmx
