import Verif.Proofs.RegistryLemmas
import Verif.Spec.Registry

namespace Dnmx
open Spec

theorem mem_filterMap_id (l : List (Option Nat)) (x : Nat) : x ∈ l.filterMap id ↔ ∃ i : Nat, l[i]? = some (some x) := by
  simp only [List.mem_filterMap, id_eq, exists_eq_right]
  exact List.mem_iff_getElem?

theorem count_filterMap_le_one (l : List (Option Nat)) (x : Nat)
    (h : ∀ i j : Nat, l[i]? = some (some x) → l[j]? = some (some x) → i = j) : (l.filterMap id).count x ≤ 1 := by
  induction l with
  | nil => simp
  | cons y ys ih =>
    have ih' := ih (fun i j hi hj => by have := h (i + 1) (j + 1) (by simpa using hi) (by simpa using hj); omega)
    cases y with
    | none => simpa using ih'
    | some z =>
      simp only [List.filterMap_cons, id_eq, List.count_cons]
      by_cases hz : z = x
      · subst hz
        have : (ys.filterMap id).count z = 0 := by
          rw [List.count_eq_zero, mem_filterMap_id]
          rintro ⟨i, hi⟩
          have := h 0 (i + 1) (by simp) (by simpa using hi)
          omega
        simp [this]
      · simp [hz]; exact ih'

theorem mem_mixinsOf (W : World) (d : DomId) (m : Mix) : m ∈ mixinsOf W d ↔ ∃ i : Nat, (W.doms d).mixins[i]? = some (some m) :=
  mem_filterMap_id _ _
theorem mem_featuresOf (W : World) (d : DomId) (f : Feat) : f ∈ featuresOf W d ↔ ∃ i : Nat, (W.doms d).feats[i]? = some (some f) :=
  mem_filterMap_id _ _
theorem mem_classesOf (W : World) (d : DomId) (c : Cls) : c ∈ classesOf W d ↔ ∃ i : Nat, (W.doms d).classes[i]? = some (some c) :=
  mem_filterMap_id _ _

/-- what a step does to the set of registered mixins -/
theorem step_mixinsOf (D : Decls) (W : World) (h : RegInv W) (op : Op) (d : DomId) (m : Mix) :
    m ∈ mixinsOf (step D W op).2 d ↔
    mixinRegStep d m (decide (m ∈ mixinsOf W d)) (op, (step D W op).1) = true := by
  have same : ∀ W', SameElems W W' → (m ∈ mixinsOf W' d ↔ decide (m ∈ mixinsOf W d) = true) := by
    intro W' s; simp [mixinsOf, s.mixins]
  have grown : ∀ fs d' W', FeatsGrown D W d' fs W' → (m ∈ mixinsOf W' d ↔ decide (m ∈ mixinsOf W d) = true) := by
    intro fs d' W' g
    have : (W'.doms d).mixins = (W.doms d).mixins := by
      by_cases hd : d = d'
      · subst hd; rw [g.dom]
      · rw [g.other d hd]
    simp [mixinsOf, this]
  cases op with
  | regFeature d' f =>
    show m ∈ mixinsOf (registerFeature D W d' f).2 d ↔ decide _ = true
    cases hr : (registerFeature D W d' f).1 with
    | error e => rw [registerFeature_error D W d' f e hr]; simp
    | ok u =>
      cases u
      obtain ⟨id, hi⟩ := registerFeature_ok D W d' f hr
      exact grown [f] d' _ ((FeatsGrown.refl D _ d' []).step hi)
  | unregFeature d' f =>
    show m ∈ mixinsOf (unregisterFeature W d' f).2 d ↔ decide _ = true
    rcases unregisterFeature_cases W d' f with ⟨h1, -⟩ | ⟨i, h1, h2, h3⟩
    · rw [h1]; simp
    · rw [h3]
      have : ((W.setDom d' { W.doms d' with feats := (W.doms d').feats.set i none }).doms d).mixins = (W.doms d).mixins := by
        rw [setDom_doms]; split
        · rename_i hd; subst hd; rfl
        · rfl
      simp [mixinsOf, this]
  | regMixin d' m' =>
    show m ∈ mixinsOf (registerMixin D W d' m').2 d ↔ mixinRegStep d m _ (.regMixin d' m', (registerMixin D W d' m').1) = true
    cases hr : (registerMixin D W d' m').1 with
    | error e => exact grown _ d' _ (registerMixin_error D W d' m' h e hr).1
    | ok u =>
      cases u
      obtain ⟨id, hi⟩ := registerMixin_ok D W d' m' h hr
      simp only [mixinRegStep]
      by_cases hd : d' = d
      · subst hd
        by_cases hm : m' = m
        · subst hm
          simp only [and_self, if_true, iff_true]
          rw [mem_mixinsOf]; exact ⟨id, hi.ins.slot⟩
        · simp only [hm, and_false, if_false, decide_eq_true_eq]
          rw [mem_mixinsOf, mem_mixinsOf]
          constructor
          · rintro ⟨i, hx⟩
            by_cases hii : i = id
            · subst hii; rw [hi.ins.slot] at hx; simp at hx; exact absurd hx hm
            · rw [hi.ins.other i hii] at hx; exact ⟨i, hx⟩
          · rintro ⟨i, hx⟩
            refine ⟨i, ?_⟩
            rw [hi.ins.other]; exact hx
            intro hii; subst hii; exact hi.ins.wasFree _ hx
      · simp only [hd, false_and, if_false, decide_eq_true_eq]
        simp only [mixinsOf, hi.other d (Ne.symm hd)]
  | unregMixin d' m' =>
    show m ∈ mixinsOf (unregisterMixin W d' m').2 d ↔ mixinRegStep d m _ (.unregMixin d' m', (unregisterMixin W d' m').1) = true
    cases hr : (unregisterMixin W d' m').1 with
    | error e => exact same _ (unregisterMixin_error_same W d' m' e hr)
    | ok u =>
      cases u
      obtain ⟨id, he⟩ := unregisterMixin_ok W d' m' hr
      simp only [mixinRegStep]
      by_cases hd : d' = d
      · subst hd
        rw [mem_mixinsOf]
        simp only [he.mixins, getElem?_set_none_some]
        by_cases hm : m' = m
        · subst hm
          simp only [and_self, if_true]
          constructor
          · rintro ⟨i, hii, hx⟩
            have := (h.mixSlot d' i m' hx).1
            rw [he.hadId] at this; simp at this; exact absurd this.symm hii
          · simp
        · simp only [hm, and_false, if_false, decide_eq_true_eq]
          rw [mem_mixinsOf]
          constructor
          · rintro ⟨i, -, hx⟩; exact ⟨i, hx⟩
          · rintro ⟨i, hx⟩
            refine ⟨i, ?_, hx⟩
            intro hii; subst hii; rw [he.slot] at hx; simp at hx; exact hm hx
      · simp only [hd, false_and, if_false, decide_eq_true_eq]
        simp only [mixinsOf, he.other d (Ne.symm hd)]
  | regClass d' c => exact same _ (registerTypeClass_same D W d' c)
  | unregClass d' c => exact same _ (unregisterTypeClass_same W d' c)
  | addRule d' r => exact same _ (addRule_same D W d' r)
  | removeRule d' r => exact same _ (removeRule_same D W d' r)
  | getTypeMut d' md q => exact same _ (getTypeMut_same D W d' md q)
  | getType d' q => exact same _ (getType_same D W d' q)
  | gc d' num => exact same _ (garbageCollect_same W d' num)

theorem run_mixinRegistered (D : Decls) (d : DomId) (m : Mix) (ops : List Op) : ∀ W, RegInv W →
    (m ∈ mixinsOf (run D W ops) d ↔ (trace D W ops).foldl (mixinRegStep d m) (decide (m ∈ mixinsOf W d)) = true) := by
  induction ops with
  | nil => intro W _; simp [run, trace]
  | cons op ops ih =>
    intro W h
    simp only [run, trace, List.foldl_cons]
    rw [ih _ (step_reg D W op h)]
    have := step_mixinsOf D W h op d m
    have e : decide (m ∈ mixinsOf (step D W op).2 d) = mixinRegStep d m (decide (m ∈ mixinsOf W d)) (op, (step D W op).1) := by
      rw [Bool.eq_iff_iff]; simpa using this
    rw [e]

theorem mixinRegistered_iff (D : Decls) (s : DomId → Settings) (ops : List Op) (d : DomId) (m : Mix) :
    mixinRegistered d m (trace D (initWorld s) ops) = true ↔ m ∈ mixinsOf (run D (initWorld s) ops) d := by
  rw [run_mixinRegistered D d m ops _ (initWorld_reg s)]
  have : decide (m ∈ mixinsOf (initWorld s) d) = false := by simp [mixinsOf, initWorld, newDom]
  rw [this]; rfl

/-- the set of features only changes by registrations and by unregistering that very feature -/
theorem step_keeps_feature (D : Decls) (W : World) (h : RegInv W) (op : Op) (d : DomId) (f : Feat) (i : Nat)
    (hop : op ≠ .unregFeature d f) (hs : (W.doms d).feats[i]? = some (some f)) :
    ((step D W op).2.doms d).feats[i]? = some (some f) := by
  have grown : ∀ fs d' W', FeatsGrown D W d' fs W' → (W'.doms d).feats[i]? = some (some f) := by
    intro fs d' W' g
    by_cases hd : d = d'
    · subst hd; exact g.keepSlot i f hs
    · rw [g.other d hd]; exact hs
  have same : ∀ W', SameElems W W' → (W'.doms d).feats[i]? = some (some f) := by
    intro W' s; rw [s.feats]; exact hs
  cases op with
  | regFeature d' g =>
    show ((registerFeature D W d' g).2.doms d).feats[i]? = _
    cases hr : (registerFeature D W d' g).1 with
    | error e => rw [registerFeature_error D W d' g e hr]; exact hs
    | ok u =>
      cases u
      obtain ⟨id, hi⟩ := registerFeature_ok D W d' g hr
      exact grown [g] d' _ ((FeatsGrown.refl D _ d' []).step hi)
  | unregFeature d' g =>
    show ((unregisterFeature W d' g).2.doms d).feats[i]? = _
    rcases unregisterFeature_cases W d' g with ⟨h1, -⟩ | ⟨j, h1, h2, h3⟩
    · rw [h1]; exact hs
    · rw [h3]
      simp only [setDom_doms]
      split
      · rename_i hd; subst hd
        rw [getElem?_set_none_some]
        refine ⟨?_, hs⟩
        intro hij; subst hij
        rw [h2] at hs; simp at hs; subst hs
        exact hop rfl
      · exact hs
  | regMixin d' m' =>
    show ((registerMixin D W d' m').2.doms d).feats[i]? = _
    cases hr : (registerMixin D W d' m').1 with
    | error e => exact grown _ d' _ (registerMixin_error D W d' m' h e hr).1
    | ok u =>
      cases u
      obtain ⟨id, hi⟩ := registerMixin_ok D W d' m' h hr
      obtain ⟨W1, hg, -, hf, -⟩ := hi.feats
      by_cases hd : d = d'
      · subst hd; rw [hf]; exact hg.keepSlot i f hs
      · rw [hi.other d hd]; exact hs
  | unregMixin d' m' =>
    show ((unregisterMixin W d' m').2.doms d).feats[i]? = _
    cases hr : (unregisterMixin W d' m').1 with
    | error e => exact same _ (unregisterMixin_error_same W d' m' e hr)
    | ok u =>
      cases u
      obtain ⟨id, he⟩ := unregisterMixin_ok W d' m' hr
      by_cases hd : d = d'
      · subst hd; rw [he.feats]; exact hs
      · rw [he.other d hd]; exact hs
  | regClass d' c => exact same _ (registerTypeClass_same D W d' c)
  | unregClass d' c => exact same _ (unregisterTypeClass_same W d' c)
  | addRule d' r => exact same _ (addRule_same D W d' r)
  | removeRule d' r => exact same _ (removeRule_same D W d' r)
  | getTypeMut d' md q => exact same _ (getTypeMut_same D W d' md q)
  | getType d' q => exact same _ (getType_same D W d' q)
  | gc d' num => exact same _ (garbageCollect_same W d' num)

/-- a registered mixin keeps its slot unless it is unregistered -/
theorem step_keeps_mixin (D : Decls) (W : World) (h : RegInv W) (op : Op) (d : DomId) (m : Mix) (i : Nat)
    (hop : op ≠ .unregMixin d m) (hs : (W.doms d).mixins[i]? = some (some m)) :
    ((step D W op).2.doms d).mixins[i]? = some (some m) := by
  have grown : ∀ fs d' W', FeatsGrown D W d' fs W' → (W'.doms d).mixins[i]? = some (some m) := by
    intro fs d' W' g
    by_cases hd : d = d'
    · subst hd; rw [g.dom]; exact hs
    · rw [g.other d hd]; exact hs
  have same : ∀ W', SameElems W W' → (W'.doms d).mixins[i]? = some (some m) := by
    intro W' s; rw [s.mixins]; exact hs
  cases op with
  | regFeature d' g =>
    show ((registerFeature D W d' g).2.doms d).mixins[i]? = _
    cases hr : (registerFeature D W d' g).1 with
    | error e => rw [registerFeature_error D W d' g e hr]; exact hs
    | ok u =>
      cases u
      obtain ⟨id, hi⟩ := registerFeature_ok D W d' g hr
      exact grown [g] d' _ ((FeatsGrown.refl D _ d' []).step hi)
  | unregFeature d' g =>
    show ((unregisterFeature W d' g).2.doms d).mixins[i]? = _
    rcases unregisterFeature_cases W d' g with ⟨h1, -⟩ | ⟨j, h1, h2, h3⟩
    · rw [h1]; exact hs
    · rw [h3]
      simp only [setDom_doms]
      split
      · rename_i hd; subst hd; exact hs
      · exact hs
  | regMixin d' m' =>
    show ((registerMixin D W d' m').2.doms d).mixins[i]? = _
    cases hr : (registerMixin D W d' m').1 with
    | error e => exact grown _ d' _ (registerMixin_error D W d' m' h e hr).1
    | ok u =>
      cases u
      obtain ⟨id, hi⟩ := registerMixin_ok D W d' m' h hr
      by_cases hd : d = d'
      · subst hd; rw [hi.ins.other]; exact hs
        intro hii; subst hii; exact hi.ins.wasFree _ hs
      · rw [hi.other d hd]; exact hs
  | unregMixin d' m' =>
    show ((unregisterMixin W d' m').2.doms d).mixins[i]? = _
    cases hr : (unregisterMixin W d' m').1 with
    | error e => exact same _ (unregisterMixin_error_same W d' m' e hr)
    | ok u =>
      cases u
      obtain ⟨id, he⟩ := unregisterMixin_ok W d' m' hr
      by_cases hd : d = d'
      · subst hd; rw [he.mixins, getElem?_set_none_some]
        refine ⟨?_, hs⟩
        intro hii; subst hii
        rw [he.slot] at hs; simp at hs; subst hs; exact hop rfl
      · rw [he.other d hd]; exact hs
  | regClass d' c => exact same _ (registerTypeClass_same D W d' c)
  | unregClass d' c => exact same _ (unregisterTypeClass_same W d' c)
  | addRule d' r => exact same _ (addRule_same D W d' r)
  | removeRule d' r => exact same _ (removeRule_same D W d' r)
  | getTypeMut d' md q => exact same _ (getTypeMut_same D W d' md q)
  | getType d' q => exact same _ (getType_same D W d' q)
  | gc d' num => exact same _ (garbageCollect_same W d' num)

end Dnmx
