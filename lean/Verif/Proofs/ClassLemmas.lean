import Verif.Proofs.NameLemmas

namespace Dnmx
open Spec

/-- Invariant of the type classes of a domain. -/
structure ClsInv (D : Decls) (x : Dom) : Prop where
  uniq : ∀ (i j a b : Nat), x.classes[i]? = some (some a) → x.classes[j]? = some (some b) → D.clsName a = D.clsName b → i = j
  nonempty : ∀ (i a : Nat), x.classes[i]? = some (some a) → D.clsName a ≠ []
  nonnull : ∀ (i a : Nat), x.classes[i]? = some (some a) → (D.cls a).isNull = false

/-- calls other than those on type classes do not change them -/
theorem step_classes_same (D : Decls) (W : World) (h : RegInv W) (op : Op) (d : DomId)
    (h1 : ∀ c, op ≠ .regClass d c) (h2 : ∀ c, op ≠ .unregClass d c) : ((step D W op).2.doms d).classes = (W.doms d).classes := by
  have grown : ∀ fs d' W', FeatsGrown D W d' fs W' → (W'.doms d).classes = (W.doms d).classes := by
    intro fs d' W' g
    by_cases hd : d = d'
    · subst hd; rw [g.dom]
    · rw [g.other d hd]
  cases op with
  | regFeature d' g =>
    show ((registerFeature D W d' g).2.doms d).classes = _
    cases hr : (registerFeature D W d' g).1 with
    | error e => rw [registerFeature_error D W d' g e hr]
    | ok u =>
      cases u
      obtain ⟨id, hi⟩ := registerFeature_ok D W d' g hr
      exact grown [g] d' _ ((FeatsGrown.refl D _ d' []).step hi)
  | unregFeature d' g =>
    show ((unregisterFeature W d' g).2.doms d).classes = _
    rcases unregisterFeature_cases W d' g with ⟨h1, -⟩ | ⟨j, h1, h2, h3⟩
    · rw [h1]
    · rw [h3]
      simp only [setDom_doms]
      split
      · rename_i hd; subst hd; rfl
      · rfl
  | regMixin d' m' =>
    show ((registerMixin D W d' m').2.doms d).classes = _
    cases hr : (registerMixin D W d' m').1 with
    | error e => exact grown _ d' _ (registerMixin_error D W d' m' h e hr).1
    | ok u =>
      cases u
      obtain ⟨id, hi⟩ := registerMixin_ok D W d' m' h hr
      by_cases hd : d = d'
      · subst hd; rw [hi.dom]
      · rw [hi.other d hd]
  | unregMixin d' m' =>
    show ((unregisterMixin W d' m').2.doms d).classes = _
    unfold unregisterMixin
    simp only
    split
    · rfl
    · split
      · simp only [setDom_doms]; split
        · rename_i hd; subst hd; rfl
        · rfl
      · simp only [setDom_doms]; split
        · rename_i hd; subst hd; rfl
        · rfl
  | regClass d' c =>
    show ((registerTypeClass D W d' c).2.doms d).classes = _
    have hd : d ≠ d' := fun e => h1 c (by rw [e])
    unfold registerTypeClass
    simp only
    split; · rfl
    split; · rfl
    split; · rfl
    split; · rfl
    rw [setDom_ne _ _ hd]
  | unregClass d' c =>
    show ((unregisterTypeClass W d' c).2.doms d).classes = _
    have hd : d ≠ d' := fun e => h2 c (by rw [e])
    unfold unregisterTypeClass
    rw [setDom_ne _ _ hd]
  | addRule d' r =>
    show ((addRule D W d' r).2.doms d).classes = _
    unfold addRule
    split
    · rfl
    · simp only
      split <;> (simp only [setDom_doms]; split)
      · rename_i hd; subst hd; rfl
      · rfl
      · rename_i hd; subst hd; rfl
      · rfl
  | removeRule d' r =>
    show ((removeRule D W d' r).2.doms d).classes = _
    unfold removeRule
    simp only
    split
    · rfl
    · split <;> (simp only [setDom_doms]; split)
      · rename_i hd; subst hd; rfl
      · rfl
      · rename_i hd; subst hd; rfl
      · rfl
  | getTypeMut d' md q =>
    show ((getTypeMut D W d' md q).2.doms d).classes = _
    exact getTypeMut_classes D W d' md q d
  | getType d' q =>
    show ((getType D W d' q).2.doms d).classes = _
    unfold getType
    split
    · rfl
    · exact getTypeMut_classes D W d' d' q d
  | gc d' num =>
    show ((garbageCollect W d' num).2.doms d).classes = _
    unfold garbageCollect
    simp only [setDom_doms]
    split
    · rename_i hd; subst hd; rfl
    · rfl
where
  getTypeMut_classes (D : Decls) (W : World) (d' md : DomId) (q : List Mix) (d : DomId) :
      ((getTypeMut D W d' md q).2.doms d).classes = (W.doms d).classes := by
    unfold getTypeMut
    split
    · rfl
    · simp only
      split
      · rfl
      · rfl
      · simp only [setDom_doms]; split
        · rename_i hd; subst hd; rfl
        · rfl
      · split
        · rfl
        · simp only [setDom_doms]; split
          · rename_i hd; subst hd; exact (emplaceSection_fields _ _ _).2.2.2.1
          · rfl

theorem classNameTaken_iff (D : Decls) (name : List UInt8) (l : List (Option Cls)) :
    classNameTaken D name l = true ↔ ∃ (i c : Nat), l[i]? = some (some c) ∧ D.clsName c = name := by
  unfold classNameTaken
  rw [List.any_eq_true]
  constructor
  · rintro ⟨x, hx, h⟩
    cases x with
    | none => simp at h
    | some c =>
      obtain ⟨i, hi⟩ := List.mem_iff_getElem?.1 hx
      exact ⟨i, c, hi, by simpa using h⟩
  · rintro ⟨i, c, h1, h2⟩
    exact ⟨some c, List.mem_of_getElem? h1, by simpa using h2⟩

/-- outcome and effect of register_type_class -/
theorem registerTypeClass_cases (D : Decls) (W : World) (d : DomId) (c : Cls) :
    (registerTypeClass D W d c = (.error .emptyName, W) ∧ D.clsName c = []) ∨
    (registerTypeClass D W d c = (.error .noFunc, W) ∧ D.clsName c ≠ [] ∧ (D.cls c).isNull = true) ∨
    (registerTypeClass D W d c = (.error .duplicateName, W) ∧ D.clsName c ≠ [] ∧ (D.cls c).isNull = false ∧
      ∃ c', c' ∈ classesOf W d ∧ D.clsName c' = D.clsName c) ∨
    (registerTypeClass D W d c = (.error .ub, W) ∧ D.clsName c ≠ [] ∧ (D.cls c).isNull = false ∧
      (∀ c', c' ∈ classesOf W d → D.clsName c' ≠ D.clsName c) ∧ none ∈ (W.doms d).classes) ∨
    (registerTypeClass D W d c = (.ok (), W.setDom d { W.doms d with classes := (W.doms d).classes ++ [some c] }) ∧
      D.clsName c ≠ [] ∧ (D.cls c).isNull = false ∧
      (∀ c', c' ∈ classesOf W d → D.clsName c' ≠ D.clsName c) ∧ none ∉ (W.doms d).classes) := by
  unfold registerTypeClass
  simp only
  by_cases h1 : (D.clsName c).isEmpty = true
  · rw [if_pos h1]; exact .inl ⟨rfl, by simpa using h1⟩
  have h1' : D.clsName c ≠ [] := by simpa using h1
  rw [if_neg h1]
  by_cases h2 : (D.cls c).isNull = true
  · rw [if_pos h2]; exact .inr (.inl ⟨rfl, h1', h2⟩)
  have h2' : (D.cls c).isNull = false := by simpa using h2
  rw [if_neg h2]
  by_cases h3 : classNameTaken D (D.clsName c) (W.doms d).classes = true
  · rw [if_pos h3]
    obtain ⟨i, c', h4, h5⟩ := (classNameTaken_iff _ _ _).1 h3
    exact .inr (.inr (.inl ⟨rfl, h1', h2', c', (mem_classesOf W d c').2 ⟨i, h4⟩, h5⟩))
  rw [if_neg h3]
  have h3' : ∀ c', c' ∈ classesOf W d → D.clsName c' ≠ D.clsName c := by
    intro c' hc he
    obtain ⟨i, hi⟩ := (mem_classesOf W d c').1 hc
    exact h3 ((classNameTaken_iff _ _ _).2 ⟨i, c', hi, he⟩)
  by_cases h4 : none ∈ (W.doms d).classes
  · rw [if_pos h4]; exact .inr (.inr (.inr (.inl ⟨rfl, h1', h2', h3', h4⟩)))
  · rw [if_neg h4]; exact .inr (.inr (.inr (.inr ⟨rfl, h1', h2', h3', h4⟩)))

theorem clearFirst_getElem? (c : Cls) (l : List (Option Cls)) (i a : Nat) (h : (clearFirst c l)[i]? = some (some a)) :
    l[i]? = some (some a) := by
  induction l generalizing i with
  | nil => simp [clearFirst] at h
  | cons x xs ih =>
    unfold clearFirst at h
    split at h
    · cases i with
      | zero => simp at h
      | succ i => simpa using h
    · cases i with
      | zero => simpa using h
      | succ i => simp at h ⊢; exact ih i h

theorem clearFirst_keep (c : Cls) (l : List (Option Cls)) (i a : Nat) (ha : a ≠ c) (h : l[i]? = some (some a)) :
    (clearFirst c l)[i]? = some (some a) := by
  induction l generalizing i with
  | nil => simp at h
  | cons x xs ih =>
    unfold clearFirst
    split
    · rename_i hx
      cases i with
      | zero => simp at h; rw [h] at hx; simp at hx; exact absurd hx ha
      | succ i => simpa using h
    · cases i with
      | zero => simpa using h
      | succ i => simp at h ⊢; exact ih i h

/-- after the removal of a class that was there once, it is not there -/
theorem clearFirst_gone (c : Cls) (l : List (Option Cls)) (hu : ∀ i j : Nat, l[i]? = some (some c) → l[j]? = some (some c) → i = j)
    (i : Nat) : (clearFirst c l)[i]? ≠ some (some c) := by
  induction l generalizing i with
  | nil => simp [clearFirst]
  | cons x xs ih =>
    unfold clearFirst
    split
    · rename_i hx
      subst hx
      cases i with
      | zero => simp
      | succ i =>
        simp
        intro h
        have := hu 0 (i + 1) (by simp) (by simpa using h)
        omega
    · rename_i hx
      cases i with
      | zero => simpa using hx
      | succ i =>
        simp
        refine ih (fun i j h1 h2 => ?_) i
        have := hu (i + 1) (j + 1) (by simpa using h1) (by simpa using h2)
        omega

theorem step_cls (D : Decls) (W : World) (h : RegInv W) (op : Op) (d : DomId) (hc : ClsInv D (W.doms d)) :
    ClsInv D ((step D W op).2.doms d) := by
  by_cases h1 : ∃ c, op = .regClass d c
  · obtain ⟨c, rfl⟩ := h1
    show ClsInv D ((registerTypeClass D W d c).2.doms d)
    rcases registerTypeClass_cases D W d c with h | h | h | h | ⟨h, hne, hnn, huq, -⟩
    · rw [h.1]; exact hc
    · rw [h.1]; exact hc
    · rw [h.1]; exact hc
    · rw [h.1]; exact hc
    · rw [h]
      simp only [setDom_same]
      have key : ∀ (i a : Nat), ((W.doms d).classes ++ [some c])[i]? = some (some a) →
          (W.doms d).classes[i]? = some (some a) ∨ (i = (W.doms d).classes.length ∧ a = c) := by
        intro i a hi
        rw [List.getElem?_append] at hi
        split at hi
        · exact .inl hi
        · rename_i hl
          rw [List.getElem?_singleton] at hi
          split at hi
          · simp at hi; exact .inr ⟨by omega, hi.symm⟩
          · simp at hi
      have uq : ∀ (i a : Nat), (W.doms d).classes[i]? = some (some a) → D.clsName a ≠ D.clsName c :=
        fun i a hi => huq a ((mem_classesOf W d a).2 ⟨i, hi⟩)
      refine ⟨?_, ?_, ?_⟩
      · intro i j a b hi hj hab
        rcases key i a hi with hi2 | ⟨hi2, hi3⟩ <;> rcases key j b hj with hj2 | ⟨hj2, hj3⟩
        · exact hc.uniq i j a b hi2 hj2 hab
        · rw [hj3] at hab; exact absurd hab (uq i a hi2)
        · rw [hi3] at hab; exact absurd hab.symm (uq j b hj2)
        · omega
      · intro i a hi
        rcases key i a hi with hi | ⟨rfl, rfl⟩
        · exact hc.nonempty i a hi
        · exact hne
      · intro i a hi
        rcases key i a hi with hi | ⟨rfl, rfl⟩
        · exact hc.nonnull i a hi
        · exact hnn
  by_cases h2 : ∃ c, op = .unregClass d c
  · obtain ⟨c, rfl⟩ := h2
    show ClsInv D ((unregisterTypeClass W d c).2.doms d)
    unfold unregisterTypeClass
    simp only [setDom_same]
    exact ⟨fun i j a b hi hj => hc.uniq i j a b (clearFirst_getElem? _ _ _ _ hi) (clearFirst_getElem? _ _ _ _ hj),
      fun i a hi => hc.nonempty i a (clearFirst_getElem? _ _ _ _ hi), fun i a hi => hc.nonnull i a (clearFirst_getElem? _ _ _ _ hi)⟩
  have hs := step_classes_same D W h op d (fun c e => h1 ⟨c, e⟩) (fun c e => h2 ⟨c, e⟩)
  exact ⟨by rw [hs]; exact hc.uniq, by rw [hs]; exact hc.nonempty, by rw [hs]; exact hc.nonnull⟩

theorem run_cls (D : Decls) (d : DomId) (ops : List Op) : ∀ W, RegInv W → ClsInv D (W.doms d) → ClsInv D ((run D W ops).doms d) := by
  induction ops with
  | nil => intro W _ h; exact h
  | cons op ops ih => intro W h hc; exact ih _ (step_reg D W op h) (step_cls D W h op d hc)

theorem initWorld_cls (D : Decls) (s : DomId → Settings) (d : DomId) : ClsInv D ((initWorld s).doms d) := by
  refine ⟨?_, ?_, ?_⟩ <;> intros <;> simp_all [initWorld, newDom]

theorem reachable_cls (D : Decls) (s : DomId → Settings) (ops : List Op) (d : DomId) : ClsInv D ((run D (initWorld s) ops).doms d) :=
  run_cls D d ops _ (initWorld_reg s) (initWorld_cls D s d)

/-- what a step does to the set of type classes -/
theorem step_classesOf (D : Decls) (W : World) (h : RegInv W) (op : Op) (d : DomId) (c : Cls) (hc : ClsInv D (W.doms d)) :
    c ∈ classesOf (step D W op).2 d ↔
    classRegStep d c (decide (c ∈ classesOf W d)) (op, (step D W op).1) = true := by
  by_cases h1 : ∃ c', op = .regClass d c'
  · obtain ⟨c', rfl⟩ := h1
    show c ∈ classesOf (registerTypeClass D W d c').2 d ↔ classRegStep d c _ (_, (registerTypeClass D W d c').1) = true
    rcases registerTypeClass_cases D W d c' with h | h | h | h | ⟨h, hne, hnn, huq, -⟩
    · rw [h.1]; simp [classRegStep]
    · rw [h.1]; simp [classRegStep]
    · rw [h.1]; simp [classRegStep]
    · rw [h.1]; simp [classRegStep]
    · rw [h]
      simp only [classesOf, setDom_same, List.filterMap_append, List.mem_append, classRegStep]
      by_cases he : c' = c
      · subst he; simp
      · have : ¬ (c = c') := fun e => he e.symm
        simp [he, this]
  by_cases h2 : ∃ c', op = .unregClass d c'
  · obtain ⟨c', rfl⟩ := h2
    show c ∈ classesOf (unregisterTypeClass W d c').2 d ↔ classRegStep d c _ (_, (unregisterTypeClass W d c').1) = true
    simp only [classRegStep, unregisterTypeClass]
    by_cases he : c' = c
    · subst he
      simp only [and_self, if_true, Bool.false_eq_true, iff_false]
      rw [mem_classesOf]
      rintro ⟨i, hi⟩
      simp only [setDom_same] at hi
      exact clearFirst_gone c' _ (fun i j a b => hc.uniq i j c' c' a b rfl) i hi
    · simp only [he, and_false, if_false, decide_eq_true_eq]
      rw [mem_classesOf, mem_classesOf]
      simp only [setDom_same]
      constructor
      · rintro ⟨i, hi⟩; exact ⟨i, clearFirst_getElem? _ _ _ _ hi⟩
      · rintro ⟨i, hi⟩; exact ⟨i, clearFirst_keep _ _ _ _ (fun e => he e.symm) hi⟩
  have hs := step_classes_same D W h op d (fun c e => h1 ⟨c, e⟩) (fun c e => h2 ⟨c, e⟩)
  have hs' : classesOf (step D W op).2 d = classesOf W d := by unfold classesOf; rw [hs]
  rw [hs']
  have : classRegStep d c (decide (c ∈ classesOf W d)) (op, (step D W op).1) = decide (c ∈ classesOf W d) := by
    unfold classRegStep
    split
    · rename_i d' c' u heq
      simp only [Prod.mk.injEq] at heq
      rw [if_neg]
      rintro ⟨rfl, rfl⟩; exact h1 ⟨c', heq.1⟩
    · rename_i d' c' u heq
      simp only [Prod.mk.injEq] at heq
      rw [if_neg]
      rintro ⟨rfl, rfl⟩; exact h2 ⟨c', heq.1⟩
    · rfl
  rw [this]; simp

theorem run_classRegistered (D : Decls) (d : DomId) (c : Cls) (ops : List Op) : ∀ W, RegInv W → ClsInv D (W.doms d) →
    (c ∈ classesOf (run D W ops) d ↔ (trace D W ops).foldl (classRegStep d c) (decide (c ∈ classesOf W d)) = true) := by
  induction ops with
  | nil => intro W _ _; simp [run, trace]
  | cons op ops ih =>
    intro W h hc
    simp only [run, trace, List.foldl_cons]
    rw [ih _ (step_reg D W op h) (step_cls D W h op d hc)]
    have := step_classesOf D W h op d c hc
    rw [show decide (c ∈ classesOf (step D W op).2 d) = classRegStep d c (decide (c ∈ classesOf W d)) (op, (step D W op).1) by
      rw [Bool.eq_iff_iff]; simpa using this]

theorem classRegistered_iff (D : Decls) (s : DomId → Settings) (ops : List Op) (d : DomId) (c : Cls) :
    classRegistered d c (trace D (initWorld s) ops) = true ↔ c ∈ classesOf (run D (initWorld s) ops) d := by
  rw [run_classRegistered D d c ops _ (initWorld_reg s) (initWorld_cls D s d)]
  have : decide (c ∈ classesOf (initWorld s) d) = false := by simp [classesOf, initWorld, newDom]
  rw [this]; rfl

/-- without unregistrations there are no free slots -/
theorem step_noFree (D : Decls) (W : World) (h : RegInv W) (op : Op) (d : DomId) (hop : ∀ c, op ≠ .unregClass d c)
    (hf : none ∉ (W.doms d).classes) : none ∉ ((step D W op).2.doms d).classes := by
  by_cases h1 : ∃ c', op = .regClass d c'
  · obtain ⟨c', rfl⟩ := h1
    show none ∉ ((registerTypeClass D W d c').2.doms d).classes
    rcases registerTypeClass_cases D W d c' with h | h | h | h | ⟨h, hne, hnn, huq, -⟩
    · rw [h.1]; exact hf
    · rw [h.1]; exact hf
    · rw [h.1]; exact hf
    · rw [h.1]; exact hf
    · rw [h]; simp [setDom_same, hf]
  · rw [step_classes_same D W h op d (fun c e => h1 ⟨c, e⟩) hop]; exact hf

theorem run_noFree (D : Decls) (d : DomId) (ops : List Op) : ∀ W, RegInv W → (∀ c, Op.unregClass d c ∉ ops) →
    none ∉ (W.doms d).classes → none ∉ ((run D W ops).doms d).classes := by
  induction ops with
  | nil => intro W _ _ h; exact h
  | cons op ops ih =>
    intro W h hops hf
    exact ih _ (step_reg D W op h) (fun c hc => hops c (List.mem_cons_of_mem _ hc))
      (step_noFree D W h op d (fun c e => hops c (by rw [e]; exact List.mem_cons_self)) hf)

end Dnmx
