import Verif.Model.Domain

namespace Dnmx

@[simp] theorem upd_same {β : Type} (f : Nat → β) (a : Nat) (b : β) : upd f a b a = b := by simp [upd]
theorem upd_ne {β : Type} (f : Nat → β) {a x : Nat} (b : β) (h : x ≠ a) : upd f a b x = f x := by simp [upd, h]
theorem upd_apply {β : Type} (f : Nat → β) (a x : Nat) (b : β) : upd f a b x = if x = a then b else f x := rfl

@[simp] theorem setDom_same (W : World) (d : DomId) (x : Dom) : (W.setDom d x).doms d = x := by simp [World.setDom]
theorem setDom_ne (W : World) {d d' : DomId} (x : Dom) (h : d' ≠ d) : (W.setDom d x).doms d' = W.doms d' := by
  simp [World.setDom, upd_ne _ _ h]
theorem setDom_doms (W : World) (d d' : DomId) (x : Dom) : (W.setDom d x).doms d' = if d' = d then x else W.doms d' := rfl
@[simp] theorem setDom_featId (W : World) (d : DomId) (x : Dom) : (W.setDom d x).featId = W.featId := rfl
@[simp] theorem setDom_mixId (W : World) (d : DomId) (x : Dom) : (W.setDom d x).mixId = W.mixId := rfl
@[simp] theorem setDom_mixDom (W : World) (d : DomId) (x : Dom) : (W.setDom d x).mixDom = W.mixDom := rfl
@[simp] theorem setDom_nextType (W : World) (d : DomId) (x : Dom) : (W.setDom d x).nextType = W.nextType := rfl

/-! ## sparse vectors -/

theorem scanRev_ok (nameOf : Nat → List UInt8) (name : List UInt8) (xs : List (Option Nat)) : ∀ (i : Nat) (free : Option Nat),
    scanRev nameOf name i xs = .ok free →
    (∀ (j r : Nat), xs[j]? = some (some r) → nameOf r ≠ name) ∧
    (free = none → ∀ j, j < xs.length → ∃ r, xs[j]? = some (some r)) ∧
    (∀ k, free = some k → ∃ l, k = i + l ∧ xs[l]? = some none ∧ ∀ j, j < l → ∃ r, xs[j]? = some (some r)) := by
  induction xs with
  | nil => intro i free h; simp [scanRev] at h; subst h; simp
  | cons x xs ih =>
    intro i free h
    unfold scanRev at h
    cases hr : scanRev nameOf name (i + 1) xs with
    | error e => simp [hr] at h
    | ok fr =>
      simp only [hr] at h
      obtain ⟨h1, h2, h3⟩ := ih (i + 1) fr hr
      cases x with
      | none =>
        simp at h; subst h
        refine ⟨?_, by simp, ?_⟩
        · intro j r hj
          cases j with
          | zero => simp at hj
          | succ j => exact h1 j r (by simpa using hj)
        · intro k hk; simp at hk; subst hk
          exact ⟨0, by simp, by simp, fun j hj => by omega⟩
      | some reg =>
        simp only at h
        by_cases hn : nameOf reg = name
        · simp [hn] at h
        · simp [hn] at h; subst h
          refine ⟨?_, ?_, ?_⟩
          · intro j r hj
            cases j with
            | zero => simp at hj; subst hj; exact hn
            | succ j => exact h1 j r (by simpa using hj)
          · intro hf j hj
            cases j with
            | zero => exact ⟨reg, rfl⟩
            | succ j => simpa using h2 hf j (by simpa using hj)
          · intro k hk
            obtain ⟨l, h4, h5, h6⟩ := h3 k hk
            refine ⟨l + 1, by omega, by simpa using h5, fun j hj => ?_⟩
            cases j with
            | zero => exact ⟨reg, rfl⟩
            | succ j => simpa using h6 j (by omega)

theorem scanRev_error (nameOf : Nat → List UInt8) (name : List UInt8) (xs : List (Option Nat)) : ∀ (i : Nat) (e : Err),
    scanRev nameOf name i xs = .error e → e = .duplicateName ∧ ∃ (j r : Nat), xs[j]? = some (some r) ∧ nameOf r = name := by
  induction xs with
  | nil => intro i e h; simp [scanRev] at h
  | cons x xs ih =>
    intro i e h
    unfold scanRev at h
    cases hr : scanRev nameOf name (i + 1) xs with
    | error e' =>
      simp only [hr] at h; simp at h; subst h
      obtain ⟨h1, j, r, h2, h3⟩ := ih _ _ hr
      exact ⟨h1, j + 1, r, by simpa using h2, h3⟩
    | ok fr =>
      simp only [hr] at h
      cases x with
      | none => simp at h
      | some reg =>
        simp only at h
        by_cases hn : nameOf reg = name
        · simp [hn] at h; exact ⟨h.symm, 0, reg, rfl, hn⟩
        · simp [hn] at h

theorem scanFwd_spec (xs : List (Option Nat)) : ∀ (i : Nat),
    (scanFwd i xs = none → ∀ j, j < xs.length → ∃ r, xs[j]? = some (some r)) ∧
    (∀ k, scanFwd i xs = some k → ∃ l, k = i + l ∧ xs[l]? = some none ∧ ∀ j, j < l → ∃ r, xs[j]? = some (some r)) := by
  induction xs with
  | nil => intro i; simp [scanFwd]
  | cons x xs ih =>
    intro i
    cases x with
    | none =>
      refine ⟨by simp [scanFwd], ?_⟩
      intro k hk; simp [scanFwd] at hk; subst hk
      exact ⟨0, by simp, by simp, fun j hj => by omega⟩
    | some reg =>
      obtain ⟨h1, h2⟩ := ih (i + 1)
      refine ⟨?_, ?_⟩
      · intro h j hj
        cases j with
        | zero => exact ⟨reg, rfl⟩
        | succ j => simpa using h1 h j (by simpa using hj)
      · intro k hk
        obtain ⟨l, h4, h5, h6⟩ := h2 k hk
        refine ⟨l + 1, by omega, by simpa using h5, fun j hj => ?_⟩
        cases j with
        | zero => exact ⟨reg, rfl⟩
        | succ j => simpa using h6 j (by omega)

/-! ## density of ids -/

theorem filterMap_full (l : List (Option Nat)) (h : ∀ j, j < l.length → ∃ r, l[j]? = some (some r)) :
    (l.filterMap id).length = l.length := by
  induction l with
  | nil => rfl
  | cons x xs ih =>
    obtain ⟨r, hr⟩ := h 0 (by simp)
    simp at hr; subst hr
    simp only [List.filterMap_cons, id_eq, List.length_cons]
    rw [ih (fun j hj => by simpa using h (j + 1) (by simpa using hj))]

theorem filterMap_set_length (l : List (Option Nat)) (i x : Nat) (h : i < l.length) (hn : ∀ r, l[i]? ≠ some (some r)) :
    ((l.set i (some x)).filterMap id).length = (l.filterMap id).length + 1 := by
  induction l generalizing i with
  | nil => simp at h
  | cons y ys ih =>
    cases i with
    | zero =>
      cases y with
      | none => simp
      | some r => exact absurd rfl (hn r)
    | succ i =>
      have := ih i (by simpa using h) (by intro r; simpa using hn r)
      cases y <;> simp [this]

/-- if the least free slot is taken, its number is at most the number of elements -/
theorem least_le_count (l : List (Option Nat)) : ∀ (i : Nat), (∀ j, j < i → ∃ r, l[j]? = some (some r)) →
    i ≤ (l.filterMap id).length := by
  induction l with
  | nil =>
    intro i h
    cases i with
    | zero => simp
    | succ i => obtain ⟨r, hr⟩ := h 0 (by omega); simp at hr
  | cons x xs ih =>
    intro i h
    cases i with
    | zero => simp
    | succ i =>
      obtain ⟨r, hr⟩ := h 0 (by omega)
      simp at hr; subst hr
      have := ih i (fun j hj => by simpa using h (j + 1) (by omega))
      simp; exact this

/-- what a successful registration does to a sparse vector -/
structure Inserted (nameOf : Nat → List UInt8) (enforce : Bool) (info : Nat) (old : List (Option Nat)) (id : Nat)
    (new : List (Option Nat)) : Prop where
  slot : new[id]? = some (some info)
  other : ∀ j, j ≠ id → new[j]? = old[j]?
  wasFree : ∀ r, old[id]? ≠ some (some r)
  least : ∀ j, j < id → ∃ r, old[j]? = some (some r)
  length : new.length = old.length ∧ id < old.length ∨ new.length = old.length + 1 ∧ id = old.length
  shape : new = old.set id (some info) ∨ new = old ++ [some info]
  nonempty : enforce = true → nameOf info ≠ []
  unique : enforce = true → ∀ (j r : Nat), old[j]? = some (some r) → nameOf r ≠ nameOf info

theorem Inserted.length_le {nameOf : Nat → List UInt8} {enforce : Bool} {info k : Nat} {old new : List (Option Nat)}
    (hi : Inserted nameOf enforce info old k new) :
    new.length ≤ max old.length (new.filterMap id).length := by
  rcases hi.length with ⟨h1, -⟩ | ⟨h1, h2⟩
  · omega
  · have : (new.filterMap id).length = new.length := by
      apply filterMap_full
      intro j hj
      by_cases hji : j = k
      · subst hji; exact ⟨info, hi.slot⟩
      · rw [hi.other j hji]; exact hi.least j (by omega)
    omega

theorem Inserted.count {nameOf : Nat → List UInt8} {enforce : Bool} {info k : Nat} {old new : List (Option Nat)}
    (hi : Inserted nameOf enforce info old k new) : (new.filterMap id).length = (old.filterMap id).length + 1 := by
  rcases hi.shape with h | h
  · have hk : k < old.length := by
      have := (List.getElem?_eq_some_iff.1 hi.slot).1
      rw [h] at this; simpa using this
    rw [h, filterMap_set_length old k info hk hi.wasFree]
  · rw [h]; simp

theorem basicRegister_ok (nameOf : Nat → List UInt8) (enforce : Bool) (oid : Option Nat) (info : Nat) (old : List (Option Nat))
    (id : Nat) (new : List (Option Nat)) (h : basicRegister nameOf enforce oid info old = .ok (id, new)) :
    oid = none ∧ Inserted nameOf enforce info old id new := by
  unfold basicRegister at h
  by_cases h0 : oid ≠ none
  · rw [if_pos h0] at h; simp at h
  · rw [if_neg h0] at h
    refine ⟨by simpa using h0, ?_⟩
    by_cases h1 : (enforce && (nameOf info).isEmpty) = true
    · rw [if_pos h1] at h; simp at h
    · rw [if_neg h1] at h
      have hne : enforce = true → nameOf info ≠ [] := by
        intro he hn; simp [he, hn] at h1
      have key : ∃ free, (if enforce then scanRev nameOf (nameOf info) 0 old else .ok (scanFwd 0 old)) = .ok free ∧
          (enforce = true → ∀ (j r : Nat), old[j]? = some (some r) → nameOf r ≠ nameOf info) ∧
          (free = none → ∀ j, j < old.length → ∃ r, old[j]? = some (some r)) ∧
          (∀ k, free = some k → old[k]? = some none ∧ ∀ j, j < k → ∃ r, old[j]? = some (some r)) := by
        cases hb : enforce with
        | true =>
          simp only [hb, if_true] at h ⊢
          cases hs : scanRev nameOf (nameOf info) 0 old with
          | error e => simp [hs] at h
          | ok free =>
            obtain ⟨g1, g2, g3⟩ := scanRev_ok _ _ _ _ _ hs
            refine ⟨free, rfl, fun _ => g1, g2, fun k hk => ?_⟩
            obtain ⟨l, e1, e2, e3⟩ := g3 k hk
            have : k = l := by omega
            subst this; exact ⟨e2, e3⟩
        | false =>
          refine ⟨scanFwd 0 old, by simp, by simp, (scanFwd_spec old 0).1, fun k hk => ?_⟩
          obtain ⟨l, e1, e2, e3⟩ := (scanFwd_spec old 0).2 k hk
          have : k = l := by omega
          subst this; exact ⟨e2, e3⟩
      obtain ⟨free, hf, hu, hnone, hsome⟩ := key
      rw [hf] at h
      cases free with
      | none =>
        simp at h
        obtain ⟨rfl, rfl⟩ := h
        refine ⟨by simp, ?_, by simp, fun j hj => hnone rfl j hj, .inr ⟨by simp, rfl⟩, .inr rfl, hne, hu⟩
        intro j hj
        by_cases hlt : j < old.length
        · rw [List.getElem?_append_left hlt]
        · rw [List.getElem?_eq_none (by simp; omega), List.getElem?_eq_none (by omega)]
      | some k =>
        simp at h
        obtain ⟨rfl, rfl⟩ := h
        obtain ⟨g1, g2⟩ := hsome k rfl
        have hk : k < old.length := (List.getElem?_eq_some_iff.1 g1).1
        refine ⟨by simp [hk], fun j hj => List.getElem?_set_ne (Ne.symm hj), by simp [g1], g2, .inl ⟨by simp, hk⟩, .inl rfl, hne, hu⟩

theorem basicRegister_error (nameOf : Nat → List UInt8) (enforce : Bool) (oid : Option Nat) (info : Nat) (old : List (Option Nat))
    (e : Err) (h : basicRegister nameOf enforce oid info old = .error e) :
    (e = .idRegistered ∧ oid ≠ none) ∨ (e = .emptyName ∧ oid = none ∧ enforce = true ∧ nameOf info = []) ∨
    (e = .duplicateName ∧ oid = none ∧ enforce = true ∧ ∃ (j r : Nat), old[j]? = some (some r) ∧ nameOf r = nameOf info) := by
  unfold basicRegister at h
  by_cases h0 : oid ≠ none
  · rw [if_pos h0] at h; simp at h; exact .inl ⟨h.symm, h0⟩
  · rw [if_neg h0] at h
    have h0' : oid = none := by simpa using h0
    by_cases h1 : (enforce && (nameOf info).isEmpty) = true
    · rw [if_pos h1] at h; simp at h h1; exact .inr (.inl ⟨h.symm, h0', h1.1, h1.2⟩)
    · rw [if_neg h1] at h
      cases hb : enforce with
      | true =>
        simp only [hb, if_true] at h
        cases hs : scanRev nameOf (nameOf info) 0 old with
        | error e' =>
          simp [hs] at h
          obtain ⟨g1, j, r, g2, g3⟩ := scanRev_error _ _ _ _ _ hs
          exact .inr (.inr ⟨by rw [← h, g1], h0', rfl, j, r, g2, g3⟩)
        | ok free => cases free <;> simp [hs] at h
      | false =>
        simp only [hb] at h
        cases hs : scanFwd 0 old <;> simp [hs] at h

theorem ownSlot_some (sparse : List (Option Nat)) (id : Option Nat) (info i : Nat) :
    ownSlot sparse id info = some i ↔ id = some i ∧ sparse[i]? = some (some info) := by
  unfold ownSlot
  cases id with
  | none => simp
  | some j =>
    by_cases h : sparse[j]? = some (some info)
    · simp only [h, if_true]
      constructor
      · intro hj; simp at hj; subst hj; exact ⟨rfl, h⟩
      · rintro ⟨hj, _⟩; exact hj
    · simp only [h, if_false]
      constructor
      · intro hj; simp at hj
      · rintro ⟨hj, h'⟩; simp at hj; subst hj; exact absurd h' h

theorem ownSlot_none (sparse : List (Option Nat)) (id : Option Nat) (info : Nat) :
    ownSlot sparse id info = none ↔ ∀ i, id = some i → sparse[i]? ≠ some (some info) := by
  constructor
  · intro h i hi hs
    have := (ownSlot_some sparse id info i).2 ⟨hi, hs⟩
    rw [h] at this; simp at this
  · intro h
    cases ho : ownSlot sparse id info with
    | none => rfl
    | some i =>
      obtain ⟨h1, h2⟩ := (ownSlot_some sparse id info i).1 ho
      exact absurd h2 (h i h1)

theorem getById_eq (sparse : List (Option Nat)) (id : Option Nat) (x : Nat) :
    getById sparse id = some x ↔ ∃ i, id = some i ∧ sparse[i]? = some (some x) := by
  unfold getById
  cases id with
  | none => simp
  | some i =>
    simp only [Option.some.injEq, exists_eq_left']
    cases h : sparse[i]? with
    | none => simp
    | some y => simp

theorem getByName_some (nameOf : Nat → List UInt8) (name : List UInt8) (sparse : List (Option Nat)) (x : Nat)
    (h : getByName nameOf name sparse = some x) : nameOf x = name ∧ ∃ i : Nat, sparse[i]? = some (some x) := by
  induction sparse with
  | nil => simp [getByName] at h
  | cons y ys ih =>
    cases y with
    | none =>
      obtain ⟨h1, i, h2⟩ := ih h
      exact ⟨h1, i + 1, by simpa using h2⟩
    | some z =>
      unfold getByName at h
      by_cases hz : nameOf z = name
      · simp [hz] at h; subst h; exact ⟨hz, 0, rfl⟩
      · simp [hz] at h
        obtain ⟨h1, i, h2⟩ := ih h
        exact ⟨h1, i + 1, by simpa using h2⟩

theorem getByName_none (nameOf : Nat → List UInt8) (name : List UInt8) (sparse : List (Option Nat)) :
    getByName nameOf name sparse = none ↔ ∀ (i x : Nat), sparse[i]? = some (some x) → nameOf x ≠ name := by
  induction sparse with
  | nil => simp [getByName]
  | cons y ys ih =>
    have hcons : (∀ (i x : Nat), (y :: ys)[i]? = some (some x) → nameOf x ≠ name) ↔
        (∀ x, y = some x → nameOf x ≠ name) ∧ (∀ (i x : Nat), ys[i]? = some (some x) → nameOf x ≠ name) := by
      constructor
      · intro h
        exact ⟨fun x hx => h 0 x (by simp [hx]), fun i x hx => h (i + 1) x (by simpa using hx)⟩
      · rintro ⟨h1, h2⟩ i x hx
        cases i with
        | zero => exact h1 x (by simpa using hx)
        | succ i => exact h2 i x (by simpa using hx)
    rw [hcons]
    cases y with
    | none => simp [getByName, ih]
    | some z =>
      unfold getByName
      by_cases hz : nameOf z = name
      · simp [hz]
      · simp [hz, ih]

/-! ## invariant of the element registries -/

/-- the elements (registries, ids, settings) of two worlds are the same -/
structure SameElems (W W' : World) : Prop where
  settings : ∀ d, (W'.doms d).settings = (W.doms d).settings
  feats : ∀ d, (W'.doms d).feats = (W.doms d).feats
  mixins : ∀ d, (W'.doms d).mixins = (W.doms d).mixins
  featId : W'.featId = W.featId
  mixId : W'.mixId = W.mixId
  mixDom : W'.mixDom = W.mixDom

theorem SameElems.refl (W : World) : SameElems W W := ⟨fun _ => rfl, fun _ => rfl, fun _ => rfl, rfl, rfl, rfl⟩

theorem SameElems.setDom (W : World) (d : DomId) (x : Dom) (h1 : x.settings = (W.doms d).settings) (h2 : x.feats = (W.doms d).feats)
    (h3 : x.mixins = (W.doms d).mixins) : SameElems W (W.setDom d x) := by
  refine ⟨fun d' => ?_, fun d' => ?_, fun d' => ?_, rfl, rfl, rfl⟩ <;> rw [setDom_doms] <;> split <;>
    first | rfl | (rename_i h; subst h; assumption)

theorem registerTypeClass_same (D : Decls) (W : World) (d : DomId) (c : Cls) : SameElems W (registerTypeClass D W d c).2 := by
  unfold registerTypeClass
  simp only
  repeat' split
  all_goals first | exact SameElems.refl W | exact SameElems.setDom W d _ rfl rfl rfl

theorem addRule_same (D : Decls) (W : World) (d : DomId) (r : Rule) : SameElems W (addRule D W d r).2 := by
  unfold addRule
  simp only
  split
  · exact SameElems.refl W
  · split <;> exact SameElems.setDom W d _ rfl rfl rfl

theorem removeRule_same (D : Decls) (W : World) (d : DomId) (r : Rule) : SameElems W (removeRule D W d r).2 := by
  unfold removeRule
  simp only
  split
  · exact SameElems.refl W
  · split <;> exact SameElems.setDom W d _ rfl rfl rfl

theorem emplaceSection_fields (x : Dom) (key : List Mix) (t : TypeRec) :
    (emplaceSection x key t).2.settings = x.settings ∧ (emplaceSection x key t).2.feats = x.feats ∧
    (emplaceSection x key t).2.mixins = x.mixins ∧ (emplaceSection x key t).2.classes = x.classes ∧
    (emplaceSection x key t).2.rules = x.rules := by
  unfold emplaceSection
  split <;> simp

theorem getTypeMut_same (D : Decls) (W : World) (d md : DomId) (q : List Mix) : SameElems W (getTypeMut D W d md q).2 := by
  unfold getTypeMut
  simp only
  split
  · exact SameElems.refl W
  · split
    · exact SameElems.refl W
    · exact SameElems.refl W
    · exact SameElems.setDom W d _ rfl rfl rfl
    · rename_i key ms _
      split
      · exact SameElems.refl W
      · rename_i t _
        obtain ⟨h1, h2, h3, -, -⟩ := emplaceSection_fields (W.doms d) key t
        have h := SameElems.setDom W d (emplaceSection (W.doms d) key t).2 h1 h2 h3
        exact ⟨h.settings, h.feats, h.mixins, rfl, rfl, rfl⟩

theorem getType_same (D : Decls) (W : World) (d : DomId) (q : List Mix) : SameElems W (getType D W d q).2 := by
  unfold getType
  split
  · exact SameElems.refl W
  · exact getTypeMut_same D W d d q

theorem garbageCollect_same (W : World) (d : DomId) (num : TypeId → Nat) : SameElems W (garbageCollect W d num).2 := by
  unfold garbageCollect
  exact SameElems.setDom W d _ rfl rfl rfl

theorem unregisterMixin_error_same (W : World) (d : DomId) (m : Mix) (e : Err) (h : (unregisterMixin W d m).1 = .error e) :
    SameElems W (unregisterMixin W d m).2 := by
  unfold unregisterMixin at h ⊢
  simp only at h ⊢
  cases hp : purgeQueries (W.doms d) d (W.mixId m) m (W.doms d).queries with
  | none => exact SameElems.refl W
  | some qs =>
    simp only [hp] at h ⊢
    cases ho : ownSlot (W.doms d).mixins (W.mixId m) m with
    | none => exact SameElems.setDom W d _ rfl rfl rfl
    | some i => simp [ho] at h

/-- Invariant of the element registries and the ids in the infos. -/
structure RegInv (W : World) : Prop where
  mixSlot : ∀ (d : DomId) (i : Nat) (m : Mix), (W.doms d).mixins[i]? = some (some m) → W.mixId m = some i ∧ W.mixDom m = some d
  mixReg : ∀ (m : Mix) (i : Nat), W.mixId m = some i → ∃ d, W.mixDom m = some d ∧ (W.doms d).mixins[i]? = some (some m)
  mixFree : ∀ m : Mix, W.mixId m = none → W.mixDom m = none
  featSlot : ∀ (d : DomId) (i : Nat) (f : Feat), (W.doms d).feats[i]? = some (some f) → W.featId f = some i
  featReg : ∀ (f : Feat) (i : Nat), W.featId f = some i → ∃ d, (W.doms d).feats[i]? = some (some f)
  featOne : ∀ (d d' : DomId) (i i' : Nat) (f : Feat), (W.doms d).feats[i]? = some (some f) →
    (W.doms d').feats[i']? = some (some f) → d = d'

theorem RegInv.congr {W W' : World} (h : RegInv W) (s : SameElems W W') : RegInv W' := by
  refine ⟨?_, ?_, ?_, ?_, ?_, ?_⟩
  · intro d i m hm; rw [s.mixins] at hm; rw [s.mixId, s.mixDom]; exact h.mixSlot d i m hm
  · intro m i hm
    rw [s.mixId] at hm
    obtain ⟨d, h1, h2⟩ := h.mixReg m i hm
    exact ⟨d, by rw [s.mixDom]; exact h1, by rw [s.mixins]; exact h2⟩
  · intro m hm; rw [s.mixId] at hm; rw [s.mixDom]; exact h.mixFree m hm
  · intro d i f hf; rw [s.feats] at hf; rw [s.featId]; exact h.featSlot d i f hf
  · intro f i hf
    rw [s.featId] at hf
    obtain ⟨d, h1⟩ := h.featReg f i hf
    exact ⟨d, by rw [s.feats]; exact h1⟩
  · intro d d' i i' f h1 h2; rw [s.feats] at h1 h2; exact h.featOne d d' i i' f h1 h2

theorem initWorld_reg (s : DomId → Settings) : RegInv (initWorld s) := by
  constructor <;> simp [initWorld, newDom]

/-- effect of a successful feature registration -/
structure FeatInserted (D : Decls) (W : World) (d : DomId) (f : Feat) (id : Nat) (W' : World) : Prop where
  wasInvalid : W.featId f = none
  ins : Inserted D.featName (!(W.doms d).settings.allowDupFeat) f (W.doms d).feats id (W'.doms d).feats
  dom : W'.doms d = { W.doms d with feats := (W'.doms d).feats }
  other : ∀ d', d' ≠ d → W'.doms d' = W.doms d'
  featId : W'.featId = upd W.featId f (some id)
  mixId : W'.mixId = W.mixId
  mixDom : W'.mixDom = W.mixDom
  next : W'.nextType = W.nextType

theorem registerFeature_ok (D : Decls) (W : World) (d : DomId) (f : Feat) (h : (registerFeature D W d f).1 = .ok ()) :
    ∃ id, FeatInserted D W d f id (registerFeature D W d f).2 := by
  unfold registerFeature at h ⊢
  cases hb : basicRegister D.featName (!(W.doms d).settings.allowDupFeat) (W.featId f) f (W.doms d).feats with
  | error e => simp [hb] at h
  | ok r =>
    obtain ⟨id, sparse⟩ := r
    obtain ⟨h1, h2⟩ := basicRegister_ok _ _ _ _ _ _ _ hb
    refine ⟨id, h1, ?_, ?_, ?_, rfl, rfl, rfl, rfl⟩
    · simpa using h2
    · simp
    · intro d' hd; simp [setDom_ne _ _ hd]

theorem registerFeature_error (D : Decls) (W : World) (d : DomId) (f : Feat) (e : Err)
    (h : (registerFeature D W d f).1 = .error e) : (registerFeature D W d f).2 = W := by
  unfold registerFeature at h ⊢
  cases hb : basicRegister D.featName (!(W.doms d).settings.allowDupFeat) (W.featId f) f (W.doms d).feats with
  | error e => rfl
  | ok r => obtain ⟨id, sparse⟩ := r; simp [hb] at h

theorem FeatInserted.reg {D : Decls} {W W' : World} {d : DomId} {f : Feat} {id : Nat} (hi : FeatInserted D W d f id W')
    (h : RegInv W) : RegInv W' := by
  have hm : ∀ d', (W'.doms d').mixins = (W.doms d').mixins := by
    intro d'
    by_cases hd : d' = d
    · subst hd; rw [hi.dom]
    · rw [hi.other d' hd]
  refine ⟨?_, ?_, ?_, ?_, ?_, ?_⟩
  · intro d' i m h1; rw [hm] at h1; rw [hi.mixId, hi.mixDom]; exact h.mixSlot d' i m h1
  · intro m i h1; rw [hi.mixId] at h1
    obtain ⟨d', h2, h3⟩ := h.mixReg m i h1
    exact ⟨d', by rw [hi.mixDom]; exact h2, by rw [hm]; exact h3⟩
  · intro m h1; rw [hi.mixId] at h1; rw [hi.mixDom]; exact h.mixFree m h1
  · intro d' i g h1
    rw [hi.featId, upd_apply]
    by_cases hd : d' = d
    · subst hd
      by_cases hid : i = id
      · subst hid; rw [hi.ins.slot] at h1; simp at h1; simp [h1]
      · rw [hi.ins.other i hid] at h1
        have := h.featSlot d' i g h1
        rw [if_neg]; exact this
        intro hg; subst hg; rw [hi.wasInvalid] at this; simp at this
    · rw [hi.other d' hd] at h1
      have := h.featSlot d' i g h1
      rw [if_neg]; exact this
      intro hg; subst hg; rw [hi.wasInvalid] at this; simp at this
  · intro g i h1
    rw [hi.featId, upd_apply] at h1
    by_cases hg : g = f
    · subst hg; simp at h1; subst h1; exact ⟨d, hi.ins.slot⟩
    · rw [if_neg hg] at h1
      obtain ⟨d', h2⟩ := h.featReg g i h1
      by_cases hd : d' = d
      · subst hd
        refine ⟨d', ?_⟩
        rw [hi.ins.other]; exact h2
        intro hid; subst hid; exact hi.ins.wasFree _ h2
      · exact ⟨d', by rw [hi.other d' hd]; exact h2⟩
  · have aux : ∀ (d' : DomId) (i : Nat) (g : Feat), (W'.doms d').feats[i]? = some (some g) →
        (g = f ∧ d' = d) ∨ (g ≠ f ∧ (W.doms d').feats[i]? = some (some g)) := by
      intro d' i g h1
      by_cases hd : d' = d
      · subst hd
        by_cases hid : i = id
        · subst hid; rw [hi.ins.slot] at h1; simp at h1; exact .inl ⟨h1.symm, rfl⟩
        · rw [hi.ins.other i hid] at h1
          have := h.featSlot d' i g h1
          refine .inr ⟨?_, h1⟩
          intro hg; subst hg; rw [hi.wasInvalid] at this; simp at this
      · rw [hi.other d' hd] at h1
        have := h.featSlot d' i g h1
        refine .inr ⟨?_, h1⟩
        intro hg; subst hg; rw [hi.wasInvalid] at this; simp at this
    intro d1 d2 i i' g h1 h2
    rcases aux d1 i g h1 with ⟨a1, a2⟩ | ⟨a1, a2⟩ <;> rcases aux d2 i' g h2 with ⟨b1, b2⟩ | ⟨b1, b2⟩
    · rw [a2, b2]
    · exact absurd a1 b1
    · exact absurd b1 a1
    · exact h.featOne d1 d2 i i' g a2 b2

theorem registerFeature_reg (D : Decls) (W : World) (d : DomId) (f : Feat) (h : RegInv W) :
    RegInv (registerFeature D W d f).2 := by
  cases hr : (registerFeature D W d f).1 with
  | error e => rw [registerFeature_error D W d f e hr]; exact h
  | ok u => cases u; obtain ⟨id, hi⟩ := registerFeature_ok D W d f hr; exact hi.reg h

theorem unregisterFeature_cases (W : World) (d : DomId) (f : Feat) :
    (unregisterFeature W d f = (.error .unregForeign, W) ∧ ownSlot (W.doms d).feats (W.featId f) f = none) ∨
    ∃ i, W.featId f = some i ∧ (W.doms d).feats[i]? = some (some f) ∧
      unregisterFeature W d f = (.ok (), { W.setDom d { W.doms d with feats := (W.doms d).feats.set i none } with
        featId := upd W.featId f none }) := by
  unfold unregisterFeature
  cases ho : ownSlot (W.doms d).feats (W.featId f) f with
  | none => exact .inl ⟨rfl, rfl⟩
  | some i =>
    obtain ⟨h1, h2⟩ := (ownSlot_some _ _ _ _).1 ho
    exact .inr ⟨i, h1, h2, rfl⟩

theorem getElem?_set_none_some (l : List (Option Nat)) (i j x : Nat) :
    (l.set i none)[j]? = some (some x) ↔ j ≠ i ∧ l[j]? = some (some x) := by
  by_cases h : i = j
  · subst h
    by_cases hl : i < l.length
    · simp [hl]
    · rw [List.getElem?_eq_none (by simpa using hl)]; simp
  · rw [List.getElem?_set_ne h]; simp [Ne.symm h]

theorem unregisterFeature_reg (W : World) (d : DomId) (f : Feat) (h : RegInv W) : RegInv (unregisterFeature W d f).2 := by
  rcases unregisterFeature_cases W d f with ⟨h1, -⟩ | ⟨i, h1, h2, h3⟩
  · rw [h1]; exact h
  · rw [h3]
    have hm : ∀ d', (((W.setDom d { W.doms d with feats := (W.doms d).feats.set i none }).doms d').mixins) = (W.doms d').mixins := by
      intro d'; rw [setDom_doms]; split
      · rename_i hd; subst hd; rfl
      · rfl
    have hf : ∀ (d' : DomId) (j : Nat) (g : Feat),
        (((W.setDom d { W.doms d with feats := (W.doms d).feats.set i none }).doms d').feats[j]? = some (some g)) ↔
        g ≠ f ∧ (W.doms d').feats[j]? = some (some g) := by
      intro d' j g
      rw [setDom_doms]
      split
      · rename_i hd; subst hd
        simp only [getElem?_set_none_some]
        constructor
        · rintro ⟨hj, hg⟩
          refine ⟨?_, hg⟩
          intro hgf; subst hgf
          have := h.featSlot d' j g hg
          rw [h1] at this; simp at this; exact hj this.symm
        · rintro ⟨hg, hj⟩
          refine ⟨?_, hj⟩
          intro hji; subst hji; rw [h2] at hj; simp at hj; exact hg hj.symm
      · rename_i hd
        constructor
        · intro hg
          refine ⟨?_, hg⟩
          intro hgf; subst hgf
          exact hd (h.featOne d' d j i g hg h2)
        · exact fun hg => hg.2
    refine ⟨?_, ?_, ?_, ?_, ?_, ?_⟩
    · intro d' j m hj; simp only [hm] at hj; exact h.mixSlot d' j m hj
    · intro m j hj; obtain ⟨d', a, b⟩ := h.mixReg m j hj; exact ⟨d', a, by simp only [hm]; exact b⟩
    · exact h.mixFree
    · intro d' j g hj
      obtain ⟨a, b⟩ := (hf d' j g).1 hj
      simp only [upd_ne _ _ a]; exact h.featSlot d' j g b
    · intro g j hj
      simp only [upd_apply] at hj
      split at hj
      · simp at hj
      · rename_i hg
        obtain ⟨d', b⟩ := h.featReg g j hj
        exact ⟨d', (hf d' j g).2 ⟨hg, b⟩⟩
    · intro d1 d2 j j' g a b
      exact h.featOne d1 d2 j j' g ((hf _ _ _).1 a).2 ((hf _ _ _).1 b).2

/-- effect of the feature loop of `register_mixin`: only features become registered -/
structure FeatsGrown (D : Decls) (W : World) (d : DomId) (fs : List Feat) (W' : World) : Prop where
  dom : W'.doms d = { W.doms d with feats := (W'.doms d).feats }
  other : ∀ d', d' ≠ d → W'.doms d' = W.doms d'
  mixId : W'.mixId = W.mixId
  mixDom : W'.mixDom = W.mixDom
  next : W'.nextType = W.nextType
  keepSlot : ∀ (i : Nat) (f : Feat), (W.doms d).feats[i]? = some (some f) → (W'.doms d).feats[i]? = some (some f)
  newSlot : ∀ (i : Nat) (f : Feat), (W'.doms d).feats[i]? = some (some f) →
    (W.doms d).feats[i]? = some (some f) ∨ (f ∈ fs ∧ W.featId f = none ∧ W'.featId f = some i)
  ids : ∀ f, W'.featId f = W.featId f ∨ (f ∈ fs ∧ W.featId f = none ∧ ∃ i, W'.featId f = some i ∧ (W'.doms d).feats[i]? = some (some f))
  length : (W'.doms d).feats.length ≤ max (W.doms d).feats.length ((W'.doms d).feats.filterMap id).length
  count : ((W.doms d).feats.filterMap id).length ≤ ((W'.doms d).feats.filterMap id).length

theorem FeatsGrown.refl (D : Decls) (W : World) (d : DomId) (fs : List Feat) : FeatsGrown D W d fs W :=
  ⟨rfl, fun _ _ => rfl, rfl, rfl, rfl, fun _ _ h => h, fun _ _ h => .inl h, fun _ => .inl rfl,
   by omega, Nat.le_refl _⟩

theorem FeatsGrown.step {D : Decls} {W W1 W' : World} {d : DomId} {f : Feat} {fs : List Feat} {id : Nat}
    (hi : FeatInserted D W d f id W1) (hg : FeatsGrown D W1 d fs W') : FeatsGrown D W d (f :: fs) W' := by
  have h1 : ∀ (i : Nat) (g : Feat), (W.doms d).feats[i]? = some (some g) → (W1.doms d).feats[i]? = some (some g) := by
    intro i g h
    rw [hi.ins.other]; exact h
    intro hid; subst hid; exact hi.ins.wasFree _ h
  refine ⟨?_, ?_, by rw [hg.mixId, hi.mixId], by rw [hg.mixDom, hi.mixDom], by rw [hg.next, hi.next], ?_, ?_, ?_, ?_, ?_⟩
  · rw [hg.dom, hi.dom]
  · intro d' hd; rw [hg.other d' hd, hi.other d' hd]
  · intro i g h; exact hg.keepSlot i g (h1 i g h)
  · intro i g h
    rcases hg.newSlot i g h with h2 | ⟨h2, h3, h4⟩
    · by_cases hid : i = id
      · subst hid
        rw [hi.ins.slot] at h2; simp at h2; subst h2
        right
        refine ⟨by simp, hi.wasInvalid, ?_⟩
        rcases hg.ids f with h5 | ⟨-, h5, -⟩
        · rw [h5, hi.featId]; simp
        · rw [hi.featId] at h5; simp at h5
      · rw [hi.ins.other i hid] at h2; exact .inl h2
    · right
      refine ⟨by simp [h2], ?_, h4⟩
      rw [hi.featId, upd_apply] at h3
      split at h3
      · simp at h3
      · exact h3
  · intro g
    rcases hg.ids g with h2 | ⟨h2, h3, h4⟩
    · rw [hi.featId, upd_apply] at h2
      by_cases hgf : g = f
      · subst hgf
        rw [if_pos rfl] at h2
        exact .inr ⟨by simp, hi.wasInvalid, id, h2, hg.keepSlot _ _ hi.ins.slot⟩
      · rw [if_neg hgf] at h2; exact .inl h2
    · right
      refine ⟨by simp [h2], ?_, h4⟩
      rw [hi.featId, upd_apply] at h3
      split at h3
      · simp at h3
      · exact h3
  · have := hg.length; have := hi.ins.length_le; have := hg.count; have := hi.ins.count; omega
  · have := hg.count; have := hi.ins.count; omega

theorem FeatsGrown.mono {D : Decls} {W W' : World} {d : DomId} {fs fs' : List Feat} (hg : FeatsGrown D W d fs W')
    (h : ∀ f ∈ fs, f ∈ fs') : FeatsGrown D W d fs' W' :=
  ⟨hg.dom, hg.other, hg.mixId, hg.mixDom, hg.next, hg.keepSlot,
   fun i f hf => (hg.newSlot i f hf).imp id (fun ⟨a, b, c⟩ => ⟨h f a, b, c⟩),
   fun f => (hg.ids f).imp id (fun ⟨a, b⟩ => ⟨h f a, b⟩), hg.length, hg.count⟩

theorem registerFeatures_spec (D : Decls) (d : DomId) (fs : List Feat) : ∀ (W : World), RegInv W →
    RegInv (registerFeatures D W d fs).2 ∧ FeatsGrown D W d fs (registerFeatures D W d fs).2 ∧
    ((registerFeatures D W d fs).1 = .ok () → ∀ f ∈ fs, (registerFeatures D W d fs).2.featId f ≠ none) := by
  induction fs with
  | nil => intro W h; exact ⟨h, FeatsGrown.refl D W d [], by simp [registerFeatures]⟩
  | cons f fs ih =>
    intro W h
    unfold registerFeatures
    by_cases hf : W.featId f ≠ none
    · rw [if_pos hf]
      obtain ⟨h1, h2, h3⟩ := ih W h
      refine ⟨h1, h2.mono (by intro g hg; simp [hg]), ?_⟩
      intro hok g hg
      rcases List.mem_cons.1 hg with h4 | h4
      · subst h4
        rcases h2.ids g with h5 | ⟨-, h5, -⟩
        · rw [h5]; exact hf
        · exact absurd h5 hf
      · exact h3 hok g h4
    · rw [if_neg hf]
      cases hr : registerFeature D W d f with
      | mk r W1 =>
        cases r with
        | error e =>
          have := registerFeature_error D W d f e (by rw [hr])
          rw [hr] at this; simp only at this; subst this
          exact ⟨h, FeatsGrown.refl D W1 d _, by simp⟩
        | ok u =>
          obtain ⟨id, hi⟩ := registerFeature_ok D W d f (by rw [hr])
          rw [hr] at hi
          obtain ⟨h1, h2, h3⟩ := ih W1 (hi.reg h)
          refine ⟨h1, h2.step hi, ?_⟩
          intro hok g hg
          rcases List.mem_cons.1 hg with h4 | h4
          · subst h4
            rcases h2.ids g with h5 | ⟨-, h5, -⟩
            · rw [h5, hi.featId]; simp
            · rw [hi.featId] at h5; simp at h5
          · exact h3 hok g h4

/-- effect of a successful mixin registration -/
structure MixInserted (D : Decls) (W : World) (d : DomId) (m : Mix) (id : Nat) (W' : World) : Prop where
  wasInvalid : W.mixId m = none
  ins : Inserted D.mixName (!(W.doms d).settings.allowDupMix) m (W.doms d).mixins id (W'.doms d).mixins
  feats : ∃ W1, FeatsGrown D W d ((D.mix m).feats.map (·.feat)) W1 ∧ RegInv W1 ∧ (W'.doms d).feats = (W1.doms d).feats ∧
    W'.featId = W1.featId ∧ (∀ ff ∈ (D.mix m).feats, W1.featId ff.feat ≠ none)
  dom : W'.doms d = { W.doms d with feats := (W'.doms d).feats, mixins := (W'.doms d).mixins }
  other : ∀ d', d' ≠ d → W'.doms d' = W.doms d'
  mixId : W'.mixId = upd W.mixId m (some id)
  mixDom : W'.mixDom = upd W.mixDom m (some d)
  next : W'.nextType = W.nextType

theorem registerMixin_ok (D : Decls) (W : World) (d : DomId) (m : Mix) (hreg : RegInv W)
    (h : (registerMixin D W d m).1 = .ok ()) : ∃ id, MixInserted D W d m id (registerMixin D W d m).2 := by
  unfold registerMixin at h ⊢
  by_cases h0 : W.mixDom m ≠ none ∧ W.mixDom m ≠ some d
  · rw [if_pos h0] at h; simp at h
  · rw [if_neg h0] at h ⊢
    obtain ⟨g1, g2, g3⟩ := registerFeatures_spec D d ((D.mix m).feats.map (·.feat)) W hreg
    cases hr : registerFeatures D W d ((D.mix m).feats.map (·.feat)) with
    | mk r W1 =>
      rw [hr] at g1 g2 g3
      cases r with
      | error e => simp [hr] at h
      | ok u =>
        simp only [hr] at h
        cases hb : basicRegister D.mixName (!(W1.doms d).settings.allowDupMix) (W1.mixId m) m (W1.doms d).mixins with
        | error e => simp [hb] at h
        | ok r =>
          obtain ⟨id, sparse⟩ := r
          obtain ⟨h1, h2⟩ := basicRegister_ok _ _ _ _ _ _ _ hb
          have hmix : (W1.doms d).mixins = (W.doms d).mixins := by rw [g2.dom]
          have hset : (W1.doms d).settings = (W.doms d).settings := by rw [g2.dom]
          simp only [hb]
          refine ⟨id, by rw [g2.mixId] at h1; exact h1, ?_, ⟨W1, g2, g1, ?_, rfl, ?_⟩, ?_, ?_, ?_, ?_, g2.next⟩
          · simp only [setDom_same]; rw [hmix, hset] at h2; exact h2
          · simp only [setDom_same]
          · intro ff hff; exact g3 rfl _ (List.mem_map.2 ⟨ff, hff, rfl⟩)
          · simp only [setDom_same]
            have := g2.dom
            rw [this]
          · intro d' hd; simp only [setDom_ne _ _ hd]; exact g2.other d' hd
          · simp only; rw [g2.mixId]
          · simp only; rw [g2.mixDom]

theorem registerMixin_error (D : Decls) (W : World) (d : DomId) (m : Mix) (hreg : RegInv W) (e : Err)
    (h : (registerMixin D W d m).1 = .error e) :
    FeatsGrown D W d ((D.mix m).feats.map (·.feat)) (registerMixin D W d m).2 ∧ RegInv (registerMixin D W d m).2 := by
  unfold registerMixin at h ⊢
  by_cases h0 : W.mixDom m ≠ none ∧ W.mixDom m ≠ some d
  · rw [if_pos h0]; exact ⟨FeatsGrown.refl .., hreg⟩
  · rw [if_neg h0] at h ⊢
    obtain ⟨g1, g2, g3⟩ := registerFeatures_spec D d ((D.mix m).feats.map (·.feat)) W hreg
    cases hr : registerFeatures D W d ((D.mix m).feats.map (·.feat)) with
    | mk r W1 =>
      rw [hr] at g1 g2 g3
      cases r with
      | error e => exact ⟨g2, g1⟩
      | ok u =>
        simp only [hr] at h ⊢
        cases hb : basicRegister D.mixName (!(W1.doms d).settings.allowDupMix) (W1.mixId m) m (W1.doms d).mixins with
        | error e => exact ⟨g2, g1⟩
        | ok r => obtain ⟨id, sparse⟩ := r; simp [hb] at h

theorem MixInserted.reg {D : Decls} {W W' : World} {d : DomId} {m : Mix} {id : Nat} (hi : MixInserted D W d m id W')
    (h : RegInv W) : RegInv W' := by
  obtain ⟨W1, hg, h1, hf, hfi, -⟩ := hi.feats
  have hfeats : ∀ d', (W'.doms d').feats = (W1.doms d').feats := by
    intro d'
    by_cases hd : d' = d
    · subst hd; exact hf
    · rw [hi.other d' hd, hg.other d' hd]
  have hmem : ∀ (d' : DomId) (i : Nat) (x : Mix), (W'.doms d').mixins[i]? = some (some x) ↔
      (x = m ∧ d' = d ∧ i = id) ∨ (x ≠ m ∧ (W.doms d').mixins[i]? = some (some x)) := by
    intro d' i x
    have hnm : ∀ (d'' : DomId) (j : Nat), (W.doms d'').mixins[j]? = some (some m) → False := by
      intro d'' j hx
      have := (h.mixSlot d'' j m hx).1
      rw [hi.wasInvalid] at this; simp at this
    by_cases hd : d' = d
    · subst hd
      by_cases hid : i = id
      · subst hid
        rw [hi.ins.slot]
        constructor
        · intro hx; simp at hx; exact .inl ⟨hx.symm, rfl, rfl⟩
        · rintro (⟨rfl, -, -⟩ | ⟨-, hx⟩)
          · rfl
          · exact absurd hx (hi.ins.wasFree x)
      · rw [hi.ins.other i hid]
        constructor
        · intro hx
          refine .inr ⟨?_, hx⟩
          intro hxm; subst hxm; exact hnm _ _ hx
        · rintro (⟨-, -, hx⟩ | ⟨-, hx⟩)
          · exact absurd hx hid
          · exact hx
    · rw [hi.other d' hd]
      constructor
      · intro hx
        refine .inr ⟨?_, hx⟩
        intro hxm; subst hxm; exact hnm _ _ hx
      · rintro (⟨-, hx, -⟩ | ⟨-, hx⟩)
        · exact absurd hx hd
        · exact hx
  refine ⟨?_, ?_, ?_, ?_, ?_, ?_⟩
  · intro d' i x hx
    rw [hi.mixId, hi.mixDom]
    rcases (hmem d' i x).1 hx with ⟨rfl, rfl, rfl⟩ | ⟨hxm, hx⟩
    · simp
    · rw [upd_ne _ _ hxm, upd_ne _ _ hxm]; exact h.mixSlot d' i x hx
  · intro x i hx
    rw [hi.mixId, upd_apply] at hx
    rw [hi.mixDom]
    by_cases hxm : x = m
    · subst hxm
      simp at hx; subst hx
      exact ⟨d, by simp, (hmem _ _ _).2 (.inl ⟨rfl, rfl, rfl⟩)⟩
    · rw [if_neg hxm] at hx
      obtain ⟨d', h2, h3⟩ := h.mixReg x i hx
      exact ⟨d', by rw [upd_ne _ _ hxm]; exact h2, (hmem _ _ _).2 (.inr ⟨hxm, h3⟩)⟩
  · intro x hx
    rw [hi.mixId, upd_apply] at hx
    rw [hi.mixDom]
    by_cases hxm : x = m
    · subst hxm; simp at hx
    · rw [if_neg hxm] at hx; rw [upd_ne _ _ hxm]; exact h.mixFree x hx
  · intro d' i f; rw [hfeats, hfi]; exact h1.featSlot d' i f
  · intro f i; rw [hfi]; intro hx; obtain ⟨d', h2⟩ := h1.featReg f i hx; exact ⟨d', by rw [hfeats]; exact h2⟩
  · intro d1 d2 i i' f; rw [hfeats, hfeats]; exact h1.featOne d1 d2 i i' f

theorem registerMixin_reg (D : Decls) (W : World) (d : DomId) (m : Mix) (h : RegInv W) :
    RegInv (registerMixin D W d m).2 := by
  cases hr : (registerMixin D W d m).1 with
  | error e => exact (registerMixin_error D W d m h e hr).2
  | ok u => cases u; obtain ⟨id, hi⟩ := registerMixin_ok D W d m h hr; exact hi.reg h

/-- effect of a successful unregistration of a mixin on the elements -/
structure MixErased (W : World) (d : DomId) (m : Mix) (id : Nat) (W' : World) : Prop where
  hadId : W.mixId m = some id
  slot : (W.doms d).mixins[id]? = some (some m)
  settings : (W'.doms d).settings = (W.doms d).settings
  feats : (W'.doms d).feats = (W.doms d).feats
  mixins : (W'.doms d).mixins = (W.doms d).mixins.set id none
  classes : (W'.doms d).classes = (W.doms d).classes
  rules : (W'.doms d).rules = (W.doms d).rules
  types : (W'.doms d).types = (W.doms d).types.filter (fun t => !t.hasId (W.mixId m))
  queries : purgeQueries (W.doms d) d (W.mixId m) m (W.doms d).queries = some (W'.doms d).queries
  other : ∀ d', d' ≠ d → W'.doms d' = W.doms d'
  featId : W'.featId = W.featId
  mixId : W'.mixId = upd W.mixId m none
  mixDom : W'.mixDom = upd W.mixDom m none
  next : W'.nextType = W.nextType

theorem unregisterMixin_ok (W : World) (d : DomId) (m : Mix) (h : (unregisterMixin W d m).1 = .ok ()) :
    ∃ id, MixErased W d m id (unregisterMixin W d m).2 := by
  unfold unregisterMixin at h ⊢
  simp only at h ⊢
  cases hp : purgeQueries (W.doms d) d (W.mixId m) m (W.doms d).queries with
  | none => simp [hp] at h
  | some qs =>
    simp only [hp] at h ⊢
    cases ho : ownSlot (W.doms d).mixins (W.mixId m) m with
    | none => simp [ho] at h
    | some i =>
      obtain ⟨h1, h2⟩ := (ownSlot_some _ _ _ _).1 ho
      refine ⟨i, h1, h2, ?_, ?_, ?_, ?_, ?_, ?_, ?_, ?_, rfl, rfl, rfl, rfl⟩
      all_goals first
        | (simp; done)
        | (intro d' hd; simp [setDom_ne _ _ hd])
        | (simp [hp])

theorem MixErased.reg {W W' : World} {d : DomId} {m : Mix} {id : Nat} (he : MixErased W d m id W') (h : RegInv W) : RegInv W' := by
  have hfeats : ∀ d', (W'.doms d').feats = (W.doms d').feats := by
    intro d'
    by_cases hd : d' = d
    · subst hd; exact he.feats
    · rw [he.other d' hd]
  have hmem : ∀ (d' : DomId) (i : Nat) (x : Mix), (W'.doms d').mixins[i]? = some (some x) ↔
      x ≠ m ∧ (W.doms d').mixins[i]? = some (some x) := by
    intro d' i x
    by_cases hd : d' = d
    · subst hd
      rw [he.mixins, getElem?_set_none_some]
      constructor
      · rintro ⟨hi, hx⟩
        refine ⟨?_, hx⟩
        intro hxm; subst hxm
        have := (h.mixSlot d' i x hx).1
        rw [he.hadId] at this; simp at this; exact hi this.symm
      · rintro ⟨hxm, hx⟩
        refine ⟨?_, hx⟩
        intro hi; subst hi; rw [he.slot] at hx; simp at hx; exact hxm hx.symm
    · rw [he.other d' hd]
      constructor
      · intro hx
        refine ⟨?_, hx⟩
        intro hxm; subst hxm
        have h1 := (h.mixSlot d' i x hx).2
        have h2 := (h.mixSlot d id x he.slot).2
        rw [h1] at h2; simp at h2; exact hd h2
      · exact fun hx => hx.2
  refine ⟨?_, ?_, ?_, ?_, ?_, ?_⟩
  · intro d' i x hx
    obtain ⟨hxm, hx⟩ := (hmem d' i x).1 hx
    rw [he.mixId, he.mixDom, upd_ne _ _ hxm, upd_ne _ _ hxm]; exact h.mixSlot d' i x hx
  · intro x i hx
    rw [he.mixId, upd_apply] at hx
    split at hx
    · simp at hx
    · rename_i hxm
      obtain ⟨d', h2, h3⟩ := h.mixReg x i hx
      exact ⟨d', by rw [he.mixDom, upd_ne _ _ hxm]; exact h2, (hmem _ _ _).2 ⟨hxm, h3⟩⟩
  · intro x hx
    rw [he.mixId, upd_apply] at hx
    rw [he.mixDom, upd_apply]
    split at hx
    · rename_i hxm; simp [hxm]
    · rename_i hxm; rw [if_neg hxm]; exact h.mixFree x hx
  · intro d' i f; rw [hfeats, he.featId]; exact h.featSlot d' i f
  · intro f i; rw [he.featId]; intro hx; obtain ⟨d', h2⟩ := h.featReg f i hx; exact ⟨d', by rw [hfeats]; exact h2⟩
  · intro d1 d2 i i' f; rw [hfeats, hfeats]; exact h.featOne d1 d2 i i' f

theorem unregisterMixin_reg (W : World) (d : DomId) (m : Mix) (h : RegInv W) : RegInv (unregisterMixin W d m).2 := by
  cases hr : (unregisterMixin W d m).1 with
  | error e => exact h.congr (unregisterMixin_error_same W d m e hr)
  | ok u => cases u; obtain ⟨id, hi⟩ := unregisterMixin_ok W d m hr; exact hi.reg h

theorem unregisterTypeClass_same (W : World) (d : DomId) (c : Cls) : SameElems W (unregisterTypeClass W d c).2 :=
  SameElems.setDom W d _ rfl rfl rfl

theorem step_reg (D : Decls) (W : World) (op : Op) (h : RegInv W) : RegInv (step D W op).2 := by
  cases op with
  | regFeature d f => exact registerFeature_reg D W d f h
  | unregFeature d f => exact unregisterFeature_reg W d f h
  | regMixin d m => exact registerMixin_reg D W d m h
  | unregMixin d m => exact unregisterMixin_reg W d m h
  | regClass d c => exact h.congr (registerTypeClass_same D W d c)
  | unregClass d c => exact h.congr (unregisterTypeClass_same W d c)
  | addRule d r => exact h.congr (addRule_same D W d r)
  | removeRule d r => exact h.congr (removeRule_same D W d r)
  | getTypeMut d md q => exact h.congr (getTypeMut_same D W d md q)
  | getType d q => exact h.congr (getType_same D W d q)
  | gc d num => exact h.congr (garbageCollect_same W d num)

theorem run_reg (D : Decls) (ops : List Op) : ∀ W, RegInv W → RegInv (run D W ops) := by
  induction ops with
  | nil => intro W h; exact h
  | cons op ops ih => intro W h; exact ih _ (step_reg D W op h)

theorem reachable_reg (D : Decls) (s : DomId → Settings) (ops : List Op) : RegInv (run D (initWorld s) ops) :=
  run_reg D ops _ (initWorld_reg s)

end Dnmx
