import Verif.Spec.PlainObjects
import Verif.Spec.Heap
import Verif.Props.Bytes

/-! # Objects of plain mixins -/

namespace Dnmx
open Spec

variable {D : Decls} {E : TyEnv}

theorem valueOf_eq (mem : Mem) (m : Mix) (p : Nat) : valueOf D mem m p = Props.bytesAt mem p (D.mix m).size := rfl

theorem valueOf_congr {mem mem' : Mem} {m : Mix} {p : Nat} (h : ∀ x, InRange x p (D.mix m).size → mem' x = mem x) : valueOf D mem' m p = valueOf D mem m p := by
  rw [valueOf_eq, valueOf_eq]
  exact Props.bytesAt_congr (fun i hi => h _ ⟨by omega, by omega⟩)

/-- ranges of equal size that are apart do not overlap, or are empty -/
theorem apart_same {p q n : Nat} (h : RangesApart p n q n) : Props.Apart p q n := by
  unfold Props.Apart
  apply Classical.byContradiction
  intro hn
  rcases Nat.le_total p q with h1 | h1
  · exact h q ⟨h1, by omega⟩ ⟨by omega, by omega⟩
  · exact h p ⟨by omega, by omega⟩ ⟨h1, by omega⟩

theorem apart_symm {p q n k : Nat} (h : RangesApart p n q k) : RangesApart q k p n := fun x h1 h2 => h x h2 h1

theorem lookup_zip_mem : ∀ {l : List (Mix × Nat)} {m : Mix} {p : Nat}, l.lookup m = some p → (m, p) ∈ l
  | [], _, _, h => by simp at h
  | (k, q) :: l, m, p, h => by
    rw [List.lookup_cons] at h
    by_cases hk : m = k
    · subst hk
      simp at h
      subst h
      exact List.mem_cons_self
    · have : (m == k) = false := by simpa using hk
      rw [this] at h
      exact List.mem_cons_of_mem _ (lookup_zip_mem h)

theorem lookup_of_mem : ∀ {l : List (Mix × Nat)} {m : Mix} {p : Nat}, (l.map Prod.fst).Nodup → (m, p) ∈ l → l.lookup m = some p
  | [], _, _, _, h => by simp at h
  | (k, q) :: l, m, p, hn, h => by
    simp only [List.map_cons, List.nodup_cons] at hn
    rw [List.lookup_cons]
    rcases List.mem_cons.1 h with h | h
    · simp only [Prod.mk.injEq] at h
      obtain ⟨rfl, rfl⟩ := h
      simp
    · have hne : m ≠ k := fun hc => hn.1 (by rw [← hc]; exact List.mem_map_of_mem h)
      have : (m == k) = false := by simpa using hne
      rw [this]
      exact lookup_of_mem hn.2 h

theorem zip_fst_nodup {o : PlainObj} (h : PlainOk E o) : ((List.zip (E.mixins o.ty) o.data).map Prod.fst).Nodup := by
  rw [List.map_fst_zip (by rw [h.places]; exact Nat.le_refl _)]
  exact h.nodup

/-- pairs of a mixin and its place -/
theorem plainOk_at_iff {o : PlainObj} (h : PlainOk E o) (m : Mix) (p : Nat) : placeIn E o m = some p ↔ (m, p) ∈ List.zip (E.mixins o.ty) o.data :=
  ⟨lookup_zip_mem, lookup_of_mem (zip_fst_nodup h)⟩

theorem plainOk_at_mem {o : PlainObj} (h : PlainOk E o) (m : Mix) : (placeIn E o m).isSome = true ↔ m ∈ E.mixins o.ty := by
  constructor
  · intro h1
    obtain ⟨p, hp⟩ := Option.isSome_iff_exists.1 h1
    exact (List.of_mem_zip ((plainOk_at_iff h m p).1 hp)).1
  · intro h1
    obtain ⟨i, hi⟩ := List.mem_iff_getElem?.1 h1
    have h2 : i < o.data.length := by rw [h.places]; exact (List.getElem?_eq_some_iff.1 hi).1
    have : (m, o.data[i]) ∈ List.zip (E.mixins o.ty) o.data := by
      apply List.mem_of_getElem? (i := i)
      rw [List.getElem?_zip_eq_some]
      exact ⟨hi, List.getElem?_eq_getElem h2⟩
    rw [(plainOk_at_iff h m _).2 this]; rfl

/-- the lookup of the code -/
theorem plainOk_at_eq {o : PlainObj} (h : PlainOk E o) {u : TypeId} {m : Mix} (hm : m ∈ E.mixins u) : placeIn E o m = (E.indexOf o.ty m).bind (fun i => o.data[i]?) := by
  cases hi : E.indexOf o.ty m with
  | none =>
    simp only [Option.bind_none]
    cases hp : placeIn E o m with
    | none => rfl
    | some p =>
      obtain ⟨i, hi'⟩ := List.mem_iff_getElem?.1 ((plainOk_at_mem h m).1 (by rw [hp]; rfl))
      rw [(h.index u m i hm).2 hi'] at hi; simp at hi
  | some i =>
    have h1 := (h.index u m i hm).1 hi
    have h2 : i < o.data.length := by rw [h.places]; exact (List.getElem?_eq_some_iff.1 h1).1
    simp only [Option.bind_some]
    rw [List.getElem?_eq_getElem h2, plainOk_at_iff h]
    apply List.mem_of_getElem? (i := i)
    rw [List.getElem?_zip_eq_some]
    exact ⟨h1, List.getElem?_eq_getElem h2⟩

theorem plainOk_at_some {o : PlainObj} (h : PlainOk E o) {u : TypeId} {m : Mix} (hm : m ∈ E.mixins u) : (E.indexOf o.ty m).isSome = (placeIn E o m).isSome := by
  rw [plainOk_at_eq h hm]
  cases hi : E.indexOf o.ty m with
  | none => rfl
  | some i =>
    have h1 := (h.index u m i hm).1 hi
    have h2 : i < o.data.length := by rw [h.places]; exact (List.getElem?_eq_some_iff.1 h1).1
    simp only [Option.bind_some, List.getElem?_eq_getElem h2, Option.isSome_some]

/-- objects of the types of an environment as for other claims -/
theorem plainOk_of_env (hE : EnvOk D E) {o : PlainObj} (hl : o.data.length = (E.mixins o.ty).length) : PlainOk E o :=
  ⟨hE.nodup o.ty, fun u m i hm => hE.index o.ty u m i hm, hl⟩

/-- a step of both loops -/
def matchingStep (E : TyEnv) (f : Mem → Mix → Nat → Nat → Mem) (o : PlainObj) : Mem → List (Mix × Nat) → Mem
  | mem, [] => mem
  | mem, (m, s) :: l =>
    match placeIn E o m with
    | none => matchingStep E f o mem l
    | some p => matchingStep E f o (f mem m p s) l

theorem copyPlain_steps {o : PlainObj} (h : PlainOk E o) {u : TypeId} : ∀ (ms : List Mix) (ss : List Nat) (mem : Mem), (∀ m ∈ ms, m ∈ E.mixins u) → ss.length = ms.length →
    copyPlain D E o mem ms ss = some (matchingStep E (fun mem m p s => bytesCopy mem (D.mix m).size p s) o mem (List.zip ms ss))
  | [], _, mem, _, _ => rfl
  | m :: ms, [], mem, _, hl => by simp at hl
  | m :: ms, s :: ss, mem, hu, hl => by
    have hum := hu m List.mem_cons_self
    have hs := plainOk_at_some h hum
    unfold copyPlain
    rw [List.zip_cons_cons]
    unfold matchingStep
    cases hi : E.indexOf o.ty m with
    | none =>
      have : placeIn E o m = none := by rw [plainOk_at_eq h hum, hi]; rfl
      rw [this]
      exact copyPlain_steps h ms ss mem (fun x hx => hu x (List.mem_cons_of_mem _ hx)) (by simpa using hl)
    | some i =>
      rw [hi] at hs
      cases hd : o.data[i]? with
      | none => rw [plainOk_at_eq h hum, hi] at hs; simp [hd] at hs
      | some p =>
        have : placeIn E o m = some p := by rw [plainOk_at_eq h hum, hi]; exact hd
        rw [this]
        simp only
        rw [hd]
        exact copyPlain_steps h ms ss _ (fun x hx => hu x (List.mem_cons_of_mem _ hx)) (by simpa using hl)

theorem movePlain_steps {o : PlainObj} (h : PlainOk E o) {u : TypeId} : ∀ (ms : List Mix) (ss : List Nat) (mem : Mem), (∀ m ∈ ms, m ∈ E.mixins u) → ss.length = ms.length →
    movePlain D E o mem ms ss = some (matchingStep E (movePlainOne D) o mem (List.zip ms ss))
  | [], _, mem, _, _ => rfl
  | m :: ms, [], mem, _, hl => by simp at hl
  | m :: ms, s :: ss, mem, hu, hl => by
    have hum := hu m List.mem_cons_self
    have hs := plainOk_at_some h hum
    unfold movePlain
    rw [List.zip_cons_cons]
    unfold matchingStep
    cases hi : E.indexOf o.ty m with
    | none =>
      have : placeIn E o m = none := by rw [plainOk_at_eq h hum, hi]; rfl
      rw [this]
      exact movePlain_steps h ms ss mem (fun x hx => hu x (List.mem_cons_of_mem _ hx)) (by simpa using hl)
    | some i =>
      rw [hi] at hs
      cases hd : o.data[i]? with
      | none => rw [plainOk_at_eq h hum, hi] at hs; simp [hd] at hs
      | some p =>
        have : placeIn E o m = some p := by rw [plainOk_at_eq h hum, hi]; exact hd
        rw [this]
        simp only
        rw [hd]
        exact movePlain_steps h ms ss _ (fun x hx => hu x (List.mem_cons_of_mem _ hx)) (by simpa using hl)

/-- what one step does to memory: the target gets the source's value, the source `after` it, nothing else changes -/
structure PlainStepOk (D : Decls) (src : Bool) (f : Mem → Mix → Nat → Nat → Mem) : Prop where
  target : ∀ mem m p s, RangesApart p (D.mix m).size s (D.mix m).size → valueOf D (f mem m p s) m p = valueOf D mem m s
  source : ∀ mem m p s, RangesApart p (D.mix m).size s (D.mix m).size → src = true → valueOf D (f mem m p s) m s = List.replicate (D.mix m).size 0
  frame : ∀ mem m p s x, RangesApart p (D.mix m).size s (D.mix m).size → ¬ InRange x p (D.mix m).size → (src = true → ¬ InRange x s (D.mix m).size) → f mem m p s x = mem x

theorem out_iff {x p n : Nat} (h : ¬ InRange x p n) : x < p ∨ p + n ≤ x := by
  unfold InRange at h; omega

theorem copyStep_ok : PlainStepOk D false (fun mem m p s => bytesCopy mem (D.mix m).size p s) where
  target := fun mem m p s h => (Props.C67_copy mem _ p s (apart_same h)).1
  source := fun _ _ _ _ _ h => by simp at h
  frame := fun mem m p s x h hx _ => (Props.C67_copy mem _ p s (apart_same h)).2 x (out_iff hx)

theorem moveStep_ok : PlainStepOk D true (movePlainOne D) where
  target := fun mem m p s h => by
    unfold movePlainOne
    by_cases h1 : (D.mix m).hasMoveAsgn = true
    · rw [if_pos h1]; exact (Props.C67_move mem _ p s (apart_same h)).1
    · rw [if_neg h1]
      refine ((Props.C67_move _ _ p s (apart_same h)).1).trans ?_
      by_cases h2 : (D.mix m).hasDestroy = true
      · rw [if_pos h2]
        exact Props.bytesAt_congr (fun i hi => ((Props.C67_init_destroy mem _ p).2.2 _ (out_iff (apart_symm h _ ⟨by omega, by omega⟩))).2)
      · rw [if_neg h2]; rfl
  source := fun mem m p s h _ => by
    unfold movePlainOne
    by_cases h1 : (D.mix m).hasMoveAsgn = true
    · rw [if_pos h1]; exact (Props.C67_move mem _ p s (apart_same h)).2.1
    · rw [if_neg h1]; exact (Props.C67_move _ _ p s (apart_same h)).2.1
  frame := fun mem m p s x h hx hs => by
    unfold movePlainOne
    by_cases h1 : (D.mix m).hasMoveAsgn = true
    · rw [if_pos h1]; exact (Props.C67_move mem _ p s (apart_same h)).2.2 x (out_iff hx) (out_iff (hs rfl))
    · rw [if_neg h1, (Props.C67_move _ _ p s (apart_same h)).2.2 x (out_iff hx) (out_iff (hs rfl))]
      by_cases h2 : (D.mix m).hasDestroy = true
      · rw [if_pos h2]; exact ((Props.C67_init_destroy mem _ p).2.2 x (out_iff hx)).2
      · rw [if_neg h2]

/-- Both loops: each matching mixin gets its value, the rest of memory stays. -/
theorem matchingStep_spec {src : Bool} {f : Mem → Mix → Nat → Nat → Mem} (hf : PlainStepOk D src f) {o o' : PlainObj} (ho : OwnApart D E o) (ho' : OwnApart D E o')
    (hoo : ObjsApart D E o o') : ∀ (l : List (Mix × Nat)) (mem : Mem), (∀ e ∈ l, placeIn E o' e.1 = some e.2) → (l.map Prod.fst).Nodup →
    (∀ e ∈ l, ∀ p, placeIn E o e.1 = some p → valueOf D (matchingStep E f o mem l) e.1 p = valueOf D mem e.1 e.2 ∧
      (src = true → valueOf D (matchingStep E f o mem l) e.1 e.2 = List.replicate (D.mix e.1).size 0)) ∧
    ∀ x, (∀ e ∈ l, ∀ p, placeIn E o e.1 = some p → ¬ InRange x p (D.mix e.1).size ∧ (src = true → ¬ InRange x e.2 (D.mix e.1).size)) → matchingStep E f o mem l x = mem x
  | [], mem, _, _ => ⟨fun e he => by simp at he, fun x _ => rfl⟩
  | (m, s) :: l, mem, hat, hnd => by
    simp only [List.map_cons, List.nodup_cons] at hnd
    have hs : placeIn E o' m = some s := hat (m, s) List.mem_cons_self
    have hat' : ∀ e ∈ l, placeIn E o' e.1 = some e.2 := fun e he => hat e (List.mem_cons_of_mem _ he)
    unfold matchingStep
    cases hm : placeIn E o m with
    | none =>
      simp only
      obtain ⟨h1, h2⟩ := matchingStep_spec hf ho ho' hoo l mem hat' hnd.2
      refine ⟨?_, ?_⟩
      · intro e he p hp
        rcases List.mem_cons.1 he with rfl | he
        · rw [hm] at hp; simp at hp
        · exact h1 e he p hp
      · intro x hx
        exact h2 x (fun e he => hx e (List.mem_cons_of_mem _ he))
    | some p =>
      simp only
      obtain ⟨h1, h2⟩ := matchingStep_spec hf ho ho' hoo l (f mem m p s) hat' hnd.2
      have hps := hoo m m p s hm hs
      have hne : ∀ e ∈ l, m ≠ e.1 := fun e he hc => hnd.1 (by rw [hc]; exact List.mem_map_of_mem he)
      refine ⟨?_, ?_⟩
      · intro e he q hq
        rcases List.mem_cons.1 he with rfl | he
        · rw [hm] at hq
          simp only [Option.some.injEq] at hq
          subst hq
          refine ⟨?_, fun hsrc => ?_⟩
          · rw [valueOf_congr (mem' := matchingStep E f o (f mem m p s) l) (mem := f mem m p s), hf.target mem m p s hps]
            intro x hx
            apply h2 x
            intro e he q hq
            exact ⟨ho m e.1 p q (hne e he) hm hq x hx, fun _ => hoo m e.1 p e.2 hm (hat' e he) x hx⟩
          · rw [valueOf_congr (mem' := matchingStep E f o (f mem m p s) l) (mem := f mem m p s), hf.source mem m p s hps hsrc]
            intro x hx
            apply h2 x
            intro e he q hq
            exact ⟨apart_symm (hoo e.1 m q s hq hs) x hx, fun _ => ho' m e.1 s e.2 (hne e he) hs (hat' e he) x hx⟩
        · obtain ⟨h3, h4⟩ := h1 e he q hq
          refine ⟨?_, h4⟩
          rw [h3]
          apply valueOf_congr
          intro x hx
          apply hf.frame mem m p s x hps
          · exact apart_symm (hoo m e.1 p e.2 hm (hat' e he)) x hx
          · intro _; exact apart_symm (ho' m e.1 s e.2 (hne e he) hs (hat' e he)) x hx
      · intro x hx
        rw [h2 x (fun e he => hx e (List.mem_cons_of_mem _ he))]
        have := hx (m, s) List.mem_cons_self p hm
        exact hf.frame mem m p s x hps this.1 this.2

theorem copyPlainCheck_none {o : PlainObj} (h : PlainOk E o) {u : TypeId} : ∀ (ms : List Mix), (∀ m ∈ ms, m ∈ E.mixins u) → (copyPlainCheck D E o ms = none ↔ ∀ m ∈ ms, m ∈ E.mixins o.ty → (D.mix m).hasCopyAsgn = true)
  | [], _ => by simp [copyPlainCheck]
  | m :: ms, hu => by
    unfold copyPlainCheck
    rw [plainOk_at_some h (hu m List.mem_cons_self)]
    have ih := copyPlainCheck_none h ms (fun x hx => hu x (List.mem_cons_of_mem _ hx))
    by_cases h1 : ((placeIn E o m).isSome && !(D.mix m).hasCopyAsgn) = true
    · rw [if_pos h1]
      simp only [Bool.and_eq_true, Bool.not_eq_true', plainOk_at_mem h m] at h1
      constructor
      · intro h2; simp at h2
      · intro h2
        have := h2 m List.mem_cons_self h1.1
        rw [h1.2] at this; simp at this
    · rw [if_neg h1, ih]
      simp only [Bool.and_eq_true, Bool.not_eq_true', plainOk_at_mem h m, not_and, Bool.not_eq_false] at h1
      simp only [List.mem_cons, forall_eq_or_imp]
      exact ⟨fun h2 => ⟨h1, h2⟩, fun h2 => h2.2⟩

theorem movePlainCheck_none {o : PlainObj} (h : PlainOk E o) (fb : Bool) {u : TypeId} : ∀ (ms : List Mix), (∀ m ∈ ms, m ∈ E.mixins u) → (movePlainCheck D E fb o ms = none ↔
    ∀ m ∈ ms, m ∈ E.mixins o.ty → (D.mix m).hasMoveAsgn = true ∨ (fb = true ∧ (D.mix m).hasMoveInit = true))
  | [], _ => by simp [movePlainCheck]
  | m :: ms, hu => by
    unfold movePlainCheck
    rw [plainOk_at_some h (hu m List.mem_cons_self)]
    have ih := movePlainCheck_none h fb ms (fun x hx => hu x (List.mem_cons_of_mem _ hx))
    have hm := plainOk_at_mem h m
    by_cases h1 : ((placeIn E o m).isSome && !(D.mix m).hasMoveAsgn && !(fb && (D.mix m).hasMoveInit)) = true
    · rw [if_pos h1]
      constructor
      · intro h2; simp at h2
      · intro h2
        exfalso
        cases ha : (D.mix m).hasMoveAsgn <;> cases hb : fb <;> cases hc : (D.mix m).hasMoveInit <;> cases hd : (placeIn E o m).isSome <;> simp [ha, hb, hc, hd] at h1
        all_goals
          have := h2 m List.mem_cons_self (hm.1 hd)
          simp [ha, hb, hc] at this
    · rw [if_neg h1, ih]
      simp only [List.mem_cons, forall_eq_or_imp]
      refine ⟨fun h2 => ⟨fun h3 => ?_, h2⟩, fun h2 => h2.2⟩
      have hd := hm.2 h3
      cases ha : (D.mix m).hasMoveAsgn <;> cases hb : fb <;> cases hc : (D.mix m).hasMoveInit <;> simp [ha, hb, hc, hd] at h1 ⊢

theorem copyPlainCheck_some {o : PlainObj} (h : PlainOk E o) {k : Mix} {u : TypeId} : ∀ (ms : List Mix), (∀ m ∈ ms, m ∈ E.mixins u) → copyPlainCheck D E o ms = some k → k ∈ ms ∧ k ∈ E.mixins o.ty ∧ (D.mix k).hasCopyAsgn = false
  | [], _, hk => by simp [copyPlainCheck] at hk
  | m :: ms, hu, hk => by
    unfold copyPlainCheck at hk
    rw [plainOk_at_some h (hu m List.mem_cons_self)] at hk
    by_cases h1 : ((placeIn E o m).isSome && !(D.mix m).hasCopyAsgn) = true
    · rw [if_pos h1] at hk
      simp only [Option.some.injEq] at hk
      subst hk
      simp only [Bool.and_eq_true, Bool.not_eq_true', plainOk_at_mem h m] at h1
      exact ⟨List.mem_cons_self, h1.1, h1.2⟩
    · rw [if_neg h1] at hk
      have := copyPlainCheck_some h ms (fun x hx => hu x (List.mem_cons_of_mem _ hx)) hk
      exact ⟨List.mem_cons_of_mem _ this.1, this.2⟩

theorem movePlainCheck_some {o : PlainObj} (h : PlainOk E o) {fb : Bool} {k : Mix} {u : TypeId} : ∀ (ms : List Mix), (∀ m ∈ ms, m ∈ E.mixins u) → movePlainCheck D E fb o ms = some k →
    k ∈ ms ∧ k ∈ E.mixins o.ty ∧ (D.mix k).hasMoveAsgn = false ∧ (fb = true → (D.mix k).hasMoveInit = false)
  | [], _, hk => by simp [movePlainCheck] at hk
  | m :: ms, hu, hk => by
    unfold movePlainCheck at hk
    rw [plainOk_at_some h (hu m List.mem_cons_self)] at hk
    by_cases h1 : ((placeIn E o m).isSome && !(D.mix m).hasMoveAsgn && !(fb && (D.mix m).hasMoveInit)) = true
    · rw [if_pos h1] at hk
      simp only [Option.some.injEq] at hk
      subst hk
      have hm := plainOk_at_mem h m
      rw [Bool.and_eq_true, Bool.and_eq_true] at h1
      refine ⟨List.mem_cons_self, hm.1 h1.1.1, by simpa using h1.1.2, fun hb => ?_⟩
      simpa [hb] using h1.2
    · rw [if_neg h1] at hk
      have := movePlainCheck_some h ms (fun x hx => hu x (List.mem_cons_of_mem _ hx)) hk
      exact ⟨List.mem_cons_of_mem _ this.1, this.2⟩

/-- the bytes of two objects of one type, mixin by mixin -/
theorem contentOf_congr {mem mem' : Mem} {o o' : PlainObj} (ho : PlainOk E o) (ho' : PlainOk E o') (ht : o.ty = o'.ty)
    (h : ∀ m p q, placeIn E o m = some p → placeIn E o' m = some q → valueOf D mem' m p = valueOf D mem m q) : contentOf D E mem' o = contentOf D E mem o' := by
  have aux : ∀ (ms : List Mix) (ps qs : List Nat), ps.length = ms.length → qs.length = ms.length →
      (∀ (i : Nat) m p q, ms[i]? = some m → ps[i]? = some p → qs[i]? = some q → valueOf D mem' m p = valueOf D mem m q) →
      (List.zip ms ps).flatMap (fun e => valueOf D mem' e.1 e.2) = (List.zip ms qs).flatMap (fun e => valueOf D mem e.1 e.2) := by
    intro ms
    induction ms with
    | nil => intros; simp
    | cons m ms ih =>
      intro ps qs h1 h2 h3
      cases ps with
      | nil => simp at h1
      | cons p ps =>
        cases qs with
        | nil => simp at h2
        | cons q qs =>
          simp only [List.zip_cons_cons, List.flatMap_cons]
          rw [h3 0 m p q rfl rfl rfl, ih ps qs (by simpa using h1) (by simpa using h2) (fun i m' p' q' a b c => h3 (i + 1) m' p' q' (by simpa using a) (by simpa using b) (by simpa using c))]
  unfold contentOf
  rw [← ht]
  apply aux _ _ _ ho.places (by rw [ht]; exact ho'.places)
  intro i m p q h1 h2 h3
  apply h m p q
  · rw [plainOk_at_iff ho]; apply List.mem_of_getElem? (i := i); rw [List.getElem?_zip_eq_some]; exact ⟨h1, h2⟩
  · rw [plainOk_at_iff ho']; apply List.mem_of_getElem? (i := i); rw [List.getElem?_zip_eq_some, ← ht]; exact ⟨h1, h3⟩

/-! ## comparison -/

/-- all mixins with their places in two objects -/
theorem equalsPlainFrom_spec (mem : Mem) : ∀ (ms : List Mix) (ps qs : List Nat), ps.length = ms.length → qs.length = ms.length →
    ∃ b, equalsPlainFrom D mem ms ps qs = some b ∧ (b = true ↔ (∀ m ∈ ms, (D.mix m).hasEquals = true ∨ (D.mix m).hasCompare = true) ∧
      (List.zip ms ps).map (fun e => valueOf D mem e.1 e.2) = (List.zip ms qs).map (fun e => valueOf D mem e.1 e.2))
  | [], ps, qs, _, _ => ⟨true, rfl, by simp⟩
  | m :: ms, [], _, h, _ => by simp at h
  | m :: ms, _ :: _, [], _, h => by simp at h
  | m :: ms, p :: ps, q :: qs, h1, h2 => by
    obtain ⟨b, hb, hi⟩ := equalsPlainFrom_spec mem ms ps qs (by simpa using h1) (by simpa using h2)
    have hc := Props.C67_compare mem (D.mix m).size p q
    unfold equalsPlainFrom
    simp only [List.zip_cons_cons, List.map_cons, List.cons.injEq, List.mem_cons, forall_eq_or_imp]
    cases he : (D.mix m).hasEquals with
    | true =>
      rw [if_pos rfl]
      cases hx : bytesEq mem (D.mix m).size p q with
      | true =>
        rw [if_pos rfl]
        refine ⟨b, hb, hi.trans ?_⟩
        have := hc.2.1.1 hx
        simp [valueOf_eq, this]
      | false =>
        rw [if_neg (by simp)]
        refine ⟨false, rfl, ?_⟩
        simp only [Bool.false_eq_true, false_iff]
        rintro ⟨-, h3, -⟩
        rw [hc.2.1.2 h3] at hx; simp at hx
    | false =>
      rw [if_neg (by simp)]
      cases hk : (D.mix m).hasCompare with
      | true =>
        rw [if_pos rfl]
        by_cases hx : bytesCmp mem (D.mix m).size p q ≠ 0
        · rw [if_pos hx]
          refine ⟨false, rfl, ?_⟩
          simp only [Bool.false_eq_true, false_iff]
          rintro ⟨-, h3, -⟩
          exact hx (hc.1.zero.2 h3)
        · rw [if_neg hx]
          refine ⟨b, hb, hi.trans ?_⟩
          have := hc.1.zero.1 (Decidable.not_not.1 hx)
          simp [valueOf_eq, this]
      | false =>
        rw [if_neg (by simp)]
        exact ⟨false, rfl, by simp⟩

theorem lexBefore_append_left {x y : List UInt8} : ∀ {u v : List UInt8}, x.length = y.length → LexBefore x y → LexBefore (x ++ u) (y ++ v) := by
  intro u v hl h
  induction h with
  | nil c cs => simp at hl
  | head as bs h => exact LexBefore.head _ _ h
  | tail c h ih => exact LexBefore.tail c (ih (by simpa using hl))

theorem comparesLex_append {r : Int} {x y u v : List UInt8} (hl : x.length = y.length) (h : ComparesLex r x y) (hr : r ≠ 0) : ComparesLex r (x ++ u) (y ++ v) := by
  have ne : x ≠ y := fun he => hr (h.zero.2 he)
  have ne' : x ++ u ≠ y ++ v := fun he => ne (List.append_inj_left he hl)
  rcases Int.lt_trichotomy r 0 with h1 | h1 | h1
  · have h2 := lexBefore_append_left (u := u) (v := v) hl (h.neg.1 h1)
    exact ⟨⟨fun _ => h2, fun _ => h1⟩, ⟨fun h3 => by omega, fun h3 => absurd h3 ne'⟩, ⟨fun h3 => by omega, fun h3 => (lexBefore_asymm h2 h3).elim⟩⟩
  · exact absurd h1 hr
  · have h2 := lexBefore_append_left (u := v) (v := u) hl.symm (h.pos.1 h1)
    exact ⟨⟨fun h3 => by omega, fun h3 => (lexBefore_asymm h2 h3).elim⟩, ⟨fun h3 => by omega, fun h3 => absurd h3 ne'⟩, ⟨fun _ => h2, fun _ => h1⟩⟩

theorem lexBefore_append_cancel (p : List UInt8) {a b : List UInt8} (h : LexBefore (p ++ a) (p ++ b)) : LexBefore a b := by
  rcases lexBefore_total a b with rfl | h1 | h1
  · exact (lexBefore_irrefl _ h).elim
  · exact h1
  · exact (lexBefore_asymm h (lexBefore_append p h1)).elim

theorem comparesLex_append_same {r : Int} {u v : List UInt8} (x : List UInt8) (h : ComparesLex r u v) : ComparesLex r (x ++ u) (x ++ v) :=
  ⟨⟨fun h1 => lexBefore_append x (h.neg.1 h1), fun h1 => h.neg.2 (lexBefore_append_cancel x h1)⟩,
   ⟨fun h1 => by rw [h.zero.1 h1], fun h1 => h.zero.2 (List.append_cancel_left h1)⟩,
   ⟨fun h1 => lexBefore_append x (h.pos.1 h1), fun h1 => h.pos.2 (lexBefore_append_cancel x h1)⟩⟩

theorem comparePlainFrom_spec (mem : Mem) : ∀ (ms : List Mix) (ps qs : List Nat), ps.length = ms.length → qs.length = ms.length → (∀ m ∈ ms, (D.mix m).hasCompare = true) →
    ∃ r, comparePlainFrom D mem ms ps qs = some (.ok r) ∧
      ComparesLex r ((List.zip ms ps).flatMap (fun e => valueOf D mem e.1 e.2)) ((List.zip ms qs).flatMap (fun e => valueOf D mem e.1 e.2))
  | [], ps, qs, _, _, _ => by
    refine ⟨0, rfl, ?_⟩
    simp only [List.zip_nil_left, List.flatMap_nil]
    exact ⟨⟨fun h => by omega, fun h => (lexBefore_irrefl _ h).elim⟩, ⟨fun _ => rfl, fun _ => rfl⟩, ⟨fun h => by omega, fun h => (lexBefore_irrefl _ h).elim⟩⟩
  | m :: ms, [], _, h, _, _ => by simp at h
  | m :: ms, _ :: _, [], _, h, _ => by simp at h
  | m :: ms, p :: ps, q :: qs, h1, h2, h3 => by
    obtain ⟨r, hr, hi⟩ := comparePlainFrom_spec mem ms ps qs (by simpa using h1) (by simpa using h2) (fun x hx => h3 x (List.mem_cons_of_mem _ hx))
    have hc := Props.C67_compare mem (D.mix m).size p q
    unfold comparePlainFrom
    rw [h3 m List.mem_cons_self]
    simp only [Bool.not_true, Bool.false_eq_true, if_false, List.zip_cons_cons, List.flatMap_cons]
    by_cases hx : bytesCmp mem (D.mix m).size p q ≠ 0
    · rw [if_pos hx]
      refine ⟨_, rfl, comparesLex_append ?_ hc.1 hx⟩
      simp [valueOf]
    · rw [if_neg hx]
      refine ⟨r, hr, ?_⟩
      have he : valueOf D mem m p = valueOf D mem m q := hc.1.zero.1 (Decidable.not_not.1 hx)
      rw [he]
      exact comparesLex_append_same _ hi

theorem comparePlainFrom_missing (mem : Mem) : ∀ (pre : List Mix) (m : Mix) (post : List Mix) (ps qs : List Nat), ps.length = (pre ++ m :: post).length → qs.length = (pre ++ m :: post).length →
    (∀ x ∈ pre, (D.mix x).hasCompare = true) → (D.mix m).hasCompare = false →
    ((List.zip pre ps).flatMap (fun e => valueOf D mem e.1 e.2) = (List.zip pre qs).flatMap (fun e => valueOf D mem e.1 e.2) →
      comparePlainFrom D mem (pre ++ m :: post) ps qs = some (.error (.missingFunc m))) ∧
    ((List.zip pre ps).flatMap (fun e => valueOf D mem e.1 e.2) ≠ (List.zip pre qs).flatMap (fun e => valueOf D mem e.1 e.2) →
      ∃ r, comparePlainFrom D mem (pre ++ m :: post) ps qs = some (.ok r) ∧
        ComparesLex r ((List.zip pre ps).flatMap (fun e => valueOf D mem e.1 e.2)) ((List.zip pre qs).flatMap (fun e => valueOf D mem e.1 e.2)))
  | _, _, _, [], _, h, _, _, _ => by simp at h
  | _, _, _, _ :: _, [], _, h, _, _ => by simp at h
  | [], m, post, p :: ps, q :: qs, h1, h2, _, hc => by
    refine ⟨fun _ => ?_, fun h => absurd (by simp) h⟩
    rw [List.nil_append]
    unfold comparePlainFrom
    rw [hc]
    simp
  | k :: pre, m, post, p :: ps, q :: qs, h1, h2, h3, hc => by
    obtain ⟨i1, i2⟩ := comparePlainFrom_missing mem pre m post ps qs (by simpa using h1) (by simpa using h2) (fun x hx => h3 x (List.mem_cons_of_mem _ hx)) hc
    have hk := Props.C67_compare mem (D.mix k).size p q
    have hlen : (valueOf D mem k p).length = (valueOf D mem k q).length := by simp [valueOf]
    rw [List.cons_append]
    unfold comparePlainFrom
    rw [h3 k List.mem_cons_self]
    simp only [Bool.not_true, Bool.false_eq_true, if_false, List.zip_cons_cons, List.flatMap_cons]
    by_cases hx : bytesCmp mem (D.mix k).size p q ≠ 0
    · rw [if_pos hx]
      refine ⟨fun he => absurd (hk.1.zero.2 (List.append_inj_left he hlen)) hx, fun _ => ⟨_, rfl, comparesLex_append hlen hk.1 hx⟩⟩
    · rw [if_neg hx]
      have he : valueOf D mem k p = valueOf D mem k q := hk.1.zero.1 (Decidable.not_not.1 hx)
      rw [he]
      refine ⟨fun h => i1 (List.append_cancel_left h), fun h => ?_⟩
      obtain ⟨r, h4, h5⟩ := i2 (fun h' => h (by rw [h']))
      exact ⟨r, h4, comparesLex_append_same _ h5⟩

/-- equal lists of pieces of equal lengths are the same as equal concatenations -/
theorem content_eq_iff (mem : Mem) : ∀ (ms : List Mix) (ps qs : List Nat), ps.length = ms.length → qs.length = ms.length →
    ((List.zip ms ps).map (fun e => valueOf D mem e.1 e.2) = (List.zip ms qs).map (fun e => valueOf D mem e.1 e.2) ↔
      (List.zip ms ps).flatMap (fun e => valueOf D mem e.1 e.2) = (List.zip ms qs).flatMap (fun e => valueOf D mem e.1 e.2))
  | [], ps, qs, _, _ => by simp
  | m :: ms, [], _, h, _ => by simp at h
  | m :: ms, _ :: _, [], _, h => by simp at h
  | m :: ms, p :: ps, q :: qs, h1, h2 => by
    have ih := content_eq_iff mem ms ps qs (by simpa using h1) (by simpa using h2)
    simp only [List.zip_cons_cons, List.map_cons, List.flatMap_cons, List.cons.injEq]
    rw [ih]
    have hl : (valueOf D mem m p).length = (valueOf D mem m q).length := by simp [valueOf]
    constructor
    · rintro ⟨h3, h4⟩; rw [h3, h4]
    · intro h3; exact List.append_inj h3 hl

end Dnmx
