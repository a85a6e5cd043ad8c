import Verif.Proofs.OperationLemmas
import Verif.Proofs.SortLemmas

/-!
# Which function initializes which mixin in `mutate_to` and `dnmx_mutate_to`
-/

set_option linter.unusedSimpArgs false
set_option linter.unusedVariables false
set_option linter.unusedSectionVars false

namespace Dnmx
open Spec

/-- If the index of mixin `m` in type `t` is found, the mixin is there. -/
def IndexFits (E : TyEnv) (t : TypeId) (m : Mix) : Prop := ∀ i, E.indexOf t m = some i → (E.mixins t)[i]? = some m


variable {D : Decls} {E : TyEnv} {orc : Orc}

/-- The initialization that operations sorted by index mean for index `i`. -/
def planOf (l : List (Nat × Nat)) (i : Nat) : NewFn :=
  match l.find? (fun x => x.1 == i) with
  | some (_, k) => .custom k
  | none => .dflt

theorem planOf_head (i k : Nat) (l : List (Nat × Nat)) : planOf ((i, k) :: l) i = .custom k := by
  unfold planOf; simp

theorem planOf_tail {i k j : Nat} (l : List (Nat × Nat)) (h : j ≠ i) : planOf ((i, k) :: l) j = planOf l j := by
  unfold planOf
  rw [List.find?_cons_of_neg (by simpa using fun h' => h h'.symm)]

theorem planOf_none {j : Nat} {l : List (Nat × Nat)} (h : ∀ x ∈ l, x.1 ≠ j) : planOf l j = .dflt := by
  unfold planOf
  rw [List.find?_eq_none.2 (fun x hx => by simpa using h x hx)]

theorem planOf_some {l : List (Nat × Nat)} (hl : l.Pairwise (fun a b => a.1 < b.1)) {i k : Nat} (h : (i, k) ∈ l) : planOf l i = .custom k := by
  induction l with
  | nil => simp at h
  | cons x l ih =>
    obtain ⟨j, k'⟩ := x
    rw [List.pairwise_cons] at hl
    rcases List.mem_cons.1 h with h | h
    · simp at h; obtain ⟨rfl, rfl⟩ := h; exact planOf_head _ _ _
    · have := hl.1 _ h
      rw [planOf_tail l (by simp at this; omega)]
      exact ih hl.2 h

section
variable (hE : EnvOk D E) {h0 : Heap} (hk : HeapOk D E h0) {o : Nat} {ob : Obj} (ho : h0.obj? o = some ob) {t : TypeId} (hne : E.mixins t ≠ [])
include hE hk ho hne

/-- Default initialization up to index `i`, then one given function. -/
theorem plan_step {g : Ghost} {s : Sess} (hs : SessOk D E h0 o ob t g s) (hal : s.alloced = (E.mixins t).length) {i : Nat} (hi : i < (E.mixins t).length) (hup : s.updated ≤ i)
    (hpre : ∀ j, s.updated ≤ j → j < i → g.F j = .dflt ∧ g.G j = .noop) {f : NewFn} {u : UpdFn} (hf : ownNew f = true) (hu : ownUpd u = true) (hF : g.F i = f) (hG : g.G i = u)
    (hT : u ≠ .noop → g.T i = true) {rest : List (MStep × Bool)} {P : Sess → Prop} {Q : Sess → XErr → Prop}
    (hrest : ∀ s', SessOk D E h0 o ob t g s' → s'.alloced = (E.mixins t).length → s'.updated = i + 1 → StepOk (msteps D E orc rest s') P Q)
    (hQ : ∀ s' e, SessOk D E h0 o ob t g s' → Q s' e) :
    StepOk ((updateEach D E orc .dflt .noop (some i) s).bind (fun s => (updateNext D E orc f u s).bind (msteps D E orc rest) .throw) .throw) P Q := by
  refine (updateEach_ok (orc := orc) hE hk ho hne (f := .dflt) (u := .noop) trivial trivial (some i) s hs hal ?_).bind ?_ ?_
  · intro j h1 h2 h3
    obtain ⟨a, b⟩ := hpre j h1 (by simpa using h2)
    exact ⟨a, b, fun h => absurd rfl h⟩
  · rintro s' ⟨k1, k2, k3⟩
    simp only [Option.getD_some] at k3
    have hup' : s'.updated = i := by omega
    have hc : s'.complete = false := by
      cases h : s'.complete with
      | false => rfl
      | true => have := k1.complete.1 h; omega
    refine (updateNext_ok (orc := orc) hE hk ho k1 (by omega) hne (f := f) (u := u) (fun _ => by rw [hup', hF]) (fun _ => by rw [hup', hG]) (fun h => by rw [hup']; exact hT h) ?_ ?_).bind ?_ ?_
    · cases f <;> first | trivial | simp [ownNew] at hf
    · cases u <;> first | trivial | simp [ownUpd] at hu
    · rintro s'' ⟨a1, a2, a3⟩
      rw [hc] at a3
      simp at a3
      exact hrest s'' a1 (by omega) (by omega)
    · rintro s'' e ⟨a1, -⟩; exact hQ s'' e a1
  · rintro s' e ⟨k1, -⟩; exact hQ s' e k1

theorem mutateTo_plan {F : Nat → NewFn} : ∀ (l : List (Nat × Nat)) (s : Sess), l.Pairwise (fun a b => a.1 < b.1) → (∀ x ∈ l, x.1 < (E.mixins t).length) →
    (∀ x ∈ l, s.updated ≤ x.1) → SessOk D E h0 o ob t ⟨F, fun _ => .noop, fun _ => false⟩ s → s.alloced = (E.mixins t).length → (∀ j, s.updated ≤ j → F j = planOf l j) →
    StepOk (msteps D E orc (mutateToSteps l) s)
      (fun s' => SessOk D E h0 o ob t ⟨F, fun _ => .noop, fun _ => false⟩ s' ∧ s'.alloced = (E.mixins t).length ∧ ∀ i, s'.updated ≤ i → F i = .dflt)
      (fun s' _ => SessOk D E h0 o ob t ⟨F, fun _ => .noop, fun _ => false⟩ s')
  | [], s, _, _, _, hs, hal, hF => ⟨hs, hal, fun i hi => by rw [hF i hi]; rfl⟩
  | (i, k) :: l, s, hp, hlt, hge, hs, hal, hF => by
    rw [List.pairwise_cons] at hp
    have hi : i < (E.mixins t).length := hlt (i, k) (by simp)
    have hup : s.updated ≤ i := hge (i, k) (by simp)
    have := plan_step (orc := orc) hE hk ho hne hs hal hi hup (f := .custom k) (u := .noop) (rest := mutateToSteps l)
      (P := fun s' => SessOk D E h0 o ob t ⟨F, fun _ => .noop, fun _ => false⟩ s' ∧ s'.alloced = (E.mixins t).length ∧ ∀ i, s'.updated ≤ i → F i = .dflt)
      (Q := fun s' _ => SessOk D E h0 o ob t ⟨F, fun _ => .noop, fun _ => false⟩ s')
      (by
        intro j h1 h2
        refine ⟨?_, rfl⟩
        show F j = .dflt
        rw [hF j h1]
        apply planOf_none
        intro x hx
        rcases List.mem_cons.1 hx with rfl | hx
        · simp; omega
        · have := hp.1 x hx; simp at this; omega)
      rfl rfl (by show F i = _; rw [hF i hup]; exact planOf_head i k l) rfl (fun h => absurd rfl h)
      (fun s' a1 a2 a3 => mutateTo_plan l s' hp.2 (fun x hx => hlt x (by simp [hx])) (fun x hx => by have := hp.1 x hx; simp at this; omega) a1 a2
        (fun j hj => by rw [hF j (by omega)]; exact planOf_tail l (by omega)))
      (fun s' e h => h)
    exact this

/-- The overrides of `dnmx_mutate_to` for mixin `m`: the first one counts. -/
def cNew (ovs : List COverride) (m : Mix) : NewFn :=
  match ovs.find? (fun ov => ov.mixin = m) with
  | none => .dflt
  | some ov => ov.initNew.elim .dflt .custom

def cUpd (ovs : List COverride) (m : Mix) : UpdFn :=
  match ovs.find? (fun ov => ov.mixin = m) with
  | none => .noop
  | some ov => ov.updateCommon.elim .noop .custom

theorem cMutate_plan (ovs : List COverride) {F : Nat → NewFn} {G : Nat → UpdFn} (hF : ∀ (i : Nat) m, (E.mixins t)[i]? = some m → F i = cNew ovs m ∧ G i = cUpd ovs m) {T : Nat → Bool}
    (hT : ∀ i, i < (E.mixins t).length → G i ≠ .noop → T i = true) :
    ∀ (ms : List Mix) (i : Nat) (s : Sess), (E.mixins t).drop i = ms → s.updated ≤ i →
      (∀ j, s.updated ≤ j → j < i → F j = .dflt ∧ G j = .noop) → SessOk D E h0 o ob t ⟨F, G, T⟩ s → s.alloced = (E.mixins t).length →
      StepOk (msteps D E orc (cMutateSteps ovs i ms) s)
        (fun s' => SessOk D E h0 o ob t ⟨F, G, T⟩ s' ∧ s'.alloced = (E.mixins t).length ∧ ∀ j, s'.updated ≤ j → j < (E.mixins t).length → F j = .dflt ∧ G j = .noop)
        (fun s' _ => SessOk D E h0 o ob t ⟨F, G, T⟩ s')
  | [], i, s, hd, hup, hpre, hs, hal => by
    refine ⟨hs, hal, fun j h1 h2 => hpre j h1 ?_⟩
    have : (E.mixins t).length ≤ i := by rw [List.drop_eq_nil_iff] at hd; exact hd
    omega
  | m :: ms, i, s, hd, hup, hpre, hs, hal => by
    have hm : (E.mixins t)[i]? = some m := by
      have := congrArg (fun l => l[0]?) hd
      simpa using this
    have hi : i < (E.mixins t).length := by
      rw [List.getElem?_eq_some_iff] at hm; exact hm.1
    have hd' : (E.mixins t).drop (i + 1) = ms := by
      have := congrArg List.tail hd
      simpa [List.tail_drop] using this
    obtain ⟨hFi, hGi⟩ := hF i m hm
    unfold cMutateSteps
    cases hfi : ovs.find? (fun ov => ov.mixin = m) with
    | none =>
      simp only
      refine cMutate_plan ovs hF hT ms (i + 1) s hd' (by omega) ?_ hs hal
      intro j h1 h2
      by_cases hj : j = i
      · subst hj
        rw [hFi, hGi]
        unfold cNew cUpd
        rw [hfi]; exact ⟨rfl, rfl⟩
      · exact hpre j h1 (by omega)
    | some ov =>
      simp only
      have hFi' : F i = ov.initNew.elim .dflt .custom := by rw [hFi]; unfold cNew; rw [hfi]
      have hGi' : G i = ov.updateCommon.elim .noop .custom := by rw [hGi]; unfold cUpd; rw [hfi]
      unfold msteps
      simp only [mstep, updateAt]
      rw [if_neg (by rw [hs.ty]; omega)]
      have := plan_step (orc := orc) hE hk ho hne hs hal hi hup (rest := cMutateSteps ovs (i + 1) ms) hpre
        (f := ov.initNew.elim .dflt .custom) (u := ov.updateCommon.elim .noop .custom)
        (P := fun s' => SessOk D E h0 o ob t ⟨F, G, T⟩ s' ∧ s'.alloced = (E.mixins t).length ∧ ∀ j, s'.updated ≤ j → j < (E.mixins t).length → F j = .dflt ∧ G j = .noop)
        (Q := fun s' _ => SessOk D E h0 o ob t ⟨F, G, T⟩ s')
        (by cases ov.initNew <;> rfl) (by cases ov.updateCommon <;> rfl) hFi' hGi' (fun h => hT i hi (by rw [hGi']; exact h))
        (fun s' a1 a2 a3 => cMutate_plan ovs hF hT ms (i + 1) s' hd' (by omega) (fun j h1 h2 => by omega) a1 a2)
        (fun s' e h => h)
      revert this
      cases updateEach D E orc .dflt .noop (some i) s <;> simp [Res.bind]

end

section
variable (hE : EnvOk D E)
include hE

theorem sortedOps_mem {t : TypeId} {ops : List InitOp} {i k : Nat} : (i, k) ∈ sortedOps E t ops ↔ ∃ m, (m, k) ∈ ops ∧ E.indexOf t m = some i := by
  unfold sortedOps
  rw [(sortBy_perm _ _).mem_iff, List.mem_filterMap]
  constructor
  · rintro ⟨⟨m, k'⟩, h1, h2⟩
    simp only [Option.map_eq_some_iff] at h2
    obtain ⟨j, h3, h4⟩ := h2
    simp at h4; obtain ⟨rfl, rfl⟩ := h4
    exact ⟨m, h1, h3⟩
  · rintro ⟨m, h1, h2⟩
    exact ⟨(m, k), h1, by simp [h2]⟩

theorem sortedOps_sorted {t : TypeId} {ops : List InitOp} (hd : (ops.map Prod.fst).Nodup) (hm : ∀ x ∈ ops, IndexFits E t x.1) :
    (sortedOps E t ops).Pairwise (fun a b => a.1 < b.1) := by
  have hnd : ((ops.filterMap (fun (m, k) => (E.indexOf t m).map (fun i => (i, k)))).map Prod.fst).Nodup := by
    induction ops with
    | nil => simp
    | cons x ops ih =>
      obtain ⟨m, k⟩ := x
      simp only [List.map_cons, List.nodup_cons] at hd
      have ih := ih hd.2 (fun x hx => hm x (by simp [hx]))
      rw [List.filterMap_cons]
      simp only
      cases hi : E.indexOf t m with
      | none => simpa using ih
      | some i =>
        simp only [Option.map_some, List.map_cons, List.nodup_cons]
        refine ⟨?_, ih⟩
        intro hmem
        rw [List.mem_map] at hmem
        obtain ⟨⟨i', k'⟩, h1, h2⟩ := hmem
        simp at h2; subst h2
        rw [List.mem_filterMap] at h1
        obtain ⟨⟨m', k''⟩, h3, h4⟩ := h1
        simp only [Option.map_eq_some_iff] at h4
        obtain ⟨j, h5, h6⟩ := h4
        simp at h6; obtain ⟨rfl, rfl⟩ := h6
        have e1 := hm (m, k) (by simp) j hi
        have e2 := hm (m', k'') (by simp [h3]) j h5
        rw [e1] at e2; simp at e2; subst e2
        exact hd.1 (List.mem_map.2 ⟨(m, k''), h3, rfl⟩)
  unfold sortedOps
  generalize hl : ops.filterMap (fun (m, k) => (E.indexOf t m).map (fun i => (i, k))) = l at hnd
  have hs := sortBy_sorted (fun a b : Nat × Nat => decide (a.1 < b.1)) (fun _ => True) (by simp; omega) (by simp; omega) l (fun _ _ => trivial)
  have hn : ((sortBy (fun a b : Nat × Nat => decide (a.1 < b.1)) l).map Prod.fst).Nodup := ((sortBy_perm _ l).map _).nodup_iff.2 hnd
  rw [List.Nodup, List.pairwise_map] at hn
  refine List.Pairwise.imp₂ ?_ hs hn
  intro a b h1 h2
  simp at h1
  omega

end

section
variable (hE : EnvOk D E) {h0 : Heap} (hk : HeapOk D E h0) {o : Nat} {ob : Obj} (ho : h0.obj? o = some ob) (hsl : ob.isSealed = false) {t : TypeId}
  (hty : ob.ty ≠ some t) (hne : E.mixins t ≠ [])
include hE hk ho hsl hty hne

theorem mutateTo_ok (ops : List InitOp) (hd : (ops.map Prod.fst).Nodup) (hm : ∀ x ∈ ops, IndexFits E t x.1) :
    HStepOk (mutateTo D E orc false h0 o t ops)
      (fun h' => Completed D E h0 o ob t ⟨planOf (sortedOps E t ops), fun _ => .noop, fun _ => false⟩ h')
      (fun h' _ => Failed D E h0 ob t (fun _ => false) h') := by
  unfold mutateTo
  rw [ho]
  simp only [if_neg hty]
  have hsort := sortedOps_sorted hE (t := t) hd hm
  refine (withMutation_of (orc := orc) hE hk ho hsl hty hne false _ (fun _ => false) (fun F G => F = planOf (sortedOps E t ops) ∧ G = fun _ => .noop) ?_).mono ?_ (fun _ _ h => h)
  · intro s h1 h2 h3
    have hlt : ∀ x ∈ sortedOps E t ops, x.1 < (E.mixins t).length := by
      rintro ⟨i, k⟩ hx
      obtain ⟨m, h4, h5⟩ := (sortedOps_mem hE).1 hx
      have := hm _ h4 i h5
      rw [List.getElem?_eq_some_iff] at this; exact this.1
    have h4 : SessOk D E h0 o ob t ⟨planOf (sortedOps E t ops), fun _ => .noop, fun _ => false⟩ s :=
      h1.replan (fun i hi => by omega) (fun i hi => by omega) (fun _ h => h)
    refine (mutateTo_plan (orc := orc) hE hk ho hne (sortedOps E t ops) s hsort hlt (fun x hx => by omega) h4 h2 (fun j _ => rfl)).mono ?_ ?_
    · rintro s' ⟨a1, a2, a3⟩
      exact ⟨_, _, a1, a2, fun i hi _ => ⟨a3 i hi, rfl⟩, rfl, rfl⟩
    · intro s' e a1; exact ⟨_, _, a1⟩
  · rintro h' h
    simp only [Bool.false_eq_true, if_false] at h
    obtain ⟨F, G, h1, rfl, rfl⟩ := h
    exact h1

theorem cMutateTo_ok (ovs : List COverride) :
    HStepOk (cMutateTo D E orc false h0 o t ovs)
      (fun h' => ∃ F G T, Completed D E h0 o ob t ⟨F, G, T⟩ h' ∧ ∀ (i : Nat) (m : Mix), (E.mixins t)[i]? = some m →
        F i = cNew ovs m ∧ G i = cUpd ovs m ∧ (T i = true → cUpd ovs m ≠ .noop))
      (fun h' _ => ∃ T, Failed D E h0 ob t T h' ∧ ∀ (i : Nat) (m : Mix), (E.mixins t)[i]? = some m → T i = true → cUpd ovs m ≠ .noop) := by
  unfold cMutateTo
  let F : Nat → NewFn := fun i => ((E.mixins t)[i]?).elim .dflt (cNew ovs)
  let G : Nat → UpdFn := fun i => ((E.mixins t)[i]?).elim .noop (cUpd ovs)
  let T : Nat → Bool := fun i => decide (G i ≠ .noop)
  have hF : ∀ (i : Nat) m, (E.mixins t)[i]? = some m → F i = cNew ovs m ∧ G i = cUpd ovs m := by
    intro i m h; simp only [F, G, h]; exact ⟨rfl, rfl⟩
  have hT : ∀ (i : Nat) m, (E.mixins t)[i]? = some m → T i = true → cUpd ovs m ≠ .noop := by
    intro i m h; simp only [T, (hF i m h).2]; simp
  refine (withMutation_of (orc := orc) hE hk ho hsl hty hne false _ T (fun F' G' => F' = F ∧ G' = G) ?_).mono ?_ ?_
  · intro s h1 h2 h3
    have h4 : SessOk D E h0 o ob t ⟨F, G, T⟩ s := h1.replan (fun i hi => by omega) (fun i hi => by omega) (fun _ h => h)
    refine (cMutate_plan (orc := orc) hE hk ho hne ovs hF (T := T) (fun i _ h => by simp [T, h]) (E.mixins t) 0 s (by simp) (by omega) (fun j a b => by omega) h4 h2).mono ?_ ?_
    · rintro s' ⟨a1, a2, a3⟩; exact ⟨_, _, a1, a2, a3, rfl, rfl⟩
    · intro s' e a1; exact ⟨_, _, a1⟩
  · rintro h' h
    simp only [Bool.false_eq_true, if_false] at h
    obtain ⟨F', G', h1, rfl, rfl⟩ := h
    exact ⟨_, _, _, h1, fun i m h => ⟨(hF i m h).1, (hF i m h).2, hT i m h⟩⟩
  · rintro h' e h
    exact ⟨T, h, hT⟩

end

end Dnmx
