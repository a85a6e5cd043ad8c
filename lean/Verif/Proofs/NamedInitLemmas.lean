import Verif.Spec.NamedInit
import Verif.Proofs.SystemLemmas

/-!
# Lemmas about initializers by name
-/

set_option linter.unusedSimpArgs false
set_option linter.unusedVariables false

namespace Dnmx
open Spec

theorem affected_for (D : Decls) (d : DomId) (W : World) (k : InitKey) (m : Mix) : k.affected D d W = some m ↔ IsFor D W d k m := by
  cases k <;> simp [InitKey.affected, IsFor]

theorem affectedAll_mem {D : Decls} {d : DomId} {W : World} : ∀ {ops : List (InitKey × Nat)} {l : List InitOp}, affectedAll D d W ops = some l →
    ∀ m c, (m, c) ∈ l ↔ ∃ x ∈ ops, IsFor D W d x.1 m ∧ x.2 = c := by
  intro ops
  induction ops with
  | nil => intro l h m c; simp [affectedAll] at h; subst h; simp
  | cons x ops ih =>
    intro l h m c
    obtain ⟨k, c'⟩ := x
    rw [affectedAll] at h
    cases h1 : k.affected D d W with
    | none => rw [h1] at h; simp at h
    | some m' =>
      cases h2 : affectedAll D d W ops with
      | none => rw [h1, h2] at h; simp at h
      | some l' =>
        rw [h1, h2] at h; simp at h; subst h
        have h3 := (affected_for D d W k m').1 h1
        rw [List.mem_cons, ih h2 m c]
        constructor
        · rintro (h | ⟨x, hx, h4⟩)
          · simp at h; obtain ⟨rfl, rfl⟩ := h
            exact ⟨_, List.mem_cons_self, h3, rfl⟩
          · exact ⟨x, List.mem_cons_of_mem _ hx, h4⟩
        · rintro ⟨x, hx, h4, h5⟩
          rcases List.mem_cons.1 hx with rfl | hx
          · left
            have := (affected_for D d W k m).2 h4
            rw [h1] at this; simp at this; subst this; simp at h5; subst h5; rfl
          · exact .inr ⟨x, hx, h4, h5⟩

theorem affectedAll_some {D : Decls} {d : DomId} {W : World} : ∀ {ops : List (InitKey × Nat)}, (∀ x ∈ ops, ∃ m, IsFor D W d x.1 m) →
    ∃ l, affectedAll D d W ops = some l := by
  intro ops
  induction ops with
  | nil => intro _; exact ⟨[], rfl⟩
  | cons x ops ih =>
    intro h
    obtain ⟨k, c⟩ := x
    obtain ⟨m, hm⟩ := h (k, c) List.mem_cons_self
    obtain ⟨l, hl⟩ := ih (fun y hy => h y (List.mem_cons_of_mem _ hy))
    exact ⟨(m, c) :: l, by rw [affectedAll, (affected_for D d W k m).2 hm, hl]⟩

theorem affectedAll_none {D : Decls} {d : DomId} {W : World} : ∀ {ops : List (InitKey × Nat)} {x : InitKey × Nat}, x ∈ ops → (∀ m, ¬ IsFor D W d x.1 m) →
    affectedAll D d W ops = none := by
  intro ops x hx hn
  cases h : affectedAll D d W ops with
  | none => rfl
  | some l =>
    exfalso
    induction ops generalizing l with
    | nil => simp at hx
    | cons y ops ih =>
      obtain ⟨k, c⟩ := y
      rw [affectedAll] at h
      cases h1 : k.affected D d W with
      | none => rw [h1] at h; simp at h
      | some m' =>
        cases h2 : affectedAll D d W ops with
        | none => rw [h1, h2] at h; simp at h
        | some l' =>
          rcases List.mem_cons.1 hx with rfl | hx
          · exact hn m' ((affected_for D d W _ m').1 h1)
          · exact ih hx l' h2

theorem affectedAll_nodup {D : Decls} {d : DomId} {W : World} : ∀ {ops : List (InitKey × Nat)} {l : List InitOp}, affectedAll D d W ops = some l →
    ops.Pairwise (fun a b => ∀ m, IsFor D W d a.1 m → ¬ IsFor D W d b.1 m) → (l.map Prod.fst).Nodup := by
  intro ops
  induction ops with
  | nil => intro l h _; simp [affectedAll] at h; subst h; simp
  | cons x ops ih =>
    intro l h hp
    obtain ⟨k, c'⟩ := x
    rw [affectedAll] at h
    rw [List.pairwise_cons] at hp
    cases h1 : k.affected D d W with
    | none => rw [h1] at h; simp at h
    | some m' =>
      cases h2 : affectedAll D d W ops with
      | none => rw [h1, h2] at h; simp at h
      | some l' =>
        rw [h1, h2] at h; simp at h; subst h
        rw [List.map_cons, List.nodup_cons]
        refine ⟨?_, ih h2 hp.2⟩
        intro hc
        obtain ⟨⟨m, c⟩, h4, h5⟩ := List.mem_map.1 hc
        simp at h5; subst h5
        obtain ⟨y, hy, h6, -⟩ := (affectedAll_mem h2 m c).1 h4
        exact hp.1 y hy m ((affected_for D d W k m).1 h1) h6

theorem mutated_mono {D : Decls} {E : TyEnv} {h : Heap} {o : Nat} {ob : Obj} {t : TypeId} {k k' : Mix → Kind → Prop} {p : Mix → Prop} {h' : Heap}
    (hm : Mutated D E h o ob t k p h') (hk : ∀ m x, k m x → k' m x) : Mutated D E h o ob t k' p h' := by
  obtain ⟨l, h1, h2, h3⟩ := hm.inits
  exact { hm with inits := ⟨l, h1, h2, fun m q x hx => ⟨(h3 m q x hx).1, hk m x (h3 m q x hx).2⟩⟩ }

theorem mutated_congr {D : Decls} {E : TyEnv} {h : Heap} {o : Nat} {ob : Obj} {t : TypeId} {k k' : Mix → Kind → Prop} {p p' : Mix → Prop} {h' : Heap}
    (hm : Mutated D E h o ob t k p h') (hk : ∀ m ∈ E.mixins t, ∀ x, k m x → k' m x) (hp : ∀ m ∈ E.mixins t, p' m → p m) : Mutated D E h o ob t k' p' h' := by
  obtain ⟨l, h1, h2, h3⟩ := hm.inits
  refine { hm with inits := ⟨l, h1, h2, fun m q x hx => ⟨(h3 m q x hx).1, ?_⟩⟩, common := ?_ }
  · intro m l v hmt h4
    obtain ⟨l', v', h5, h6, h7⟩ := hm.common m l v hmt h4
    exact ⟨l', v', h5, h6, fun h8 => h7 (hp m hmt h8)⟩
  · obtain ⟨⟨v, h4⟩, h5⟩ := h3 m q x hx
    exact hk m ((hm.mixins m).1 ⟨q, v, h4⟩) x h5

/-- The overrides for the mixins of a list, each with its info. -/
def resolved (D : Decls) (ovs : List CNamed) (ms : List Mix) : List COverride :=
  ms.filterMap (fun m => (ovs.find? (CNamed.matches D m)).map (fun ov => ⟨m, ov.initNew, ov.updateCommon⟩))

theorem resolved_find (D : Decls) (ovs : List CNamed) (m : Mix) : ∀ {ms : List Mix}, m ∈ ms →
    (resolved D ovs ms).find? (fun ov => ov.mixin = m) = (ovs.find? (CNamed.matches D m)).map (fun ov => ⟨m, ov.initNew, ov.updateCommon⟩) := by
  intro ms
  induction ms with
  | nil => intro h; simp at h
  | cons x ms ih =>
    intro h
    unfold resolved at ih ⊢
    rw [List.filterMap_cons]
    by_cases hx : x = m
    · subst hx
      cases hf : ovs.find? (CNamed.matches D x) with
      | some ov => simp
      | none =>
        simp only [Option.map_none]
        rw [List.find?_eq_none]
        intro y hy
        rw [List.mem_filterMap] at hy
        obtain ⟨z, -, hz⟩ := hy
        intro h1
        simp at h1
        cases hg : ovs.find? (CNamed.matches D z) with
        | none => rw [hg] at hz; simp at hz
        | some ov => rw [hg] at hz; simp at hz; subst hz; simp at h1; subst h1; rw [hf] at hg; simp at hg
    · have h2 : m ∈ ms := by
        rcases List.mem_cons.1 h with h | h
        · exact absurd h.symm hx
        · exact h
      cases hg : ovs.find? (CNamed.matches D x) with
      | none => simp only [Option.map_none]; exact ih h2
      | some ov =>
        simp only [Option.map_some]
        rw [List.find?_cons]
        simp only [hx, decide_false]
        exact ih h2

theorem cNamedSteps_eq (D : Decls) (ovs : List CNamed) (all : List Mix) : ∀ (ms : List Mix) (i : Nat), (∀ m ∈ ms, m ∈ all) →
    cNamedSteps D ovs i ms = cMutateSteps (resolved D ovs all) i ms := by
  intro ms
  induction ms with
  | nil => intro i _; rfl
  | cons m ms ih =>
    intro i h
    rw [cNamedSteps, cMutateSteps, resolved_find D ovs m (h m List.mem_cons_self), ih (i + 1) (fun x hx => h x (List.mem_cons_of_mem _ hx))]
    cases ovs.find? (CNamed.matches D m) <;> rfl

theorem matches_overrideFor (D : Decls) (ovs : List CNamed) (m : Mix) : ovs.find? (CNamed.matches D m) = overrideFor D ovs m := by
  unfold overrideFor
  congr 1
  funext ov
  unfold CNamed.matches
  cases ov.key <;> simp

end Dnmx
