import Verif.Proofs.StepSim
import Verif.Proofs.IndependentPrograms
import Verif.Spec.Threads

/-!
# Lemmas on threads: single steps
-/

set_option linter.unusedSimpArgs false
set_option linter.unusedVariables false

namespace Dnmx.Steps
open Spec Indep

/-- Nothing more to do. -/
def Prog.over : Prog α → Bool
  | .ok _ => true
  | .throw _ _ => true
  | _ => false

section
variable {α : Type} {D : Decls} {orc : Orc} {h : Heap}

theorem run_of_step {P P' : Prog α} {h' : Heap} (hn : P.over = false) (hs : P.step D orc h = some (h', P')) :
    P.run D orc h = P'.run D orc h' ∧ progSteps D orc P h = 1 + progSteps D orc P' h' := by
  cases P with
  | ok a => simp [Prog.over] at hn
  | throw a e => simp [Prog.over] at hn
  | ub => simp [Prog.step] at hs
  | dealloc a b k =>
    simp only [Prog.step] at hs
    simp only [Prog.run, progSteps]
    cases hd : h.deallocate a b with
    | none => rw [hd] at hs; simp at hs
    | some x => rw [hd] at hs; simp at hs; obtain ⟨rfl, rfl⟩ := hs; exact ⟨rfl, rfl⟩
  | getSlot a i k =>
    simp only [Prog.step] at hs
    simp only [Prog.run, progSteps]
    cases hd : h.slot? a i with
    | none => rw [hd] at hs; simp at hs
    | some x => rw [hd] at hs; simp at hs; obtain ⟨rfl, rfl⟩ := hs; exact ⟨rfl, rfl⟩
  | construct l m v how k =>
    simp only [Prog.step] at hs
    simp only [Prog.run, progSteps]
    cases hd : h.construct l m v how with
    | none => rw [hd] at hs; simp at hs
    | some x => rw [hd] at hs; simp at hs; obtain ⟨rfl, rfl⟩ := hs; exact ⟨rfl, rfl⟩
  | destroy l m k =>
    simp only [Prog.step] at hs
    simp only [Prog.run, progSteps]
    cases hd : h.destroy D l m with
    | none => rw [hd] at hs; simp at hs
    | some x => rw [hd] at hs; simp at hs; obtain ⟨rfl, rfl⟩ := hs; exact ⟨rfl, rfl⟩
  | _ =>
    simp only [Prog.step, Option.some.injEq, Prod.mk.injEq] at hs
    obtain ⟨rfl, rfl⟩ := hs
    exact ⟨rfl, rfl⟩

theorem run_of_none {P : Prog α} (hs : P.step D orc h = none) : P.run D orc h = .ub := by
  cases P with
  | ub => rfl
  | dealloc a b k =>
    simp only [Prog.step] at hs
    simp only [Prog.run]
    cases hd : h.deallocate a b with
    | none => rfl
    | some x => rw [hd] at hs; simp at hs
  | getSlot a i k =>
    simp only [Prog.step] at hs
    simp only [Prog.run]
    cases hd : h.slot? a i with
    | none => rfl
    | some x => rw [hd] at hs; simp at hs
  | construct l m v how k =>
    simp only [Prog.step] at hs
    simp only [Prog.run]
    cases hd : h.construct l m v how with
    | none => rfl
    | some x => rw [hd] at hs; simp at hs
  | destroy l m k =>
    simp only [Prog.step] at hs
    simp only [Prog.run]
    cases hd : h.destroy D l m with
    | none => rfl
    | some x => rw [hd] at hs; simp at hs
  | _ => simp [Prog.step] at hs

end

/-- The renaming of objects after a step, with the numbers of objects before and after it. -/
def Grown (σ : Nat → Nat) (L M : Nat) (σ' : Nat → Nat) (L' M' : Nat) : Prop := (σ' = σ ∧ L' = L ∧ M' = M) ∨ (σ' = extend σ L M ∧ L' = L + 1 ∧ M' = M + 1)

theorem howSeen_ren (ρ : Nat → Nat) (k : How) : howSeen (renHow ρ k) = howSeen k := by cases k <;> rfl

theorem deallocate_same {h h' : Heap} {a : Nat} {b : Blk} (hd : h.deallocate a b = some h') : h'.tick = h.tick ∧ h'.next = h.next ∧ h'.objs = h.objs ∧ h'.count = h.count := by
  unfold Heap.deallocate at hd
  split at hd
  · simp at hd; subst hd; exact ⟨rfl, rfl, rfl, rfl⟩
  · simp at hd

theorem construct_same {h h' : Heap} {l : Loc} {m : Mix} {v : Nat} {k : How} (hd : h.construct l m v k = some h') : h'.tick = h.tick ∧ h'.next = h.next ∧ h'.objs = h.objs ∧ h'.count = h.count := by
  unfold Heap.construct at hd
  split at hd
  · simp at hd; subst hd; exact ⟨rfl, rfl, rfl, rfl⟩
  · simp at hd

theorem destroy_same {D : Decls} {h h' : Heap} {l : Loc} {m : Mix} (hd : h.destroy D l m = some h') : h'.tick = h.tick ∧ h'.next = h.next ∧ h'.objs = h.objs ∧ h'.count = h.count := by
  unfold Heap.destroy at hd
  split at hd
  · split at hd
    · simp at hd; subst hd; cases (D.mix m).hasDestroy <;> exact ⟨rfl, rfl, rfl, rfl⟩
    · simp at hd
  · simp at hd

section
variable {α : Type} {D : Decls} {orc : Orc} {c : Base} {R : Rel α} {σ ρ : Nat → Nat} {n L : Nat} {h1 h : Heap} {P1 P : Prog α}

/-- A step in the part and the same step in the whole. -/
structure StepSim (D : Decls) (orc : Orc) (c : Base) (R : Rel α) (σ : Nat → Nat) (L : Nat) (h1 h : Heap) (P1 P : Prog α) (h1' h' : Heap) (P1' P' : Prog α) : Prop where
  part : P1.step D orc h1 = some (h1', P1')
  whole : P.step D orc h = some (h', P')
  sim : ∃ σ' ρ' n' L', HS c σ' ρ' n' L' h1' h' ∧ PSim R σ' ρ' n' L' P1' P' ∧ Grown σ L h.objs.length σ' L' h'.objs.length
  tick : h'.tick = h1'.tick
  count : ∀ t, h'.count t - h.count t = h1'.count t - h1.count t

theorem step_sim (hs : HS c σ ρ n L h1 h) (ht : h.tick = h1.tick) (hp : PSim R σ ρ n L P1 P) (hn : P1.over = false) (hub : P1.run D orc h1 ≠ .ub) :
    ∃ h1' h' P1' P', StepSim D orc c R σ L h1 h P1 P h1' h' P1' P' := by
  have zero : ∀ t, h.count t - h.count t = h1.count t - h1.count t := fun t => by omega
  cases hp with
  | ub => exact absurd rfl hub
  | ok h => simp [Prog.over] at hn
  | throw h => simp [Prog.over] at hn
  | dead hd => exact absurd (hd D orc h1 hs.len) hub
  | getObj ho e1 hk =>
    subst e1
    refine ⟨_, _, _, _, rfl, rfl, ⟨σ, ρ, n, L, hs, ?_, Or.inl ⟨rfl, rfl, rfl⟩⟩, ht, zero⟩
    rw [hs.obj _ (hs.len ▸ ho)]
    exact hk _ (fun ob a h2 h3 => hs.nx ▸ hs.objIn _ ob a h2 h3)
  | setObj ho hx e1 e2 hk =>
    subst e1 e2
    exact ⟨_, _, _, _, rfl, rfl, ⟨σ, ρ, n, L, hs.setObj ho hx, hk, Or.inl ⟨rfl, rfl, by simp [Heap.setObj]⟩⟩, ht, zero⟩
  | addObj hd hk =>
    refine ⟨_, _, _, _, rfl, rfl, ⟨_, ρ, n, L + 1, hs.addObj _ hd, ?_, Or.inr ⟨rfl, rfl, by simp⟩⟩, ht, zero⟩
    rw [hs.len]
    exact hk _
  | outside hk =>
    refine ⟨_, _, _, _, rfl, rfl, ⟨σ, ρ, n, L, hs.ticked, ?_, Or.inl ⟨rfl, rfl, rfl⟩⟩, by simp [Heap.ticked, ht], zero⟩
    rw [ht]; exact hk _ _ _
  | alloc hk =>
    refine ⟨_, _, _, _, rfl, rfl, ⟨σ, _, n + 1, L, hs.allocate _, ?_, Or.inl ⟨rfl, rfl, rfl⟩⟩, ht, zero⟩
    rw [hs.nx]; exact hk _
  | @dealloc _ _ _ _ a a' b k1 k e1 hk =>
    subst e1
    simp only [Prog.run] at hub
    cases hd : h1.deallocate a b with
    | none => rw [hd] at hub; exact absurd rfl hub
    | some h1' =>
      obtain ⟨h', hd', hs'⟩ := hs.toHSim.deallocate hd
      obtain ⟨t1, x1, o1, c1⟩ := deallocate_same hd
      obtain ⟨t2, x2, o2, c2⟩ := deallocate_same hd'
      exact ⟨h1', h', k1, k, by simp [Prog.step, hd], by simp [Prog.step, hd'], ⟨σ, ρ, n, L, ⟨hs', x1 ▸ hs.nx, o1 ▸ hs.len⟩, hk, Or.inl ⟨rfl, rfl, by rw [o2]⟩⟩,
        by rw [t1, t2, ht], fun t => by rw [c1, c2]; omega⟩
  | @getSlot _ _ _ _ a a' i k1 k e1 hk =>
    subst e1
    simp only [Prog.run] at hub
    cases hd : h1.slot? a i with
    | none => rw [hd] at hub; exact absurd rfl hub
    | some sl =>
      obtain ⟨hd', x1, x2⟩ := hs.slot? hd
      exact ⟨h1, h, k1 sl, k (renSlot ρ sl), by simp [Prog.step, hd], by simp [Prog.step, hd'], ⟨σ, ρ, n, L, hs, hk sl ⟨x1, x2⟩, Or.inl ⟨rfl, rfl, rfl⟩⟩, ht, zero⟩
  | setSlot ha hsl e1 e2 hk =>
    subst e1 e2
    exact ⟨_, _, _, _, rfl, rfl, ⟨σ, ρ, n, L, hs.setSlot ha hsl.1 hsl.2, hk, Or.inl ⟨rfl, rfl, rfl⟩⟩, ht, zero⟩
  | setOwner hl ho e1 e2 hk =>
    subst e1 e2
    exact ⟨_, _, _, _, rfl, rfl, ⟨σ, ρ, n, L, hs.setOwner hl ho, hk, Or.inl ⟨rfl, rfl, rfl⟩⟩, ht, zero⟩
  | @getLive _ _ _ _ l l' k1 k hl e1 hk =>
    subst e1
    refine ⟨_, _, _, _, rfl, rfl, ⟨σ, ρ, n, L, hs, ?_, Or.inl ⟨rfl, rfl, rfl⟩⟩, ht, zero⟩
    rw [show h.live (renLoc ρ l) = h1.live l from hs.live l.1 l.2 (hs.nx ▸ hl)]
    exact hk _
  | setLive hl e1 hk =>
    subst e1
    exact ⟨_, _, _, _, rfl, rfl, ⟨σ, ρ, n, L, hs.setLive hl _, hk, Or.inl ⟨rfl, rfl, rfl⟩⟩, ht, zero⟩
  | @construct _ _ _ _ l l' m v how how' k1 k e1 hw e2 hk =>
    subst e1 e2
    simp only [Prog.run] at hub
    cases hd : h1.construct l m v how with
    | none => rw [hd] at hub; exact absurd rfl hub
    | some h1' =>
      obtain ⟨h', hd', hs'⟩ := hs.toHSim.construct (howSeen_ren ρ how) hd
      obtain ⟨t1, x1, o1, c1⟩ := construct_same hd
      obtain ⟨t2, x2, o2, c2⟩ := construct_same hd'
      exact ⟨h1', h', k1, k, by simp [Prog.step, hd], by simp [Prog.step, hd'], ⟨σ, ρ, n, L, ⟨hs', x1 ▸ hs.nx, o1 ▸ hs.len⟩, hk, Or.inl ⟨rfl, rfl, by rw [o2]⟩⟩,
        by rw [t1, t2, ht], fun t => by rw [c1, c2]; omega⟩
  | @destroy _ _ _ _ l l' m k1 k e1 hk =>
    subst e1
    simp only [Prog.run] at hub
    cases hd : h1.destroy D l m with
    | none => rw [hd] at hub; exact absurd rfl hub
    | some h1' =>
      obtain ⟨h', hd', hs'⟩ := hs.toHSim.destroy hd
      obtain ⟨t1, x1, o1, c1⟩ := destroy_same hd
      obtain ⟨t2, x2, o2, c2⟩ := destroy_same hd'
      exact ⟨h1', h', k1, k, by simp [Prog.step, hd], by simp [Prog.step, hd'], ⟨σ, ρ, n, L, ⟨hs', x1 ▸ hs.nx, o1 ▸ hs.len⟩, hk, Or.inl ⟨rfl, rfl, by rw [o2]⟩⟩,
        by rw [t1, t2, ht], fun t => by rw [c1, c2]; omega⟩
  | count hk =>
    refine ⟨_, _, _, _, rfl, rfl, ⟨σ, ρ, n, L, hs.countUp _ _, hk, Or.inl ⟨rfl, rfl, rfl⟩⟩, ht, ?_⟩
    intro t
    simp only
    split <;> omega
  | log he hk => exact ⟨_, _, _, _, rfl, rfl, ⟨σ, ρ, n, L, hs.logged he, hk, Or.inl ⟨rfl, rfl, rfl⟩⟩, ht, zero⟩

/-- What the next step reads or writes belongs to the part. -/
theorem touches_part (hs : HS c σ ρ n L h1 h) (hp : PSim R σ ρ n L P1 P) (hub : P1.run D orc h1 ≠ .ub) {x : Place} (hx : x ∈ touches P) :
    (∃ o, o < L ∧ x = .object (σ o)) ∨ (∃ a, a < n ∧ x = .block (ρ a)) := by
  cases hp with
  | ub => exact absurd rfl hub
  | ok h => simp [touches] at hx
  | throw h => simp [touches] at hx
  | dead hd => exact absurd (hd D orc h1 hs.len) hub
  | getObj ho e1 hk => subst e1; simp [touches] at hx; exact Or.inl ⟨_, ho, hx⟩
  | setObj ho h1 e1 e2 hk => subst e1; simp [touches] at hx; exact Or.inl ⟨_, ho, hx⟩
  | addObj hd hk => simp [touches] at hx
  | outside hk => simp [touches] at hx
  | alloc hk => simp [touches] at hx
  | @dealloc _ _ _ _ a a' b k1 k e1 hk =>
    subst e1; simp [touches] at hx
    refine Or.inr ⟨a, ?_, hx⟩
    simp only [Prog.run] at hub
    by_cases ha : a < n
    · exact ha
    · have := hs.fresh1.blk a (by rw [hs.nx]; omega)
      simp [Heap.deallocate, this] at hub
  | @getSlot _ _ _ _ a a' i k1 k e1 hk =>
    subst e1; simp [touches] at hx
    refine Or.inr ⟨a, ?_, hx⟩
    simp only [Prog.run] at hub
    by_cases ha : a < n
    · exact ha
    · have := hs.fresh1.blk a (by rw [hs.nx]; omega)
      simp [Heap.slot?, this] at hub
  | setSlot ha hsl e1 e2 hk => subst e1; simp [touches] at hx; exact Or.inr ⟨_, ha, hx⟩
  | setOwner hl ho e1 e2 hk => subst e1; simp [touches] at hx; exact Or.inr ⟨_, hl, hx⟩
  | getLive hl e1 hk => subst e1; simp [touches] at hx; exact Or.inr ⟨_, hl, hx⟩
  | setLive hl e1 hk => subst e1; simp [touches] at hx; exact Or.inr ⟨_, hl, hx⟩
  | @construct _ _ _ _ l l' m v how how' k1 k e1 hw e2 hk =>
    subst e1 e2
    simp only [touches, List.mem_cons] at hx
    rcases hx with hx | hx
    · refine Or.inr ⟨l.1, ?_, hx⟩
      simp only [Prog.run] at hub
      by_cases ha : l.1 < n
      · exact ha
      · have := hs.fresh1.blk l.1 (by rw [hs.nx]; omega)
        simp [Heap.construct, this] at hub
    · cases how with
      | copied s => simp [renHow, howReads] at hx; exact Or.inr ⟨s.1, hw, hx⟩
      | moved s => simp [renHow, howReads] at hx; exact Or.inr ⟨s.1, hw, hx⟩
      | _ => simp [renHow, howReads] at hx
  | @destroy _ _ _ _ l l' m k1 k e1 hk =>
    subst e1; simp [touches] at hx
    refine Or.inr ⟨l.1, ?_, hx⟩
    simp only [Prog.run] at hub
    by_cases ha : l.1 < n
    · exact ha
    · have := hs.fresh1.live l.1 l.2 (by rw [hs.nx]; omega)
      rw [show (l.1, l.2) = l from rfl] at this
      simp [Heap.destroy, this] at hub
  | count hk => simp [touches] at hx
  | log he hk => simp [touches] at hx

end

end Dnmx.Steps
