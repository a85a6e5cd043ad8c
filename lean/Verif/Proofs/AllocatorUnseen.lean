import Verif.Proofs.AllocatorSteps

/-!
# Allocators cannot be seen

The effects of a program on domains and mutations, without memory.
-/

namespace Dnmx
open Spec

/-- The effect of a step on domains and mutations; memory has no part in it. -/
def seenStep (D : Decls) (W : World) (ms : List (Nat × DomId × List Mix)) : AOp → World × List (Nat × DomId × List Mix)
  | .new v d _ => (W, (v, d, []) :: ms)
  | .edit v es =>
    match ms.find? (fun m => m.1 == v) with
    | none => (W, ms)
    | some m => (W, (m.1, m.2.1, es) :: ms.eraseP (fun m => m.1 == v))
  | .copy v w =>
    match ms.find? (fun m => m.1 == v) with
    | none => (W, ms)
    | some m => (W, (w, m.2.1, m.2.2) :: ms)
  | .move v w =>
    match ms.find? (fun m => m.1 == v) with
    | none => (W, ms)
    | some m => (W, (w, m.2.1, m.2.2) :: (m.1, m.2.1, []) :: ms.eraseP (fun m => m.1 == v))
  | .drop v =>
    match ms.find? (fun m => m.1 == v) with
    | none => (W, ms)
    | some _ => (W, ms.eraseP (fun m => m.1 == v))
  | .getMut d v =>
    match ms.find? (fun m => m.1 == v) with
    | none => (W, ms)
    | some m => ((getTypeMut D W d m.2.1 m.2.2).2, (m.1, m.2.1, getSeen D W d m.2.1 m.2.2) :: ms.eraseP (fun m => m.1 == v))
  | .get d q => ((getType D W d q).2, ms)
  | .other op => ((step D W op).2, ms)
  | .dropRes _ => (W, ms)

/-- What can be seen of one mutation. -/
def seenMut (m : Mut) : Nat × DomId × List Mix := (m.name, m.dom, m.vec.elems)

theorem seen_find (A : AWorld) (v : Nat) : (seenMuts A).find? (fun m => m.1 == v) = (A.mutOf v).map seenMut := by
  unfold seenMuts AWorld.mutOf
  rw [List.find?_map]
  rfl

theorem erase_found (v : Nat) : ∀ (ms : List Mut) (m : Mut), ms.find? (fun m => m.name == v) = some m →
    (ms.erase m).map seenMut = (ms.map seenMut).eraseP (fun m => m.1 == v)
  | [], m, h => by cases h
  | x :: ms, m, h => by
    rw [List.find?_cons] at h
    by_cases hx : (x.name == v) = true
    · rw [hx] at h
      obtain rfl := Option.some.inj h
      rw [List.erase_cons_head, List.map_cons, List.eraseP_cons_of_pos (by simpa [seenMut] using hx)]
    · have hx' : (x.name == v) = false := by simpa using hx
      rw [hx'] at h
      have hm := List.find?_some h
      have hne : ¬ (x == m) = true := by
        intro e
        rw [eq_of_beq e] at hx
        exact hx hm
      rw [List.erase_cons_tail hne, List.map_cons, List.map_cons, List.eraseP_cons_of_neg (by simpa [seenMut] using hx), erase_found v ms m h]

theorem seen_erase {A : AWorld} {v : Nat} {m : Mut} (h : A.mutOf v = some m) :
    (A.muts.erase m).map (fun m => (m.name, m.dom, m.vec.elems)) = (seenMuts A).eraseP (fun m => m.1 == v) := erase_found v A.muts m h

theorem stepA_seen {D : Decls} {A A1 : AWorld} {op : AOp} (h : AInv A []) (hc : CarefulA A op) (hn : Enough A.H) (he : stepA D A op = some A1) :
    (A1.W, seenMuts A1) = seenStep D A.W (seenMuts A) op := by
  cases op with
  | new v d r => obtain rfl := Option.some.inj he; rfl
  | edit v ms =>
    simp only [stepA, seenStep, seen_find] at he ⊢
    cases hv : A.mutOf v with
    | none => rw [hv] at he; obtain rfl := Option.some.inj he; rfl
    | some m =>
      rw [hv] at he
      have hm := mutOf_mem hv
      have hf := (h.take hm).front
      simp only [List.append_nil] at hf
      obtain ⟨H1, x, b, e1, o1, r1, l1, -, d1, y1⟩ := vAssign_owns ms hf (h.mutsAlive m hm)
      have l1 := l1 (y1 hn)
      simp only [e1] at he
      obtain rfl := Option.some.inj he
      simp only [Option.map_some, seenMut, ← seen_erase hv]
      simp [seenMuts, AWorld.setVec, l1]
  | copy v w =>
    simp only [stepA, seenStep, seen_find] at he ⊢
    cases hv : A.mutOf v with
    | none => rw [hv] at he; obtain rfl := Option.some.inj he; rfl
    | some m =>
      rw [hv] at he
      have hf := h.front
      obtain ⟨H1, x, b, e1, o1, r1, l1, -, d1, y1⟩ := vAssign_owns (v := { res := defaultRes }) m.vec.elems (L := blocksOfKeys A.keys ++ blocksOfMuts A.muts) (by simpa [blockOf] using hf) h.defAlive
      obtain rfl := y1 hn
      have l1 := l1 rfl
      simp only [vCopy, e1] at he
      obtain rfl := Option.some.inj he
      simp [seenMuts, l1, seenMut]
  | move v w =>
    simp only [stepA, seenStep, seen_find] at he ⊢
    cases hv : A.mutOf v with
    | none => rw [hv] at he; obtain rfl := Option.some.inj he; rfl
    | some m =>
      rw [hv] at he
      obtain rfl := Option.some.inj he
      simp only [Option.map_some, seenMut, ← seen_erase hv]
      simp [seenMuts, AWorld.setVec, vMoved]
  | drop v =>
    simp only [stepA, seenStep, seen_find] at he ⊢
    cases hv : A.mutOf v with
    | none => rw [hv] at he; obtain rfl := Option.some.inj he; rfl
    | some m =>
      rw [hv] at he
      simp only at he
      split at he
      · cases he
      · obtain rfl := Option.some.inj he
        simp only [Option.map_some, ← seen_erase hv]
        rfl
  | getMut d v =>
    simp only [stepA, seenStep, seen_find] at he ⊢
    cases hv : A.mutOf v with
    | none => rw [hv] at he; obtain rfl := Option.some.inj he; rfl
    | some m =>
      rw [hv] at he
      have hm := mutOf_mem hv
      obtain ⟨A2, x, r, e1, i1, w1, -, o1, m1, d1, s1, y1⟩ := getTypeMutA_inv (D := D) (d := d) (md := m.dom) (h.take hm) (h.mutsAlive m hm)
      obtain ⟨-, w1, n1⟩ := w1 (y1 hn)
      simp only [e1] at he
      obtain rfl := Option.some.inj he
      simp only at w1 m1 n1
      simp only [Option.map_some, seenMut, ← seen_erase hv, ← w1]
      simp [seenMuts, m1, n1]
  | get d q =>
    obtain ⟨A2, r, e1, i1, w1, -, o1, m1, d1, y1⟩ := getTypeA_inv (D := D) (d := d) (q := q) h
    obtain ⟨-, w1⟩ := w1 (y1 hn)
    simp only [stepA, e1, Option.map_some] at he
    obtain rfl := Option.some.inj he
    simp only [seenStep, ← w1, seenMuts, m1]
  | other op =>
    obtain ⟨A2, e1, i1, w1, o1, m1, d1⟩ := otherA_inv (D := D) h hc
    obtain rfl := Option.some.inj ((show otherA D A op = some A1 from he).symm.trans e1)
    simp only [seenStep, w1, seenMuts, m1]
  | dropRes r => obtain rfl := Option.some.inj he; rfl

/-- The effects of a program. -/
def seenRun (D : Decls) : World × List (Nat × DomId × List Mix) → List AOp → World × List (Nat × DomId × List Mix)
  | s, [] => s
  | s, op :: ops => seenRun D (seenStep D s.1 s.2 op) ops

theorem runA_seen {D : Decls} : ∀ (ops : List AOp) {A A1 : AWorld}, AInv A [] → CarefulRun D A ops → Enough A.H → runA D A ops = some A1 →
    (A1.W, seenMuts A1) = seenRun D (A.W, seenMuts A) ops
  | [], A, A1, _, _, _, he => by obtain rfl := Option.some.inj he; rfl
  | op :: ops, A, A1, h, hc, hn, he => by
    obtain ⟨A2, e2, i2, o2, f2⟩ := stepA_inv (D := D) h hc.1
    simp only [runA, e2] at he
    rw [runA_seen ops i2 (hc.2 A2 e2) (fun n => by rw [f2]; exact hn n) he, stepA_seen h hc.1 hn e2]
    rfl

theorem seenRun_without (D : Decls) : ∀ (ops : List AOp) (s : World × List (Nat × DomId × List Mix)), seenRun D s ops = seenRun D s (withoutAllocators ops)
  | [], _ => rfl
  | op :: ops, s => by
    have ih := seenRun_without D ops
    simp only [withoutAllocators] at ih ⊢
    cases op <;> simp only [List.filterMap_cons, seenRun] <;> exact ih _

theorem runA_unseen {D : Decls} {ops ops' : List AOp} {A A' A1 A1' : AWorld} (hs : SameCalls ops ops') (h : AInv A []) (h' : AInv A' []) (hc : CarefulRun D A ops)
    (hc' : CarefulRun D A' ops') (hn : Enough A.H) (hn' : Enough A'.H) (hW : A.W = A'.W) (hm : seenMuts A = seenMuts A') (he : runA D A ops = some A1) (he' : runA D A' ops' = some A1') :
    A1.W = A1'.W ∧ seenMuts A1 = seenMuts A1' := by
  have e1 := runA_seen ops h hc hn he
  have e2 := runA_seen ops' h' hc' hn' he'
  rw [seenRun_without, hs, ← seenRun_without, hW, hm, ← e2] at e1
  exact Prod.mk.inj e1

end Dnmx
