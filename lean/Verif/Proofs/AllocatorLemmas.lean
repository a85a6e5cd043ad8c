import Verif.Spec.Allocators

/-!
# Lemmas about vectors and their memory resources
-/

namespace Dnmx
open Spec

/-- The blocks in use are these, and all resources that they are from exist. -/
def Owns (H : VHeap) (bs : List (Nat × MemRes)) : Prop := H.live.Perm bs ∧ ∀ b ∈ bs, b.2 ∉ H.dead

theorem Owns.perm {H : VHeap} {bs cs : List (Nat × MemRes)} (h : Owns H bs) (hp : bs.Perm cs) : Owns H cs :=
  ⟨h.1.trans hp, fun b hb => h.2 b (hp.mem_iff.mpr hb)⟩

/-- The resources that are gone are the same, and the allocations that fail. -/
def KeptA (H1 H : VHeap) : Prop := H1.dead = H.dead ∧ H1.fails = H.fails

theorem KeptA.refl (H : VHeap) : KeptA H H := ⟨rfl, rfl⟩

theorem KeptA.trans {H2 H1 H : VHeap} (h : KeptA H2 H1) (h' : KeptA H1 H) : KeptA H2 H := ⟨h.1.trans h'.1, h.2.trans h'.2⟩

theorem KeptA.enough {H1 H : VHeap} (h : KeptA H1 H) (he : Enough H) : Enough H1 := fun n => by rw [h.2]; exact he n

theorem vDestroy_owns {H : VHeap} {v : Vec} {L : List (Nat × MemRes)} (h : Owns H (blockOf v ++ L)) :
    ∃ H1, vDestroy H v = some H1 ∧ Owns H1 L ∧ KeptA H1 H := by
  unfold vDestroy
  cases hb : v.buf with
  | none => exact ⟨H, rfl, by simpa [blockOf, hb] using h, KeptA.refl H⟩
  | some a =>
    simp only [blockOf, hb, List.cons_append, List.nil_append] at h
    have hm : (a, v.res) ∈ H.live := h.1.mem_iff.mpr (List.mem_cons_self ..)
    have hd : v.res ∉ H.dead := h.2 (a, v.res) (List.mem_cons_self ..)
    refine ⟨{ H with live := H.live.erase (a, v.res) }, by simp [hFree, hm, hd], ⟨?_, ?_⟩, rfl, rfl⟩
    · have := h.1.erase (a, v.res)
      simpa using this
    · exact fun b hb => h.2 b (List.mem_cons_of_mem _ hb)

theorem vAssign_owns {H : VHeap} {v : Vec} {L : List (Nat × MemRes)} (es : List Mix) (h : Owns H (blockOf v ++ L))
    (hr : v.res ∉ H.dead) :
    ∃ H1 v1 b, vAssign H v es = some (H1, v1, b) ∧ Owns H1 (blockOf v1 ++ L) ∧ v1.res = v.res ∧ (b = false → v1.elems = es) ∧
      (b = true → v1 = v) ∧ KeptA H1 H ∧ (Enough H → b = false) := by
  unfold vAssign
  by_cases hc : es.length ≤ v.cap
  · exact ⟨H, { v with elems := es }, false, by simp [hc], by simpa [blockOf] using h, rfl, fun _ => rfl, by simp, KeptA.refl H, fun _ => rfl⟩
  · by_cases hf : H.fails H.next = true
    · exact ⟨H.tick, v, true, by simp [hc, hAlloc, hr, hf], h, rfl, by simp, fun _ => rfl, ⟨rfl, rfl⟩, fun he => by rw [he] at hf; cases hf⟩
    · have o1' : Owns { H.tick with live := (H.next, v.res) :: H.live } (blockOf v ++ ((H.next, v.res) :: L)) := by
        refine Owns.perm (bs := (H.next, v.res) :: (blockOf v ++ L)) ⟨h.1.cons _, ?_⟩ List.perm_middle.symm
        intro b hb
        rcases List.mem_cons.mp hb with rfl | hb
        · exact hr
        · exact h.2 b hb
      obtain ⟨H2, e2, o2, d2⟩ := vDestroy_owns o1'
      exact ⟨H2, ⟨v.res, some H.next, es.length + H.extra H.next, es⟩, false, by simp [hc, hAlloc, hr, hf, e2], by simpa [blockOf] using o2, rfl, fun _ => rfl,
        by simp, d2.trans ⟨rfl, rfl⟩, fun _ => rfl⟩

/-- The mixins of a mutation after the rules were applied to it once. -/
def passSeen : List RuleFn → List Mix → List Mix
  | [], ms => ms
  | r :: rs, ms =>
    match r ms with
    | .error _ => ms
    | .ok ms' => passSeen rs ms'

theorem passSeen_ok : ∀ (rules : List RuleFn) (ms r : List Mix), applyPass rules ms = .ok r → passSeen rules ms = r
  | [], ms, r, h => by simpa [applyPass, passSeen] using h
  | f :: fs, ms, r, h => by
    simp only [applyPass, passSeen] at h ⊢
    cases hf : f ms with
    | error e => rw [hf] at h; cases h
    | ok ms' => rw [hf] at h; exact passSeen_ok fs ms' r h

/-- The mixins of a mutation after `apply_mutation_rules_l`. -/
def loopSeen (rules : List RuleFn) : (left : Nat) → (last nt : List Mix) → List Mix
  | left, last, nt =>
    match applyPass rules nt with
    | .error _ => passSeen rules nt
    | .ok nt' =>
      if last = nt' then nt'
      else
        match left with
        | 0 => nt'
        | left' + 1 => if maxDependencyDepth - left = rules.length then nt' else loopSeen rules left' nt' nt'

theorem passA_owns {L : List (Nat × MemRes)} : ∀ (rules : List RuleFn) {H : VHeap} {m : Vec}, Owns H (blockOf m ++ L) →
    m.res ∉ H.dead →
    ∃ H1 m1 r, passA rules H m = some (H1, m1, r) ∧ Owns H1 (blockOf m1 ++ L) ∧ m1.res = m.res ∧ KeptA H1 H ∧
      (r = .ok () → applyPass rules m.elems = .ok m1.elems) ∧ (∀ e, r = .error (.err e) → applyPass rules m.elems = .error e) ∧
      (r ≠ .error .badAlloc → m1.elems = passSeen rules m.elems) ∧ (Enough H → r ≠ .error .badAlloc)
  | [], H, m, h, _ => ⟨H, m, .ok (), rfl, h, rfl, KeptA.refl H, fun _ => rfl, by simp, fun _ => rfl, by simp⟩
  | r :: rs, H, m, h, hr => by
    simp only [passA, applyPass, passSeen]
    cases hm : r m.elems with
    | error e => exact ⟨H, m, .error (.err e), rfl, h, rfl, KeptA.refl H, by simp, by simp, fun _ => rfl, by simp⟩
    | ok ms =>
      obtain ⟨H1, m1, b, e1, o1, r1, l1, -, d1, y1⟩ := vAssign_owns ms h hr
      cases b with
      | true => exact ⟨H1, m1, .error .badAlloc, by simp [e1], o1, r1, d1, by simp, by simp, by simp, fun he => by simpa using y1 he⟩
      | false =>
        have l1 := l1 rfl
        obtain ⟨H2, m2, r2, e2, o2, s2, d2, k2, f2, n2, y2⟩ := passA_owns rs o1 (by rw [r1, d1.1]; exact hr)
        refine ⟨H2, m2, r2, by simp [e1, e2], o2, s2.trans r1, d2.trans d1, ?_, ?_, ?_, fun he => y2 (d1.enough he)⟩
        · rw [← l1]; exact k2
        · rw [← l1]; exact f2
        · rw [← l1]; exact n2

theorem destroy2_owns {H : VHeap} {last original : Vec} {L : List (Nat × MemRes)} (h : Owns H (blockOf last ++ (blockOf original ++ L))) :
    ∃ H1, destroy2 H last original = some H1 ∧ Owns H1 L ∧ KeptA H1 H := by
  obtain ⟨H1, e1, o1, d1⟩ := vDestroy_owns h
  obtain ⟨H2, e2, o2, d2⟩ := vDestroy_owns o1
  exact ⟨H2, by simp [destroy2, e1, e2], o2, d2.trans d1⟩

/-- What the rules give: a query in memory of the domain, or an error and no memory. -/
def RulesGive (H1 : VHeap) (own : MemRes) (L : List (Nat × MemRes)) (m1 : Vec) (want : Except Err (List Mix × List Mix)) :
    Except AFail Vec → Prop
  | .error .badAlloc => Owns H1 (blockOf m1 ++ L)
  | .error (.err e) => Owns H1 (blockOf m1 ++ L) ∧ want = .error e
  | .ok k => Owns H1 (blockOf k ++ (blockOf m1 ++ L)) ∧ k.res = own ∧ want = .ok (k.elems, m1.elems)

theorem rulesLoopA_owns (rules : List RuleFn) {own : MemRes} {L : List (Nat × MemRes)} : ∀ (left : Nat) {H : VHeap} {original last m : Vec},
    Owns H (blockOf last ++ (blockOf original ++ (blockOf m ++ L))) → original.res = own → last.res = own → own ∉ H.dead → m.res ∉ H.dead →
    ∃ H1 m1 r, rulesLoopA rules left H original last m = some (H1, m1, r) ∧ KeptA H1 H ∧ m1.res = m.res ∧
      (r ≠ .error .badAlloc → m1.elems = loopSeen rules left last.elems m.elems) ∧ (Enough H → r ≠ .error .badAlloc) ∧
      RulesGive H1 own L m1 (rulesLoop rules left original.elems last.elems m.elems).result r := by
  intro left
  induction left with
  | zero =>
    intro H original last m h ho hl hod hmd
    have h' : Owns H (blockOf m ++ (blockOf last ++ (blockOf original ++ L))) := h.perm (by
      refine List.Perm.trans ?_ (List.perm_append_comm_assoc ..)
      exact (List.perm_append_comm_assoc ..).append_left _)
    obtain ⟨H1, m1, r, e1, o1, s1, d1, k1, f1, n1, y1⟩ := passA_owns rules h' hmd
    have back : ∀ a b : Vec, Owns H1 (blockOf m1 ++ (blockOf a ++ (blockOf b ++ L))) → Owns H1 (blockOf a ++ (blockOf b ++ (blockOf m1 ++ L))) :=
      fun a b o => o.perm ((List.perm_append_comm_assoc ..).trans ((List.perm_append_comm_assoc ..).append_left _))
    obtain ⟨H2, e2, o2, d2⟩ := destroy2_owns (back _ _ o1)
    unfold rulesLoopA rulesLoop loopSeen
    cases r with
    | error e =>
      cases e with
      | badAlloc => exact ⟨H2, m1, .error .badAlloc, by simp [e1, e2], d2.trans d1, s1, by simp, fun he => (y1 he rfl).elim, o2⟩
      | err e => exact ⟨H2, m1, .error (.err e), by simp [e1, e2], d2.trans d1, s1, fun _ => by simp only [f1 e rfl]; exact n1 (by simp), by simp, o2, by simp [f1 e rfl]⟩
    | ok u =>
      have := k1 rfl
      by_cases hq : last.elems = m1.elems
      · obtain ⟨H3, e3, o3, d3⟩ := destroy2_owns (H := H1) (last := last) (original := (vMoved original).2) (L := blockOf original ++ (blockOf m1 ++ L)) (by
          simpa [vMoved, blockOf] using back _ _ o1)
        exact ⟨H3, m1, .ok original, by simp [e1, hq, maxDependencyDepth, e3, vMoved] at e3 ⊢; first | done | exact e3, d3.trans d1, s1, fun _ => by simp [this, hq], by simp, o3, ho, by
          simp [this, hq, maxDependencyDepth]⟩
      · exact ⟨H2, m1, .error (.err .cyclicRuleDeps), by simp [e1, e2, hq], d2.trans d1, s1, fun _ => by simp [this, hq], by simp, o2, by simp [this, hq]⟩
  | succ left ih =>
    intro H original last m h ho hl hod hmd
    have h' : Owns H (blockOf m ++ (blockOf last ++ (blockOf original ++ L))) := h.perm (by
      refine List.Perm.trans ?_ (List.perm_append_comm_assoc ..)
      exact (List.perm_append_comm_assoc ..).append_left _)
    obtain ⟨H1, m1, r, e1, o1, s1, d1, k1, f1, n1, y1⟩ := passA_owns rules h' hmd
    have back : ∀ a b : Vec, Owns H1 (blockOf m1 ++ (blockOf a ++ (blockOf b ++ L))) → Owns H1 (blockOf a ++ (blockOf b ++ (blockOf m1 ++ L))) :=
      fun a b o => o.perm ((List.perm_append_comm_assoc ..).trans ((List.perm_append_comm_assoc ..).append_left _))
    obtain ⟨H2, e2, o2, d2⟩ := destroy2_owns (back _ _ o1)
    unfold rulesLoopA rulesLoop loopSeen
    cases r with
    | error e =>
      cases e with
      | badAlloc => exact ⟨H2, m1, .error .badAlloc, by simp [e1, e2], d2.trans d1, s1, by simp, fun he => (y1 he rfl).elim, o2⟩
      | err e => exact ⟨H2, m1, .error (.err e), by simp [e1, e2], d2.trans d1, s1, fun _ => by simp only [f1 e rfl]; exact n1 (by simp), by simp, o2, by simp [f1 e rfl]⟩
    | ok u =>
      have hp := k1 rfl
      by_cases hq : last.elems = m1.elems
      · by_cases hi : maxDependencyDepth - (left + 1) = 0
        · obtain ⟨H3, e3, o3, d3⟩ := destroy2_owns (H := H1) (last := (vMoved last).2) (original := original) (L := blockOf last ++ (blockOf m1 ++ L)) (by
            have := (back _ _ o1).perm (List.perm_append_comm_assoc ..)
            simpa [vMoved, blockOf] using this)
          refine ⟨H3, m1, .ok last, ?_, d3.trans d1, s1, fun _ => by simp [hp, hq], by simp, o3, hl, ?_⟩
          · simp only [e1, hq, hi, if_true, e3]; simp [vMoved]
          · simp only [hp, hq, hi, if_true]
        · obtain ⟨H3, e3, o3, d3⟩ := destroy2_owns (H := H1) (last := last) (original := (vMoved original).2) (L := blockOf original ++ (blockOf m1 ++ L)) (by
            simpa [vMoved, blockOf] using back _ _ o1)
          refine ⟨H3, m1, .ok original, ?_, d3.trans d1, s1, fun _ => by simp [hp, hq], by simp, o3, ho, ?_⟩
          · simp only [e1, hq, hi, if_true, if_false, e3]; simp [vMoved]
          · simp only [hp, hq, hi, if_true, if_false]
      · by_cases hc : maxDependencyDepth - (left + 1) = rules.length
        · refine ⟨H2, m1, .error (.err .cyclicRuleDeps), ?_, d2.trans d1, s1, fun _ => by simp [hp, hq, hc], by simp, o2, ?_⟩
          · simp only [e1, hq, hc, if_true, if_false, e2]; simp
          · simp only [hp, hq, hc, if_true, if_false]
        · by_cases hi : maxDependencyDepth - (left + 1) = 0
          · have o3 : Owns H1 (blockOf original ++ (blockOf last ++ (blockOf m1 ++ L))) := (back _ _ o1).perm (List.perm_append_comm_assoc ..)
            obtain ⟨H4, last2, b, e4, o4, r4, l4, -, d4, y4⟩ := vAssign_owns m1.elems o3 (by rw [ho, d1.1]; exact hod)
            have hc' := hc
            simp only [hi] at hc'
            cases b with
            | true =>
              obtain ⟨H5, e5, o5, d5⟩ := destroy2_owns o4
              refine ⟨H5, m1, .error .badAlloc, ?_, d5.trans (d4.trans d1), s1, by simp, fun he => by simpa using y4 (d1.enough he), o5⟩
              simp only [e1, hq, hi, if_true, if_false, vSwap, ho, hl, hc', e4, e5, Option.map_some]
            | false =>
              have l4 := l4 rfl
              obtain ⟨H5, m5, r5, e5, d5, s5, n5, y5, g5⟩ := ih (original := last) (last := last2) (m := m1) o4 hl (r4.trans ho) (by rw [d4.1, d1.1]; exact hod)
                (by rw [s1, d4.1, d1.1]; exact hmd)
              refine ⟨H5, m5, r5, ?_, d5.trans (d4.trans d1), s5.trans s1, fun hne => by rw [n5 hne, l4]; simp [hp, hq, hc],
                fun he => y5 (d4.enough (d1.enough he)), ?_⟩
              · simp only [e1, hq, hi, if_true, if_false, vSwap, ho, hl, hc', e4, e5]
              · simp only [hp, hq, hc, if_false]
                rw [l4] at g5
                simpa [hi] using g5
          · obtain ⟨H4, last2, b, e4, o4, r4, l4, -, d4, y4⟩ := vAssign_owns m1.elems (back _ _ o1) (by rw [hl, d1.1]; exact hod)
            cases b with
            | true =>
              obtain ⟨H5, e5, o5, d5⟩ := destroy2_owns o4
              refine ⟨H5, m1, .error .badAlloc, ?_, d5.trans (d4.trans d1), s1, by simp, fun he => by simpa using y4 (d1.enough he), o5⟩
              simp only [e1, hq, hc, hi, if_false, e4, e5, Option.map_some]
            | false =>
              have l4 := l4 rfl
              obtain ⟨H5, m5, r5, e5, d5, s5, n5, y5, g5⟩ := ih (original := original) (last := last2) (m := m1) o4 ho (r4.trans hl) (by rw [d4.1, d1.1]; exact hod)
                (by rw [s1, d4.1, d1.1]; exact hmd)
              refine ⟨H5, m5, r5, ?_, d5.trans (d4.trans d1), s5.trans s1, fun hne => by rw [n5 hne, l4]; simp [hp, hq, hc],
                fun he => y5 (d4.enough (d1.enough he)), ?_⟩
              · simp only [e1, hq, hc, hi, if_false, e4, e5]
              · simp only [hp, hq, hc, if_false, hi]
                rw [l4] at g5
                exact g5

theorem applyRulesA_owns (D : Decls) (rules : List RuleFn) {own : MemRes} {L : List (Nat × MemRes)} {H : VHeap} {m : Vec}
    (h : Owns H (blockOf m ++ L)) (ho : own ∉ H.dead) (hm : m.res ∉ H.dead) :
    ∃ H1 m1 r, applyRulesA D own rules H m = some (H1, m1, r) ∧ KeptA H1 H ∧ m1.res = m.res ∧
      (r ≠ .error .badAlloc → m1.elems = loopSeen rules maxDependencyDepth m.elems (m.elems.filter (fun x => !(D.mix x).dependency))) ∧
      (Enough H → r ≠ .error .badAlloc) ∧
      RulesGive H1 own L m1 (applyMutationRules D rules m.elems).result r := by
  unfold applyRulesA applyMutationRules
  obtain ⟨H1, last, b, e1, o1, r1, l1, f1, d1, y1⟩ := vAssign_owns (v := { res := own }) (L := blockOf m ++ L) m.elems (by simpa [blockOf] using h) ho
  cases b with
  | true =>
    obtain ⟨H2, e2, o2, d2⟩ := destroy2_owns (H := H1) (last := last) (original := { res := own }) (L := blockOf m ++ L) (by simpa [blockOf] using o1)
    exact ⟨H2, m, .error .badAlloc, by simp only [e1, e2, Option.map_some], d2.trans d1, rfl, by simp, fun he => by simpa using y1 he, o2⟩
  | false =>
    have l1 := l1 rfl
    obtain ⟨H2, m2, r2, e2, d2, s2, n2, y2, g2⟩ := rulesLoopA_owns rules (own := own) (L := L) maxDependencyDepth (H := H1) (original := { res := own }) (last := last)
      (m := { m with elems := m.elems.filter (fun x => !(D.mix x).dependency) }) (by simpa [blockOf] using o1) rfl r1 (by rw [d1.1]; exact ho)
      (by rw [d1.1]; exact hm)
    refine ⟨H2, m2, r2, by simp only [e1, e2], d2.trans d1, s2, fun hne => by rw [n2 hne, l1], fun he => y2 (d1.enough he), ?_⟩
    rw [l1] at g2
    exact g2

end Dnmx
