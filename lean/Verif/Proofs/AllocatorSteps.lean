import Verif.Proofs.AllocatorRuns

/-!
# Lemmas about the steps of programs with memory resources
-/

namespace Dnmx
open Spec

theorem filterTrue {α : Type} (l : List α) : l = l.filter (fun _ => true) := (List.filter_eq_self.mpr fun _ _ => rfl).symm

/-- The queries of all domains are among the old ones, in the old order. -/
def QueriesKept (W W' : World) : Prop := ∀ d, ∃ p : List Mix × TypeId → Bool, (W'.doms d).queries = (W.doms d).queries.filter p

theorem QueriesKept.of_eq {W W' : World} (h : ∀ d, (W'.doms d).queries = (W.doms d).queries) : QueriesKept W W' :=
  fun d => ⟨fun _ => true, (h d).trans (filterTrue _)⟩

theorem QueriesKept.set {W W' : World} (d : DomId) (x : Dom) (p : List Mix × TypeId → Bool) (hW : W'.doms = (W.setDom d x).doms)
    (hx : x.queries = (W.doms d).queries.filter p) : QueriesKept W W' := by
  intro d'
  rw [hW]
  by_cases h : d' = d
  · subst h; exact ⟨p, by simpa [World.setDom, upd] using hx⟩
  · exact ⟨fun _ => true, by simpa [World.setDom, upd, h] using filterTrue (W.doms d').queries⟩

theorem QueriesKept.setSame {W W' : World} (d : DomId) (x : Dom) (hW : W'.doms = (W.setDom d x).doms)
    (hx : x.queries = (W.doms d).queries) : QueriesKept W W' := .set d x (fun _ => true) hW (hx.trans (filterTrue _))

theorem registerFeature_keeps (D : Decls) (W : World) (d : DomId) (f : Feat) (d' : DomId) :
    ((registerFeature D W d f).2.doms d').queries = (W.doms d').queries := by
  unfold registerFeature
  split
  · rfl
  · by_cases h : d' = d <;> simp [World.setDom, upd, h]

theorem registerFeatures_keeps (D : Decls) (d : DomId) (d' : DomId) : ∀ (fs : List Feat) (W : World),
    ((registerFeatures D W d fs).2.doms d').queries = (W.doms d').queries
  | [], W => rfl
  | f :: fs, W => by
    unfold registerFeatures
    split
    · exact registerFeatures_keeps D d d' fs W
    · have h := registerFeature_keeps D W d f d'
      split
      · rename_i hf; rw [hf] at h; exact h
      · rename_i hf; rw [hf] at h; exact (registerFeatures_keeps D d d' fs _).trans h

theorem purgeQueries_filter (x : Dom) (d : DomId) (id : Option Nat) (m : Mix) : ∀ (qs r : List (List Mix × TypeId)),
    purgeQueries x d id m qs = some r → r = qs.filter (fun q => !((queryHas x d id q).getD false || q.1.contains m))
  | [], r, h => by simpa [purgeQueries] using h.symm
  | q :: qs, r, h => by
    unfold purgeQueries at h
    cases h1 : queryHas x d id q with
    | none => simp [h1] at h
    | some b =>
      cases h2 : purgeQueries x d id m qs with
      | none => simp [h1, h2] at h
      | some rest =>
        simp only [h1, h2, Option.some.injEq] at h
        have ih := purgeQueries_filter x d id m qs rest h2
        subst h
        rw [List.filter_cons, ← ih]
        by_cases hb : (b || q.1.contains m) = true
        · simp only [h1, Option.getD_some, hb, if_true]; rfl
        · have hb' : (b || q.1.contains m) = false := by simpa using hb
          simp only [h1, Option.getD_some, hb']; rfl

theorem collectTypes_filter (num : TypeId → Nat) : ∀ (ts : List TypeRec) (qs : List (List Mix × TypeId)),
    ∃ p : List Mix × TypeId → Bool, (collectTypes num ts qs).2 = qs.filter p
  | [], qs => ⟨fun _ => true, by simpa [collectTypes] using filterTrue qs⟩
  | t :: ts, qs => by
    unfold collectTypes
    split
    · exact collectTypes_filter num ts qs
    · obtain ⟨p, h⟩ := collectTypes_filter num ts (qs.filter (fun e => e.2 != t.tid))
      exact ⟨_, by rw [h, List.filter_filter]⟩

theorem step_queriesKept (D : Decls) (W : World) (op : Op) (h : notGetType op) : QueriesKept W (step D W op).2 := by
  cases op with
  | regFeature d f => exact .of_eq (registerFeature_keeps D W d f)
  | unregFeature d f =>
    simp only [step, unregisterFeature]
    split
    · exact .of_eq fun _ => rfl
    · exact .setSame d _ rfl rfl
  | regMixin d m =>
    simp only [step, registerMixin]
    split
    · exact .of_eq fun _ => rfl
    · have hf := fun d' => registerFeatures_keeps D d d' ((D.mix m).feats.map (·.feat)) W
      split
      · rename_i hr; rw [hr] at hf; exact .of_eq hf
      · rename_i W' hr
        rw [hr] at hf
        split
        · exact .of_eq hf
        · refine .of_eq fun d' => (Eq.trans ?_ (hf d'))
          by_cases h : d' = d <;> simp [World.setDom, upd, h]
  | unregMixin d m =>
    simp only [step, unregisterMixin]
    split
    · exact .of_eq fun _ => rfl
    · rename_i qs hq
      have hf := purgeQueries_filter _ _ _ _ _ _ hq
      split
      · exact .set d _ _ rfl hf
      · exact .set d _ _ rfl hf
  | regClass d c =>
    simp only [step, registerTypeClass]
    repeat' split
    all_goals first | exact .of_eq fun _ => rfl | exact .setSame d _ rfl rfl
  | unregClass d c =>
    simp only [step, unregisterTypeClass]
    exact .setSame d _ rfl rfl
  | addRule d r =>
    simp only [step, addRule]
    repeat' split
    all_goals first | exact .of_eq fun _ => rfl | exact .setSame d _ rfl rfl | exact .set d _ (fun _ => false) rfl (by simp)
  | removeRule d r =>
    simp only [step, removeRule]
    repeat' split
    all_goals first | exact .of_eq fun _ => rfl | exact .setSame d _ rfl rfl | exact .set d _ (fun _ => false) rfl (by simp)
  | getTypeMut d md q => exact h.elim
  | getType d q => exact h.elim
  | gc d num =>
    simp only [step, garbageCollect]
    obtain ⟨p, hp⟩ := collectTypes_filter num (W.doms d).types (W.doms d).queries
    exact .set d _ p rfl hp

theorem destroyKeys_owns {L : List (Nat × MemRes)} : ∀ (ks : List Key) {H : VHeap}, Owns H (blocksOfKeys ks ++ L) →
    ∃ H1, destroyKeys H ks = some H1 ∧ Owns H1 L ∧ KeptA H1 H
  | [], H, h => ⟨H, rfl, h, KeptA.refl H⟩
  | k :: ks, H, h => by
    have h' : Owns H (blockOf k.vec ++ (blocksOfKeys ks ++ L)) := by simpa [blocksOfKeys] using h
    obtain ⟨H1, e1, o1, d1⟩ := vDestroy_owns h'
    obtain ⟨H2, e2, o2, d2⟩ := destroyKeys_owns ks o1
    exact ⟨H2, by simp [destroyKeys, e1, e2], o2, d2.trans d1⟩

theorem destroyMuts_owns {L : List (Nat × MemRes)} : ∀ (ms : List Mut) {H : VHeap}, Owns H (blocksOfMuts ms ++ L) →
    ∃ H1, destroyMuts H ms = some H1 ∧ Owns H1 L ∧ KeptA H1 H
  | [], H, h => ⟨H, rfl, h, KeptA.refl H⟩
  | m :: ms, H, h => by
    have h' : Owns H (blockOf m.vec ++ (blocksOfMuts ms ++ L)) := by simpa [blocksOfMuts] using h
    obtain ⟨H1, e1, o1, d1⟩ := vDestroy_owns h'
    obtain ⟨H2, e2, o2, d2⟩ := destroyMuts_owns ms o1
    exact ⟨H2, by simp [destroyMuts, e1, e2], o2, d2.trans d1⟩

theorem keysSplit (p : Key → Bool) : ∀ ks : List Key,
    (blocksOfKeys ks).Perm (blocksOfKeys (ks.filter (fun k => !p k)) ++ blocksOfKeys (ks.filter p))
  | [] => by simp [blocksOfKeys]
  | k :: ks => by
    have ih := keysSplit p ks
    simp only [blocksOfKeys] at ih ⊢
    by_cases h : p k = true
    · simp only [List.flatMap_cons, List.filter_cons, h, if_true, Bool.not_true]
      exact (ih.append_left _).trans (List.perm_append_comm_assoc ..)
    · have h' : p k = false := by simpa using h
      simp only [List.flatMap_cons, List.filter_cons, h', Bool.not_false, if_true, List.append_assoc]
      exact ih.append_left _

theorem otherA_inv {D : Decls} {A : AWorld} {op : Op} (h : AInv A []) (ho : notGetType op) :
    ∃ A1, otherA D A op = some A1 ∧ AInv A1 [] ∧ A1.W = (step D A.W op).2 ∧ A1.own = A.own ∧ A1.muts = A.muts ∧ KeptA A1.H A.H := by
  unfold otherA
  have hk := step_queriesKept D A.W op ho
  generalize (step D A.W op).2 = W' at hk
  have o1 : Owns A.H (blocksOfKeys (A.keys.filter (fun k => !k.kept W')) ++ (blocksOfKeys (A.keys.filter (fun k => k.kept W')) ++ (blocksOfMuts A.muts ++ []))) :=
    h.owns.perm (by
      rw [← List.append_assoc (blocksOfKeys (A.keys.filter (fun k => !k.kept W')))]
      exact (keysSplit (fun k => k.kept W') A.keys).append_right _)
  obtain ⟨H1, e1, o1, d1⟩ := destroyKeys_owns _ o1
  refine ⟨{ A with W := W', keys := A.keys.filter (fun k => k.kept W'), H := H1 }, by simp only [e1], ⟨o1, ?_, ?_, ?_, ?_, ?_⟩, rfl, rfl, rfl, d1⟩
  · exact fun k hk => h.keysOwn k (List.mem_filter.mp hk).1
  · exact fun d => d1.1 ▸ h.domsAlive d
  · exact d1.1 ▸ h.defAlive
  · exact fun m hm => d1.1 ▸ h.mutsAlive m hm
  · intro d
    obtain ⟨p, hp⟩ := hk d
    have hq := h.queries d
    simp only [plainKeys] at hq ⊢
    have : (A.keys.filter (fun k => k.kept W')).filter (fun k => k.dom == d) =
        (A.keys.filter (fun k => k.dom == d)).filter (fun k => p (k.vec.elems, k.tid)) := by
      rw [List.filter_filter, List.filter_filter]
      refine List.filter_congr fun k hk => ?_
      by_cases hd : k.dom = d
      · subst hd
        have hm : (k.vec.elems, k.tid) ∈ (A.W.doms k.dom).queries := by
          rw [← hq]
          exact List.mem_map.mpr ⟨k, by simp [hk], rfl⟩
        simp [Key.kept, hp, hm]
      · have : (k.dom == d) = false := by simpa using hd
        simp [this]
    rw [this, hp, ← hq, List.filter_map]
    rfl

theorem mutOf_mem {A : AWorld} {v : Nat} {m : Mut} (h : A.mutOf v = some m) : m ∈ A.muts := List.mem_of_find?_eq_some h

theorem muts_perm {ms : List Mut} {m : Mut} (h : m ∈ ms) : (blocksOfMuts ms).Perm (blockOf m.vec ++ blocksOfMuts (ms.erase m)) := by
  have := (List.perm_cons_erase h).flatMap_right (fun m => blockOf m.vec)
  simpa [blocksOfMuts] using this

/-- A mutation is taken out, with its block. -/
theorem AInv.take {A : AWorld} {m : Mut} (h : AInv A []) (hm : m ∈ A.muts) : AInv { A with muts := A.muts.erase m } (blockOf m.vec ++ []) := by
  refine ⟨h.owns.perm (List.Perm.append_left _ ?_), h.keysOwn, h.domsAlive, h.defAlive, fun x hx => h.mutsAlive x (List.mem_of_mem_erase hx), h.queries⟩
  simp only [List.append_nil]
  exact (muts_perm hm).trans List.perm_append_comm

/-- A mutation is put in. -/
theorem AInv.put {A : AWorld} {m : Mut} {L : List (Nat × MemRes)} (h : AInv A (blockOf m.vec ++ L)) (hm : m.vec.res ∉ A.H.dead) : AInv { A with muts := m :: A.muts } L := by
  refine ⟨h.owns.perm (List.Perm.append_left _ ?_), h.keysOwn, h.domsAlive, h.defAlive, ?_, h.queries⟩
  · simp only [blocksOfMuts, List.flatMap_cons, List.append_assoc]
    exact List.perm_append_comm_assoc ..
  · intro x hx
    rcases List.mem_cons.mp hx with rfl | hx
    · exact hm
    · exact h.mutsAlive x hx

theorem stepA_inv {D : Decls} {A : AWorld} {op : AOp} (h : AInv A []) (hc : CarefulA A op) :
    ∃ A1, stepA D A op = some A1 ∧ AInv A1 [] ∧ A1.own = A.own ∧ A1.H.fails = A.H.fails := by
  cases op with
  | new v d r => exact ⟨_, rfl, AInv.put (m := ⟨v, d, { res := r }⟩) (by simpa [blockOf] using h) hc, rfl, rfl⟩
  | edit v ms =>
    simp only [stepA]
    cases hv : A.mutOf v with
    | none => exact ⟨A, rfl, h, rfl, rfl⟩
    | some m =>
      have hm := mutOf_mem hv
      have ht := h.take hm
      have hf := ht.front
      simp only [List.append_nil] at hf
      obtain ⟨H1, x, b, e1, o1, r1, l1, -, d1, -⟩ := vAssign_owns ms hf (h.mutsAlive m hm)
      refine ⟨{ A with H := H1, muts := A.setVec m x }, by simp only [e1], ?_, rfl, d1.2⟩
      have := ht.mem (L' := blockOf x) d1 o1
      exact AInv.put (m := { m with vec := x }) (L := []) (by simpa using this) (by simp only [r1, d1.1]; exact h.mutsAlive m hm)
  | copy v w =>
    simp only [stepA]
    cases hv : A.mutOf v with
    | none => exact ⟨A, rfl, h, rfl, rfl⟩
    | some m =>
      have hf := h.front
      obtain ⟨H1, x, b, e1, o1, r1, l1, -, d1, -⟩ := vAssign_owns (v := { res := defaultRes }) m.vec.elems (L := blocksOfKeys A.keys ++ blocksOfMuts A.muts) (by simpa [blockOf] using hf) h.defAlive
      cases b with
      | true =>
        obtain ⟨H2, e2, o2, d2⟩ := vDestroy_owns o1
        exact ⟨{ A with H := H2 }, by simp only [vCopy, e1, e2], h.mem (L' := []) (d2.trans d1) (by simpa using o2), rfl, (d2.trans d1).2⟩
      | false =>
        refine ⟨{ A with H := H1, muts := ⟨w, m.dom, x⟩ :: A.muts }, by simp only [vCopy, e1], ?_, rfl, d1.2⟩
        have := h.mem (L' := blockOf x) d1 o1
        exact AInv.put (m := ⟨w, m.dom, x⟩) (L := []) (by simpa using this) (by simp only [r1, d1.1]; exact h.defAlive)
  | move v w =>
    simp only [stepA]
    cases hv : A.mutOf v with
    | none => exact ⟨A, rfl, h, rfl, rfl⟩
    | some m =>
      have hm := mutOf_mem hv
      have ht := h.take hm
      have h1 := AInv.put (A := { A with muts := A.muts.erase m }) (m := { m with vec := { res := m.vec.res } }) (L := blockOf m.vec ++ []) (by simpa [blockOf] using ht) (h.mutsAlive m hm)
      exact ⟨_, rfl, AInv.put (m := ⟨w, m.dom, m.vec⟩) (L := []) h1 (h.mutsAlive m hm), rfl, rfl⟩
  | drop v =>
    simp only [stepA]
    cases hv : A.mutOf v with
    | none => exact ⟨A, rfl, h, rfl, rfl⟩
    | some m =>
      have hm := mutOf_mem hv
      have ht := h.take hm
      have hf := ht.front
      simp only [List.append_nil] at hf
      obtain ⟨H1, e1, o1, d1⟩ := vDestroy_owns hf
      exact ⟨{ A with H := H1, muts := A.muts.erase m }, by simp only [e1], ht.mem (L' := []) d1 (by simpa using o1), rfl, d1.2⟩
  | getMut d v =>
    simp only [stepA]
    cases hv : A.mutOf v with
    | none => exact ⟨A, rfl, h, rfl, rfl⟩
    | some m =>
      have hm := mutOf_mem hv
      obtain ⟨A1, x, r, e1, i1, w1, b1, o1, m1, d1, s1, -⟩ := getTypeMutA_inv (D := D) (d := d) (md := m.dom) (h.take hm) (h.mutsAlive m hm)
      refine ⟨{ A1 with muts := { m with vec := x } :: A1.muts }, by simp only [e1], ?_, o1, d1.2⟩
      exact AInv.put (m := { m with vec := x }) (L := []) i1 (by simp only [s1, d1.1]; exact h.mutsAlive m hm)
  | get d q =>
    obtain ⟨A1, r, e1, i1, w1, b1, o1, m1, d1, -⟩ := getTypeA_inv (D := D) (d := d) (q := q) h
    exact ⟨A1, by simp [stepA, e1], i1, o1, d1.2⟩
  | other op =>
    obtain ⟨A1, e1, i1, w1, o1, m1, d1⟩ := otherA_inv (D := D) h hc
    exact ⟨A1, e1, i1, o1, d1.2⟩
  | dropRes r =>
    obtain ⟨h1, h2, h3⟩ := hc
    refine ⟨_, rfl, ⟨⟨h.owns.1, ?_⟩, h.keysOwn, ?_, ?_, ?_, h.queries⟩, rfl, rfl⟩
    · intro b hb hd
      rcases List.mem_cons.mp hd with hd | hd
      · have blk : ∀ v : Vec, b ∈ blockOf v → b.2 = v.res := by
          intro v hv
          unfold blockOf at hv
          split at hv
          · cases hv
          · rw [List.mem_singleton.mp hv]
        simp only [List.append_nil, List.mem_append, blocksOfKeys, blocksOfMuts, List.mem_flatMap] at hb
        rcases hb with ⟨k, hk, hb⟩ | ⟨m, hm, hb⟩
        · exact h2 k.dom ((h.keysOwn k hk).symm.trans ((blk _ hb).symm.trans hd))
        · exact h3 m hm ((blk _ hb).symm.trans hd)
      · exact h.owns.2 b hb hd
    · intro d hd
      rcases List.mem_cons.mp hd with hd | hd
      · exact h2 d hd
      · exact h.domsAlive d hd
    · intro hd
      rcases List.mem_cons.mp hd with hd | hd
      · exact h1 hd.symm
      · exact h.defAlive hd
    · intro m hm hd
      rcases List.mem_cons.mp hd with hd | hd
      · exact h3 m hm hd
      · exact h.mutsAlive m hm hd

theorem runA_inv {D : Decls} : ∀ (ops : List AOp) {A : AWorld}, AInv A [] → CarefulRun D A ops →
    ∃ A1, runA D A ops = some A1 ∧ AInv A1 [] ∧ A1.own = A.own ∧ A1.H.fails = A.H.fails
  | [], A, h, _ => ⟨A, rfl, h, rfl, rfl⟩
  | op :: ops, A, h, hc => by
    obtain ⟨A1, e1, i1, o1, f1⟩ := stepA_inv (D := D) h hc.1
    obtain ⟨A2, e2, i2, o2, f2⟩ := runA_inv ops i1 (hc.2 A1 e1)
    exact ⟨A2, by simp [runA, e1, e2], i2, o2.trans o1, f2.trans f1⟩

theorem initA_inv (s : DomId → Settings) (own : DomId → MemRes) (extra : Nat → Nat) (fails : Nat → Bool) : AInv (initA s own extra fails) [] :=
  ⟨⟨List.Perm.refl _, by simp [initA, blocksOfKeys, blocksOfMuts]⟩, by simp [initA], by simp [initA], by simp [initA], by simp [initA],
    fun d => by simp [initA, initWorld, newDom, plainKeys]⟩

end Dnmx
