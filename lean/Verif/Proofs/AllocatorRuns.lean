import Verif.Proofs.AllocatorLemmas

/-!
# Lemmas about programs with memory resources
-/

namespace Dnmx
open Spec

/-- What holds at any time, with further blocks `L`. -/
structure AInv (A : AWorld) (L : List (Nat × MemRes)) : Prop where
  owns : Owns A.H (blocksOfKeys A.keys ++ (blocksOfMuts A.muts ++ L))
  keysOwn : ∀ k ∈ A.keys, k.vec.res = A.own k.dom
  domsAlive : ∀ d, A.own d ∉ A.H.dead
  defAlive : defaultRes ∉ A.H.dead
  mutsAlive : ∀ m ∈ A.muts, m.vec.res ∉ A.H.dead
  queries : ∀ d, plainKeys d A.keys = (A.W.doms d).queries

theorem findKey (d : DomId) (q : List Mix) (ks : List Key) :
    findQuery q (plainKeys d ks) = (ks.find? (fun k => k.dom == d && k.vec.elems == q)).map (·.tid) := by
  simp only [findQuery, plainKeys, List.find?_map, List.find?_filter, Option.map_map]
  congr 1
  congr 1
  funext a
  by_cases h1 : a.dom = d <;> by_cases h2 : a.vec.elems = q <;> simp [h1, h2]

theorem storeKey_plain (d : DomId) (q : Vec) (t : TypeId) : ∀ ks : List Key,
    plainKeys d (storeKey d q t ks).1 = storeQuery q.elems t (plainKeys d ks)
  | [] => by simp [storeKey, plainKeys, storeQuery, vMoved]
  | k :: ks => by
    have ih := storeKey_plain d q t ks
    simp only [plainKeys] at ih
    by_cases hd : k.dom = d
    · by_cases hq : k.vec.elems = q.elems
      · simp [storeKey, plainKeys, storeQuery, hd, hq]
      · simp [storeKey, plainKeys, storeQuery, hd, hq, ih]
    · have : (k.dom == d) = false := by simpa using hd
      simp [storeKey, plainKeys, hd, List.filter_cons, ih]

theorem storeKey_other (d d' : DomId) (q : Vec) (t : TypeId) (hd' : d' ≠ d) : ∀ ks : List Key,
    plainKeys d' (storeKey d q t ks).1 = plainKeys d' ks
  | [] => by simp [storeKey, plainKeys, Ne.symm hd']
  | k :: ks => by
    have ih := storeKey_other d d' q t hd' ks
    simp only [plainKeys] at ih
    by_cases hk : k.dom = d ∧ k.vec.elems = q.elems
    · have : ¬ d = d' := Ne.symm hd'
      simp [storeKey, plainKeys, hk, List.filter_cons, this]
    · by_cases hx : k.dom = d'
      · simp [storeKey, plainKeys, hk, List.filter_cons, hx, ih]
        have h2 : ¬ (d' = d ∧ k.vec.elems = q.elems) := fun h => hd' h.1
        simp [h2, hx, ih]
      · simp [storeKey, plainKeys, hk, List.filter_cons, hx, ih]

theorem storeKey_blocks (d : DomId) (q : Vec) (t : TypeId) : ∀ ks : List Key,
    (blocksOfKeys (storeKey d q t ks).1 ++ blockOf (storeKey d q t ks).2).Perm (blocksOfKeys ks ++ blockOf q)
  | [] => by simp [storeKey, blocksOfKeys, vMoved, blockOf]
  | k :: ks => by
    have ih := storeKey_blocks d q t ks
    by_cases hk : k.dom = d ∧ k.vec.elems = q.elems
    · simp [storeKey, hk, blocksOfKeys]
    · simp only [storeKey, hk, if_false, blocksOfKeys, List.flatMap_cons, List.append_assoc] at ih ⊢
      exact ih.append_left _

theorem storeKey_mem (d : DomId) (q : Vec) (t : TypeId) : ∀ (ks : List Key) (k : Key), k ∈ (storeKey d q t ks).1 →
    (∃ k' ∈ ks, k'.dom = k.dom ∧ k'.vec = k.vec) ∨ (k.dom = d ∧ k.vec = q)
  | [], k, h => by
    simp only [storeKey, vMoved, List.mem_singleton] at h
    subst h
    exact .inr ⟨rfl, rfl⟩
  | k0 :: ks, k, h => by
    by_cases hk : k0.dom = d ∧ k0.vec.elems = q.elems
    · simp only [storeKey, hk, and_self, if_true, List.mem_cons] at h
      rcases h with rfl | h
      · exact .inl ⟨k0, List.mem_cons_self .., hk.1, rfl⟩
      · exact .inl ⟨k, List.mem_cons_of_mem _ h, rfl, rfl⟩
    · simp only [storeKey, hk, if_false, List.mem_cons] at h
      rcases h with rfl | h
      · exact .inl ⟨k, List.mem_cons_self .., rfl, rfl⟩
      · rcases storeKey_mem d q t ks k h with ⟨k', h1, h2⟩ | h
        · exact .inl ⟨k', List.mem_cons_of_mem _ h1, h2⟩
        · exact .inr h

/-- What `resolvedA` does to the queries. -/
theorem resolvedA_queries (D : Decls) (W : World) (d : DomId) (key ms : List Mix) :
    (∀ d', ((resolvedA D W d key ms).2.doms d').queries =
      match (resolvedA D W d key ms).1 with
      | .error _ => (W.doms d').queries
      | .ok t => if d' = d then storeQuery key t (W.doms d).queries else (W.doms d').queries) := by
  intro d'
  unfold resolvedA
  dsimp only
  split
  · by_cases h : d' = d <;> simp [World.setDom, upd, h]
  · split
    · rfl
    · unfold emplaceSection
      by_cases h : d' = d
      · subst h
        split <;> simp [World.setDom, upd]
      · split <;> simp [World.setDom, upd, h]

theorem getTypeMut_resolved (D : Decls) (W : World) (d : DomId) (q : List Mix) (hq : findQuery q (W.doms d).queries = none) :
    getTypeMut D W d d q =
      match (applyMutationRules D (rulesOf D (W.view D d) (W.doms d)) q).result with
      | .error e => (.error e, W)
      | .ok (key, ms) => resolvedA D W d key ms := by
  unfold getTypeMut lookupSection
  simp only [ne_eq, not_true_eq_false, if_false, hq]
  cases (applyMutationRules D (rulesOf D (W.view D d) (W.doms d)) q).result with
  | error e => rfl
  | ok r =>
    obtain ⟨key, ms⟩ := r
    simp only [resolvedA]
    cases (if ms.isEmpty = true then some emptyTid else (findType ms (W.doms d).types).map (·.tid)) with
    | none => rfl
    | some t => rfl

/-- The mixins of a mutation of domain `md` after `get_type` of domain `d`. -/
def getSeen (D : Decls) (W : World) (d md : DomId) (q : List Mix) : List Mix :=
  if md ≠ d then q
  else if (findQuery q (W.doms d).queries).isSome then q
  else loopSeen (rulesOf D (W.view D d) (W.doms d)) maxDependencyDepth q (q.filter (fun x => !(D.mix x).dependency))

theorem unstored_queries (D : Decls) (W : World) (d : DomId) (key ms : List Mix) (d' : DomId) :
    ((unstored W (resolvedA D W d key ms).2 d).doms d').queries = (W.doms d').queries := by
  have hq := resolvedA_queries D W d key ms d'
  unfold unstored
  by_cases h : d' = d
  · subst h; simp [World.setDom, upd]
  · simp only [World.setDom, upd, h, if_false]
    rw [hq]
    split
    · rfl
    · simp [h]

/-- Other memory. -/
theorem AInv.mem {A : AWorld} {L L' : List (Nat × MemRes)} {H : VHeap} (h : AInv A L) (hd : KeptA H A.H)
    (ho : Owns H (L' ++ (blocksOfKeys A.keys ++ blocksOfMuts A.muts))) : AInv { A with H := H } L' :=
  ⟨ho.perm (List.perm_append_comm.trans (by rw [List.append_assoc])), h.keysOwn, fun d => hd.1 ▸ h.domsAlive d, hd.1 ▸ h.defAlive, fun m hm => hd.1 ▸ h.mutsAlive m hm,
    h.queries⟩

theorem AInv.front {A : AWorld} {L : List (Nat × MemRes)} (h : AInv A L) : Owns A.H (L ++ (blocksOfKeys A.keys ++ blocksOfMuts A.muts)) :=
  h.owns.perm (by rw [← List.append_assoc]; exact List.perm_append_comm)

theorem finishA_inv {D : Decls} {A : AWorld} {H1 : VHeap} {L : List (Nat × MemRes)} {d : DomId} {q : Vec} {ms : List Mix} (h : AInv { A with H := H1 } (blockOf q ++ L))
    (hq : q.res = A.own d) :
    ∃ A1 r, finishA A H1 d q (needsType A.W d ms) (resolvedA D A.W d q.elems ms) = some (A1, r) ∧ AInv A1 L ∧
      (r ≠ .error .badAlloc → r = asFail (resolvedA D A.W d q.elems ms).1 ∧ A1.W = (resolvedA D A.W d q.elems ms).2) ∧
      (r = .error .badAlloc → A1.keys = A.keys ∧ (A1.W = A.W ∨ A1.W = unstored A.W (resolvedA D A.W d q.elems ms).2 d)) ∧
      A1.own = A.own ∧ A1.muts = A.muts ∧ KeptA A1.H H1 ∧ (Enough H1 → r ≠ .error .badAlloc) := by
  have hqs := resolvedA_queries D A.W d q.elems ms
  have hun := unstored_queries D A.W d q.elems ms
  unfold finishA
  generalize hR : resolvedA D A.W d q.elems ms = R at hqs hun ⊢
  obtain ⟨r, W1⟩ := R
  simp only at hqs hun ⊢
  have hf := h.front
  rw [List.append_assoc] at hf
  have hf1 : Owns H1.tick (blockOf q ++ (L ++ (blocksOfKeys A.keys ++ blocksOfMuts A.muts))) := hf
  have hf2 : Owns H1.tick.tick (blockOf q ++ (L ++ (blocksOfKeys A.keys ++ blocksOfMuts A.muts))) := hf
  by_cases h1 : (needsType A.W d ms && H1.fails H1.next) = true
  · obtain ⟨H2, e2, o2, d2⟩ := vDestroy_owns hf1
    have k2 : KeptA H2 H1 := d2.trans ⟨rfl, rfl⟩
    refine ⟨{ A with H := H2 }, .error .badAlloc, by simp only [h1, if_true, e2, Option.map_some], AInv.mem (A := { A with H := H1 }) h k2 o2, by simp,
      fun _ => ⟨rfl, .inl rfl⟩, rfl, rfl, k2, fun he => ?_⟩
    rw [he] at h1
    simp at h1
  · rw [if_neg h1]
    cases r with
    | error e =>
      obtain ⟨H2, e2, o2, d2⟩ := vDestroy_owns hf1
      have k2 : KeptA H2 H1 := d2.trans ⟨rfl, rfl⟩
      have i := AInv.mem (A := { A with H := H1 }) h k2 o2
      exact ⟨{ A with W := W1, H := H2 }, .error (.err e), by simp only [e2, Option.map_some],
        ⟨i.owns, i.keysOwn, i.domsAlive, i.defAlive, i.mutsAlive, fun d' => (h.queries d').trans (hqs d').symm⟩, fun _ => ⟨rfl, rfl⟩, by simp, rfl, rfl, k2, by simp⟩
    | ok t =>
      simp only
      by_cases h2 : (H1.fails H1.tick.next && (A.keys.find? (fun k => k.dom == d && k.vec.elems == q.elems)).isNone) = true
      · obtain ⟨H2, e2, o2, d2⟩ := vDestroy_owns hf2
        have k2 : KeptA H2 H1 := d2.trans ⟨rfl, rfl⟩
        have i := AInv.mem (A := { A with H := H1 }) h k2 o2
        refine ⟨{ A with W := unstored A.W W1 d, H := H2 }, .error .badAlloc, by simp only [h2, if_true, e2, Option.map_some],
          ⟨i.owns, i.keysOwn, i.domsAlive, i.defAlive, i.mutsAlive, fun d' => (h.queries d').trans (hun d').symm⟩, by simp,
          fun _ => ⟨rfl, .inr rfl⟩, rfl, rfl, k2, fun he => ?_⟩
        rw [he] at h2
        simp at h2
      · rw [if_neg h2]
        have o2 : Owns H1.tick.tick (blockOf (storeKey d q t A.keys).2 ++ (L ++ (blocksOfKeys (storeKey d q t A.keys).1 ++ blocksOfMuts A.muts))) := by
          refine hf2.perm ?_
          have hp := storeKey_blocks d q t A.keys
          have : (blockOf q ++ (L ++ (blocksOfKeys A.keys ++ blocksOfMuts A.muts))).Perm
              (L ++ ((blocksOfKeys A.keys ++ blockOf q) ++ blocksOfMuts A.muts)) := by
            refine (List.perm_append_comm_assoc ..).trans (List.Perm.append_left _ ?_)
            rw [List.append_assoc]
            exact List.perm_append_comm_assoc ..
          refine this.trans ?_
          refine ((hp.symm.append_right _).append_left _).trans ?_
          rw [List.append_assoc]
          refine List.Perm.trans ?_ (List.perm_append_comm_assoc ..)
          exact (List.perm_append_comm_assoc ..).append_left _
        obtain ⟨H3, e3, o3, d3⟩ := vDestroy_owns o2
        have k3 : KeptA H3 H1 := d3.trans ⟨rfl, rfl⟩
        refine ⟨{ A with W := W1, keys := (storeKey d q t A.keys).1, H := H3 }, .ok t, by simp only [e3, Option.map_some],
          ⟨?_, ?_, ?_, ?_, ?_, ?_⟩, fun _ => ⟨rfl, rfl⟩, by simp, rfl, rfl, k3, by simp⟩
        · exact o3.perm (List.perm_append_comm.trans (by rw [List.append_assoc]))
        · intro k hk
          rcases storeKey_mem d q t A.keys k hk with ⟨k', h1, h2, h3⟩ | ⟨h1, h2⟩
          · rw [← h3, ← h2]; exact h.keysOwn k' h1
          · rw [h1, h2]; exact hq
        · exact fun d => k3.1 ▸ h.domsAlive d
        · exact k3.1 ▸ h.defAlive
        · exact fun m hm => k3.1 ▸ h.mutsAlive m hm
        · intro d'
          rw [hqs d']
          by_cases hd : d' = d
          · subst hd
            simp only [if_true]
            rw [storeKey_plain, h.queries]
          · simp only [hd, if_false]
            rw [storeKey_other _ _ _ _ hd, h.queries]

theorem getTypeMutA_inv {D : Decls} {A : AWorld} {L : List (Nat × MemRes)} {d md : DomId} {m : Vec} (h : AInv A (blockOf m ++ L))
    (hm : m.res ∉ A.H.dead) :
    ∃ A1 m1 r, getTypeMutA D A d md m = some (A1, m1, r) ∧ AInv A1 (blockOf m1 ++ L) ∧
      (r ≠ .error .badAlloc → r = asFail (getTypeMut D A.W d md m.elems).1 ∧ A1.W = (getTypeMut D A.W d md m.elems).2 ∧ m1.elems = getSeen D A.W d md m.elems) ∧
      (r = .error .badAlloc → A1.keys = A.keys ∧ (A1.W = A.W ∨ A1.W = unstored A.W (getTypeMut D A.W d md m.elems).2 d)) ∧
      A1.own = A.own ∧ A1.muts = A.muts ∧ KeptA A1.H A.H ∧ m1.res = m.res ∧ (Enough A.H → r ≠ .error .badAlloc) := by
  unfold getTypeMutA
  by_cases hd : md = d
  · subst hd
    simp only [ne_eq, not_true_eq_false, if_false]
    have hfind := findKey md m.elems A.keys
    rw [h.queries md] at hfind
    cases hk : A.keys.find? (fun k => k.dom == md && k.vec.elems == m.elems) with
    | some k =>
      rw [hk] at hfind
      exact ⟨A, m, .ok k.tid, rfl, h, fun _ => ⟨by simp [getTypeMut, lookupSection, hfind, asFail], by simp [getTypeMut, lookupSection, hfind], by simp [getSeen, hfind]⟩,
        by simp, rfl, rfl, KeptA.refl _, rfl, by simp⟩
    | none =>
      rw [hk] at hfind
      simp only [Option.map_none] at hfind
      have o0 := h.front
      rw [List.append_assoc] at o0
      obtain ⟨H1, m1, r, e1, d1, s1, n1, y1, g1⟩ := applyRulesA_owns D (rulesOf D (A.W.view D md) (A.W.doms md)) o0 (h.domsAlive md) hm
      have hn : r ≠ .error .badAlloc → m1.elems = getSeen D A.W md md m.elems := fun hne => by rw [n1 hne]; simp [getSeen, hfind]
      have hget := getTypeMut_resolved D A.W md m.elems hfind
      cases r with
      | error e =>
        cases e with
        | badAlloc =>
          exact ⟨{ A with H := H1 }, m1, .error .badAlloc, by simp [e1, vDestroy], h.mem d1 (by rw [List.append_assoc]; exact g1), by simp, fun _ => ⟨rfl, .inl rfl⟩, rfl, rfl, d1, s1,
            fun he => (y1 he rfl).elim⟩
        | err e =>
          obtain ⟨g1, g2⟩ := g1
          rw [g2] at hget
          simp only at hget
          exact ⟨{ A with H := H1 }, m1, .error (.err e), by simp [e1, vDestroy], h.mem d1 (by rw [List.append_assoc]; exact g1),
            fun _ => ⟨by rw [hget]; rfl, by rw [hget], hn (by simp)⟩, by simp, rfl, rfl, d1, s1, by simp⟩
      | ok ret =>
        obtain ⟨g1, g2, g3⟩ := g1
        rw [g3] at hget
        simp only at hget
        have e2 : vMoveAssign H1 { res := A.own md } ret = some (H1, ret, { res := ret.res }, false) := by
          simp [vMoveAssign, g2, vDestroy, vMoved]
        simp only [e1, e2, vDestroy]
        have i1 : AInv { A with H := H1 } (blockOf ret ++ (blockOf m1 ++ L)) := h.mem d1 (by simpa [List.append_assoc] using g1)
        obtain ⟨A2, r2, e3, i2, w2, b2, o2, m2, k2, y2⟩ := finishA_inv (D := D) (ms := m1.elems) i1 g2
        refine ⟨A2, m1, r2, by simp [e3], i2, fun hne => ?_, fun hb => ?_, o2, m2, k2.trans d1, s1, fun he => y2 (d1.enough he)⟩
        · rw [hget]; exact ⟨(w2 hne).1, (w2 hne).2, hn (by simp)⟩
        · rw [hget]; exact b2 hb
  · exact ⟨A, m, .error (.err .foreignMutation), by simp [hd], h, fun _ => ⟨by simp [getTypeMut, hd, asFail], by simp [getTypeMut, hd], by simp [getSeen, hd]⟩, by simp, rfl, rfl,
      KeptA.refl _, rfl, by simp⟩

theorem getTypeA_inv {D : Decls} {A : AWorld} {d : DomId} {q : List Mix} (h : AInv A []) :
    ∃ A1 r, getTypeA D A d q = some (A1, r) ∧ AInv A1 [] ∧
      (r ≠ .error .badAlloc → r = asFail (getType D A.W d q).1 ∧ A1.W = (getType D A.W d q).2) ∧
      (r = .error .badAlloc → A1.keys = A.keys ∧ (A1.W = A.W ∨ A1.W = unstored A.W (getType D A.W d q).2 d)) ∧
      A1.own = A.own ∧ A1.muts = A.muts ∧ KeptA A1.H A.H ∧ (Enough A.H → r ≠ .error .badAlloc) := by
  unfold getTypeA getType
  have hfind := findKey d q A.keys
  rw [h.queries d] at hfind
  cases hk : A.keys.find? (fun k => k.dom == d && k.vec.elems == q) with
  | some k =>
    rw [hk] at hfind
    exact ⟨A, .ok k.tid, rfl, h, by simp [hfind, asFail], by simp, rfl, rfl, KeptA.refl _, by simp⟩
  | none =>
    rw [hk] at hfind
    simp only [Option.map_none] at hfind
    have o0 : Owns A.H (blockOf { res := A.own d } ++ (blocksOfKeys A.keys ++ blocksOfMuts A.muts)) := by
      simpa [blockOf] using h.front
    obtain ⟨H1, m, b, e1, o1, r1, l1, f1, d1, y1⟩ := vAssign_owns q o0 (h.domsAlive d)
    have hA : AInv { A with H := H1 } (blockOf m ++ []) := by
      have := h.mem (L' := blockOf m) d1 o1
      simpa using this
    cases b with
    | true =>
      obtain ⟨H2, e2, o2, d2⟩ := vDestroy_owns o1
      exact ⟨{ A with H := H2 }, .error .badAlloc, by simp only [e1, e2, Option.map_some], h.mem (L' := []) (d2.trans d1) (by simpa using o2), by simp, fun _ => ⟨rfl, .inl rfl⟩, rfl, rfl,
        d2.trans d1, fun he => by simpa using y1 he⟩
    | false =>
      have l1 := l1 rfl
      obtain ⟨A2, m2, r2, e2, i2, w2, b2, ow2, mu2, d2, s2, y2⟩ := getTypeMutA_inv (D := D) (d := d) (md := d) hA (by simp only; rw [r1, d1.1]; exact h.domsAlive d)
      have o2 := i2.front
      rw [List.append_assoc] at o2
      obtain ⟨H3, e3, o3, d3⟩ := vDestroy_owns o2
      rw [l1] at w2 b2
      simp only [hfind]
      exact ⟨{ A2 with H := H3 }, r2, by simp only [e1, e2, e3]; rfl, i2.mem (L' := []) d3 o3, fun hne => ⟨(w2 hne).1, (w2 hne).2.1⟩, b2, ow2, mu2, d3.trans (d2.trans d1),
        fun he => y2 (d1.enough he)⟩

end Dnmx
