import Verif.Proofs.SharedIdLemmas
import Verif.Props.Dispatch

/-!
# Tables of types in all histories (C27-C30)

Without conditions on how features are used: what tables contain and what messages call, in terms of the ids that features had when the type was made.
-/

set_option linter.unusedVariables false
set_option linter.unusedSimpArgs false

namespace Dnmx
open Spec

theorem MadeAfter.build {D : Decls} {s : DomId → Settings} {d : DomId} {ops pre : List Op} {r : TypeRec} (h : MadeAfter D s d ops pre r) :
    buildType D (run D (initWorld s) pre) d r.tid r.mixins = .ok r := by
  obtain ⟨op, -, h1, h2⟩ := h
  have hreg := reachable_reg D s pre
  have hty := reachable_types D s pre d
  rcases typeAt_some h2 with ⟨a, b⟩ | ⟨a, b, c⟩
  · rw [a] at h1; simp [typeAt_empty] at h1
  · rw [run_snoc] at b
    rcases typeStep_new (step_typeStep D _ hreg op d hty) b with h | ⟨h, ht⟩
    · rw [hty.typeAt_mem r h] at h1; simp at h1
    · rw [ht]; exact h

theorem buildType_table {D : Decls} {W : World} {d : DomId} {tid : TypeId} {ms : List Mix} {r : TypeRec} (h : buildType D W d tid ms = .ok r) :
    buildFtable D W.featId ms = .ok r.ftable := by
  unfold buildType at h
  cases hc : checkMixins W.mixId W.mixDom d ms with
  | error e => rw [hc] at h; simp at h
  | ok u =>
    rw [hc] at h; simp only at h
    cases hb : buildFtable D W.featId ms with
    | error e => rw [hb] at h; simp at h
    | ok ft => rw [hb] at h; simp only [Except.ok.injEq] at h; rw [← h]

theorem MadeAfter.table {D : Decls} {s : DomId → Settings} {d : DomId} {ops pre : List Op} {r : TypeRec} (h : MadeAfter D s d ops pre r) :
    (∀ m ∈ r.mixins, ∀ ff ∈ (D.mix m).feats, ∃ i, (run D (initWorld s) pre).featId ff.feat = some i) ∧
    ∀ i, EntryFor (implsWithId D (run D (initWorld s) pre).featId r.mixins i) (r.ftableAt (some i)) := by
  obtain ⟨h1, h2⟩ := buildFtable_ids (buildType_table (MadeAfter.build h))
  exact ⟨h1, fun i => by rw [ftableAt_getD]; exact h2 i⟩

/-- the entry in the terms of calls -/
theorem EntryOf.split {xs : List (Nat × FeatFor)} {e : FEntry} (h : EntryOf xs e) : ∃ p ps, e.pls = p :: ps ∧ BestOf xs p.pair ∧
    (p.pair :: (ps.take e.topBack).map Payload.pair).Perm (topOf xs) ∧ (p.pair :: (ps.take e.topBack).map Payload.pair).Pairwise (fun a b => CalledBefore b a) := by
  obtain ⟨hne, hr, ho, htop, -⟩ := h
  cases hp : e.pls with
  | nil => exact absurd hp hne
  | cons p ps =>
    rw [hp] at hr ho htop
    have hr : (p.pair :: ps.map Payload.pair).Perm xs := hr
    have ho : (p.pair :: ps.map Payload.pair).Pairwise WinsOrSame := ho
    have hmem : ∀ x, x ∈ xs ↔ x ∈ p.pair :: ps.map Payload.pair := fun x => hr.mem_iff.symm
    have hw : BestOf xs p.pair := by
      refine ⟨(hmem _).2 (by simp), fun x hx => ?_⟩
      rcases List.mem_cons.1 ((hmem x).1 hx) with rfl | hx
      · simp [WinsOrSame]
      · exact (List.pairwise_cons.1 ho).1 x hx
    have hf : (p.pair :: (ps.take e.topBack).map Payload.pair) = (p.pair :: ps.map Payload.pair).filter (fun x => xs.all (fun y => y.2.bid ≤ x.2.bid)) := by
      rw [← take_eq_filter _ _ (e.topBack + 1)]
      · simp [List.map_take]
      · intro k x hk
        rw [← List.map_cons, List.getElem?_map] at hk
        cases hq : (p :: ps)[k]? with
        | none => rw [hq] at hk; simp at hk
        | some q =>
          rw [hq] at hk; simp at hk; subst hk
          rw [Nat.lt_succ_iff, htop k q hq]
          simp only [List.all_eq_true, decide_eq_true_eq]
          rfl
    refine ⟨p, ps, rfl, hw, ?_, ?_⟩
    · rw [hf]; exact hr.filter _
    · rw [hf]
      refine (ho.filter (fun x => xs.all (fun y => y.2.bid ≤ x.2.bid))).imp_of_mem ?_
      intro a b ha hb hab
      rw [List.mem_filter] at ha hb
      have h1 := ha.2; have h2 := hb.2
      simp only [List.all_eq_true, decide_eq_true_eq] at h1 h2
      have h3 := h1 b ((hmem b).2 hb.1)
      have h4 := h2 a ((hmem a).2 ha.1)
      simp only [WinsOrSame] at hab
      simp only [CalledBefore]
      omega

theorem sameRank_iff (pls : List Payload) : SameRank (pls.map Payload.pair) ↔ hasClash (sortPayloads pls) = true := by
  rw [hasClash_sort_iff]
  constructor
  · rintro ⟨k, l, a, b, hkl, ha, hb, h1, h2⟩
    rw [List.getElem?_map] at ha hb
    cases hp : pls[k]? with
    | none => rw [hp] at ha; simp at ha
    | some p =>
      cases hq : pls[l]? with
      | none => rw [hq] at hb; simp at hb
      | some q =>
        rw [hp] at ha; rw [hq] at hb
        simp only [Option.map_some, Option.some.injEq] at ha hb
        subst ha; subst hb
        exact ⟨k, l, p, q, hkl, hp, hq, h1, h2⟩
  · rintro ⟨k, l, p, q, hkl, hp, hq, h1, h2⟩
    exact ⟨k, l, p.pair, q.pair, hkl, by rw [List.getElem?_map, hp]; rfl, by rw [List.getElem?_map, hq]; rfl, h1, h2⟩

theorem best_of_sorted {pls : List Payload} {p : Payload} {ps : List Payload} (h : sortPayloads pls = p :: ps) : BestOf (pls.map Payload.pair) p.pair := by
  have hperm := sortPayloads_perm pls
  have hord := sortPayloads_sorted pls
  rw [h] at hperm hord
  refine ⟨List.mem_map.2 ⟨p, hperm.mem_iff.1 (by simp), rfl⟩, fun x hx => ?_⟩
  obtain ⟨q, hq, rfl⟩ := List.mem_map.1 hx
  rcases List.mem_cons.1 (hperm.mem_iff.2 hq) with rfl | hq
  · simp [WinsOrSame]
  · exact (payloadLt_pair _ _).1 ((List.pairwise_cons.1 hord).1 q hq)

end Dnmx

namespace Dnmx.Props
open Spec

/-- C27: every type that has mixins was made by some call. -/
theorem C27_made (D : Decls) (s : DomId → Settings) (ops : List Op) (d : DomId) (t : TypeId) (r : TypeRec) (ht : ((run D (initWorld s) ops).doms d).typeAt d t = some r) (hne : r.mixins ≠ []) :
    ∃ pre, MadeAfter D s d ops pre r := by
  rcases typeAt_some ht with ⟨a, b⟩ | ⟨a, b, c⟩
  · subst b; simp [emptyType] at hne
  · obtain ⟨pre, h, -⟩ := made_after D s d ops r b
    exact ⟨pre, h⟩

/-- C27, for all histories: when a type is made, all features of its mixins have ids, and its table has for each id exactly the implementations of the features that have this id then, best
first, with the top bidders in front. The table stays as it is. (`C27_ftable_in_domain_partial` says when these are the implementations of one feature.) -/
theorem C27_ftable_exactly (D : Decls) (s : DomId → Settings) (ops : List Op) (d : DomId) (pre : List Op) (r : TypeRec) (h : MadeAfter D s d ops pre r) :
    (∀ m ∈ r.mixins, ∀ ff ∈ (D.mix m).feats, ∃ i, (run D (initWorld s) pre).featId ff.feat = some i) ∧
    ∀ i, EntryFor (implsWithId D (run D (initWorld s) pre).featId r.mixins i) (r.ftableAt (some i)) := MadeAfter.table h

/-- C27: the table of a type is right for a feature with the id `i` exactly if, when the type was made, this feature and no other one of the type's mixins had this id. -/
theorem C27_right_exactly (D : Decls) (s : DomId → Settings) (ops : List Op) (d : DomId) (pre : List Op) (r : TypeRec) (h : MadeAfter D s d ops pre r) (f : Feat) (i : Nat) :
    RightFor D r.mixins f (r.ftableAt (some i)) ↔ ∀ m ∈ r.mixins, ∀ ff ∈ (D.mix m).feats, ((run D (initWorld s) pre).featId ff.feat = some i ↔ ff.feat = f) := by
  obtain ⟨-, hx⟩ := MadeAfter.table h
  have hx := hx i
  generalize (run D (initWorld s) pre).featId = fid at hx ⊢
  have hsame : (∀ m ∈ r.mixins, ∀ ff ∈ (D.mix m).feats, (fid ff.feat = some i ↔ ff.feat = f)) → implsWithId D fid r.mixins i = allImpls D r.mixins f := by
    intro hall
    unfold implsWithId allImpls
    have : ∀ x ∈ r.mixins.zipIdx, (((D.mix x.1).feats.filter (fun ff => fid ff.feat = some i)).map (fun ff => (x.2, ff))) =
        (((D.mix x.1).feats.filter (fun ff => ff.feat = f)).map (fun ff => (x.2, ff))) := by
      rintro ⟨m, k⟩ hm
      congr 1
      apply List.filter_congr
      intro ff hff
      simp only [decide_eq_decide]
      exact hall m (List.mem_of_getElem? (List.mem_zipIdx_iff_getElem?.1 hm)) ff hff
    generalize r.mixins.zipIdx = l at this
    induction l with
    | nil => rfl
    | cons x l ih =>
      rw [List.flatMap_cons, List.flatMap_cons]
      congr 1
      · exact this x (by simp)
      · exact ih (fun y hy => this y (by simp [hy]))
  have hback : (∀ x, x ∈ implsWithId D fid r.mixins i ↔ x ∈ allImpls D r.mixins f) → ∀ m ∈ r.mixins, ∀ ff ∈ (D.mix m).feats, (fid ff.feat = some i ↔ ff.feat = f) := by
    intro hall m hm ff hff
    obtain ⟨k, hk⟩ := List.mem_iff_getElem?.1 hm
    have := hall (k, ff)
    rw [mem_implsWithId, mem_allImpls] at this
    constructor
    · intro hi
      obtain ⟨m', h1, h2, h3⟩ := this.1 ⟨m, hk, hff, hi⟩
      exact h3
    · intro hi
      obtain ⟨m', h1, h2, h3⟩ := this.2 ⟨m, hk, hff, hi⟩
      exact h3
  cases he : r.ftableAt (some i) with
  | none =>
    rw [he] at hx
    have hx : implsWithId D fid r.mixins i = [] := hx
    constructor
    · intro hr
      have hr : allImpls D r.mixins f = [] := hr
      exact hback (fun x => by rw [hx, hr])
    · intro hall
      show allImpls D r.mixins f = []
      rw [← hsame hall, hx]
  | some e =>
    rw [he] at hx
    have hx : EntryOf (implsWithId D fid r.mixins i) e := hx
    constructor
    · rintro ⟨h1, h2⟩
      exact hback (fun x => by rw [← hx.complete.mem_iff, h2.complete.mem_iff])
    · intro hall
      refine ⟨hx.nonempty, ?_, hx.ordered⟩
      rw [← hsame hall]; exact hx.complete

/-- C28: making a type of different mixins of the domain is undefined behaviour exactly if one of them has a feature without id, that is, one that was unregistered. -/
theorem C28_undefined_exactly (D : Decls) (s : DomId → Settings) (ops : List Op) (d : DomId) (tid : TypeId) (ms : List Mix) (hn : ms.Nodup)
    (hm : ∀ m ∈ ms, mixinRegistered d m (trace D (initWorld s) ops) = true) :
    buildType D (run D (initWorld s) ops) d tid ms = .error .ub ↔ ∃ m ∈ ms, ∃ ff ∈ (D.mix m).feats, (run D (initWorld s) ops).featId ff.feat = none := by
  have hr := reachable_reg D s ops
  have hm' : ∀ m ∈ ms, m ∈ mixinsOf (run D (initWorld s) ops) d := fun m h => (mixinRegistered_iff D s ops d m).1 (hm m h)
  have hc : checkMixins (run D (initWorld s) ops).mixId (run D (initWorld s) ops).mixDom d ms = .ok () :=
    (checkMixins_ok _ _ _ _).2 ⟨hn, fun m h => (hr.mem_mixinsOf_iff d m).1 (hm' m h)⟩
  generalize run D (initWorld s) ops = W at hc ⊢
  unfold buildType
  rw [hc]
  simp only
  rcases buildFtable_all D W.featId ms with ⟨h1, h2⟩ | ⟨h1, h2⟩
  · rw [h2]; simp [h1]
  · constructor
    · intro h
      rcases h2 with ⟨i, -, h2⟩ | ⟨t, h2, -⟩ <;> rw [h2] at h <;> simp at h
    · rintro ⟨m, hm, ff, hff, hi⟩
      obtain ⟨j, hj⟩ := h1 m hm ff hff
      rw [hi] at hj; simp at hj

/-- C28: otherwise it succeeds or reports a clash. A clash is reported only if two implementations with equal rank are under the same id, and the feature of a best one does not allow clashes; and it is
reported if so for each best one. (There are several best ones only if one mixin provides several features with the same id.) -/
theorem C28_clash_exactly (D : Decls) (s : DomId → Settings) (ops : List Op) (d : DomId) (tid : TypeId) (ms : List Mix) (hn : ms.Nodup)
    (hm : ∀ m ∈ ms, mixinRegistered d m (trace D (initWorld s) ops) = true) (hid : ∀ m ∈ ms, ∀ ff ∈ (D.mix m).feats, (run D (initWorld s) ops).featId ff.feat ≠ none) :
    let W := run D (initWorld s) ops
    (buildType D W d tid ms = .error .featureClash ∨ ∃ r, buildType D W d tid ms = .ok r) ∧
    (buildType D W d tid ms = .error .featureClash → ∃ i w, SameRank (implsWithId D W.featId ms i) ∧ BestOf (implsWithId D W.featId ms i) w ∧ (D.feat w.2.feat).allowClashes = false) ∧
    ∀ i, SameRank (implsWithId D W.featId ms i) → (∀ w, BestOf (implsWithId D W.featId ms i) w → (D.feat w.2.feat).allowClashes = false) → buildType D W d tid ms = .error .featureClash := by
  have hr := reachable_reg D s ops
  have hm' : ∀ m ∈ ms, m ∈ mixinsOf (run D (initWorld s) ops) d := fun m h => (mixinRegistered_iff D s ops d m).1 (hm m h)
  have hc : checkMixins (run D (initWorld s) ops).mixId (run D (initWorld s) ops).mixDom d ms = .ok () :=
    (checkMixins_ok _ _ _ _).2 ⟨hn, fun m h => (hr.mem_mixinsOf_iff d m).1 (hm' m h)⟩
  simp only
  generalize run D (initWorld s) ops = W at hc hid ⊢
  unfold buildType
  rw [hc]
  simp only
  rcases buildFtable_all D W.featId ms with ⟨⟨m, hm, ff, hff, hi⟩, -⟩ | ⟨-, ⟨j, hj, h2⟩ | ⟨t, h2, h3⟩⟩
  · exact absurd hi (hid m hm ff hff)
  · rw [h2]
    refine ⟨.inl rfl, fun _ => ?_, fun _ _ _ => rfl⟩
    obtain ⟨p, ps, h3, h4, h5⟩ := finishEntry_error D _ _ hj
    refine ⟨j, p.pair, ?_, ?_, h4⟩
    · rw [← implsOf_ids, sameRank_iff, h3]; exact h5
    · rw [← implsOf_ids]; exact best_of_sorted h3
  · rw [h2]
    refine ⟨.inr ⟨_, rfl⟩, fun h => by simp at h, fun i h1 h4 => ?_⟩
    exfalso
    obtain ⟨r, h5, -⟩ := h3 i
    rw [← implsOf_ids, sameRank_iff] at h1
    rw [← implsOf_ids] at h4
    rcases finishEntry_ok D _ r h5 with ⟨-, h6⟩ | ⟨e, -, h6, -, p, ps, h8, -, h9⟩
    · rw [h6] at h1; simp [sortPayloads, sortBy, hasClash] at h1
    · rw [h6] at h8 h9
      have : (D.feat p.data.feat).allowClashes = false := h4 _ (best_of_sorted h8)
      rcases h9 with h9 | h9
      · rw [this] at h9; simp at h9
      · rw [h1] at h9; simp at h9

/-- C28: if asking for a type is undefined behaviour, then the rules were, or they gave a composition of different mixins of the domain, one of which has a feature that was unregistered. -/
theorem C28_get_type_exactly (D : Decls) (s : DomId → Settings) (ops : List Op) (d : DomId) (q : List Mix) (h : (getType D (run D (initWorld s) ops) d q).1 = .error .ub) :
    resolve D (rulesOf D ((run D (initWorld s) ops).view D d) ((run D (initWorld s) ops).doms d)) q = .error .ub ∨
    ∃ ms, resolve D (rulesOf D ((run D (initWorld s) ops).view D d) ((run D (initWorld s) ops).doms d)) q = .ok ms ∧ ms.Nodup ∧
      (∀ m ∈ ms, mixinRegistered d m (trace D (initWorld s) ops) = true) ∧ ∃ m ∈ ms, ∃ ff ∈ (D.mix m).feats, (run D (initWorld s) ops).featId ff.feat = none := by
  rcases C16_errors D s ops d q .ub h with h1 | ⟨ms, h1, h2⟩
  · exact .inl h1
  · right
    by_cases hc : ms.Nodup ∧ ∀ m ∈ ms, mixinRegistered d m (trace D (initWorld s) ops) = true
    · exact ⟨ms, h1, hc.1, hc.2, (C28_undefined_exactly D s ops d _ ms hc.1 hc.2).1 h2⟩
    · obtain ⟨e, h3, h4⟩ := (C17_composition_errors D s ops d (run D (initWorld s) ops).nextType ms).2 hc
      rw [h2] at h3; simp at h3; subst h3; simp at h4

/-- C29, for all histories: a unicast of a feature with the id `i` calls the best of the implementations of the features that had this id when the type was made; if there were none, it calls the default
implementation or throws. -/
theorem C29_called_exactly (D : Decls) (s : DomId → Settings) (ops : List Op) (d : DomId) (pre : List Op) (r : TypeRec) (h : MadeAfter D s d ops pre r) (I : Impls σ R) (f : Feat) (i : Nat) :
    (implsWithId D (run D (initWorld s) pre).featId r.mixins i = [] ∧ ∀ σ₀, callUnicast D I r f (some i) σ₀ = tryDefault D I f σ₀) ∨
    ∃ w, BestOf (implsWithId D (run D (initWorld s) pre).featId r.mixins i) w ∧ ∀ σ₀, callUnicast D I r f (some i) σ₀ = callImpl I w σ₀ := by
  have hx := (MadeAfter.table h).2 i
  cases he : r.ftableAt (some i) with
  | none => rw [he] at hx; exact .inl ⟨hx, fun σ₀ => by simp only [callUnicast, he]⟩
  | some e =>
    rw [he] at hx
    obtain ⟨p, ps, h1, h2, -, -⟩ := EntryOf.split hx
    exact .inr ⟨p.pair, h2, fun σ₀ => by simp only [callUnicast, he, h1]; rfl⟩

/-- C30, for all histories: a multicast calls each of those with the greatest bid once, in the order of multicasts, and returns the result of the best one. -/
theorem C30_called_exactly (D : Decls) (s : DomId → Settings) (ops : List Op) (d : DomId) (pre : List Op) (r : TypeRec) (h : MadeAfter D s d ops pre r) (I : Impls σ R) (f : Feat) (i : Nat) :
    (implsWithId D (run D (initWorld s) pre).featId r.mixins i = [] ∧ ∀ σ₀, callMulticast D I r f (some i) σ₀ = tryDefault D I f σ₀) ∨
    ∃ xs w, (xs ++ [w]).Perm (topOf (implsWithId D (run D (initWorld s) pre).featId r.mixins i)) ∧ (xs ++ [w]).Pairwise CalledBefore ∧
      BestOf (implsWithId D (run D (initWorld s) pre).featId r.mixins i) w ∧ ∀ σ₀, callMulticast D I r f (some i) σ₀ = callInOrder I w xs σ₀ := by
  have hx := (MadeAfter.table h).2 i
  cases he : r.ftableAt (some i) with
  | none => rw [he] at hx; exact .inl ⟨hx, fun σ₀ => by simp only [callMulticast, he]⟩
  | some e =>
    rw [he] at hx
    obtain ⟨p, ps, hp, hw, h1, h2⟩ := EntryOf.split hx
    have hrev : ((ps.take e.topBack).reverse.map Payload.pair ++ [p.pair]) = (p.pair :: (ps.take e.topBack).map Payload.pair).reverse := by
      simp [List.map_reverse]
    refine .inr ⟨(ps.take e.topBack).reverse.map Payload.pair, p.pair, ?_, ?_, hw, fun σ₀ => ?_⟩
    · rw [hrev]; exact (List.reverse_perm _).trans h1
    · rw [hrev, List.pairwise_reverse]; exact h2
    · simp only [callMulticast, he, hp]; exact multicastLoop_spec I p _ σ₀

/-- C62, for all histories: a type says that it implements a feature with the id `i` exactly if one of its mixins has a feature that had this id when the type was made. -/
theorem C62_implements_exactly (D : Decls) (s : DomId → Settings) (ops : List Op) (d : DomId) (pre : List Op) (r : TypeRec) (h : MadeAfter D s d ops pre r) (i : Nat) :
    r.implementsStrong (some i) = true ↔ ∃ m ∈ r.mixins, ∃ ff ∈ (D.mix m).feats, (run D (initWorld s) pre).featId ff.feat = some i := by
  have hx := (MadeAfter.table h).2 i
  unfold TypeRec.implementsStrong
  have hex : (∃ m ∈ r.mixins, ∃ ff ∈ (D.mix m).feats, (run D (initWorld s) pre).featId ff.feat = some i) ↔ ∃ x, x ∈ implsWithId D (run D (initWorld s) pre).featId r.mixins i := by
    constructor
    · rintro ⟨m, hm, ff, hff, hi⟩
      obtain ⟨k, hk⟩ := List.mem_iff_getElem?.1 hm
      exact ⟨(k, ff), mem_implsWithId.2 ⟨m, hk, hff, hi⟩⟩
    · rintro ⟨x, hx⟩
      obtain ⟨m, h1, h2, h3⟩ := mem_implsWithId.1 hx
      exact ⟨m, List.mem_of_getElem? h1, x.2, h2, h3⟩
  rw [hex]
  cases he : r.ftableAt (some i) with
  | none =>
    rw [he] at hx
    have hx : implsWithId D (run D (initWorld s) pre).featId r.mixins i = [] := hx
    rw [hx]; simp
  | some e =>
    rw [he] at hx
    have hx : EntryOf (implsWithId D (run D (initWorld s) pre).featId r.mixins i) e := hx
    simp only [Option.isSome_some, true_iff]
    cases hp : e.pls with
    | nil => exact absurd hp hx.nonempty
    | cons p ps => exact ⟨(p.mixinIndex, p.data), hx.complete.mem_iff.1 (by rw [hp]; simp)⟩

/-! ## Examples -/

/-- The history of `C27_foreign_feature_refuted`: features 1 (of domain 0) and 4 (of domain 1) have the same id. -/
def sharedHistory : List Op := [.regFeature 0 1, .regFeature 1 4, .regMixin 1 1, .getType 1 [1]]

/-- The type is made by the last call; under the id of feature 4 it has the implementation of feature 1. -/
example : ∃ r, MadeAfter regDecls (fun _ => {}) 1 sharedHistory (sharedHistory.take 3) r ∧ r.mixins = [1] ∧
    (run regDecls (initWorld fun _ => {}) (sharedHistory.take 3)).featId 4 = some 0 ∧ (run regDecls (initWorld fun _ => {}) (sharedHistory.take 3)).featId 1 = some 0 ∧
    implsWithId regDecls (run regDecls (initWorld fun _ => {}) (sharedHistory.take 3)).featId r.mixins 0 = [(0, ⟨1, 10, 0, 0⟩)] := by
  refine ⟨(((run regDecls (initWorld fun _ => {}) sharedHistory).doms 1).typeAt 1 1).getD (emptyType 1), ⟨.getType 1 [1], List.prefix_refl _, ?_, ?_⟩, ?_⟩ <;> decide +kernel

/-- Its table is right for feature 1, though this is a feature of another domain, and wrong for feature 4. -/
example (r : TypeRec) (h : MadeAfter regDecls (fun _ => {}) 1 sharedHistory (sharedHistory.take 3) r) (hm : r.mixins = [1]) :
    RightFor regDecls r.mixins 1 (r.ftableAt (some 0)) ∧ ¬ RightFor regDecls r.mixins 4 (r.ftableAt (some 0)) := by
  rw [C27_right_exactly regDecls _ sharedHistory 1 _ r h, C27_right_exactly regDecls _ sharedHistory 1 _ r h, hm]
  decide +kernel

/-- A feature that is registered again, after its mixin was: types that were made before have their implementations under the old id. -/
example : ∃ r, MadeAfter regDecls (fun _ => {}) 0 [.regMixin 0 1, .getType 0 [1], .unregFeature 0 1, .regFeature 0 4, .regFeature 0 1] [.regMixin 0 1] r ∧ r.mixins = [1] ∧
    (run regDecls (initWorld fun _ => {}) [.regMixin 0 1, .getType 0 [1], .unregFeature 0 1, .regFeature 0 4, .regFeature 0 1]).featId 4 = some 0 ∧ (r.ftableAt (some 0)).isSome := by
  refine ⟨(((run regDecls (initWorld fun _ => {}) [.regMixin 0 1, .getType 0 [1]]).doms 0).typeAt 0 1).getD (emptyType 1), ⟨.getType 0 [1], ⟨[.unregFeature 0 1, .regFeature 0 4, .regFeature 0 1], rfl⟩, ?_, ?_⟩, ?_⟩ <;> decide +kernel

end Dnmx.Props
