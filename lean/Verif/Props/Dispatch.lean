import Verif.Proofs.DispatchLemmas

/-!
# C29, C30, C31, C32: calling messages

`BuiltFor D t f fid` says that `t`'s feature table was built from its mixins with different feature ids, and that `fid` is
the id of `f`. It holds for all types of a domain in disciplined histories (`C29_types_of_domain_partial`).
Functions are arbitrary: they may change the program's state and throw.
-/

namespace Dnmx.Props
open Spec

variable {σ R : Type}

/-- Types of a domain have tables fit for the theorems below, for every feature of the domain (partial: with
`FeatureDiscipline`; missing: other histories, for which calls can go wrong, `C29_foreign_feature_refuted`). -/
theorem C29_types_of_domain_partial (D : Decls) (s : DomId → Settings) (ops : List Op) (hd : FeatureDiscipline D ops) (d : DomId)
    (t : TypeId) (r : TypeRec) (ht : ((run D (initWorld s) ops).doms d).typeAt d t = some r) (f : Feat)
    (hf : f ∈ featuresOf (run D (initWorld s) ops) d) : BuiltFor D r f ((run D (initWorld s) ops).featId f) := by
  obtain ⟨home, used, hops⟩ := hd
  obtain ⟨hh, htab⟩ := reachable_home D home used s ops hops
  have hr := reachable_reg D s ops
  have hi := reachable_types D s ops d
  have htab := htab d
  generalize run D (initWorld s) ops = W at hh htab hr hi ht hf ⊢
  obtain ⟨-, -, -, hreg⟩ := hi.typeAt_ok ht
  obtain ⟨hok, hsame⟩ := fidIn_ok hr hh r.mixins (fun m hm => (hr.mem_mixinsOf_iff d m).2 (hreg m hm))
  have hfid : fidIn W d f = W.featId f := by simp [fidIn, hf]
  refine ⟨fidIn W d, hok, ?_, hfid, ?_⟩
  · rcases typeAt_some ht with ⟨a, b⟩ | ⟨a, b, c⟩
    · subst b; rfl
    · rw [← buildFtable_congr D W.featId (fidIn W d) r.mixins hsame]; exact htab r b
  · obtain ⟨j, hj⟩ := (mem_featuresOf _ _ _).1 hf
    rw [hr.featSlot d j f hj]; rfl

/-- C29: a unicast call of a feature that the type implements calls an implementation that no other beats, with the data
of its mixin; this is all it does. -/
theorem C29_unicast_calls_winner (D : Decls) (I : Impls σ R) (t : TypeRec) (f : Feat) (fid : Option Nat) (hb : BuiltFor D t f fid)
    (hne : allImpls D t.mixins f ≠ []) :
    ∃ w, Winner D t.mixins f w ∧ ∀ s, callUnicast D I t f fid s = callImpl I w s := by
  cases he : t.ftableAt fid with
  | none => have := hb.facts; rw [he] at this; exact absurd this hne
  | some e =>
    obtain ⟨p, ps, hp, -, hw, -⟩ := hb.split he
    exact ⟨p.pair, hw, fun s => by simp only [callUnicast, he, hp]; rfl⟩

/-- C29: otherwise it calls the default implementation of the feature, and without one it does nothing but throw. -/
theorem C29_unicast_default (D : Decls) (I : Impls σ R) (t : TypeRec) (f : Feat) (fid : Option Nat) (hb : BuiltFor D t f fid)
    (hne : allImpls D t.mixins f = []) (s : σ) : callUnicast D I t f fid s =
      match (D.feat f).defaultPayload with
      | some p => I.dflt p s
      | none => (.error .notImplemented, s) := by
  cases he : t.ftableAt fid with
  | none => simp only [callUnicast, he, tryDefault]; cases (D.feat f).defaultPayload <;> rfl
  | some e =>
    obtain ⟨p, ps, -, -, hw, -⟩ := hb.split he
    rw [Winner, hne] at hw; simp at hw

/-- C29: the implementation that no other beats is unique if no mixin lists the feature twice. -/
theorem C29_winner_unique (D : Decls) (ms : List Mix) (f : Feat) (h : ListsOnce D ms f) (v w : Nat × FeatFor) (hv : Winner D ms f v)
    (hw : Winner D ms f w) : v = w := by
  have h1 := hv.2 w hw.1
  have h2 := hw.2 v hv.1
  simp only [WinsOrSame] at h1 h2
  have hi : v.1 = w.1 := by omega
  obtain ⟨m, a1, a2, a3⟩ := allImpls_idx_lt hv.1
  obtain ⟨m', b1, b2, b3⟩ := allImpls_idx_lt hw.1
  rw [hi, b1] at a1; simp at a1; subst a1
  have hl := h m' (List.mem_of_getElem? b1)
  have c1 : v.2 ∈ (D.mix m').feats.filter (fun ff => ff.feat = f) := by simp [a2, a3]
  have c2 : w.2 ∈ (D.mix m').feats.filter (fun ff => ff.feat = f) := by simp [b2, b3]
  generalize (D.mix m').feats.filter (fun ff => ff.feat = f) = l at hl c1 c2
  rcases l with _ | ⟨x, _ | ⟨y, l⟩⟩
  · simp at c1
  · simp at c1 c2; exact Prod.ext hi (by rw [c1, c2])
  · simp at hl

/-- C30: a multicast call calls each of the implementations with the greatest bid once, in descending order of priority
value, equal priorities in the order of the mixins in the type. The last one called is the one that a unicast call would call, and its
result is returned. An exception ends the calls. -/
theorem C30_multicast_calls (D : Decls) (I : Impls σ R) (t : TypeRec) (f : Feat) (fid : Option Nat) (hb : BuiltFor D t f fid)
    (hne : allImpls D t.mixins f ≠ []) :
    ∃ xs w, (xs ++ [w]).Perm (topImpls D t.mixins f) ∧ (xs ++ [w]).Pairwise CalledBefore ∧ Winner D t.mixins f w ∧
      (∀ s, callMulticast D I t f fid s = callInOrder I w xs s) ∧ (∀ s, callUnicast D I t f fid s = callImpl I w s) := by
  cases he : t.ftableAt fid with
  | none => have := hb.facts; rw [he] at this; exact absurd this hne
  | some e =>
    obtain ⟨p, ps, hp, -, hw, -, h1, h2⟩ := hb.split he
    have hrev : ((ps.take e.topBack).reverse.map Payload.pair ++ [p.pair]) = (p.pair :: (ps.take e.topBack).map Payload.pair).reverse := by
      simp [List.map_reverse]
    refine ⟨(ps.take e.topBack).reverse.map Payload.pair, p.pair, ?_, ?_, hw, fun s => ?_, fun s => ?_⟩
    · rw [hrev]; exact (List.reverse_perm _).trans h1
    · rw [hrev, List.pairwise_reverse]; exact h2
    · simp only [callMulticast, he, hp]; exact multicastLoop_spec I p _ s
    · simp only [callUnicast, he, hp]; rfl

/-- C30: without implementations a multicast is the same as a unicast (default implementation or error). -/
theorem C30_multicast_default (D : Decls) (I : Impls σ R) (t : TypeRec) (f : Feat) (fid : Option Nat) (hb : BuiltFor D t f fid)
    (hne : allImpls D t.mixins f = []) (s : σ) : callMulticast D I t f fid s =
      match (D.feat f).defaultPayload with
      | some p => I.dflt p s
      | none => (.error .notImplemented, s) := by
  cases he : t.ftableAt fid with
  | none => simp only [callMulticast, he, tryDefault]; cases (D.feat f).defaultPayload <;> rfl
  | some e =>
    obtain ⟨p, ps, -, -, hw, -⟩ := hb.split he
    rw [Winner, hne] at hw; simp at hw

/-! ## Next implementations -/

/-- The mixins of a type are found by their ids. True in every domain (`C26_index_of_in_domain`). -/
def IndexedBy (t : TypeRec) (mid : Mix → Option Nat) : Prop := ∀ (i : Nat) (m : Mix), t.mixins[i]? = some m → t.indexOf (mid m) = some i

/-- Types of a domain find their mixins. -/
theorem C31_types_of_domain (D : Decls) (s : DomId → Settings) (ops : List Op) (d : DomId) (t : TypeId) (r : TypeRec)
    (ht : ((run D (initWorld s) ops).doms d).typeAt d t = some r) : IndexedBy r (run D (initWorld s) ops).mixId := by
  intro i m hm
  refine (C26_index_of_in_domain D s ops d t r ht _ i).2 ⟨m, hm, ?_⟩
  have hr := reachable_reg D s ops
  have hreg := ((reachable_types D s ops d).typeAt_ok ht).2.2.2 m (List.mem_of_getElem? hm)
  exact (C01_mixin_by_id D s ops d _ m).2 ⟨(mixinRegistered_iff D s ops d m).2 ((hr.mem_mixinsOf_iff d m).2 hreg), rfl⟩

/-- C31: for a mixin that implements the feature, the next implementation is the one that follows in the ranking; for the
last, and for mixins that do not implement it, there is none. `L` is the ranking. (No mixin may list the feature twice:
`C31_duplicate_feature_refuted`.) -/
theorem C31_next_implementer (D : Decls) (t : TypeRec) (f : Feat) (fid : Option Nat) (hb : BuiltFor D t f fid) (mid : Mix → Option Nat)
    (hix : IndexedBy t mid) (hone : ListsOnce D t.mixins f) :
    ∃ L, RanksImpls D t.mixins f L ∧
      (∀ (k : Nat) (x : Nat × FeatFor) (m : Mix), L[k]? = some x → t.mixins[x.1]? = some m →
        (t.findNextImplementer fid (mid m)).map (fun p => (p.mixinIndex, p.data)) = L[k + 1]?) ∧
      (∀ m ∈ t.mixins, (∀ ff ∈ (D.mix m).feats, ff.feat ≠ f) → t.findNextImplementer fid (mid m) = none) := by
  have hfacts := hb.facts
  cases he : t.ftableAt fid with
  | none =>
    rw [he] at hfacts
    refine ⟨[], ⟨by rw [hfacts], List.Pairwise.nil⟩, ?_, ?_⟩
    · intro k x m hk; simp at hk
    · intro m _ _; simp only [TypeRec.findNextImplementer, he]
  | some e =>
    rw [he] at hfacts
    obtain ⟨-, hr, -, -⟩ := hfacts
    refine ⟨e.pls.map Payload.pair, hr, ?_, ?_⟩
    · intro k x m hk hm
      rw [List.getElem?_map] at hk
      cases hp : e.pls[k]? with
      | none => rw [hp] at hk; simp at hk
      | some p =>
        rw [hp] at hk; simp at hk; subst hk
        simp only [TypeRec.findNextImplementer, he, hix _ m hm]
        have hfi : findImplementer p.pair.1 0 e.pls = some k := findImplementer_at (hr.idx_nodup hone) hp
        rw [hfi, List.getElem?_map]; rfl
    · intro m hm hno
      obtain ⟨i, hi⟩ := List.mem_iff_getElem?.1 hm
      simp only [TypeRec.findNextImplementer, he, hix i m hi]
      cases hfi : findImplementer i 0 e.pls with
      | none => rfl
      | some k =>
        have hs := findImplementer_spec i e.pls 0
        rw [hfi] at hs
        obtain ⟨n, p, -, h2, h3, -⟩ := hs
        have hmem : p.pair ∈ allImpls D t.mixins f := hr.complete.mem_iff.1 (List.mem_map.2 ⟨p, List.mem_of_getElem? h2, rfl⟩)
        obtain ⟨m', a1, a2, a3⟩ := allImpls_idx_lt hmem
        have : p.pair.1 = i := h3
        rw [this, hi] at a1; simp at a1; subst a1
        exact absurd a3 (hno _ a2)

/-- The next implementation after that of the mixin at position `i`. -/
def nextOf (t : TypeRec) (fid : Option Nat) (mid : Mix → Option Nat) (i : Nat) : Option (Nat × FeatFor) :=
  match t.mixins[i]? with
  | none => none
  | some m => (t.findNextImplementer fid (mid m)).map (fun p => (p.mixinIndex, p.data))

/-- C31: going from the winner to the next implementation again and again visits each implementation exactly once, best first, and
then ends. -/
theorem C31_walk (D : Decls) (t : TypeRec) (f : Feat) (fid : Option Nat) (hb : BuiltFor D t f fid) (mid : Mix → Option Nat)
    (hix : IndexedBy t mid) (hone : ListsOnce D t.mixins f) (w : Nat × FeatFor) (hw : Winner D t.mixins f w) (n : Nat)
    (hn : (allImpls D t.mixins f).length ≤ n) : RanksImpls D t.mixins f (walk (nextOf t fid mid) n (some w)) := by
  obtain ⟨L, hL, hnext, -⟩ := C31_next_implementer D t f fid hb mid hix hone
  have hstep : ∀ (k : Nat) (x : Nat × FeatFor), L[k]? = some x → nextOf t fid mid x.1 = L[k + 1]? := by
    intro k x hk
    obtain ⟨m, hm, -⟩ := allImpls_idx_lt (hL.complete.mem_iff.1 (List.mem_of_getElem? hk))
    simp only [nextOf, hm]
    exact hnext k x m hk hm
  have hwalk : ∀ (n k : Nat), L.length - k ≤ n → walk (nextOf t fid mid) n L[k]? = L.drop k := by
    intro n
    induction n with
    | zero => intro k hk; simp [walk]; omega
    | succ n ih =>
      intro k hk
      cases hx : L[k]? with
      | none => simp [walk]; simpa using hx
      | some x =>
        obtain ⟨hlt, hxe⟩ := List.getElem?_eq_some_iff.1 hx
        rw [walk, hstep k x hx, ih (k + 1) (by omega), List.drop_eq_getElem_cons hlt, hxe]
  have h0 : L[0]? = some w := by
    cases L with
    | nil => have := hL.complete.mem_iff.2 hw.1; simp at this
    | cons a L =>
      have ha : Winner D t.mixins f a := by
        refine ⟨hL.complete.mem_iff.1 (by simp), fun x hx => ?_⟩
        rcases List.mem_cons.1 (hL.complete.mem_iff.2 hx) with rfl | hx
        · simp [WinsOrSame]
        · exact (List.pairwise_cons.1 hL.ordered).1 x hx
      rw [C29_winner_unique D t.mixins f hone w a hw ha]; rfl
  rw [← h0, hwalk n 0 (by rw [hL.complete.length_eq]; omega)]
  simpa using hL

/-- C31: the next bidder set of a mixin that implements the feature consists of the implementations with the next lower
bid, each once, best first. -/
theorem C31_next_bidder_set (D : Decls) (t : TypeRec) (f : Feat) (fid : Option Nat) (hb : BuiltFor D t f fid) (mid : Mix → Option Nat)
    (hix : IndexedBy t mid) (hone : ListsOnce D t.mixins f) (x : Nat × FeatFor) (hx : x ∈ allImpls D t.mixins f) (m : Mix)
    (hm : t.mixins[x.1]? = some m) :
    ((t.findNextBidderSet fid (mid m)).map (fun p => (p.mixinIndex, p.data))).Perm (nextTopImpls D t.mixins f x.2.bid) ∧
    ((t.findNextBidderSet fid (mid m)).map (fun p => (p.mixinIndex, p.data))).Pairwise WinsOrSame := by
  have hfacts := hb.facts
  cases he : t.ftableAt fid with
  | none => rw [he] at hfacts; rw [hfacts] at hx; simp at hx
  | some e =>
    rw [he] at hfacts
    obtain ⟨-, hr, -, -⟩ := hfacts
    obtain ⟨p, hp, rfl⟩ := List.mem_map.1 (hr.complete.mem_iff.2 hx)
    obtain ⟨k, hk⟩ := List.mem_iff_getElem?.1 hp
    have hfi : findImplementer p.pair.1 0 e.pls = some k := findImplementer_at (hr.idx_nodup hone) hk
    obtain ⟨hlt, hke⟩ := List.getElem?_eq_some_iff.1 hk
    have hdrop : e.pls.drop k = p :: e.pls.drop (k + 1) := by rw [List.drop_eq_getElem_cons hlt, hke]
    -- the bids around position `k`
    have hord : ∀ (a b : Nat) (y z : Payload), a < b → e.pls[a]? = some y → e.pls[b]? = some z → WinsOrSame y.pair z.pair := by
      intro a b y z hab hy hz
      have ho := hr.ordered
      rw [List.pairwise_map, List.pairwise_iff_getElem] at ho
      obtain ⟨ha, hy⟩ := List.getElem?_eq_some_iff.1 hy
      obtain ⟨hb, hz⟩ := List.getElem?_eq_some_iff.1 hz
      have := ho a b ha hb hab
      rwa [hy, hz] at this
    have hpw : ∀ n, ((e.pls.drop n).map Payload.pair).Pairwise WinsOrSame := by
      intro n; rw [List.map_drop]; exact hr.ordered.drop
    have htail : ∀ q ∈ e.pls.drop k, q.data.bid ≤ p.data.bid := by
      intro q hq
      rw [hdrop] at hq
      rcases List.mem_cons.1 hq with rfl | hq
      · exact Int.le_refl _
      · have := hpw k; rw [hdrop, List.map_cons, List.pairwise_cons] at this
        have := this.1 _ (List.mem_map.2 ⟨q, hq, rfl⟩)
        simp only [WinsOrSame, Payload.pair] at this; omega
    have hhead : ∀ q ∈ e.pls.take k, ¬ q.data.bid < p.data.bid := by
      intro q hq
      obtain ⟨j, hj⟩ := List.mem_iff_getElem?.1 hq
      have hjk : j < k := by have := (List.getElem?_eq_some_iff.1 hj).1; simp at this; omega
      rw [List.getElem?_take_of_lt hjk] at hj
      have := hord j k q p hjk hj hk
      simp only [WinsOrSame, Payload.pair] at this; omega
    -- the set as a filter of the table
    have hskip : skipBid p.data.bid (e.pls.drop k) = e.pls.filter (fun q => decide (q.data.bid < p.data.bid)) := by
      rw [skipBid_spec _ _ htail (hpw k)]
      conv => rhs; rw [← List.take_append_drop k e.pls, List.filter_append]
      have : (e.pls.take k).filter (fun q => decide (q.data.bid < p.data.bid)) = [] := by
        rw [List.filter_eq_nil_iff]; intro q hq; simp; have := hhead q hq; omega
      rw [this]; rfl
    have hset : t.findNextBidderSet fid (mid m) = e.pls.filter (fun q => q.data.bid < p.data.bid &&
        (allImpls D t.mixins f).all (fun y => decide (y.2.bid < p.data.bid → y.2.bid ≤ q.data.bid))) := by
      have hmem : ∀ y, y ∈ allImpls D t.mixins f ↔ ∃ q ∈ e.pls, q.pair = y := by
        intro y; rw [← hr.complete.mem_iff, List.mem_map]
      simp only [TypeRec.findNextBidderSet, he, hix _ m hm, hfi]
      rw [hdrop]
      simp only
      rw [← hdrop, hskip]
      have hfp : ((e.pls.filter (fun q => decide (q.data.bid < p.data.bid))).map Payload.pair).Pairwise WinsOrSame := by
        have := (List.pairwise_map.1 hr.ordered).filter (fun q => decide (q.data.bid < p.data.bid))
        exact List.pairwise_map.2 this
      have hff : e.pls.filter (fun q => q.data.bid < p.data.bid &&
          (allImpls D t.mixins f).all (fun y => decide (y.2.bid < p.data.bid → y.2.bid ≤ q.data.bid))) =
          (e.pls.filter (fun q => decide (q.data.bid < p.data.bid))).filter
            (fun q => (allImpls D t.mixins f).all (fun y => decide (y.2.bid < p.data.bid → y.2.bid ≤ q.data.bid))) := by
        rw [List.filter_filter]; congr 1; funext q; rw [Bool.and_comm]
      have hF : ∀ q, q ∈ e.pls.filter (fun q => decide (q.data.bid < p.data.bid)) ↔ q ∈ e.pls ∧ q.data.bid < p.data.bid := by
        intro q; simp [List.mem_filter]
      rw [hff]
      generalize e.pls.filter (fun q => decide (q.data.bid < p.data.bid)) = F at hfp hF
      cases F with
      | nil => rfl
      | cons b bs =>
        rw [List.map_cons, List.pairwise_cons] at hfp
        have hle : ∀ q ∈ bs, q.data.bid ≤ b.data.bid := by
          intro q hq
          have := hfp.1 _ (List.mem_map.2 ⟨q, hq, rfl⟩)
          simp only [WinsOrSame, Payload.pair] at this; omega
        have hP : ∀ q ∈ b :: bs, (allImpls D t.mixins f).all (fun y => decide (y.2.bid < p.data.bid → y.2.bid ≤ q.data.bid)) =
            decide (q.data.bid = b.data.bid) := by
          intro q hq
          rw [Bool.eq_iff_iff, List.all_eq_true]
          simp only [decide_eq_true_eq]
          obtain ⟨hb1, hb2⟩ := (hF b).1 (by simp)
          constructor
          · intro h
            have h1 := h b.pair ((hmem _).2 ⟨b, hb1, rfl⟩) hb2
            rcases List.mem_cons.1 hq with rfl | hq
            · rfl
            · have := hle q hq; simp only [Payload.pair] at h1; omega
          · intro h y hy hyb
            obtain ⟨z, hz, rfl⟩ := (hmem y).1 hy
            rcases List.mem_cons.1 ((hF z).2 ⟨hz, hyb⟩) with rfl | hz'
            · rw [h]; exact Int.le_refl _
            · have := hle z hz'; rw [h]; exact this
        rw [List.filter_congr hP]
        simp only
        rw [takeBid_spec _ _ hle hfp.2, List.filter_cons_of_pos (by simp)]
    rw [hset]
    refine ⟨?_, ?_⟩
    · have := hr.complete.filter (fun y => y.2.bid < p.data.bid && (allImpls D t.mixins f).all (fun z => decide (z.2.bid < p.data.bid → z.2.bid ≤ y.2.bid)))
      rw [List.filter_map] at this
      exact this
    · exact List.pairwise_map.2 ((List.pairwise_map.1 hr.ordered).filter _)

/-- C31: calling the next implementation calls exactly the function found, with the data of its mixin; if there is none, nothing
is called and an exception is thrown. -/
theorem C31_call_next (I : Impls σ R) (t : TypeRec) (fid mid : Option Nat) (s : σ) : callNextImpl I t fid mid s =
    match t.findNextImplementer fid mid with
    | none => (.error .noNext, s)
    | some p => callImpl I (p.mixinIndex, p.data) s := by
  unfold callNextImpl; cases t.findNextImplementer fid mid <;> rfl

/-- C31: calling the next bidder set calls each implementation with the next lower bid once, in the order of multicasts, and
returns the result of the last; calling its top calls only this last one. -/
theorem C31_call_next_bidders (D : Decls) (I : Impls σ R) (t : TypeRec) (f : Feat) (fid : Option Nat) (hb : BuiltFor D t f fid)
    (mid : Mix → Option Nat) (hix : IndexedBy t mid) (hone : ListsOnce D t.mixins f) (x : Nat × FeatFor)
    (hx : x ∈ allImpls D t.mixins f) (m : Mix) (hm : t.mixins[x.1]? = some m) :
    (nextTopImpls D t.mixins f x.2.bid = [] ∧ ∀ s, callNextBidderSet I t fid (mid m) s = (.error .noNext, s) ∧
      callNextBidderTop I t fid (mid m) s = (.error .noNext, s)) ∨
    ∃ xs w, (xs ++ [w]).Perm (nextTopImpls D t.mixins f x.2.bid) ∧ (xs ++ [w]).Pairwise CalledBefore ∧
      (∀ y ∈ nextTopImpls D t.mixins f x.2.bid, WinsOrSame w y) ∧
      (∀ s, callNextBidderSet I t fid (mid m) s = callInOrder I w xs s) ∧
      (∀ s, callNextBidderTop I t fid (mid m) s = callImpl I w s) := by
  obtain ⟨h1, h2⟩ := C31_next_bidder_set D t f fid hb mid hix hone x hx m hm
  simp only [callNextBidderSet, callNextBidderTop]
  cases hs : t.findNextBidderSet fid (mid m) with
  | nil =>
    rw [hs] at h1
    exact .inl ⟨by simpa using h1.symm.eq_nil, fun s => ⟨rfl, rfl⟩⟩
  | cons p ps =>
    rw [hs] at h1 h2
    have hrev : (ps.reverse.map Payload.pair ++ [p.pair]) = ((p :: ps).map Payload.pair).reverse := by
      simp [List.map_reverse]
    refine .inr ⟨ps.reverse.map Payload.pair, p.pair, ?_, ?_, ?_, fun s => ?_, fun s => rfl⟩
    · rw [hrev]; exact (List.reverse_perm _).trans h1
    · rw [hrev, List.pairwise_reverse]
      refine h2.imp_of_mem ?_
      intro a b ha hb' hab
      have ha := h1.mem_iff.1 ha; have hb' := h1.mem_iff.1 hb'
      simp only [nextTopImpls, List.mem_filter, Bool.and_eq_true, List.all_eq_true, decide_eq_true_eq] at ha hb'
      have h3 := ha.2.2 b hb'.1 hb'.2.1
      have h4 := hb'.2.2 a ha.1 ha.2.1
      simp only [WinsOrSame] at hab
      simp only [CalledBefore]
      omega
    · intro y hy
      rcases List.mem_cons.1 (h1.mem_iff.2 hy) with rfl | hy
      · simp [WinsOrSame, Payload.pair]
      · exact (List.pairwise_cons.1 h2).1 y hy
    · exact multicastLoop_spec I p _ s

/-! ## Combinators -/

/-- `r` is the outcome of a call with a combinator if `x` are the calls it should make, with their combined result, and
`val` is what the combinator says afterwards. After exceptions the combinator is not looked at. -/
def Yields {C V : Type} (r : Except CallErr Unit × C × σ) (val : C → V) (x : Except CallErr V × σ) : Prop :=
  r.2.2 = x.2 ∧ match x.1 with
    | .error e => r.1 = .error e
    | .ok v => r.1 = .ok () ∧ val r.2.1 = v

theorem callCombined_all {C : Type} (D : Decls) (I : Impls σ R) (K : Combinator R C) (t : TypeRec) (f : Feat) (fid : Option Nat)
    (hb : BuiltFor D t f fid) (hne : allImpls D t.mixins f ≠ []) :
    ∃ L, L.Perm (topImpls D t.mixins f) ∧ L.Pairwise CalledBefore ∧
      ∀ c s, callCombined D I K t f fid c s = combineAll I K L (K.setNum L.length c) s := by
  cases he : t.ftableAt fid with
  | none => have := hb.facts; rw [he] at this; exact absurd this hne
  | some e =>
    obtain ⟨p, ps, hp, -, hw, hle, h1, h2⟩ := hb.split he
    have hrev : ((ps.take e.topBack).reverse.map Payload.pair ++ [p.pair]) = (p.pair :: (ps.take e.topBack).map Payload.pair).reverse := by
      simp [List.map_reverse]
    refine ⟨(ps.take e.topBack).reverse.map Payload.pair ++ [p.pair], ?_, ?_, fun c s => ?_⟩
    · rw [hrev]; exact (List.reverse_perm _).trans h1
    · rw [hrev, List.pairwise_reverse]; exact h2
    · have hlen : ((ps.take e.topBack).reverse.map Payload.pair ++ [p.pair]).length = e.topBack + 1 := by simp; omega
      rw [hlen]
      simp only [callCombined, he, hp]
      exact combineLoop_spec I K p _ _ s

/-- C32: `boolean_and` calls the top bidders in the order of multicasts up to the first that returns false; its result tells
whether there was none. -/
theorem C32_boolean_and (D : Decls) (I : Impls σ Bool) (t : TypeRec) (f : Feat) (fid : Option Nat) (hb : BuiltFor D t f fid)
    (hne : allImpls D t.mixins f ≠ []) : ∃ L, L.Perm (topImpls D t.mixins f) ∧ L.Pairwise CalledBefore ∧
      ∀ s, Yields (callCombined D I boolAnd t f fid true s) (fun c => c) (callUntil I false L s) := by
  obtain ⟨L, h1, h2, h3⟩ := callCombined_all D I boolAnd t f fid hb hne
  refine ⟨L, h1, h2, fun s => ?_⟩
  rw [h3]
  clear h1 h2 h3
  show Yields (combineAll I boolAnd L true s) _ _
  induction L generalizing s with
  | nil => exact ⟨rfl, rfl, rfl⟩
  | cons x L ih =>
    unfold combineAll callUntil
    rcases hc : callImpl I x s with ⟨r, s'⟩
    cases r with
    | error e => exact ⟨rfl, rfl⟩
    | ok r =>
      cases r with
      | true => simpa [boolAnd] using ih s'
      | false => exact ⟨rfl, rfl, rfl⟩

/-- C32: `boolean_or` stops at the first true. -/
theorem C32_boolean_or (D : Decls) (I : Impls σ Bool) (t : TypeRec) (f : Feat) (fid : Option Nat) (hb : BuiltFor D t f fid)
    (hne : allImpls D t.mixins f ≠ []) : ∃ L, L.Perm (topImpls D t.mixins f) ∧ L.Pairwise CalledBefore ∧
      ∀ s, Yields (callCombined D I boolOr t f fid false s) (fun c => c) (callUntil I true L s) := by
  obtain ⟨L, h1, h2, h3⟩ := callCombined_all D I boolOr t f fid hb hne
  refine ⟨L, h1, h2, fun s => ?_⟩
  rw [h3]
  clear h1 h2 h3
  show Yields (combineAll I boolOr L false s) _ _
  induction L generalizing s with
  | nil => exact ⟨rfl, rfl, rfl⟩
  | cons x L ih =>
    unfold combineAll callUntil
    rcases hc : callImpl I x s with ⟨r, s'⟩
    cases r with
    | error e => exact ⟨rfl, rfl⟩
    | ok r =>
      cases r with
      | true => exact ⟨rfl, rfl, rfl⟩
      | false => simpa [boolOr] using ih s'

/-- C32: `sum` calls all top bidders and adds up their results. -/
theorem C32_sum (D : Decls) (I : Impls σ Int) (t : TypeRec) (f : Feat) (fid : Option Nat) (hb : BuiltFor D t f fid)
    (hne : allImpls D t.mixins f ≠ []) : ∃ L, L.Perm (topImpls D t.mixins f) ∧ L.Pairwise CalledBefore ∧
      ∀ s, Yields (callCombined D I sumC t f fid 0 s) (fun c => c) (callSum I L s) := by
  obtain ⟨L, h1, h2, h3⟩ := callCombined_all D I sumC t f fid hb hne
  refine ⟨L, h1, h2, fun s => ?_⟩
  rw [h3]
  clear h1 h2 h3
  have key : ∀ c s, Yields (combineAll I sumC L c s) (fun c' => c' - c) (callSum I L s) := by
    intro c s
    induction L generalizing c s with
    | nil => exact ⟨rfl, rfl, by show c - c = 0; omega⟩
    | cons x L ih =>
      unfold combineAll callSum
      rcases hc : callImpl I x s with ⟨r, s'⟩
      cases r with
      | error e => exact ⟨rfl, rfl⟩
      | ok r =>
        obtain ⟨i1, i2⟩ := ih (c + r) s'
        simp only [sumC, if_true] at i1 i2 ⊢
        rcases hq : callSum I L s' with ⟨q, s''⟩
        rw [hq] at i1 i2
        cases q with
        | error e => exact ⟨i1, i2⟩
        | ok q => exact ⟨i1, i2.1, by have := i2.2; simp only at this ⊢; omega⟩
  have := key 0 s
  simp only [Int.sub_zero] at this
  exact this

/-- C32: `mean` calls all top bidders; its result is the sum of their results divided by their number. -/
theorem C32_mean (D : Decls) (I : Impls σ Int) (t : TypeRec) (f : Feat) (fid : Option Nat) (hb : BuiltFor D t f fid)
    (hne : allImpls D t.mixins f ≠ []) : ∃ L, L.Perm (topImpls D t.mixins f) ∧ L.Pairwise CalledBefore ∧
      ∀ s, Yields (callCombined D I meanC t f fid (0, 0) s) meanResult
        (match callSum I L s with
          | (.error e, s') => (.error e, s')
          | (.ok v, s') => (.ok (v.tdiv (topImpls D t.mixins f).length), s')) := by
  obtain ⟨L, h1, h2, h3⟩ := callCombined_all D I meanC t f fid hb hne
  refine ⟨L, h1, h2, fun s => ?_⟩
  rw [h3, ← h1.length_eq]
  clear h1 h2 h3
  have key : ∀ c s, Yields (combineAll I meanC L c s) (fun c' => (c'.1 - c.1, c'.2))
      (match callSum I L s with
        | (.error e, s') => (.error e, s')
        | (.ok v, s') => (.ok (v, c.2), s')) := by
    intro c s
    induction L generalizing c s with
    | nil => exact ⟨rfl, rfl, by show (c.1 - c.1, c.2) = (0, c.2); simp⟩
    | cons x L ih =>
      unfold combineAll callSum
      rcases hc : callImpl I x s with ⟨r, s'⟩
      cases r with
      | error e => exact ⟨rfl, rfl⟩
      | ok r =>
        obtain ⟨i1, i2⟩ := ih (c.1 + r, c.2) s'
        simp only [meanC, if_true] at i1 i2 ⊢
        rcases hq : callSum I L s' with ⟨q, s''⟩
        rw [hq] at i1 i2
        cases q with
        | error e => exact ⟨i1, i2⟩
        | ok q =>
          refine ⟨i1, i2.1, ?_⟩
          have := i2.2
          simp only [Prod.mk.injEq] at this ⊢
          exact ⟨by omega, this.2⟩
  obtain ⟨k1, k2⟩ := key (meanC.setNum L.length (0, 0)) s
  rcases hq : callSum I L s with ⟨q, s''⟩
  rw [hq] at k1 k2
  cases q with
  | error e => exact ⟨k1, k2⟩
  | ok q =>
    refine ⟨k1, k2.1, ?_⟩
    have := k2.2
    simp only [meanC, Prod.mk.injEq, Int.sub_zero] at this
    simp only [meanResult, meanC]
    rw [this.1, this.2]

/-- C32: for functions without side effects: the conjunction, disjunction and sum of the results of all top bidders, in terms of the
declarations only. -/
theorem C32_pure_results (D : Decls) (t : TypeRec) (f : Feat) (fid : Option Nat) (hb : BuiltFor D t f fid)
    (hne : allImpls D t.mixins f ≠ []) (s : σ) (dataAt : σ → Nat → Nat) (dflt : Nat → σ → Except CallErr Bool × σ)
    (dflt' : Nat → σ → Except CallErr Int × σ) (val : Nat → Nat → Bool) (num : Nat → Nat → Int) :
    callCombined D ⟨dataAt, fun p d s => (.ok (val p d), s), dflt⟩ boolAnd t f fid true s =
      (.ok (), (topImpls D t.mixins f).all (fun w => val w.2.payload (dataAt s w.1)), s) ∧
    callCombined D ⟨dataAt, fun p d s => (.ok (val p d), s), dflt⟩ boolOr t f fid false s =
      (.ok (), (topImpls D t.mixins f).any (fun w => val w.2.payload (dataAt s w.1)), s) ∧
    callCombined D ⟨dataAt, fun p d s => (.ok (num p d), s), dflt'⟩ sumC t f fid 0 s =
      (.ok (), ((topImpls D t.mixins f).map (fun w => num w.2.payload (dataAt s w.1))).sum, s) := by
  refine ⟨?_, ?_, ?_⟩
  · obtain ⟨L, h1, -, h3⟩ := C32_boolean_and D ⟨dataAt, fun p d s => (.ok (val p d), s), dflt⟩ t f fid hb hne
    have hu : callUntil ⟨dataAt, fun p d s => (.ok (val p d), s), dflt⟩ false L s =
        (.ok (L.all (fun w => val w.2.payload (dataAt s w.1))), s) := by
      clear h1 h3
      induction L with
      | nil => rfl
      | cons x L ih => simp only [callUntil, callImpl, ih, List.all_cons]; split <;> rename_i h <;> simp [h]
    obtain ⟨y1, y2⟩ := h3 s
    rw [hu] at y1 y2
    refine Prod.ext y2.1 (Prod.ext ?_ y1)
    have := y2.2
    simp only at this ⊢
    rw [this, h1.all_eq]
  · obtain ⟨L, h1, -, h3⟩ := C32_boolean_or D ⟨dataAt, fun p d s => (.ok (val p d), s), dflt⟩ t f fid hb hne
    have hu : callUntil ⟨dataAt, fun p d s => (.ok (val p d), s), dflt⟩ true L s =
        (.ok (L.any (fun w => val w.2.payload (dataAt s w.1))), s) := by
      clear h1 h3
      induction L with
      | nil => rfl
      | cons x L ih => simp only [callUntil, callImpl, ih, List.any_cons]; split <;> rename_i h <;> simp [h]
    obtain ⟨y1, y2⟩ := h3 s
    rw [hu] at y1 y2
    refine Prod.ext y2.1 (Prod.ext ?_ y1)
    have := y2.2
    simp only at this ⊢
    rw [this, h1.any_eq]
  · obtain ⟨L, h1, -, h3⟩ := C32_sum D ⟨dataAt, fun p d s => (.ok (num p d), s), dflt'⟩ t f fid hb hne
    have hu : callSum ⟨dataAt, fun p d s => (.ok (num p d), s), dflt'⟩ L s =
        (.ok ((L.map (fun w => num w.2.payload (dataAt s w.1))).sum), s) := by
      clear h1 h3
      induction L with
      | nil => rfl
      | cons x L ih => simp only [callSum, callImpl, ih, List.map_cons, List.sum_cons]
    obtain ⟨y1, y2⟩ := h3 s
    rw [hu] at y1 y2
    refine Prod.ext y2.1 (Prod.ext ?_ y1)
    have := y2.2
    simp only at this ⊢
    rw [this]
    have hp := h1.map (fun w => num w.2.payload (dataAt s w.1))
    generalize L.map (fun w => num w.2.payload (dataAt s w.1)) = a at hp
    generalize (topImpls D t.mixins f).map (fun w => num w.2.payload (dataAt s w.1)) = b at hp
    induction hp with
    | nil => rfl
    | cons x _ ih => simp [ih]
    | swap x y l => simp; omega
    | trans _ _ ih1 ih2 => rw [ih1, ih2]

/-- C32: without implementations the combinator gets the single result of the default implementation; the four
combinators then say just this result. Without default nothing is called. -/
theorem C32_default {C : Type} (D : Decls) (I : Impls σ R) (K : Combinator R C) (t : TypeRec) (f : Feat) (fid : Option Nat) (hb : BuiltFor D t f fid)
    (hne : allImpls D t.mixins f = []) (c : C) (s : σ) :
    callCombined D I K t f fid c s =
      match (D.feat f).defaultPayload with
      | none => (.error .notImplemented, K.setNum 1 c, s)
      | some p =>
        match I.dflt p s with
        | (.error e, s') => (.error e, K.setNum 1 c, s')
        | (.ok r, s') => (.ok (), (K.add r (K.setNum 1 c)).1, s') := by
  cases he : t.ftableAt fid with
  | none =>
    simp only [callCombined, he, tryDefault]
    cases (D.feat f).defaultPayload <;> rfl
  | some e =>
    obtain ⟨p, ps, -, -, hw, -⟩ := hb.split he
    rw [Winner, hne] at hw; simp at hw

theorem C32_single_result (b : Bool) (n : Int) :
    (boolAnd.add b (boolAnd.setNum 1 true)).1 = b ∧ (boolOr.add b (boolOr.setNum 1 false)).1 = b ∧
    (sumC.add n (sumC.setNum 1 0)).1 = n ∧ meanResult (meanC.add n (meanC.setNum 1 (0, 0))).1 = n := by
  simp [boolAnd, boolOr, sumC, meanC, meanResult]

/-! ## In a domain -/

/-- C29, C30 for the types of a domain, at any time (partial: with `FeatureDiscipline`; missing: other histories,
`C29_foreign_feature_refuted`). -/
theorem C30_in_domain_partial (D : Decls) (s : DomId → Settings) (ops : List Op) (hd : FeatureDiscipline D ops) (d : DomId)
    (t : TypeId) (r : TypeRec) (ht : ((run D (initWorld s) ops).doms d).typeAt d t = some r) (f : Feat)
    (hf : f ∈ featuresOf (run D (initWorld s) ops) d) (I : Impls σ R) (hne : allImpls D r.mixins f ≠ []) :
    ∃ xs w, (xs ++ [w]).Perm (topImpls D r.mixins f) ∧ (xs ++ [w]).Pairwise CalledBefore ∧ Winner D r.mixins f w ∧
      (∀ σ₀, callMulticast D I r f ((run D (initWorld s) ops).featId f) σ₀ = callInOrder I w xs σ₀) ∧
      (∀ σ₀, callUnicast D I r f ((run D (initWorld s) ops).featId f) σ₀ = callImpl I w σ₀) :=
  C30_multicast_calls D I r f _ (C29_types_of_domain_partial D s ops hd d t r ht f hf) hne

/-- C31 for the types of a domain, at any time (partial: with `FeatureDiscipline` and no mixin that lists the feature
twice). -/
theorem C31_in_domain_partial (D : Decls) (s : DomId → Settings) (ops : List Op) (hd : FeatureDiscipline D ops) (d : DomId)
    (t : TypeId) (r : TypeRec) (ht : ((run D (initWorld s) ops).doms d).typeAt d t = some r) (f : Feat)
    (hf : f ∈ featuresOf (run D (initWorld s) ops) d) (hone : ListsOnce D r.mixins f) (w : Nat × FeatFor) (hw : Winner D r.mixins f w)
    (n : Nat) (hn : (allImpls D r.mixins f).length ≤ n) :
    RanksImpls D r.mixins f
      (walk (nextOf r ((run D (initWorld s) ops).featId f) (run D (initWorld s) ops).mixId) n (some w)) :=
  C31_walk D r f _ (C29_types_of_domain_partial D s ops hd d t r ht f hf) _ (C31_types_of_domain D s ops d t r ht) hone w hw n hn

/-- C32 for the types of a domain, at any time (partial: with `FeatureDiscipline`), for `mean` as an example; the others follow in
the same way from `C29_types_of_domain_partial`. -/
theorem C32_in_domain_partial (D : Decls) (s : DomId → Settings) (ops : List Op) (hd : FeatureDiscipline D ops) (d : DomId)
    (t : TypeId) (r : TypeRec) (ht : ((run D (initWorld s) ops).doms d).typeAt d t = some r) (f : Feat)
    (hf : f ∈ featuresOf (run D (initWorld s) ops) d) (I : Impls σ Int) (hne : allImpls D r.mixins f ≠ []) :
    ∃ L, L.Perm (topImpls D r.mixins f) ∧ L.Pairwise CalledBefore ∧
      ∀ σ₀, Yields (callCombined D I meanC r f ((run D (initWorld s) ops).featId f) (0, 0) σ₀) meanResult
        (match callSum I L σ₀ with
          | (.error e, s') => (.error e, s')
          | (.ok v, s') => (.ok (v.tdiv (topImpls D r.mixins f).length), s')) :=
  C32_mean D I r f _ (C29_types_of_domain_partial D s ops hd d t r ht f hf) hne

/-! ## Violations -/

/-- C29 is false in general: as in `C27_foreign_feature_refuted`, a call of feature 4 on the type of mixin 1, which does
not implement it, calls the function that mixin 1 provides for feature 1. (Implementations here log their payload.) -/
theorem C29_foreign_feature_refuted :
    ∃ ops, 4 ∈ featuresOf (run regDecls (initWorld fun _ => {}) ops) 1 ∧ allImpls regDecls [1] 4 = [] ∧
      (((run regDecls (initWorld fun _ => {}) ops).doms 1).typeAt 1 1).map (fun r =>
        (r.mixins, (callUnicast regDecls (σ := List Nat) (R := Unit)
          ⟨fun _ i => i, fun p _ s => (.ok (), p :: s), fun p s => (.ok (), p :: s)⟩ r 4
          ((run regDecls (initWorld fun _ => {}) ops).featId 4) []).2)) = some ([1], [10]) := by
  refine ⟨[.regFeature 0 1, .regFeature 1 4, .regMixin 1 1, .getType 1 [1]], ?_⟩
  decide +kernel

/-- Mixin 1 lists feature 7 twice, with bids 2 and 0; mixin 2 lists it once, with bid 1. -/
def twiceDecls : Decls where
  mem := fun _ => 0
  mix := fun m => { name := ⟨0, 0⟩, feats := if m = 1 then [⟨7, 100, 2, 0⟩, ⟨7, 101, 0, 0⟩] else if m = 2 then [⟨7, 200, 1, 0⟩] else [] }
  feat := fun _ => { name := ⟨0, 0⟩, allowClashes := false }
  userRule := fun _ => ⟨⟨0, 0⟩, none, 0⟩
  cls := fun _ => ⟨⟨0, 0⟩, false, fun _ => true⟩

def twiceType : TypeRec :=
  ⟨1, 0, [1, 2], ⟨[], 0, 8⟩, sparseTable [1, 2],
    match buildFtable twiceDecls exFid [1, 2] with
    | .ok t => t
    | .error _ => []⟩

/-- C31 is false if a mixin lists a feature twice: from mixin 1 the next implementation is that of mixin 2, whose next is
mixin 1's second one. From there the search starts at mixin 1's first one again, so that the walk never ends. -/
theorem C31_duplicate_feature_refuted :
    BuiltFor twiceDecls twiceType 7 (exFid 7) ∧ IndexedBy twiceType some ∧
    (nextOf twiceType (exFid 7) some 0).map (·.1) = some 1 ∧ (nextOf twiceType (exFid 7) some 1).map (·.1) = some 0 ∧
    ∀ n w, w.1 < 2 → (walk (nextOf twiceType (exFid 7) some) n (some w)).length = n := by
  have h0 : (nextOf twiceType (exFid 7) some 0) = some (1, ⟨7, 200, 1, 0⟩) := by decide +kernel
  have h1 : (nextOf twiceType (exFid 7) some 1) = some (0, ⟨7, 101, 0, 0⟩) := by decide +kernel
  refine ⟨⟨exFid, ⟨?_, ?_⟩, by decide +kernel, rfl, rfl⟩, ?_, by rw [h0]; rfl, by rw [h1]; rfl, ?_⟩
  · intro m hm ff hff
    have : m = 1 ∨ m = 2 := by simpa [twiceType] using hm
    rcases this with rfl | rfl
    · have : ff ∈ [⟨7, 100, 2, 0⟩, (⟨7, 101, 0, 0⟩ : FeatFor)] := hff
      simp at this; rcases this with rfl | rfl <;> exact ⟨2, rfl⟩
    · have : ff ∈ [(⟨7, 200, 1, 0⟩ : FeatFor)] := hff
      simp at this; subst this; exact ⟨2, rfl⟩
  · intro f g i; unfold exFid; grind
  · intro i m hi
    have hi : [1, 2][i]? = some m := hi
    rcases i with _ | _ | i <;> simp at hi <;> subst hi <;> decide +kernel
  · intro n
    induction n with
    | zero => intro w hw; rfl
    | succ n ih =>
      intro w hw
      rw [walk]
      rcases Nat.lt_succ_iff_lt_or_eq.1 hw with hw | hw
      · have : w.1 = 0 := by omega
        rw [this, h0, List.length_cons, ih _ (by decide)]
      · rw [hw, h1, List.length_cons, ih _ (by decide)]

/-! ## An instance: mixins 1, 2, 3 (see `featDecls`), of which 2 and 3 are top bidders -/

def callType : TypeRec :=
  ⟨1, 0, [2, 1, 3], ⟨[], 0, 8⟩, sparseTable [2, 1, 3],
    match buildFtable (featDecls 4) exFid [2, 1, 3] with
    | .ok t => t
    | .error _ => []⟩

def logImpls : Impls (List (Nat × Nat)) Nat :=
  ⟨fun _ i => i + 50, fun p d s => (.ok (p * 2), s ++ [(p, d)]), fun p s => (.ok p, s ++ [(p, 0)])⟩

theorem callType_built : BuiltFor (featDecls 4) callType 7 (exFid 7) ∧ IndexedBy callType some ∧ ListsOnce (featDecls 4) callType.mixins 7 ∧
    allImpls (featDecls 4) callType.mixins 7 ≠ [] := by
  refine ⟨⟨exFid, exFid_ok 4 _, by decide +kernel, rfl, rfl⟩, ?_, by unfold ListsOnce; decide +kernel, by decide +kernel⟩
  intro i m hi
  have hi : [2, 1, 3][i]? = some m := hi
  rcases i with _ | _ | _ | i <;> simp at hi <;> subst hi <;> decide +kernel

example :
    callUnicast (featDecls 4) logImpls callType 7 (exFid 7) [] = (.ok 400, [(200, 50)]) ∧
    callMulticast (featDecls 4) logImpls callType 7 (exFid 7) [] = (.ok 400, [(301, 52), (200, 50)]) ∧
    callUnicast (featDecls 4) logImpls callType 9 (exFid 9) [] = (.error .notImplemented, []) ∧
    walk (nextOf callType (exFid 7) some) 3 (some (0, ⟨7, 200, 5, 1⟩)) = [(0, ⟨7, 200, 5, 1⟩), (2, ⟨7, 301, 5, 4⟩), (1, ⟨7, 100, 0, 0⟩)] ∧
    callNextBidderSet logImpls callType (exFid 7) (some 3) [] = (.ok 200, [(100, 51)]) := by decide +kernel

end Dnmx.Props
