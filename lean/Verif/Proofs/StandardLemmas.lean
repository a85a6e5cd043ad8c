import Verif.Model.Standard
import Verif.Spec.Standard
import Verif.Proofs.FeatureLemmas
import Verif.Proofs.HomeLemmas
import Verif.Proofs.MessageTrue
import Verif.Proofs.RuleMapLemmas
import Verif.Proofs.OrderLemmas

/-! # Any conforming sort, binary search -/

namespace Dnmx
open Spec

/-! ## sorting -/

theorem WeakOrderOn.neg_trans {α : Type} {l : List α} {lt : α → α → Bool} (h : WeakOrderOn l lt) {a b c : α} (ha : a ∈ l) (hb : b ∈ l) (hc : c ∈ l)
    (h1 : lt b a = false) (h2 : lt c b = false) : lt c a = false := by
  cases h3 : lt c a with
  | false => rfl
  | true =>
    cases h4 : lt a b with
    | true => rw [h.trans c hc a ha b hb h3 h4] at h2; simp at h2
    | false =>
      cases h5 : lt b c with
      | true => rw [h.trans b hb c hc a ha h5 h3] at h1; simp at h1
      | false => rw [h.same c hc b hb a ha h2 h5 h1 h4] at h3; simp at h3

theorem WeakOrderOn.asymm {α : Type} {l : List α} {lt : α → α → Bool} (h : WeakOrderOn l lt) {a b : α} (ha : a ∈ l) (hb : b ∈ l) (h1 : lt a b = true) : lt b a = false := by
  cases h2 : lt b a with
  | false => rfl
  | true => have := h.trans a ha b hb a ha h1 h2; rw [h.irrefl a ha] at this; simp at this

theorem WeakOrderOn.of_total {α : Type} {T : α → Prop} {lt : α → α → Bool} (ho : StrictTotalOn T lt) (l : List α) (hl : ∀ a ∈ l, T a) : WeakOrderOn l lt := by
  have eq : ∀ a b, T a → T b → lt a b = false → lt b a = false → a = b := by
    intro a b ha hb h1 h2
    apply Classical.byContradiction
    intro hne
    rcases ho.total a b ha hb hne with h | h
    · rw [h] at h1; simp at h1
    · rw [h] at h2; simp at h2
  refine ⟨fun a ha => ho.irrefl a (hl a ha), fun a ha b hb c hc => ho.trans a b c (hl a ha) (hl b hb) (hl c hc), ?_⟩
  intro a ha b hb c hc h1 h2 h3 h4
  rw [← eq a b (hl a ha) (hl b hb) h1 h2] at h3
  exact h3

/-- The sort of the models, and the one that reverses what the order does not distinguish, do what the standard says. -/
theorem sortBy_conforms {α : Type} (lt : α → α → Bool) (l l' : List α) (hp : l'.Perm l) (h : WeakOrderOn l lt) :
    (sortBy lt l').Perm l ∧ (sortBy lt l').Pairwise (fun a b => lt b a = false) :=
  ⟨(sortBy_perm lt l').trans hp, sortBy_sorted lt (· ∈ l) (fun _ _ _ ha hb hc => h.neg_trans ha hb hc) (fun _ _ ha hb => h.asymm ha hb) l' (fun _ hy => hp.mem_iff.1 hy)⟩

/-- The sort of the models. -/
def keepingSort : StdSort := ⟨fun lt l => sortBy lt l, fun lt l h => (sortBy_conforms lt l l (.refl l) h).1, fun lt l h => (sortBy_conforms lt l l (.refl l) h).2⟩

/-- A sort that reverses what the order does not distinguish. -/
def reversingSort : StdSort :=
  ⟨fun lt l => sortBy lt l.reverse, fun lt l h => (sortBy_conforms lt l _ (List.reverse_perm l) h).1, fun lt l h => (sortBy_conforms lt l _ (List.reverse_perm l) h).2⟩

theorem stdSort_total (S : StdSort) {α : Type} {T : α → Prop} {lt : α → α → Bool} (ho : StrictTotalOn T lt) (l : List α) (hl : ∀ a ∈ l, T a) : S.sort lt l = sortBy lt l := by
  have hw := WeakOrderOn.of_total ho l hl
  have h2 := sortBy_conforms lt l l (.refl l) hw
  exact sorted_perm_unique lt T ho.total _ _ (fun y hy => hl y ((S.perm lt l hw).mem_iff.1 hy)) ((S.perm lt l hw).trans h2.1.symm) (S.sorted lt l hw) h2.2

/-- Elements that are only equivalent if they are at the same place. -/
theorem stdSort_distinct (S : StdSort) {α : Type} (lt : α → α → Bool) (l : List α) (hw : WeakOrderOn l lt) (hd : ∀ a ∈ l, ∀ b ∈ l, a ≠ b → lt a b = true ∨ lt b a = true) :
    S.sort lt l = sortBy lt l := by
  have h2 := sortBy_conforms lt l l (.refl l) hw
  exact sorted_perm_unique lt (· ∈ l) (fun a b ha hb => hd a ha b hb) _ _ (fun y hy => (S.perm lt l hw).mem_iff.1 hy) ((S.perm lt l hw).trans h2.1.symm) (S.sorted lt l hw) h2.2

/-! ## payloads -/

/-- the order of ranks -/
def rankLt (a b : Int × Int × Nat) : Bool :=
  if a.1 ≠ b.1 then decide (a.1 > b.1) else if a.2.1 ≠ b.2.1 then decide (a.2.1 < b.2.1) else decide (a.2.2 > b.2.2)

theorem payloadLt_rank (a b : Payload) : payloadLt a b = rankLt (rankOf a) (rankOf b) := rfl

theorem rankLt_iff (a b : Int × Int × Nat) : rankLt a b = true ↔ a.1 > b.1 ∨ (a.1 = b.1 ∧ (a.2.1 < b.2.1 ∨ (a.2.1 = b.2.1 ∧ a.2.2 > b.2.2))) := by
  unfold rankLt
  by_cases h1 : a.1 = b.1
  · by_cases h2 : a.2.1 = b.2.1
    · simp [h1, h2]
    · simp [h1, h2]
  · simp only [ne_eq, h1, not_false_eq_true, if_true, decide_eq_true_eq, false_and, or_false]

theorem rankLt_total : StrictTotalOn (fun _ => True) rankLt := by
  refine ⟨?_, ?_, ?_⟩
  · intro a _
    rw [Bool.eq_false_iff]
    intro h
    rw [rankLt_iff] at h
    omega
  · intro a b c _ _ _ h1 h2
    rw [rankLt_iff] at *
    omega
  · intro a b _ _ hne
    rw [rankLt_iff, rankLt_iff]
    have : ¬ (a.1 = b.1 ∧ a.2.1 = b.2.1 ∧ a.2.2 = b.2.2) := by
      rintro ⟨h1, h2, h3⟩
      exact hne (Prod.ext h1 (Prod.ext h2 h3))
    omega

theorem payloadLt_weak (l : List Payload) : WeakOrderOn l payloadLt := by
  have h := WeakOrderOn.of_total rankLt_total (l.map rankOf) (fun _ _ => trivial)
  refine ⟨?_, ?_, ?_⟩
  · intro a ha; exact h.irrefl _ (List.mem_map_of_mem ha)
  · intro a ha b hb c hc; exact h.trans _ (List.mem_map_of_mem ha) _ (List.mem_map_of_mem hb) _ (List.mem_map_of_mem hc)
  · intro a ha b hb c hc; exact h.same _ (List.mem_map_of_mem ha) _ (List.mem_map_of_mem hb) _ (List.mem_map_of_mem hc)

theorem sort_ranks (S : StdSort) (pls : List Payload) :
    (S.sort payloadLt pls).map rankOf = (sortPayloads pls).map rankOf ∧ (S.sort payloadLt pls).Perm (sortPayloads pls) := by
  have hw := payloadLt_weak pls
  have hp : (S.sort payloadLt pls).Perm (sortPayloads pls) := (S.perm payloadLt pls hw).trans (sortPayloads_perm pls).symm
  refine ⟨?_, hp⟩
  refine sorted_perm_unique rankLt (fun _ => True) rankLt_total.total _ _ (fun _ _ => trivial) (hp.map rankOf) ?_ ?_
  · rw [List.pairwise_map]; exact S.sorted payloadLt pls hw
  · rw [List.pairwise_map]; exact sortPayloads_sorted pls

theorem topBackLoop_ranks : ∀ (ps qs : List Payload) (p q : Payload) (i : Nat), p.data.bid = q.data.bid → ps.map rankOf = qs.map rankOf → topBackLoop p i ps = topBackLoop q i qs
  | [], [], _, _, _, _, _ => rfl
  | [], _ :: _, _, _, _, _, h => by simp at h
  | _ :: _, [], _, _, _, _, h => by simp at h
  | a :: ps, b :: qs, p, q, i, h1, h2 => by
    simp only [List.map_cons, List.cons.injEq] at h2
    have hb : a.data.bid = b.data.bid := congrArg (fun r => r.1) h2.1
    simp only [topBackLoop, hb, h1, topBackLoop_ranks ps qs a b (i + 1) hb h2.2]

theorem hasClash_ranks : ∀ (ps qs : List Payload), ps.map rankOf = qs.map rankOf → hasClash ps = hasClash qs
  | [], [], _ => rfl
  | [], _ :: _, h => by simp at h
  | _ :: _, [], h => by simp at h
  | [a], [b], _ => rfl
  | [a], _ :: _ :: _, h => by simp at h
  | _ :: _ :: _, [b], h => by simp at h
  | a :: a' :: ps, b :: b' :: qs, h => by
    have ih := hasClash_ranks (a' :: ps) (b' :: qs) (by simp only [List.map_cons, List.cons.injEq] at h ⊢; exact h.2)
    simp only [List.map_cons, List.cons.injEq] at h
    have h1 : a.data.bid = b.data.bid := congrArg (fun r => r.1) h.1
    have h2 : a.data.priority = b.data.priority := congrArg (fun r => r.2.1) h.1
    have h3 : a'.data.bid = b'.data.bid := congrArg (fun r => r.1) h.2.1
    have h4 : a'.data.priority = b'.data.priority := congrArg (fun r => r.2.1) h.2.1
    simp only [hasClash, h1, h2, h3, h4, ih]

/-- results with entries that agree -/
def AgreeE (R : β → β → Prop) (x y : Except Err β) : Prop := (∃ e, x = .error e ∧ y = .error e) ∨ ∃ a b, x = .ok a ∧ y = .ok b ∧ R a b

theorem finishEntryS_agree (S : StdSort) (D : Decls) (pls : List Payload) (hf : ∀ p ∈ pls, ∀ q ∈ pls, p.data.feat = q.data.feat) :
    AgreeE SameEntry (finishEntryS S D pls) (finishEntry D pls) := by
  obtain ⟨h1, h2⟩ := sort_ranks S pls
  have hm : ∀ p ∈ sortPayloads pls, p ∈ pls := fun p hp => (sortPayloads_perm pls).mem_iff.1 hp
  unfold finishEntryS finishEntry
  generalize S.sort payloadLt pls = a at h1 h2 ⊢
  generalize sortPayloads pls = b at h1 h2 hm ⊢
  cases a with
  | nil =>
    cases b with
    | nil => exact .inr ⟨none, none, rfl, rfl, trivial⟩
    | cons q qs => simp at h1
  | cons p ps =>
    cases b with
    | nil => simp at h1
    | cons q qs =>
      have hfe : p.data.feat = q.data.feat := hf p (hm p (h2.mem_iff.1 List.mem_cons_self)) q (hm q List.mem_cons_self)
      have hc := hasClash_ranks _ _ h1
      have h1' := h1
      simp only [List.map_cons, List.cons.injEq] at h1'
      have hb : p.data.bid = q.data.bid := congrArg (fun r => r.1) h1'.1
      have ht := topBackLoop_ranks ps qs p q 0 hb h1'.2
      simp only [hfe, hc]
      by_cases hx : (!(D.feat q.data.feat).allowClashes && hasClash (q :: qs)) = true
      · rw [if_pos hx, if_pos hx]; exact .inl ⟨_, rfl, rfl⟩
      · rw [if_neg hx, if_neg hx]; exact .inr ⟨_, _, rfl, rfl, h1, h2, ht⟩

theorem SameTable.nil : SameTable [] [] := ⟨rfl, fun _ => trivial⟩

theorem SameTable.cons {a b : Option FEntry} {t t' : List (Option FEntry)} (h : SameEntry a b) (ht : SameTable t t') : SameTable (a :: t) (b :: t') := by
  refine ⟨by simp [ht.1], ?_⟩
  intro i
  cases i with
  | zero => simpa using h
  | succ i => simpa using ht.2 i

theorem finishAllS_agree (S : StdSort) (D : Decls) (buf : List (Option Payload)) : ∀ (es : List (Option (Nat × Nat))),
    (∀ e ∈ es, ∀ p ∈ entryPayloads buf e, ∀ q ∈ entryPayloads buf e, p.data.feat = q.data.feat) → AgreeE SameTable (finishAllS S D buf es) (finishAll D buf es)
  | [], _ => .inr ⟨[], [], rfl, rfl, SameTable.nil⟩
  | e :: es, h => by
    have ih := finishAllS_agree S D buf es (fun x hx => h x (List.mem_cons_of_mem _ hx))
    rcases finishEntryS_agree S D (entryPayloads buf e) (h e List.mem_cons_self) with ⟨er, h1, h2⟩ | ⟨a, b, h1, h2, h3⟩
    · simp only [finishAllS, finishAll, h1, h2]; exact .inl ⟨_, rfl, rfl⟩
    · rcases ih with ⟨er, h4, h5⟩ | ⟨ta, tb, h4, h5, h6⟩
      · simp only [finishAllS, finishAll, h1, h2, h4, h5]; exact .inl ⟨_, rfl, rfl⟩
      · simp only [finishAllS, finishAll, h1, h2, h4, h5]; exact .inr ⟨_, _, rfl, rfl, SameTable.cons h3 h6⟩

/-- Both builders work on the same buffer and entries, whose payloads are the implementations. -/
theorem buildFtableS_shape (S : StdSort) (D : Decls) (fid : Feat → Option Nat) (ms : List Mix) :
    (buildFtableS S D fid ms = .error .ub ∧ buildFtable D fid ms = .error .ub) ∨
    ∃ (buf : List (Option Payload)) (es : List (Option (Nat × Nat))), buildFtableS S D fid ms = finishAllS S D buf es ∧ buildFtable D fid ms = finishAll D buf es ∧
      ∀ e ∈ es, ∃ i, entryPayloads buf e = implsOf fid i (featStream D 0 ms) := by
  by_cases hreg : ∀ p ∈ featStream D 0 ms, ∃ i, fid p.data.feat = some i
  · right
    have hids : ∀ p ∈ featStream D 0 ms, ∃ i, fid p.data.feat = some i ∧ i < ftableSize fid (featStream D 0 ms) := by
      intro p hp
      obtain ⟨i, hi⟩ := hreg p hp
      exact ⟨i, hi, ftableSize_gt fid _ p hp i hi⟩
    obtain ⟨counts, h1, h2, h3, h4⟩ := ftableCounts_spec fid (featStream D 0 ms) (List.replicate (ftableSize fid (featStream D 0 ms)) 0) (by simpa using hids)
    simp only [List.length_replicate] at h2
    have hcounts : ∀ i c : Nat, counts[i]? = some c → c = (implsOf fid i (featStream D 0 ms)).length := by
      intro i c hc
      have hlt : i < counts.length := (List.getElem?_eq_some_iff.1 hc).1
      have := h3 i 0 (by rw [List.getElem?_replicate, if_pos (by omega)])
      rw [this] at hc; simp at hc; exact hc.symm
    have hinit : FillInv fid counts (featStream D 0 ms) []
        ⟨List.replicate (ftableSize fid (featStream D 0 ms)) none, 0, List.replicate (featStream D 0 ms).length none⟩ := by
      refine ⟨by simp [h2], by simp, ?_, ?_, ?_, ?_⟩
      · simp only [← h2, pending_replicate, h4]
        simp
      · intro i hi
        rw [List.getElem?_replicate, if_pos (by omega)]
        simp [implsOf]
      · intro i b e c h
        rw [List.getElem?_replicate] at h
        split at h <;> simp at h
      · intro i j b e b' e' c c' _ h
        rw [List.getElem?_replicate] at h
        split at h <;> simp at h
    obtain ⟨s, h5, inv⟩ := ftableFill_inv fid counts (featStream D 0 ms) (by rw [h2]; exact hids) hcounts (featStream D 0 ms) [] _ (by simp) hinit
    refine ⟨s.buf, s.entries, by simp only [buildFtableS, h1, h5], by simp only [buildFtable, h1, h5], ?_⟩
    intro e he
    obtain ⟨i, hi⟩ := List.mem_iff_getElem?.1 he
    exact ⟨i, entryPayloads_eq fid counts _ s inv i e hi⟩
  · cases hc : ftableCounts fid (featStream D 0 ms) (List.replicate (ftableSize fid (featStream D 0 ms)) 0) with
    | none => left; exact ⟨by simp only [buildFtableS, hc], by simp only [buildFtable, hc]⟩
    | some counts =>
      exfalso
      apply hreg
      clear hreg
      generalize List.replicate (ftableSize fid (featStream D 0 ms)) 0 = c0 at hc
      generalize featStream D 0 ms = st at hc
      induction st generalizing c0 with
      | nil => intro p hp; simp at hp
      | cons x xs ih =>
        unfold ftableCounts at hc
        cases hf : fid x.data.feat with
        | none => simp only [hf] at hc; simp at hc
        | some i =>
          simp only [hf] at hc
          cases hg : c0[i]? with
          | none => simp only [hg] at hc; simp at hc
          | some c =>
            simp only [hg] at hc
            intro p hp
            rcases List.mem_cons.1 hp with rfl | hp
            · exact ⟨i, hf⟩
            · exact ih _ hc p hp

/-- among the features of the composition, different ones have different ids -/
def IdsApart (D : Decls) (fid : Feat → Option Nat) (ms : List Mix) : Prop :=
  ∀ p ∈ featStream D 0 ms, ∀ q ∈ featStream D 0 ms, ∀ i, fid p.data.feat = some i → fid q.data.feat = some i → p.data.feat = q.data.feat

theorem implsOf_same_feat {D : Decls} {fid : Feat → Option Nat} {ms : List Mix} (h : IdsApart D fid ms) (i : Nat) :
    ∀ p ∈ implsOf fid i (featStream D 0 ms), ∀ q ∈ implsOf fid i (featStream D 0 ms), p.data.feat = q.data.feat := by
  intro p hp q hq
  unfold implsOf at hp hq
  rw [List.mem_filter, decide_eq_true_eq] at hp hq
  exact h p hp.1 q hq.1 i hp.2 hq.2

theorem buildFtableS_agree (S : StdSort) (D : Decls) (fid : Feat → Option Nat) (ms : List Mix) (h : IdsApart D fid ms) :
    AgreeE SameTable (buildFtableS S D fid ms) (buildFtable D fid ms) := by
  rcases buildFtableS_shape S D fid ms with ⟨h1, h2⟩ | ⟨buf, es, h1, h2, h3⟩
  · exact .inl ⟨_, h1, h2⟩
  · rw [h1, h2]
    apply finishAllS_agree
    intro e he
    obtain ⟨i, hi⟩ := h3 e he
    rw [hi]
    exact implsOf_same_feat h i

/-! ## no doubles -/

theorem featStream_index (D : Decls) : ∀ (ms : List Mix) (i : Nat), ∀ p ∈ featStream D i ms, i ≤ p.mixinIndex
  | [], _, p, hp => by simp [featStream] at hp
  | m :: ms, i, p, hp => by
    unfold featStream at hp
    rcases List.mem_append.1 hp with h | h
    · obtain ⟨ff, -, rfl⟩ := List.mem_map.1 h
      exact Nat.le_refl _
    · have := featStream_index D ms (i + 1) p h; omega

theorem featStream_distinct {D : Decls} (hd : NoDoubles D) : ∀ (ms : List Mix) (i : Nat), (featStream D i ms).Pairwise (fun a b => a.data.feat = b.data.feat → rankOf a ≠ rankOf b)
  | [], _ => by simp [featStream]
  | m :: ms, i => by
    unfold featStream
    rw [List.pairwise_append]
    refine ⟨?_, featStream_distinct hd ms (i + 1), ?_⟩
    · rw [List.pairwise_map]
      refine (hd m).imp ?_
      intro a b h h1 h2
      exact h h1 (congrArg (fun r => r.1) h2) (congrArg (fun r => r.2.1) h2)
    · intro a ha b hb _ h2
      obtain ⟨ff, -, rfl⟩ := List.mem_map.1 ha
      have h3 := featStream_index D ms (i + 1) b hb
      have h4 : i = b.mixinIndex := congrArg (fun r => r.2.2) h2
      omega

theorem pairwise_rank_ne {l : List Payload} (h : l.Pairwise (fun a b => rankOf a ≠ rankOf b)) : ∀ a ∈ l, ∀ b ∈ l, a ≠ b → rankOf a ≠ rankOf b := by
  induction l with
  | nil => intro a ha; simp at ha
  | cons x xs ih =>
    rw [List.pairwise_cons] at h
    intro a ha b hb hne
    rcases List.mem_cons.1 ha with rfl | ha'
    · rcases List.mem_cons.1 hb with rfl | hb
      · exact absurd rfl hne
      · exact h.1 b hb
    · rcases List.mem_cons.1 hb with rfl | hb
      · exact fun he => h.1 a ha' he.symm
      · exact ih h.2 a ha' b hb hne

theorem finishEntryS_same (S : StdSort) (D : Decls) (pls : List Payload) (h : ∀ a ∈ pls, ∀ b ∈ pls, a ≠ b → rankOf a ≠ rankOf b) : finishEntryS S D pls = finishEntry D pls := by
  have : S.sort payloadLt pls = sortPayloads pls := by
    apply stdSort_distinct S payloadLt pls (payloadLt_weak pls)
    intro a ha b hb hne
    exact rankLt_total.total _ _ trivial trivial (h a ha b hb hne)
  unfold finishEntryS finishEntry
  rw [this]
  cases sortPayloads pls <;> rfl

theorem finishAllS_same (S : StdSort) (D : Decls) (buf : List (Option Payload)) : ∀ (es : List (Option (Nat × Nat))),
    (∀ e ∈ es, ∀ p ∈ entryPayloads buf e, ∀ q ∈ entryPayloads buf e, p ≠ q → rankOf p ≠ rankOf q) → finishAllS S D buf es = finishAll D buf es
  | [], _ => rfl
  | e :: es, h => by
    simp only [finishAllS, finishAll, finishEntryS_same S D _ (h e List.mem_cons_self), finishAllS_same S D buf es (fun x hx => h x (List.mem_cons_of_mem _ hx))]
    cases finishEntry D (entryPayloads buf e) with
    | error er => rfl
    | ok fe => cases finishAll D buf es <;> rfl

theorem buildFtableS_same (S : StdSort) (D : Decls) (fid : Feat → Option Nat) (ms : List Mix) (h : IdsApart D fid ms) (hd : NoDoubles D) :
    buildFtableS S D fid ms = buildFtable D fid ms := by
  rcases buildFtableS_shape S D fid ms with ⟨h1, h2⟩ | ⟨buf, es, h1, h2, h3⟩
  · rw [h1, h2]
  · rw [h1, h2]
    apply finishAllS_same
    intro e he
    obtain ⟨i, hi⟩ := h3 e he
    rw [hi]
    apply pairwise_rank_ne
    have h4 : (implsOf fid i (featStream D 0 ms)).Pairwise (fun a b => a.data.feat = b.data.feat → rankOf a ≠ rankOf b) := (featStream_distinct hd ms 0).filter _
    refine h4.imp_of_mem ?_
    intro a b ha hb hab
    exact hab (implsOf_same_feat h i a ha b hb)

/-! ## binary search -/

theorem lowerBoundFrom_eq {α : Type} (p : α → Bool) (l : List α) (k : Nat) (hlo : ∀ (i : Nat) (x : α), i < k → l[i]? = some x → p x = true)
    (hhi : ∀ (i : Nat) (x : α), k ≤ i → l[i]? = some x → p x = false) :
    ∀ (n first count : Nat), count ≤ n → first ≤ k → k ≤ first + count → first + count ≤ l.length → lowerBoundFrom p l n first count = k
  | 0, first, count, h1, h2, h3, _ => by unfold lowerBoundFrom; omega
  | n + 1, first, count, h1, h2, h3, h4 => by
    unfold lowerBoundFrom
    by_cases hc : count = 0
    · rw [if_pos hc]; omega
    · rw [if_neg hc]
      have hlt : first + count / 2 < l.length := by omega
      rw [List.getElem?_eq_getElem hlt]
      simp only
      have hx := List.getElem?_eq_getElem hlt
      cases hp : p l[first + count / 2] with
      | true =>
        rw [if_pos rfl]
        have hk : first + count / 2 < k := by
          apply Classical.byContradiction
          intro hk
          rw [hhi _ _ (by omega) hx] at hp; simp at hp
        exact lowerBoundFrom_eq p l k hlo hhi n _ _ (by omega) (by omega) (by omega) (by omega)
      | false =>
        rw [if_neg (by simp)]
        have hk : k ≤ first + count / 2 := by
          apply Classical.byContradiction
          intro hk
          rw [hlo _ _ (by omega) hx] at hp; simp at hp
        exact lowerBoundFrom_eq p l k hlo hhi n _ _ (by omega) (by omega) (by omega) (by omega)

/-- In a list whose elements that satisfy `p` come first, the search ends after them. -/
theorem lowerBound_takeWhile {α : Type} (p : α → Bool) (l : List α) (h : l.Pairwise (fun a b => p b = true → p a = true)) : lowerBound p l = (l.takeWhile p).length := by
  have hlo : ∀ (l : List α) (i : Nat) (x : α), i < (l.takeWhile p).length → l[i]? = some x → p x = true := by
    intro l
    induction l with
    | nil => intro i x hi; simp at hi
    | cons y ys ih =>
      intro i x hi hx
      by_cases hy : p y = true
      · rw [List.takeWhile_cons, if_pos hy] at hi
        cases i with
        | zero => simp at hx; rw [← hx]; exact hy
        | succ i => simp at hi hx; exact ih i x hi hx
      · rw [List.takeWhile_cons, if_neg hy] at hi; simp at hi
  have hhi : ∀ (l : List α), l.Pairwise (fun a b => p b = true → p a = true) → ∀ (i : Nat) (x : α), (l.takeWhile p).length ≤ i → l[i]? = some x → p x = false := by
    intro l
    induction l with
    | nil => intro _ i x hi hx; simp at hx
    | cons y ys ih =>
      intro hpw i x hi hx
      rw [List.pairwise_cons] at hpw
      by_cases hy : p y = true
      · rw [List.takeWhile_cons, if_pos hy] at hi
        cases i with
        | zero => simp at hi
        | succ i => simp at hi hx; exact ih hpw.2 i x hi hx
      · rw [Bool.eq_false_iff]
        intro hpx
        cases i with
        | zero => simp at hx; rw [hx] at hy; exact hy hpx
        | succ i =>
          simp at hx
          exact hy (hpw.1 x (List.mem_of_getElem? hx) hpx)
  have hle : (l.takeWhile p).length ≤ l.length := (List.takeWhile_sublist p).length_le
  exact lowerBoundFrom_eq p l _ (hlo l) (hhi l h) _ 0 _ (Nat.le_refl _) (Nat.zero_le _) (by omega) (by omega)

theorem ruleIncr_place (D : Decls) (r : Rule) : ∀ (l : List (Rule × Nat)),
    ruleIncr D r l = (match l[(l.takeWhile (fun e => ruleLt D e.1 r)).length]? with
      | none => (l.take (l.takeWhile (fun e => ruleLt D e.1 r)).length ++ (r, 1) :: l.drop (l.takeWhile (fun e => ruleLt D e.1 r)).length, 1)
      | some e => if ruleLt D r e.1 then (l.take (l.takeWhile (fun e => ruleLt D e.1 r)).length ++ (r, 1) :: l.drop (l.takeWhile (fun e => ruleLt D e.1 r)).length, 1)
        else (l.set (l.takeWhile (fun e => ruleLt D e.1 r)).length (e.1, e.2 + 1), e.2 + 1))
  | [] => rfl
  | (x, n) :: rest => by
    by_cases h : ruleLt D x r = true
    · have ih := ruleIncr_place D r rest
      rw [List.takeWhile_cons, if_pos h]
      unfold ruleIncr
      rw [if_pos h, ih]
      simp only [List.length_cons, List.getElem?_cons_succ, List.take_succ_cons, List.drop_succ_cons, List.set_cons_succ]
      generalize rest[(rest.takeWhile (fun e => ruleLt D e.1 r)).length]? = e
      cases e with
      | none => rfl
      | some e =>
        simp only
        by_cases h2 : ruleLt D r e.1 = true
        · rw [if_pos h2, if_pos h2]; rfl
        · rw [if_neg h2, if_neg h2]
    · rw [List.takeWhile_cons, if_neg h]
      unfold ruleIncr
      rw [if_neg h]
      simp

theorem ruleDecr_place (D : Decls) (r : Rule) : ∀ (l : List (Rule × Nat)),
    ruleDecr D r l = (match l[(l.takeWhile (fun e => ruleLt D e.1 r)).length]? with
      | none => none
      | some e => if ruleLt D r e.1 then none
        else if e.2 - 1 > 0 then some (l.set (l.takeWhile (fun e => ruleLt D e.1 r)).length (e.1, e.2 - 1), e.2 - 1)
        else some (l.eraseIdx (l.takeWhile (fun e => ruleLt D e.1 r)).length, 0))
  | [] => rfl
  | (x, n) :: rest => by
    by_cases h : ruleLt D x r = true
    · have ih := ruleDecr_place D r rest
      rw [List.takeWhile_cons, if_pos h]
      unfold ruleDecr
      rw [if_pos h, ih]
      simp only [List.length_cons, List.getElem?_cons_succ, List.set_cons_succ, List.eraseIdx_cons_succ]
      generalize rest[(rest.takeWhile (fun e => ruleLt D e.1 r)).length]? = e
      cases e with
      | none => rfl
      | some e =>
        simp only
        by_cases h2 : ruleLt D r e.1 = true
        · rw [if_pos h2, if_pos h2]
        · rw [if_neg h2, if_neg h2]
          by_cases h3 : e.2 - 1 > 0
          · rw [if_pos h3, if_pos h3]
          · rw [if_neg h3, if_neg h3]
    · rw [List.takeWhile_cons, if_neg h]
      unfold ruleDecr
      rw [if_neg h]
      simp

theorem ruleMap_search {D : Decls} {T : Rule → Prop} (ho : StrictTotalOn T (ruleLt D)) {l : List (Rule × Nat)} (h : RuleMap D T l) (r : Rule) (hr : T r) :
    lowerBound (fun e => ruleLt D e.1 r) l = (l.takeWhile (fun e => ruleLt D e.1 r)).length := by
  apply lowerBound_takeWhile
  refine h.sorted.imp_of_mem ?_
  intro a b ha hb hab h2
  exact ho.trans _ _ _ (h.keys a ha) (h.keys b hb) hr hab h2

theorem ruleIncrB_same {D : Decls} {T : Rule → Prop} (ho : StrictTotalOn T (ruleLt D)) {l : List (Rule × Nat)} (h : RuleMap D T l) (r : Rule) (hr : T r) :
    ruleIncrB D r l = ruleIncr D r l := by
  rw [ruleIncr_place]
  unfold ruleIncrB
  rw [ruleMap_search ho h r hr]
  generalize (l.takeWhile (fun e => ruleLt D e.1 r)).length = k
  simp only
  cases l[k]? <;> rfl

theorem ruleDecrB_same {D : Decls} {T : Rule → Prop} (ho : StrictTotalOn T (ruleLt D)) {l : List (Rule × Nat)} (h : RuleMap D T l) (r : Rule) (hr : T r) :
    ruleDecrB D r l = ruleDecr D r l := by
  rw [ruleDecr_place]
  unfold ruleDecrB
  rw [ruleMap_search ho h r hr]
  generalize (l.takeWhile (fun e => ruleLt D e.1 r)).length = k
  simp only
  cases l[k]? <;> rfl

/-! ## calls -/

/-- names of mixins that can be compared (see C23) -/
def MixNamesOk (D : Decls) : Prop :=
  (∀ m, (D.mix m).name.Valid) ∧ ∀ a b, (D.mix a).name.first = (D.mix b).name.first → (D.mix a).name.len = (D.mix b).name.len

/-- canonical orders that are orders -/
def CanonTotal (D : Decls) : Prop := ∀ ids, StrictTotalOn (fun _ => True) (canonicalOrder D ids)

theorem MixNamesOk.canonTotal {D : Decls} (hn : MixNamesOk D) : CanonTotal D :=
  fun ids => canonicalOrder_strictTotal D ids (fun _ => True) (fun m _ => hn.1 m) (fun a b _ _ => hn.2 a b)

theorem ruleFnS_same (S : StdSort) {D : Decls} (hn : CanonTotal D) (v : ElemView) (r : Rule) : ruleFnS S D v r = ruleFn D v r := by
  unfold ruleFnS
  by_cases h : r = 0
  · rw [if_pos h]
    subst h
    funext ms
    rw [stdSort_total S (hn v.ids) ms (fun _ _ => trivial)]
    rfl
  · rw [if_neg h]

theorem idsApart_of {D : Decls} {home : Feat → DomId} {used : Feat → Prop} {W : World} (hr : RegInv W) (h : HomeInv D home used W) {d : DomId} {ms : List Mix}
    (hc : checkMixins W.mixId W.mixDom d ms = .ok ()) : IdsApart D W.featId ms := by
  obtain ⟨h1, h2⟩ := fidIn_ok hr h ms (checkMixins_in hr hc)
  intro p hp q hq i hpi hqi
  obtain ⟨m, hm, hpm⟩ := featStream_mem D ms 0 p hp
  obtain ⟨m', hm', hqm⟩ := featStream_mem D ms 0 q hq
  rw [h2 m hm _ hpm] at hpi
  rw [h2 m' hm' _ hqm] at hqi
  exact h1.distinct _ _ i hpi hqi

theorem buildTypeS_same (S : StdSort) {D : Decls} {home : Feat → DomId} {used : Feat → Prop} {W : World} (hr : RegInv W) (h : HomeInv D home used W) (hd : NoDoubles D)
    (d : DomId) (tid : TypeId) (ms : List Mix) : buildTypeS S D W d tid ms = buildType D W d tid ms := by
  unfold buildTypeS buildType
  cases hc : checkMixins W.mixId W.mixDom d ms with
  | error e => rfl
  | ok u =>
    simp only [buildFtableS_same S D W.featId ms (idsApart_of hr h hc) hd]
    cases buildFtable D W.featId ms <;> rfl

theorem getTypeMutS_same (S : StdSort) {D : Decls} {home : Feat → DomId} {used : Feat → Prop} {W : World} (hr : RegInv W) (h : HomeInv D home used W) (hd : NoDoubles D)
    (hn : CanonTotal D) (d md : DomId) (q : List Mix) : getTypeMutS S D W d md q = getTypeMut D W d md q := by
  have hl : lookupSectionS S D (W.view D d) (W.doms d) q = lookupSection D (W.view D d) (W.doms d) q := by
    unfold lookupSectionS lookupSection rulesOfS rulesOf
    simp only [ruleFnS_same S hn]
    cases findQuery q (W.doms d).queries with
    | some t => rfl
    | none =>
      simp only
      generalize (applyMutationRules D _ q).result = x
      cases x <;> rfl
  unfold getTypeMutS getTypeMut
  simp only [hl, buildTypeS_same S hr h hd]
  by_cases hmd : md ≠ d
  · rw [if_pos hmd, if_pos hmd]
  · rw [if_neg hmd, if_neg hmd]
    cases lookupSection D (W.view D d) (W.doms d) q with
    | hit t => rfl
    | failed e => rfl
    | resolved key ms found =>
      cases found with
      | some t => rfl
      | none =>
        simp only
        cases buildType D W d W.nextType ms <;> rfl

theorem stepS_same (S : StdSort) {D : Decls} {T : Rule → Prop} {home : Feat → DomId} {used : Feat → Prop} {W : World} (ho : StrictTotalOn T (ruleLt D)) (hr : RegInv W)
    (h : HomeInv D home used W) (hd : NoDoubles D) (hn : CanonTotal D) (hm : ∀ d, RuleMap D T (W.doms d).rules) (op : Op) (hop : op.rulesIn T) :
    stepS S D W op = step D W op := by
  cases op with
  | addRule d r =>
    show addRuleB D W d r = addRule D W d r
    unfold addRuleB addRule
    simp only [ruleIncrB_same ho (hm d) r hop]
  | removeRule d r =>
    show removeRuleB D W d r = removeRule D W d r
    unfold removeRuleB removeRule
    simp only [ruleDecrB_same ho (hm d) r hop]
    cases ruleDecr D r (W.doms d).rules <;> rfl
  | getTypeMut d md q =>
    show discard (getTypeMutS S D W d md q) = discard (getTypeMut D W d md q)
    rw [getTypeMutS_same S hr h hd hn]
  | getType d q =>
    show discard (getTypeS S D W d q) = discard (getType D W d q)
    unfold getTypeS getType
    rw [getTypeMutS_same S hr h hd hn]
    cases findQuery q (W.doms d).queries <;> rfl
  | regFeature d f => rfl
  | unregFeature d f => rfl
  | regMixin d m => rfl
  | unregMixin d m => rfl
  | regClass d c => rfl
  | unregClass d c => rfl
  | gc d num => rfl

theorem runS_same (S : StdSort) {D : Decls} {T : Rule → Prop} {home : Feat → DomId} {used : Feat → Prop} (ho : StrictTotalOn T (ruleLt D)) (hd : NoDoubles D) (hn : CanonTotal D) :
    ∀ (ops : List Op) (W : World), RegInv W → HomeInv D home used W → (∀ d, RuleMap D T (W.doms d).rules) → (∀ op ∈ ops, op.rulesIn T) →
    (∀ op ∈ ops, op.disciplined D home used) → runS S D W ops = run D W ops
  | [], _, _, _, _, _, _ => rfl
  | op :: ops, W, hr, h, hm, h1, h2 => by
    show runS S D (stepS S D W op).2 ops = run D (step D W op).2 ops
    rw [stepS_same S ho hr h hd hn hm op (h1 op List.mem_cons_self)]
    exact runS_same S ho hd hn ops _ (step_reg D W op hr) (step_home D home used W hr op (h2 op List.mem_cons_self) h)
      (fun d => (step_ruleMap ho W hr op (h1 op List.mem_cons_self) d (hm d)).1) (fun o hx => h1 o (List.mem_cons_of_mem _ hx)) (fun o hx => h2 o (List.mem_cons_of_mem _ hx))

/-! ## initializers -/

theorem sortedOpsS_same (S : StdSort) (E : TyEnv) (t : TypeId) (ops : List InitOp)
    (h : ∀ (i k k' : Nat), (i, k) ∈ ops.filterMap (fun (m, k) => (E.indexOf t m).map (fun i => (i, k))) → (i, k') ∈ ops.filterMap (fun (m, k) => (E.indexOf t m).map (fun i => (i, k))) → k = k') :
    sortedOpsS S E t ops = sortedOps E t ops := by
  unfold sortedOpsS sortedOps
  generalize ops.filterMap (fun (m, k) => (E.indexOf t m).map (fun i => (i, k))) = l at h
  apply stdSort_distinct
  · refine ⟨?_, ?_, ?_⟩
    · intro a _; simp
    · intro a _ b _ c _; simp only [decide_eq_true_eq]; omega
    · intro a _ b _ c _; simp only [decide_eq_false_iff_not]; omega
  · rintro ⟨i, k⟩ ha ⟨j, k'⟩ hb hne
    simp only [decide_eq_true_eq]
    have : i ≠ j := by
      rintro rfl
      exact hne (by rw [h i k k' ha hb])
    omega

end Dnmx
