import Verif.Proofs.FtableLemmas
import Verif.Spec.Features

namespace Dnmx
open Spec

/-- payload as a pair of position and declaration -/
def Payload.pair (p : Payload) : Nat × FeatFor := (p.mixinIndex, p.data)

theorem featStream_mem (D : Decls) (ms : List Mix) : ∀ (i : Nat) (p : Payload), p ∈ featStream D i ms →
    ∃ m ∈ ms, p.data ∈ (D.mix m).feats := by
  induction ms with
  | nil => intro i p h; simp [featStream] at h
  | cons m ms ih =>
    intro i p h
    simp only [featStream, List.mem_append, List.mem_map] at h
    rcases h with ⟨ff, h1, h2⟩ | h
    · exact ⟨m, by simp, by rw [← h2]; exact h1⟩
    · obtain ⟨m', h1, h2⟩ := ih _ _ h
      exact ⟨m', by simp [h1], h2⟩

theorem featStream_filter (D : Decls) (f : Feat) (ms : List Mix) : ∀ (i : Nat),
    ((featStream D i ms).filter (fun p => decide (p.data.feat = f))).map Payload.pair =
    (ms.zipIdx i).flatMap (fun (m, i) => ((D.mix m).feats.filter (fun ff => ff.feat = f)).map (fun ff => (i, ff))) := by
  induction ms with
  | nil => intro i; rfl
  | cons m ms ih =>
    intro i
    simp only [featStream, List.filter_append, List.map_append, List.zipIdx_cons, List.flatMap_cons, ih (i + 1)]
    congr 1
    rw [List.filter_map, List.map_map]
    rfl

theorem implsOf_allImpls (D : Decls) (fid : Feat → Option Nat) (ms : List Mix) (hf : FeatIdsOk D fid ms) (f : Feat) (i : Nat)
    (hi : fid f = some i) : (implsOf fid i (featStream D 0 ms)).map Payload.pair = allImpls D ms f := by
  unfold allImpls
  rw [← featStream_filter]
  congr 1
  apply List.filter_congr
  intro p hp
  simp only [decide_eq_decide]
  constructor
  · intro h; exact hf.distinct _ _ _ h hi
  · intro h; rw [h]; exact hi

theorem payloadLt_pair (a b : Payload) : payloadLt b a = false ↔ WinsOrSame a.pair b.pair := by
  unfold payloadLt WinsOrSame Payload.pair
  grind

theorem finishEntry_ok (D : Decls) (pls : List Payload) (r : Option FEntry) (h : finishEntry D pls = .ok r) :
    (r = none ∧ pls = []) ∨ ∃ e, r = some e ∧ e.pls = sortPayloads pls ∧ e.pls ≠ [] ∧
      ∃ p ps, e.pls = p :: ps ∧ e.topBack = topBackLoop p 0 ps ∧
      ((D.feat p.data.feat).allowClashes = true ∨ hasClash e.pls = false) := by
  unfold finishEntry at h
  split at h
  · rename_i hs
    left
    simp at h
    refine ⟨h.symm, ?_⟩
    have := sortPayloads_perm pls
    rw [hs] at this
    exact this.symm.eq_nil
  · rename_i p ps hs
    split at h
    · simp at h
    · rename_i hc
      simp at h hc
      right
      refine ⟨_, h.symm, hs.symm, by simp, p, ps, rfl, rfl, ?_⟩
      by_cases ha : (D.feat p.data.feat).allowClashes = true
      · exact .inl ha
      · right; simp at ha; exact hc ha

theorem finishEntry_error (D : Decls) (pls : List Payload) (err : Err) (h : finishEntry D pls = .error err) :
    ∃ p ps, sortPayloads pls = p :: ps ∧ (D.feat p.data.feat).allowClashes = false ∧ hasClash (p :: ps) = true := by
  unfold finishEntry at h
  split at h
  · simp at h
  · rename_i p ps hs
    split at h
    · rename_i hc
      simp at hc
      exact ⟨p, ps, hs, hc.1, hc.2⟩
    · simp at h

theorem perm_two_positions {α : Type} {l l' : List α} (hp : l.Perm l') (R : α → α → Prop) (hsym : ∀ a b, R a b → R b a)
    (h : ∃ (i j : Nat) (a b : α), i ≠ j ∧ l[i]? = some a ∧ l[j]? = some b ∧ R a b) :
    ∃ (i j : Nat) (a b : α), i ≠ j ∧ l'[i]? = some a ∧ l'[j]? = some b ∧ R a b := by
  apply Classical.byContradiction
  intro hn
  have hpw : l'.Pairwise (fun a b => ¬ R a b) := by
    rw [List.pairwise_iff_getElem]
    intro i j hi hj hij hr
    exact hn ⟨i, j, l'[i], l'[j], by omega, List.getElem?_eq_getElem hi, List.getElem?_eq_getElem hj, hr⟩
  have hpw' : l.Pairwise (fun a b => ¬ R a b) := (hp.pairwise_iff (fun h h' => h (hsym _ _ h'))).2 hpw
  rw [List.pairwise_iff_getElem] at hpw'
  obtain ⟨i, j, a, b, hij, ha, hb, hr⟩ := h
  obtain ⟨hi, ha⟩ := List.getElem?_eq_some_iff.1 ha
  obtain ⟨hj, hb⟩ := List.getElem?_eq_some_iff.1 hb
  rcases Nat.lt_or_gt_of_ne hij with h | h
  · exact hpw' i j hi hj h (by rw [ha, hb]; exact hr)
  · exact hpw' j i hj hi h (by rw [ha, hb]; exact hsym _ _ hr)

theorem hasClash_sort_iff (pls : List Payload) :
    hasClash (sortPayloads pls) = true ↔ ∃ (i j : Nat) (a b : Payload), i ≠ j ∧ pls[i]? = some a ∧ pls[j]? = some b ∧
      (a.data.bid = b.data.bid ∧ a.data.priority = b.data.priority) := by
  rw [hasClash_iff _ (sortPayloads_sorted pls)]
  have hsym : ∀ a b : Payload, (a.data.bid = b.data.bid ∧ a.data.priority = b.data.priority) →
      (b.data.bid = a.data.bid ∧ b.data.priority = a.data.priority) := fun a b h => ⟨h.1.symm, h.2.symm⟩
  constructor
  · rintro ⟨i, j, a, b, hij, ha, hb, h1, h2⟩
    exact perm_two_positions (sortPayloads_perm pls) (fun a b => a.data.bid = b.data.bid ∧ a.data.priority = b.data.priority)
      hsym ⟨i, j, a, b, by omega, ha, hb, h1, h2⟩
  · intro h
    obtain ⟨i, j, a, b, hij, ha, hb, h1, h2⟩ := perm_two_positions (sortPayloads_perm pls).symm
      (fun a b => a.data.bid = b.data.bid ∧ a.data.priority = b.data.priority) hsym h
    rcases Nat.lt_or_gt_of_ne hij with hlt | hlt
    · exact ⟨i, j, a, b, hlt, ha, hb, h1, h2⟩
    · exact ⟨j, i, b, a, hlt, hb, ha, h1.symm, h2.symm⟩

theorem clashesOn_iff (D : Decls) (fid : Feat → Option Nat) (ms : List Mix) (hf : FeatIdsOk D fid ms) (f : Feat) (i : Nat)
    (hi : fid f = some i) :
    ClashesOn D ms f ↔ hasClash (sortPayloads (implsOf fid i (featStream D 0 ms))) = true := by
  rw [hasClash_sort_iff]
  unfold ClashesOn
  rw [← implsOf_allImpls D fid ms hf f i hi]
  constructor
  · rintro ⟨k, l, a, b, hkl, ha, hb, h1, h2⟩
    rw [List.getElem?_map, Option.map_eq_some_iff] at ha hb
    obtain ⟨a', ha, rfl⟩ := ha
    obtain ⟨b', hb, rfl⟩ := hb
    exact ⟨k, l, a', b', hkl, ha, hb, h1, h2⟩
  · rintro ⟨k, l, a, b, hkl, ha, hb, h1, h2⟩
    exact ⟨k, l, a.pair, b.pair, hkl, by rw [List.getElem?_map, ha]; rfl, by rw [List.getElem?_map, hb]; rfl, h1, h2⟩

/-- what is known about the entry of a feature in a table built without error -/
theorem buildFtable_entry (D : Decls) (fid : Feat → Option Nat) (ms : List Mix) (hf : FeatIdsOk D fid ms)
    (t : List (Option FEntry)) (h : buildFtable D fid ms = .ok t) (f : Feat) (i : Nat) (hi : fid f = some i) :
    match (t[i]?).getD none with
    | none => allImpls D ms f = []
    | some e => RanksImpls D ms f (e.pls.map Payload.pair) ∧ e.pls ≠ [] ∧
        ∃ p ps, e.pls = p :: ps ∧ e.topBack = topBackLoop p 0 ps := by
  have hreg : ∀ p ∈ featStream D 0 ms, ∃ i, fid p.data.feat = some i := by
    intro p hp
    obtain ⟨m, h1, h2⟩ := featStream_mem D ms 0 p hp
    exact hf.registered m h1 _ h2
  rcases buildFtable_spec D fid ms hreg with ⟨j, _, h2⟩ | ⟨t', h1, h2⟩
  · rw [h] at h2; simp at h2
  · rw [h] at h1; simp at h1; subst h1
    obtain ⟨r, h3, h4⟩ := h2 i
    rw [h4]
    have hall := implsOf_allImpls D fid ms hf f i hi
    rcases finishEntry_ok D _ r h3 with ⟨h5, h6⟩ | ⟨e, h5, h6, h7, p, ps, h8, h9, _⟩
    · subst h5; rw [h6] at hall; simpa using hall.symm
    · subst h5
      refine ⟨⟨?_, ?_⟩, h7, p, ps, h8, h9⟩
      · rw [← hall, h6]; exact (sortPayloads_perm _).map _
      · rw [h6]
        rw [List.pairwise_map]
        exact (sortPayloads_sorted _).imp (fun h => (payloadLt_pair _ _).1 h)

theorem finishEntry_error_iff (D : Decls) (fid : Feat → Option Nat) (ms : List Mix) (hf : FeatIdsOk D fid ms) (i : Nat)
    (err : Err) (h : finishEntry D (implsOf fid i (featStream D 0 ms)) = .error err) :
    ∃ f, (D.feat f).allowClashes = false ∧ ClashesOn D ms f := by
  obtain ⟨p, ps, h3, h4, h5⟩ := finishEntry_error D _ _ h
  have hpi : fid p.data.feat = some i := by
    have : p ∈ implsOf fid i (featStream D 0 ms) := (sortPayloads_perm _).mem_iff.1 (by rw [h3]; simp)
    rw [implsOf, List.mem_filter] at this
    simpa using this.2
  refine ⟨p.data.feat, h4, ?_⟩
  rw [clashesOn_iff D fid ms hf _ i hpi, h3]; exact h5

end Dnmx
