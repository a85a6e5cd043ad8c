import Verif.Proofs.TypeMutationLemmas

/-!
# C08, C09: operations on type mutations

Note on numbering: C08 is the list of edit operations, C09 is `dedup` (see properties.jsonl).
-/

namespace Dnmx.Props
open Spec

/-- C08: `has` is membership. -/
theorem C08_has (ms : List Mix) (m : Mix) : tmHas ms m = true ↔ m ∈ ms := tmHas_iff ms m

/-- C08: `add` appends. -/
theorem C08_add (ms : List Mix) (m : Mix) : tmAdd ms m = ms ++ [m] := rfl

/-- C08: `add_if_lacking` appends an absent mixin and says so, and does nothing for a present one. -/
theorem C08_add_if_lacking (ms : List Mix) (m : Mix) :
    (m ∈ ms → tmAddIfLacking ms m = (ms, false)) ∧ (m ∉ ms → tmAddIfLacking ms m = (ms ++ [m], true)) := by
  constructor <;> intro h
  · simp [tmAddIfLacking, (tmHas_iff ms m).2 h]
  · have : tmHas ms m = false := by
      cases hh : tmHas ms m
      · rfl
      · exact absurd ((tmHas_iff ms m).1 hh) h
    simp [tmAddIfLacking, this, tmAdd]

/-- C08: `remove` deletes the first occurrence of a present mixin, keeping the rest, and reports whether the
mixin was there. -/
theorem C08_remove (ms : List Mix) (m : Mix) :
    (m ∈ ms → (tmRemove ms m).2 = true ∧ RemovesFirst ms m (tmRemove ms m).1) ∧
    (m ∉ ms → tmRemove ms m = (ms, false)) :=
  ⟨tmRemove_present, tmRemove_absent⟩

/-- C08: `to_back` takes out the first occurrence and appends the mixin; it fails exactly for absent mixins. -/
theorem C08_to_back (ms : List Mix) (m : Mix) :
    (m ∈ ms → ∃ r, RemovesFirst ms m r ∧ tmToBack ms m = .ok (r ++ [m])) ∧
    (m ∉ ms → tmToBack ms m = .error .missingMixin) := by
  constructor <;> intro h
  · exact ⟨_, (tmRemove_present h).2, by simp [tmToBack, (tmHas_iff ms m).2 h]⟩
  · have : tmHas ms m = false := by
      cases hh : tmHas ms m
      · rfl
      · exact absurd ((tmHas_iff ms m).1 hh) h
    simp [tmToBack, this]

/-- C08, by name: `remove(name)` deletes the first mixin with that name and returns it; null exactly if there
is none. -/
theorem C08_remove_by_name (D : Decls) (ms : List Mix) (name : List UInt8) :
    (∀ pre m post, ms = pre ++ m :: post → D.mixName m = name → (∀ x ∈ pre, D.mixName x ≠ name) →
      tmRemoveName D ms name = (pre ++ post, some m)) ∧
    ((∀ x ∈ ms, D.mixName x ≠ name) → tmRemoveName D ms name = (ms, none)) := by
  constructor
  · intro pre m post he hm hp
    have := (tmFindName_some D name ms m).2 ⟨pre, post, he, hm, hp⟩
    simp only [tmRemoveName, this]
    rw [he, tmEraseName_eq D name pre post m hm hp]
  · intro h
    simp [tmRemoveName, (tmFindName_none D name ms).2 h]

/-- C08, by name: `to_back(name)` moves the first mixin with that name to the end; it fails exactly if there is
none. -/
theorem C08_to_back_by_name (D : Decls) (ms : List Mix) (name : List UInt8) :
    (∀ pre m post, ms = pre ++ m :: post → D.mixName m = name → (∀ x ∈ pre, D.mixName x ≠ name) →
      tmToBackName D ms name = .ok (pre ++ post ++ [m])) ∧
    ((∀ x ∈ ms, D.mixName x ≠ name) → tmToBackName D ms name = .error .missingMixin) := by
  constructor
  · intro pre m post he hm hp
    have := (tmFindName_some D name ms m).2 ⟨pre, post, he, hm, hp⟩
    simp only [tmToBackName, this]
    rw [he, tmEraseName_eq D name pre post m hm hp]
  · intro h
    simp [tmToBackName, (tmFindName_none D name ms).2 h]

/-- C08, by name: `add(name)` appends the registered mixin and fails exactly for unknown names;
`add_if_lacking(name)` does so only if no mixin of that name is in the list. -/
theorem C08_add_by_name (D : Decls) (view : ElemView) (ms : List Mix) (name : List UInt8) :
    tmAddName view ms name = (match view.byName name with | some m => .ok (ms ++ [m]) | none => .error .missingMixin) ∧
    tmSafeAddName view ms name = (match view.byName name with | some m => (ms ++ [m], some m) | none => (ms, none)) ∧
    ((∃ x ∈ ms, D.mixName x = name) → tmAddIfLackingName D view ms name = .ok ms ∧
      tmSafeAddIfLackingName D view ms name = (ms, none)) ∧
    ((∀ x ∈ ms, D.mixName x ≠ name) → tmAddIfLackingName D view ms name = tmAddName view ms name ∧
      tmSafeAddIfLackingName D view ms name = tmSafeAddName view ms name) := by
  refine ⟨?_, ?_, ?_, ?_⟩
  · cases h : view.byName name <;> simp [tmAddName, tmSafeAddName, h, tmAdd]
  · cases h : view.byName name <;> simp [tmSafeAddName, h, tmAdd]
  · rintro ⟨x, hx, hn⟩
    cases hf : tmFindName D name ms with
    | none => exact absurd hn ((tmFindName_none D name ms).1 hf x hx)
    | some y => simp [tmAddIfLackingName, tmSafeAddIfLackingName, hf]
  · intro h
    have := (tmFindName_none D name ms).2 h
    simp [tmAddIfLackingName, tmSafeAddIfLackingName, this]

/-- C09: `dedup` keeps exactly the last occurrence of every mixin, in order. -/
theorem C09_dedup_keeps_last (ms : List Mix) : KeepsLast ms (tmDedup ms) := tmDedup_keepsLast ms

/-- C09: after `dedup` there are no duplicates, the same mixins are present, and their order is one that
they had before. -/
theorem C09_dedup_nodup (ms : List Mix) :
    (tmDedup ms).Nodup ∧ (∀ m, m ∈ tmDedup ms ↔ m ∈ ms) ∧ (tmDedup ms).Sublist ms :=
  ⟨tmDedup_nodup ms, mem_tmDedup ms, tmDedup_sublist ms⟩

/-- C09: a list without duplicates is not changed; in particular `dedup` is idempotent. -/
theorem C09_dedup_of_nodup (ms : List Mix) (h : ms.Nodup) : tmDedup ms = ms := tmDedup_of_nodup h

/-- A list with several duplicates. -/
example : tmDedup [3, 1, 3, 2, 1, 3] = [2, 1, 3] ∧ KeepsLast [3, 1, 3, 2, 1, 3] [2, 1, 3] ∧
    (tmRemove [3, 1, 3] 3).1 = [1, 3] ∧ tmToBack [3, 1, 3] 1 = .ok [3, 3, 1] :=
  ⟨by decide, C09_dedup_keeps_last [3, 1, 3, 2, 1, 3], by decide, by rfl⟩

end Dnmx.Props
