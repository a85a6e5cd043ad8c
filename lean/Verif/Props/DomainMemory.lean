import Verif.Proofs.DomainMemoryAnswers

/-!
# C86: domains that run out of memory

Any allocation of any call on a domain may fail. The caller catches `std::bad_alloc` and goes on.
-/

namespace Dnmx.Props
open Spec

/-- Mixin 1 cannot be registered because there is no memory for its second feature, then it can; a rule of no consequence, a type whose block
cannot be had, then one that is not stored as the answer to a query, then a list of mixins that cannot be copied; garbage is collected. -/
def memHist : List (Faults × Op) :=
  [({ grow := fun i => i == 1 }, .regMixin 0 1), ({}, .regMixin 0 1), ({ block := true }, .getType 0 [1]), ({ queryNode := true }, .getType 0 [1]),
   ({ lists := fun _ => true }, .getType 0 [1]), ({}, .getType 0 [1]), ({}, .regMixin 0 2), ({ typeNode := true }, .getType 0 [1, 2]),
   ({ queryNode := true }, .getType 0 [2]), ({}, .gc 0 fun t => if t = 1 then 1 else 0)]

-- what the calls do: the second feature is registered by the second call only; no block is lost
example : featuresOf (runM regDecls (initM fun _ => {}) (memHist.take 1)).W 0 = [1] ∧ mixinsOf (runM regDecls (initM fun _ => {}) (memHist.take 1)).W 0 = [] ∧
    featuresOf (runM regDecls (initM fun _ => {}) (memHist.take 2)).W 0 = [1, 2] ∧ mixinsOf (runM regDecls (initM fun _ => {}) (memHist.take 2)).W 0 = [1] ∧
    (runM regDecls (initM fun _ => {}) (memHist.take 3)).blocks = [] ∧ (runM regDecls (initM fun _ => {}) (memHist.take 4)).blocks = [(0, 1)] ∧
    ((runM regDecls (initM fun _ => {}) (memHist.take 4)).W.doms 0).queries = [] ∧ ((runM regDecls (initM fun _ => {}) (memHist.take 6)).W.doms 0).queries = [([1], 1)] ∧
    (runM regDecls (initM fun _ => {}) (memHist.take 9)).blocks = [(0, 2), (0, 1)] ∧ (runM regDecls (initM fun _ => {}) memHist).blocks = [(0, 1)] := by
  decide +kernel

/-! ## nothing leaks -/

/-- C86: at any time, whatever failed before, the allocated blocks are exactly those of the types of the domains. -/
theorem C86_blocks (D : Decls) (s : DomId → Settings) (h : List (Faults × Op)) : BlocksExact (runM D (initM s) h) := (MOk.run h (mok_init D s)).blocks

/-- C86: no block is ever given back that is not allocated. -/
theorem C86_no_bad_free (D : Decls) (s : DomId → Settings) (h : List (Faults × Op)) (F : Faults) (op : Op) : (stepM D F (runM D (initM s) h) op).1 ≠ .error .badFree := by
  intro hb
  rcases (stepM_ok (MOk.run h (mok_init D s)) F op).cases with ⟨e, -⟩ | ⟨e, -⟩
  · rw [hb] at e
    cases hx : (step D (runM D (initM s) h).W op).1 <;> rw [hx] at e <;> simp [sameOutcome] at e
  · rw [hb] at e; cases e

/-- C86: the destructor of a domain gives back the blocks of its types, each once, and no other. -/
theorem C86_destructor (D : Decls) (s : DomId → Settings) (h : List (Faults × Op)) (d : DomId) :
    ∃ bs, destroyTypesM (runM D (initM s) h) d = some bs ∧ bs.Nodup ∧ ∀ d' t, (d', t) ∈ bs ↔ (d', t) ∈ (runM D (initM s) h).blocks ∧ d' ≠ d := by
  have hm := MOk.run h (mok_init D s)
  generalize runM D (initM s) h = M at hm ⊢
  obtain ⟨bs, h1, h2, h3⟩ := freeBlocks_spec d ((M.W.doms d).types.map (·.tid)) M.blocks hm.blocks.nodup (tids_nodup (hm.types d).tids) (by
    intro t ht
    obtain ⟨r, hr, rfl⟩ := List.mem_map.1 ht
    exact (hm.blocks.exact d r.tid).2 ⟨r, hr, rfl⟩)
  refine ⟨bs, h1, h2, fun d' t => ?_⟩
  rw [h3]
  constructor
  · rintro ⟨a, b⟩
    refine ⟨a, ?_⟩
    rintro rfl
    obtain ⟨r, hr, e⟩ := (hm.blocks.exact d' t).1 a
    exact b ⟨rfl, List.mem_map.2 ⟨r, hr, e⟩⟩
  · rintro ⟨a, b⟩
    exact ⟨a, fun c => b c.1⟩

/-! ## one call -/

/-- C86: a call that fails for want of memory leaves nothing behind but, from `register_mixin`, features of the mixin, or, from `get_type`, the type
that was asked for. -/
theorem C86_failed_call (D : Decls) (s : DomId → Settings) (h : List (Faults × Op)) (F : Faults) (op : Op) (hf : (stepM D F (runM D (initM s) h) op).1 = .error .badAlloc) :
    LeftBehind D (runM D (initM s) h).W op (stepM D F (runM D (initM s) h) op).2.W := by
  rcases (stepM_ok (MOk.run h (mok_init D s)) F op).cases with ⟨e, -⟩ | ⟨-, e⟩
  · rw [hf] at e
    cases hx : (step D (runM D (initM s) h).W op).1 <;> rw [hx] at e <;> simp [sameOutcome] at e
  · exact e

/-- C86: any other call does what it does if memory never fails. -/
theorem C86_other_calls (D : Decls) (s : DomId → Settings) (h : List (Faults × Op)) (F : Faults) (op : Op) (hf : (stepM D F (runM D (initM s) h) op).1 ≠ .error .badAlloc) :
    (stepM D F (runM D (initM s) h) op).1 = sameOutcome (step D (runM D (initM s) h).W op).1 ∧
    (stepM D F (runM D (initM s) h) op).2.W = (step D (runM D (initM s) h).W op).2 := by
  rcases (stepM_ok (MOk.run h (mok_init D s)) F op).cases with e | ⟨e, -⟩
  · exact e
  · exact absurd e hf

/-- C86: without failures of memory there is no `std::bad_alloc`, whatever failed before. -/
theorem C86_enough_memory (D : Decls) (M : MWorld) (op : Op) : (stepM D {} M op).1 ≠ .error .badAlloc := stepM_enough D M op

/-- C86: a call that failed for want of memory can be made again: then it does exactly what it would have done at once, in outcome and in effect. -/
theorem C86_again (D : Decls) (s : DomId → Settings) (h : List (Faults × Op)) (F : Faults) (op : Op) (hf : (stepM D F (runM D (initM s) h) op).1 = .error .badAlloc) :
    step D (stepM D F (runM D (initM s) h) op).2.W op = step D (runM D (initM s) h).W op :=
  LeftBehind.retry (C86_failed_call D s h F op hf) (sound_runM h (mok_init D s) (sound_init D s))

-- the hypotheses of both kinds are met
example : (stepM regDecls { grow := fun i => i == 1 } (initM fun _ => {}) (.regMixin 0 1)).1 = .error .badAlloc ∧
    (stepM regDecls { queryNode := true } (runM regDecls (initM fun _ => {}) (memHist.take 3)) (.getType 0 [1])).1 = .error .badAlloc ∧
    (stepM regDecls { grow := fun i => i == 2 } (runM regDecls (initM fun _ => {}) (memHist.take 2)) (.regMixin 0 1)).1 = .error (.err .idRegistered) ∧
    (stepM regDecls { block := true } (runM regDecls (initM fun _ => {}) (memHist.take 6)) (.getType 0 [1])).1 = .ok () := by
  decide +kernel

/-! ## histories -/

/-- C86: after any history with failures of memory the same is registered as after the history without the calls that failed (but with features
registered where a registration of a mixin failed), and registrations answer the same ever after. -/
theorem C86_registrations (D : Decls) (s : DomId → Settings) (h : List (Faults × Op)) (more : List Op) :
    SameRegistered (run D (initWorld s) (withoutFailed D (initM s) h)) (runM D (initM s) h).W ∧
    registrationAnswers D (runM D (initM s) h).W more = registrationAnswers D (run D (initWorld s) (withoutFailed D (initM s) h)) more := by
  have hsame := runM_without h (mok_init D s) (sound_init D s) (sound_init D s)
    (⟨fun _ => rfl, fun _ _ => Iff.rfl, fun _ _ => Iff.rfl, fun _ _ => Iff.rfl, fun _ => Iff.rfl, fun _ => rfl⟩ : SameRegistered (initWorld s) (initM s).W)
  exact ⟨hsame, (registrationAnswers_alike more ((sound_init D s).run _) (sound_runM h (mok_init D s) (sound_init D s)) hsame).1⟩

/-- C86 (partial: with `FeatureDiscipline` and pure rules): no further calls can tell that memory ever failed: all answers are those after the history
without the calls that failed. Missing: other histories (`C86_discipline_needed`). -/
theorem C86_answers_partial (D : Decls) (s : DomId → Settings) (h : List (Faults × Op)) (more : List Op) (hd : FeatureDiscipline D (h.map (·.2) ++ more))
    (hp : OnlyPureRules D s (h.map (·.2) ++ more)) :
    answers D (runM D (initM s) h).W more = answers D (run D (initWorld s) (withoutFailed D (initM s) h)) more := by
  obtain ⟨home, used, hops⟩ := hd
  have hs := (sound_init D s).run (withoutFailed D (initM s) h)
  have hdis : ∀ op ∈ withoutFailed D (initM s) h, op.disciplined D home used := by
    intro o ho
    rcases withoutFailed_mem h ho with h1 | ⟨d, m, f, h1, h2, rfl⟩
    · exact hops o (List.mem_append_left _ h1)
    · have := hops _ (List.mem_append_left _ h1)
      obtain ⟨ff, hff, rfl⟩ := List.mem_map.1 h2
      exact (this ff hff).1
  refine answers_alike (home := home) (used := used) more hs (sound_runM h (mok_init D s) (sound_init D s)) ((homed_init D home used s).run _ (sound_init D s) hdis)
    (homed_runM h (mok_init D s) (sound_init D s) (homed_init D home used s) (fun x hx => hops _ (List.mem_append_left _ (List.mem_map.2 ⟨x, hx, rfl⟩)))) ?_
    (C86_registrations D s h []).1 (fun op hop => hops op (List.mem_append_right _ hop)) (fun d r hr => hp.1 d r (List.mem_append_right _ hr))
  have hp' : OnlyPureRules D s (withoutFailed D (initM s) h) := by
    refine ⟨fun d r hr => ?_, hp.2⟩
    rcases withoutFailed_mem h hr with h1 | ⟨d', m, f, -, -, e⟩
    · exact hp.1 d r (List.mem_append_left _ h1)
    · cases e
  exact fun d => hp'.inForce d

/-- C86: the discipline is needed: the type that is left behind can be had after a feature of its mixin was unregistered, when asking for it would
otherwise be undefined. -/
theorem C86_discipline_needed : ∃ h : List (Faults × Op), OnlyPureRules regDecls (fun _ => {}) (h.map (·.2) ++ [.getType 0 [1]]) ∧
    answers regDecls (runM regDecls (initM fun _ => {}) h).W [.getType 0 [1]] = [.type [1]] ∧
    answers regDecls (run regDecls (initWorld fun _ => {}) (withoutFailed regDecls (initM fun _ => {}) h)) [.getType 0 [1]] = [.fails .ub] := by
  refine ⟨[({}, .regMixin 0 1), ({ queryNode := true }, .getType 0 [1]), ({}, .unregFeature 0 1)], ⟨?_, fun d hc => by simp at hc⟩, by decide +kernel, by decide +kernel⟩
  intro d r h
  simp at h

/-- C86: `register_mixin` does not have the strong guarantee: after it failed for want of memory, features are registered that were not before, and
another feature with the same name cannot be registered any more. -/
theorem C86_features_left : ∃ (F : Faults) (d : DomId) (m : Mix), (stepM regDecls F (initM fun _ => {}) (.regMixin d m)).1 = .error .badAlloc ∧
    featuresOf (initM fun _ => {}).W d = [] ∧ featuresOf (stepM regDecls F (initM fun _ => {}) (.regMixin d m)).2.W d ≠ [] :=
  ⟨{ grow := fun i => i == 1 }, 0, 1, by decide +kernel⟩

-- a history with failures that is disciplined, and what it is without them
example : FeatureDiscipline regDecls (memHist.map (·.2) ++ [.getType 0 [1, 2], .getType 0 [2]]) ∧
    OnlyPureRules regDecls (fun _ => {}) (memHist.map (·.2) ++ [.getType 0 [1, 2], .getType 0 [2]]) ∧
    (withoutFailed regDecls (initM fun _ => {}) memHist).length = 5 ∧
    answers regDecls (runM regDecls (initM fun _ => {}) memHist).W [.getType 0 [1, 2], .getType 0 [2]] = [.type [1, 2], .type [2]] := by
  refine ⟨⟨fun _ => 0, fun _ => True, ?_⟩, ⟨?_, fun d hc => by simp at hc⟩, by decide +kernel, by decide +kernel⟩
  · intro op hop
    simp only [memHist, List.map_cons, List.map_nil, List.cons_append, List.nil_append, List.mem_cons, List.not_mem_nil, or_false] at hop
    rcases hop with rfl | rfl | rfl | rfl | rfl | rfl | rfl | rfl | rfl | rfl | rfl | rfl <;> simp [Op.disciplined]
  · intro d r h
    simp [memHist] at h

end Dnmx.Props
