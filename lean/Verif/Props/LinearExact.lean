import Verif.Props.Linear
import Verif.Props.UnpartedAnswers

/-! C74 for all schedules during which features and mixins do not part. -/

namespace Dnmx.Props
open Spec

theorem typical_unparted (D : Decls) (s : DomId → Settings) (ops : List Op) (hd : NeverParts D s ops) (hp : OnlyPureRules D s ops) :
    Typical D (run D (initWorld s) ops) := by
  have hr := reachable_reg D s ops
  have hb : ∀ d tid ms, checkMixins (run D (initWorld s) ops).mixId (run D (initWorld s) ops).mixDom d ms = .ok () →
      (buildType D (run D (initWorld s) ops) d tid ms = .error .featureClash ↔ Clashing D ms) ∧
      (buildType D (run D (initWorld s) ops) d tid ms = .error .featureClash ∨ ∃ r, buildType D (run D (initWorld s) ops) d tid ms = .ok r) := by
    intro d tid ms hc
    obtain ⟨h1, h2⟩ := (checkMixins_ok _ _ _ _).1 hc
    exact C28_clash_unparted D s ops hd d tid ms h1 (fun m hm => (mixinRegistered_iff D s ops d m).2 ((hr.mem_mixinsOf_iff d m).2 (h2 m hm)))
  refine ⟨hr, reachable_types D s ops, hp.inForce, C72_get_type_unparted D s ops hd hp, hb, ?_⟩
  intro d t ht hcl
  have htab := tables_here D s ops hd d t ht
  have hi := reachable_types D s ops d
  obtain ⟨-, -, h1, h2⟩ := hi.typeAt_ok (hi.typeAt_mem t ht)
  have hc := (checkMixins_ok (run D (initWorld s) ops).mixId (run D (initWorld s) ops).mixDom d t.mixins).2 ⟨h1, h2⟩
  have := (hb d 0 t.mixins hc).1.2 hcl
  unfold buildType at this
  rw [hc, htab] at this
  simp at this

/-- At all times during the schedule the features of all registered mixins are registered in the mixins' domains. -/
def HereDuring (D : Decls) (C : Threads) : List Nat → Prop
  | [] => FeatsHere D C.W
  | i :: is => FeatsHere D C.W ∧ HereDuring D (C.step D i) is

theorem hereDuring_now {D : Decls} {C : Threads} : ∀ {is : List Nat}, HereDuring D C is → FeatsHere D C.W
  | [], h => h
  | _ :: _, h => h.1

theorem callsAt_snoc (ops : List Op) (order : List Nat) (i : Nat) : callsAt ops (order ++ [i]) = callsAt ops order ++ callsAt ops [i] := by
  simp [callsAt]

theorem callsAt_one (ops : List Op) (i : Nat) : callsAt ops [i] = [] ∨ ∃ op, callsAt ops [i] = [op] := by
  cases h : ops[i]? with
  | none => exact .inl (by simp [callsAt, h])
  | some op => exact .inr ⟨op, by simp [callsAt, h]⟩

/-- A history goes on without making features and mixins part if they are together afterwards. -/
theorem neverParts_snoc {D : Decls} {s : DomId → Settings} {ops more : List Op} (h : NeverParts D s ops) (hm : more = [] ∨ ∃ op, more = [op])
    (hh : FeatsHere D (run D (initWorld s) (ops ++ more))) : NeverParts D s (ops ++ more) := by
  rcases hm with rfl | ⟨op, rfl⟩
  · simpa using h
  · rw [← C56_exactly] at h ⊢
    intro pre hp
    rcases List.prefix_concat_iff.1 hp with h1 | h1
    · rw [h1]; exact hh
    · exact h pre h1

theorem lin_unparted {D : Decls} {s : DomId → Settings} {hist ops : List Op} (hp : OnlyPureRules D s (hist ++ ops)) (is : List Nat) :
    ∀ {C : Threads} {tl : List Event} {order : List Nat}, Lin D (run D (initWorld s) hist) ops C tl order → Disciplined true D C is → HereDuring D C is →
    NeverParts D s (hist ++ callsAt ops order) →
    ∃ order', Lin D (run D (initWorld s) hist) ops (C.run D is) (tl ++ timeline D C is) order' := by
  induction is with
  | nil =>
    intro C tl order h _ _ _
    refine ⟨order, ?_⟩
    rw [show timeline D C [] = [] from rfl, List.append_nil]
    exact h
  | cons i is ih =>
    intro C tl order h hd hh hn
    have hp' : OnlyPureRules D s (hist ++ callsAt ops order) := by
      refine ⟨fun d r hr => hp.1 d r ?_, hp.2⟩
      rcases List.mem_append.1 hr with h | h
      · exact List.mem_append_left _ h
      · exact List.mem_append_right _ (callsAt_mem h)
    have ht := typical_unparted D s _ hn hp'
    rw [run_append] at ht
    obtain ⟨order1, ho, h1⟩ := h.step ht i hd.1
    have hn1 : NeverParts D s (hist ++ callsAt ops order1) := by
      have hv : FeatsHere D (run D (initWorld s) (hist ++ callsAt ops order1)) := by
        have hw := hereDuring_now hh.2
        have hsame := SameBut.registered h1.same
        rw [run_append]
        intro d m hm ff hff
        exact (hsame.feats d _).1 (hw d m ((hsame.mixins d m).2 hm) ff hff)
      rcases ho with rfl | rfl
      · exact hn
      · rw [callsAt_snoc, ← List.append_assoc] at hv ⊢
        exact neverParts_snoc hn (callsAt_one ops i) hv
    obtain ⟨order2, h2⟩ := ih h1 hd.2 hh.2 hn1
    refine ⟨order2, ?_⟩
    rw [List.append_assoc] at h2
    exact h2

/-- C74, for all schedules during which features and mixins do not part (and the rules of a domain are not changed and its types are not removed while a type of it is being asked for;
with pure rules): whatever the schedule, some order of the calls explains all answers, and at any time what is registered, with all ids, is what the calls lead to if they are
made in this order. Other orders of the same calls may well make features and mixins part. -/
theorem C74_linearizable_unparted (D : Decls) (s : DomId → Settings) (hist ops : List Op) (is : List Nat) (hn : NeverParts D s hist)
    (hh : HereDuring D (spawn (run D (initWorld s) hist) ops) is)
    (hp : OnlyPureRules D s (hist ++ ops)) (hc : Disciplined true D (spawn (run D (initWorld s) hist) ops) is) :
    ∃ order, OrderExplains D (run D (initWorld s) hist) ops (timeline D (spawn (run D (initWorld s) hist) ops) is) order ∧
      SameRegistered (run D (initWorld s) (hist ++ callsAt ops order)) ((spawn (run D (initWorld s) hist) ops).run D is).W ∧
      ((spawn (run D (initWorld s) hist) ops).run D is).W.mixId = (run D (initWorld s) (hist ++ callsAt ops order)).mixId ∧
      ((spawn (run D (initWorld s) hist) ops).run D is).W.featId = (run D (initWorld s) (hist ++ callsAt ops order)).featId ∧
      ((∀ i < ops.length, ((spawn (run D (initWorld s) hist) ops).run D is).outcome i ≠ none) → ∀ i, i ∈ order ↔ i < ops.length) := by
  have hn0 : NeverParts D s (hist ++ callsAt ops []) := by simpa [callsAt] using hn
  have ht0 : Typical D (run D (initWorld s) hist) :=
    typical_unparted D s hist hn ⟨fun d r hr => hp.1 d r (List.mem_append_left _ hr), hp.2⟩
  obtain ⟨order, h⟩ := lin_unparted hp is (lin_spawn ht0 (reachable_cache D s hist) ops) hc hh hn0
  rw [List.nil_append] at h
  refine ⟨order, ⟨h.nodup, h.begun, h.answers, h.realTime⟩, ?_, ?_, ?_, ?_⟩
  · rw [run_append]; exact SameBut.registered h.same
  · rw [run_append]; exact h.same.elems.mixId
  · rw [run_append]; exact h.same.elems.featId
  · intro hover i
    constructor
    · intro hi
      obtain ⟨th, hth⟩ := h.inside i hi
      exact (List.getElem?_eq_some_iff.1 (h.op hth)).1
    · intro hi
      have hl : i < ((spawn (run D (initWorld s) hist) ops).run D is).threads.length := by
        have := congrArg List.length h.calls
        rw [List.length_map] at this
        omega
      have hth := List.getElem?_eq_getElem hl
      exact (h.placed i _ hth).2 (outcome_placed hth (hover i hi))

/-- Consequence: such schedules are linearizable. -/
theorem C74_unparted (D : Decls) (s : DomId → Settings) (hist ops : List Op) (is : List Nat) (hn : NeverParts D s hist)
    (hh : HereDuring D (spawn (run D (initWorld s) hist) ops) is)
    (hp : OnlyPureRules D s (hist ++ ops)) (hc : Disciplined true D (spawn (run D (initWorld s) hist) ops) is) :
    Linearizable D (run D (initWorld s) hist) ops (timeline D (spawn (run D (initWorld s) hist) ops) is) := by
  obtain ⟨order, h, -⟩ := C74_linearizable_unparted D s hist ops is hn hh hp hc
  exact ⟨order, h⟩

/-! ## An example -/

/-- Thread 0 unregisters a mixin, thread 1 then one of its features, and thread 2 asks for a type of another domain meanwhile. -/
def moveOps : List Op := [.unregMixin 0 1, .unregFeature 0 1, .getType 1 []]

theorem here_zero {D : Decls} {W : World} (h0 : mixinsOf W 0 = [] ∨ (mixinsOf W 0 = [1] ∧ ∀ ff ∈ (D.mix 1).feats, ff.feat ∈ featuresOf W 0))
    (h1 : ∀ d, (W.doms (d + 1)).mixins = []) : FeatsHere D W := by
  intro d m hm ff hff
  cases d with
  | succ d =>
    obtain ⟨i, hi⟩ := (mem_mixinsOf _ _ _).1 hm
    rw [h1 d] at hi
    simp at hi
  | zero =>
    rcases h0 with h0 | ⟨h0, h2⟩
    · rw [h0] at hm; cases hm
    · rw [h0] at hm
      rw [List.mem_singleton.1 hm] at hff
      exact h2 ff hff

-- a schedule that meets the hypotheses, of calls that would make features and mixins part if thread 1 ran first
example : let C := spawn (run regDecls (initWorld fun _ => {}) [.regMixin 0 1]) moveOps
    HereDuring regDecls C [2, 0, 2, 0, 1, 2] ∧ Disciplined true regDecls C [2, 0, 2, 0, 1, 2] ∧
    Parts regDecls C.W (.unregFeature 0 1) ∧
    timeline regDecls C [2, 0, 2, 0, 1, 2] = [.begins 2, .begins 0, .ends 0 .done, .begins 1, .ends 1 .done, .ends 2 (.type [])] := by
  refine ⟨⟨?_, ?_, ?_, ?_, ?_, ?_, ?_⟩, disciplined_of _ (by decide +kernel), ⟨by decide +kernel, 1, by decide +kernel, ⟨1, 10, 0, 0⟩, by decide +kernel, rfl⟩, by decide +kernel⟩
  all_goals first
    | exact here_zero (.inr ⟨by decide +kernel, by decide +kernel⟩) (fun d => by cases d <;> rfl)
    | exact here_zero (.inl (by decide +kernel)) (fun d => by cases d <;> rfl)

end Dnmx.Props
