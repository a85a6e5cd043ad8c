import Verif.Proofs.LinearLemmas
import Verif.Props.Concurrent

/-!
# C74: overlapping calls have the answers of calls made one after the other

Threads call the functions of domains at the same time. What they get is what they would get if the calls had been made one after
the other, in some order in which a call that was over before another one began comes first (linearizability).
-/

namespace Dnmx.Props
open Spec

theorem SameBut.registered {V W : World} (h : SameBut V W) : SameRegistered V W := by
  refine ⟨h.elems.settings, ?_, ?_, ?_, ?_, h.rules⟩
  · intro d f; simp only [featuresOf, h.elems.feats d]
  · intro d m; simp only [mixinsOf, h.elems.mixins d]
  · intro d c; simp only [classesOf, h.classes d]
  · intro d; rw [h.classes d]

theorem outcome_placed {C : Threads} {i : Nat} {th : Thread} (hi : C.threads[i]? = some th) (h : C.outcome i ≠ none) : th.stage.placed = true := by
  unfold Threads.outcome at h
  rw [hi] at h
  obtain ⟨op, st⟩ := th
  cases st <;> simp [Stage.placed] at h ⊢

/-- C74 (partial: the rules of a domain are not changed and its types are not removed while a type of it is being asked for; with
`FeatureDiscipline` and pure rules): whatever the schedule, some order of the calls explains all answers, and at any time what is
registered, with all ids, is what the calls lead to if they are made in this order.
Missing: other overlaps (`C74_refuted`, `C74_collection_refuted`), other rules (`C74_pure_rules_needed`) and features
(`C74_discipline_needed`). -/
theorem C74_linearizable_partial (D : Decls) (s : DomId → Settings) (hist ops : List Op) (is : List Nat) (hd : FeatureDiscipline D (hist ++ ops))
    (hp : OnlyPureRules D s (hist ++ ops)) (hc : Disciplined true D (spawn (run D (initWorld s) hist) ops) is) :
    ∃ order, OrderExplains D (run D (initWorld s) hist) ops (timeline D (spawn (run D (initWorld s) hist) ops) is) order ∧
      SameRegistered (run D (initWorld s) (hist ++ callsAt ops order)) ((spawn (run D (initWorld s) hist) ops).run D is).W ∧
      ((spawn (run D (initWorld s) hist) ops).run D is).W.mixId = (run D (initWorld s) (hist ++ callsAt ops order)).mixId ∧
      ((spawn (run D (initWorld s) hist) ops).run D is).W.featId = (run D (initWorld s) (hist ++ callsAt ops order)).featId ∧
      ((∀ i < ops.length, ((spawn (run D (initWorld s) hist) ops).run D is).outcome i ≠ none) → ∀ i, i ∈ order ↔ i < ops.length) := by
  obtain ⟨order, h⟩ := linearizable_run hd hp hc
  refine ⟨order, ⟨h.nodup, h.begun, h.answers, h.realTime⟩, ?_, ?_, ?_, ?_⟩
  · rw [run_append]; exact SameBut.registered h.same
  · rw [run_append]; exact h.same.elems.mixId
  · rw [run_append]; exact h.same.elems.featId
  · intro hover i
    constructor
    · intro hi
      obtain ⟨th, hth⟩ := h.inside i hi
      exact (List.getElem?_eq_some_iff.1 (h.op hth)).1
    · intro hi
      have hl : i < ((spawn (run D (initWorld s) hist) ops).run D is).threads.length := by
        have := congrArg List.length h.calls
        rw [List.length_map] at this
        omega
      have hth := List.getElem?_eq_getElem hl
      exact (h.placed i _ hth).2 (outcome_placed hth (hover i hi))

/-- C74 (partial, as above): such schedules are linearizable. -/
theorem C74_partial (D : Decls) (s : DomId → Settings) (hist ops : List Op) (is : List Nat) (hd : FeatureDiscipline D (hist ++ ops))
    (hp : OnlyPureRules D s (hist ++ ops)) (hc : Disciplined true D (spawn (run D (initWorld s) hist) ops) is) :
    Linearizable D (run D (initWorld s) hist) ops (timeline D (spawn (run D (initWorld s) hist) ops) is) := by
  obtain ⟨order, h, -⟩ := C74_linearizable_partial D s hist ops is hd hp hc
  exact ⟨order, h⟩

/-! ## An example -/

/-- The history of `ruleWorld`. -/
def ruleHist : List Op := [.regMixin 0 3, .regMixin 0 5, .regMixin 0 9, .regMixin 1 4]

/-- What can be seen when `laterOps` are called: calls overlap, the answers of threads 0 and 3 to the same question differ since
thread 2 adds a rule in between. -/
example : timeline tyDecls (spawn (run tyDecls (initWorld fun _ => {}) ruleHist) laterOps) laterSchedule =
    [.begins 5, .begins 0, .begins 1, .ends 0 (.type [3]), .ends 1 (.type [5]), .begins 2, .ends 2 .done, .begins 3, .begins 4, .ends 4 .done,
     .ends 5 (.type [4]), .ends 3 (.type [3, 9])] := by decide +kernel

example : Disciplined true tyDecls (spawn (run tyDecls (initWorld fun _ => {}) ruleHist) laterOps) laterSchedule ∧
    FeatureDiscipline tyDecls (ruleHist ++ laterOps) ∧ OnlyPureRules tyDecls (fun _ => {}) (ruleHist ++ laterOps) := by
  refine ⟨disciplined_of _ (by decide +kernel), ⟨fun _ => 0, fun _ => True, ?_⟩, ?_, fun d hc => by simp at hc⟩
  · intro op hop
    simp only [ruleHist, laterOps, List.cons_append, List.nil_append, List.mem_cons, List.not_mem_nil, or_false] at hop
    rcases hop with rfl | rfl | rfl | rfl | rfl | rfl | rfl | rfl | rfl | rfl
    all_goals first | exact trivial | (intro ff hff; simp [tyDecls] at hff)
  · intro d r hr
    simp only [ruleHist, laterOps, List.cons_append, List.nil_append, List.mem_cons, List.not_mem_nil, or_false] at hr
    simp at hr
    rw [hr.2]
    intro v v'; rfl

/-! ## Schedules that no order explains -/

/-- All orders of at most three calls. -/
def threeOrders : List (List Nat) :=
  [[], [0], [1], [2], [0, 1], [0, 2], [1, 0], [1, 2], [2, 0], [2, 1], [0, 1, 2], [0, 2, 1], [1, 0, 2], [1, 2, 0], [2, 0, 1], [2, 1, 0]]

theorem mem_threeOrders {order : List Nat} (hn : order.Nodup) (hb : ∀ i ∈ order, i < 3) : order ∈ threeOrders := by
  have three : ∀ a : Nat, a < 3 → a = 0 ∨ a = 1 ∨ a = 2 := by omega
  match order, hn, hb with
  | [], _, _ => simp [threeOrders]
  | [a], _, hb =>
    rcases three a (hb a (by simp)) with rfl | rfl | rfl <;> simp [threeOrders]
  | [a, b], hn, hb =>
    rcases three a (hb a (by simp)) with rfl | rfl | rfl <;> rcases three b (hb b (by simp)) with rfl | rfl | rfl <;> simp [threeOrders] at hn ⊢
  | [a, b, c], hn, hb =>
    rcases three a (hb a (by simp)) with rfl | rfl | rfl <;> rcases three b (hb b (by simp)) with rfl | rfl | rfl <;>
      rcases three c (hb c (by simp)) with rfl | rfl | rfl <;> simp [threeOrders] at hn ⊢
  | a :: b :: c :: e :: l, hn, hb =>
    exfalso
    have h1 := hb a (by simp)
    have h2 := hb b (by simp)
    have h3 := hb c (by simp)
    have h4 := hb e (by simp)
    simp only [List.nodup_cons, List.mem_cons, not_or] at hn
    omega

/-- The order has call `i` with this answer. -/
def hasAnswer (D : Decls) (W : World) (ops : List Op) (order : List Nat) (i : Nat) (a : Answer) : Bool :=
  (List.range order.length).any (fun k => order[k]? == some i && match ops[i]? with
    | some op => answer D (run D W (callsAt ops (order.take k))) op == a
    | none => false)

/-- The order has `i` before `j`. -/
def hasBefore (order : List Nat) (i j : Nat) : Bool :=
  (List.range order.length).any (fun k' => (List.range k').any (fun k => order[k]? == some i && order[k']? == some j))

theorem OrderExplains.hasAnswer {D : Decls} {W : World} {ops : List Op} {tl : List Event} {order : List Nat} (h : OrderExplains D W ops tl order) {i : Nat} {a : Answer}
    (he : .ends i a ∈ tl) : hasAnswer D W ops order i a = true := by
  obtain ⟨k, op, h1, h2, h3⟩ := h.answers i a he
  unfold Props.hasAnswer
  rw [List.any_eq_true]
  refine ⟨k, by rw [List.mem_range]; exact (List.getElem?_eq_some_iff.1 h1).1, ?_⟩
  rw [h2]
  simp [h1, h3]

theorem OrderExplains.hasBefore {D : Decls} {W : World} {ops : List Op} {tl l l' : List Event} {order : List Nat} (h : OrderExplains D W ops tl order) {i j : Nat} {a : Answer}
    (ht : tl = l ++ .ends i a :: l') (hj : .begins j ∈ l') (hjo : j ∈ order) : hasBefore order i j = true := by
  obtain ⟨k, k', h1, h2, h3⟩ := h.realTime i a j l l' ht hj hjo
  unfold Props.hasBefore
  rw [List.any_eq_true]
  refine ⟨k', by rw [List.mem_range]; exact (List.getElem?_eq_some_iff.1 h3).1, ?_⟩
  rw [List.any_eq_true]
  exact ⟨k, by rw [List.mem_range]; exact h1, by simp [h2, h3]⟩

/-- No order of three calls gives call 0 answer `a`, call 2 answer `b`, and has call 1 before call 2. -/
theorem not_linearizable {D : Decls} {W : World} {ops : List Op} {tl l l' : List Event} {a b c : Answer} (hbeg : ∀ e ∈ tl, ∀ i, e = .begins i → i < 3)
    (h0 : .ends 0 a ∈ tl) (h2 : .ends 2 b ∈ tl) (ht : tl = l ++ .ends 1 c :: l') (hj : .begins 2 ∈ l')
    (hno : ∀ order ∈ threeOrders, (hasAnswer D W ops order 0 a && hasAnswer D W ops order 2 b && hasBefore order 1 2) = false) : ¬ Linearizable D W ops tl := by
  rintro ⟨order, h⟩
  have hmem := mem_threeOrders h.nodup (fun i hi => hbeg _ (h.begun i hi) i rfl)
  have := hno order hmem
  have h2' := OrderExplains.hasAnswer h h2
  obtain ⟨k, op, k1, -⟩ := h.answers 2 b h2
  rw [OrderExplains.hasAnswer h h0, h2', OrderExplains.hasBefore h ht hj (List.mem_of_getElem? k1)] at this
  simp at this

/-- Thread 0 asks for a type; thread 1 adds a rule, and when it is over, thread 2 registers the mixin that is asked for. -/
def lateOps : List Op := [.getType 0 [3], .addRule 0 1, .regMixin 0 3]

/-- Threads 1 and 2 run between the two locked sections of thread 0. -/
def lateSchedule : List Nat := [0, 0, 1, 2, 0, 0]

/-- C74 is wrong: a rule is added during a `get_type`, and then the mixin that is asked for is registered. The type without the rule
is created, although there was no moment at which the mixin was registered and the rule was not there. All rules are pure and no
features are involved. -/
theorem C74_refuted : RulePure tyDecls 1 ∧
    timeline tyDecls (spawn (run tyDecls (initWorld fun _ => {}) [.regMixin 0 9]) lateOps) lateSchedule =
      [.begins 0, .begins 1, .ends 1 .done, .begins 2, .ends 2 .done, .ends 0 (.type [3])] ∧
    ¬ Linearizable tyDecls (run tyDecls (initWorld fun _ => {}) [.regMixin 0 9]) lateOps
      (timeline tyDecls (spawn (run tyDecls (initWorld fun _ => {}) [.regMixin 0 9]) lateOps) lateSchedule) := by
  have ht : timeline tyDecls (spawn (run tyDecls (initWorld fun _ => {}) [.regMixin 0 9]) lateOps) lateSchedule =
      [.begins 0, .begins 1, .ends 1 .done, .begins 2, .ends 2 .done, .ends 0 (.type [3])] := by decide +kernel
  refine ⟨fun v v' => rfl, ht, ?_⟩
  rw [ht]
  exact not_linearizable (l := [.begins 0, .begins 1]) (l' := [.begins 2, .ends 2 .done, .ends 0 (.type [3])]) (c := .done) (a := .type [3]) (b := .done)
    (by simp) (by simp) (by simp) rfl (by simp) (by decide +kernel)

/-- Thread 0 asks for a type; thread 1 registers the mixin that rule 2 looks for, and then thread 2 registers the mixin that is
asked for. -/
def nameOps : List Op := [.getType 0 [3], .regMixin 0 4, .regMixin 0 3]

/-- C74: pure rules are needed: rule 2 looks for the mixin with the name 4. No calls clash, but the type without mixin 4 is created
although mixin 4 was registered before mixin 3 was. -/
theorem C74_pure_rules_needed : Disciplined true tyDecls (spawn (run tyDecls (initWorld fun _ => {}) [.addRule 0 2]) nameOps) lateSchedule ∧
    FeatureDiscipline tyDecls ([.addRule 0 2] ++ nameOps) ∧
    ¬ Linearizable tyDecls (run tyDecls (initWorld fun _ => {}) [.addRule 0 2]) nameOps
      (timeline tyDecls (spawn (run tyDecls (initWorld fun _ => {}) [.addRule 0 2]) nameOps) lateSchedule) := by
  have ht : timeline tyDecls (spawn (run tyDecls (initWorld fun _ => {}) [.addRule 0 2]) nameOps) lateSchedule =
      [.begins 0, .begins 1, .ends 1 .done, .begins 2, .ends 2 .done, .ends 0 (.type [3])] := by decide +kernel
  refine ⟨disciplined_of _ (by decide +kernel), ⟨fun _ => 0, fun _ => True, ?_⟩, ?_⟩
  · intro op hop
    simp only [nameOps, List.cons_append, List.nil_append, List.mem_cons, List.not_mem_nil, or_false] at hop
    rcases hop with rfl | rfl | rfl | rfl
    all_goals first | exact trivial | (intro ff hff; simp [tyDecls] at hff)
  · rw [ht]
    exact not_linearizable (l := [.begins 0, .begins 1]) (l' := [.begins 2, .ends 2 .done, .ends 0 (.type [3])]) (c := .done) (a := .type [3]) (b := .done)
      (by simp) (by simp) (by simp) rfl (by simp) (by decide +kernel)

/-- Threads 0 and 2 ask for a type of a mixin, thread 1 unregisters a feature of the mixin. -/
def goneOps : List Op := [.getType 0 [1], .unregFeature 0 1, .getType 0 [1]]

/-- Thread 0 creates the type; before it is stored, thread 1 unregisters the feature, and then thread 2 asks. -/
def goneSchedule : List Nat := [0, 0, 0, 1, 2, 2, 2, 0]

/-- C74: the discipline with features is needed: thread 2 fails although thread 0 has created the type before. In any order, either
thread 0 fails, too, or thread 2 finds the type of thread 0. -/
theorem C74_discipline_needed : Disciplined true regDecls (spawn (run regDecls (initWorld fun _ => {}) [.regMixin 0 1]) goneOps) goneSchedule ∧
    OnlyPureRules regDecls (fun _ => {}) ([.regMixin 0 1] ++ goneOps) ∧
    ¬ Linearizable regDecls (run regDecls (initWorld fun _ => {}) [.regMixin 0 1]) goneOps
      (timeline regDecls (spawn (run regDecls (initWorld fun _ => {}) [.regMixin 0 1]) goneOps) goneSchedule) := by
  have ht : timeline regDecls (spawn (run regDecls (initWorld fun _ => {}) [.regMixin 0 1]) goneOps) goneSchedule =
      [.begins 0, .begins 1, .ends 1 .done, .begins 2, .ends 2 (.fails .ub), .ends 0 (.type [1])] := by decide +kernel
  refine ⟨disciplined_of _ (by decide +kernel), ⟨?_, fun d hc => by simp at hc⟩, ?_⟩
  · intro d r h
    simp [goneOps] at h
  · rw [ht]
    exact not_linearizable (l := [.begins 0, .begins 1]) (l' := [.begins 2, .ends 2 (.fails .ub), .ends 0 (.type [1])]) (c := .done) (a := .type [1])
      (b := .fails .ub) (by simp) (by simp) (by simp) rfl (by simp) (by decide +kernel)

/-- Thread 0 asks for a type while thread 1 collects garbage. -/
def collectOps : List Op := [.getType 0 [3], .gc 0 (fun _ => 0), .regMixin 0 5]

/-- Thread 1 runs after thread 0 has found the type and before it returns it. -/
def collectSchedule : List Nat := [0, 0, 1, 0, 2]

/-- C74 is wrong for garbage collection as well: the type that thread 0 gets does not exist any more when it gets it. -/
theorem C74_collection_refuted :
    timeline tyDecls (spawn (run tyDecls (initWorld fun _ => {}) [.regMixin 0 3, .getType 0 [3], .addRule 0 2]) collectOps) collectSchedule =
      [.begins 0, .begins 1, .ends 1 .done, .ends 0 (.fails .ub), .begins 2, .ends 2 .done] ∧
    ¬ Linearizable tyDecls (run tyDecls (initWorld fun _ => {}) [.regMixin 0 3, .getType 0 [3], .addRule 0 2]) collectOps
      (timeline tyDecls (spawn (run tyDecls (initWorld fun _ => {}) [.regMixin 0 3, .getType 0 [3], .addRule 0 2]) collectOps) collectSchedule) := by
  have ht : timeline tyDecls (spawn (run tyDecls (initWorld fun _ => {}) [.regMixin 0 3, .getType 0 [3], .addRule 0 2]) collectOps) collectSchedule =
      [.begins 0, .begins 1, .ends 1 .done, .ends 0 (.fails .ub), .begins 2, .ends 2 .done] := by decide +kernel
  refine ⟨ht, ?_⟩
  rw [ht]
  exact not_linearizable (l := [.begins 0, .begins 1]) (l' := [.ends 0 (.fails .ub), .begins 2, .ends 2 .done]) (c := .done) (a := .fails .ub) (b := .done)
    (by simp) (by simp) (by simp) rfl (by simp) (by decide +kernel)

end Dnmx.Props
