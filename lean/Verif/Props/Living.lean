import Verif.Proofs.LivingLemmas
import Verif.Props.System

/-!
# Messages that use domains and objects (C90)

Programs as in C59, whose messages do whatever the program can do: `Model.Living`.
-/

set_option linter.unusedVariables false

namespace Dnmx.Props
open Spec

/-! ## The theorems -/

/-- C90: if all implementations keep to the rules, a program that keeps to them has no undefined behaviour, however deep the calls, whatever is thrown on the way and wherever it is caught;
at the end all is well with domains and objects, and all known objects live. -/
theorem C90_safe (D : Decls) (orc : Orc) (d : DomId) (P : Pledge) (B : Bodies) (hF : KeepsRulesL D orc d P B) (n : Nat) (prog : List LOp) (S : Sys) (hw : WellS D d P S)
    (hp : PermittedRun D orc d P B n prog S) : SafeL (WellS D d P) (lrun D orc d B n prog S) := lrun_ok hF n prog S hw hp

/-- C90: programs begin with all well. -/
theorem C90_start (D : Decls) (d : DomId) (P : Pledge) (hk : ∀ k, ¬ P.known k) (s : DomId → Settings) : WellS D d P ⟨initWorld s, {}⟩ :=
  ⟨SysInv.ok (sys_start D d s), (sys_start D d s).log, ⟨s, [], by simp, rfl⟩, by intro r hr; simp [typesOf, initWorld, newDom] at hr, fun k h => absurd h (hk k)⟩

/-- C90: a call of a message ends with all well, and no object is lost. -/
theorem C90_call (D : Decls) (orc : Orc) (d : DomId) (P : Pledge) (B : Bodies) (hF : KeepsRulesL D orc d P B) (n : Nat) (S : Sys) (hw : WellS D d P S) (o : Nat) (ha : Alive S.h o)
    (f : Feat) (hf : P.home f = d) (multi : Bool) (hmu : multi = true → P.multi f) :
    SafeL (fun S' => WellS D d P S' ∧ ∀ o, Alive S.h o → Alive S'.h o) (lstep D orc d B n S (.call o f multi)) := sendToL_ok (runDeeds_ok hF n) hF hw ha hf hmu

/-- C90: a quiet message leaves all objects as they are, with mixins at the same addresses. Their types stay where they are too, though the message may make types, collect
garbage, register and unregister elements. -/
theorem C90_quiet (D : Decls) (orc : Orc) (d : DomId) (P : Pledge) (B : Bodies) (hF : KeepsRulesL D orc d P B) (n : Nat) (S : Sys) (hw : WellS D d P S) (o : Nat) (ha : Alive S.h o)
    (f : Feat) (hf : P.home f = d) (hq : P.quiet f) (multi : Bool) :
    SafeL (fun S' => WellS D d P S' ∧ StillThereS d S S') (lstep D orc d B n S (.call o f multi)) := sendToL_quiet (runDeeds_ok hF n) hF hw ha hf multi hq

/-- C90: an operation in a message that does not concern an object leaves it as it is, with its type and its mixins. -/
theorem C90_bystander (D : Decls) (orc : Orc) (d : DomId) (P : Pledge) (S : Sys) (hw : WellS D d P S) (op : SOp) (ha : Allowed D orc d P S op) (o : Nat) (ob : Obj) (ho : S.h.obj? o = some ob)
    (hn : o ∉ changed op) : SafeL (fun S' => S'.h.obj? o = some ob ∧ (∀ t, ob.ty = some t → (S'.W.doms d).typeAt d t = (S.W.doms d).typeAt d t) ∧
      ∀ m l v, Holds (TyEnv.ofWorld S.W d) S.h o m l v → ∃ v', Holds (TyEnv.ofWorld S'.W d) S'.h o m l v') (.ofSys (sstep D orc d S op)) := sstep_frame hw ha ho hn

/-- C90: messages that do not use the domain do what `C71` says: unless they have undefined behaviour, calls have the same outcome as in `Model.Acting`, and the domains stay as they are. -/
theorem C90_as_in_C71 (D : Decls) (orc : Orc) (d : DomId) (W : World) (M : MsgEnv) (hM : M.table = tablesOf W d) (n : Nat) (h : Heap) (o : Nat) (f : Feat) (multi : Bool) :
    lstep D orc d (asBodies M) n ⟨W, h⟩ (.call o f multi) = .ub ∨
    lstep D orc d (asBodies M) n ⟨W, h⟩ (.call o f multi) = (callMsg D (TyEnv.ofWorld W d) orc M n o f multi h).inWorld W :=
  sendToL_same hM (fun w as h => runDeeds_same hM n w as h) o f multi h

/-! ## An example

Mixins and messages as in the example of C71: mixins 1 and 2 are in the buffer of the object, 3 is external. Message 0 is a multicast, implemented by 3 (called first) and 1; message 1 is
implemented by 3; message 2 has a default implementation only; message 3 is implemented by 1 and 2. -/

/-- Is the operation properly used, and do the types fit afterwards? -/
def wise (D : Decls) (orc : Orc) (d : DomId) (S : Sys) (op : SOp) : Bool :=
  decide (ProperS D d S op) && match sstep D orc d S op with
    | .ok S' => decide (TypesFit D S'.W d)
    | .throw S' _ => decide (TypesFit D S'.W d)
    | .ub => true

/-- The operation is done if `wise` and the condition allow it. -/
def cautious (D : Decls) (orc : Orc) (d : DomId) (c : Sys → Nat → Bool) (op : Nat → SOp) : Doing := fun S o => if wise D orc d S (op o) && c S o then .sys (op o) else .nothing

def livePledge : Pledge := ⟨fun _ => False, fun f => f = 3, fun f => f = 0, fun _ => 0, fun _ => True⟩

/-- Operations of the example. -/
def liveOp (op : Nat → SOp) : Doing := cautious actDecls objOrc 0 (fun _ _ => true) op

def addTwo (o : Nat) : SOp := .mutate false o [(.add 2, none)]

/-- The object has mixin 3 after the mutation. -/
def keepsThree (S : Sys) (o : Nat) : Bool := decide (ResultFits actDecls 0 S o [.add 2] (fun W t => 3 ∈ (compositionOf W 0 t).getD []))

/-- The first implementation of the multicast collects garbage, makes a type and calls a quiet message; the last one removes its own mixin at the end. The external mixin adds a mixin to its object, collects
garbage, and goes on. The default implementation mutates its object, uses it, and calls the multicast. -/
def liveBody (m : Mix) (p : Nat) : List (Doing × Bool) :=
  if m = 3 ∧ p = 30 then [(fun _ _ => .use, false), (liveOp (fun _ => .gc), false), (liveOp (fun _ => .dom (.getTypeMut 0 0 [2])), true), (fun _ o => .send o 3 false, true), (liveOp (fun _ => .gc), false)]
  else if m = 1 ∧ p = 10 then [(fun _ _ => .use, false), (fun _ o => .send o 3 false, false), (liveOp (fun o => .mutate false o [(.remove 1, none)]), false)]
  else if m = 3 ∧ p = 31 then [(cautious actDecls objOrc 0 keepsThree addTwo, true), (liveOp (fun _ => .gc), false), (fun _ _ => .use, false), (liveOp (fun o => .gradual false o [.remove 3]), false)]
  else if m = 1 ∧ p = 13 then [(fun _ _ => .use, false), (liveOp (fun _ => .obj false (.newEmpty emptyTid 0)), true)]
  else if m = 2 ∧ p = 23 then [(fun _ _ => .use, false)]
  else []

def liveDflt (p : Nat) : List (Doing × Bool) :=
  if p = 7 then [(liveOp (fun o => .gradual false o [.add 1, .add 3]), false), (fun _ _ => .use, false), (fun _ o => .send o 0 true, false), (liveOp (fun _ => .gc), false), (fun _ _ => .use, false)] else []

def liveBodies : Bodies := ⟨liveBody, liveDflt⟩

theorem wise_allowed {S : Sys} {op : SOp} (h : wise actDecls objOrc 0 S op = true) (hc : calm op = true) (hk : KeepsFeatures actDecls livePledge op) (hd : ∀ o, ¬ destroys o op) :
    Allowed actDecls objOrc 0 livePledge S op := by
  unfold wise at h
  rw [Bool.and_eq_true] at h
  obtain ⟨h1, h2⟩ := h
  refine ⟨of_decide_eq_true h1, hc, hk, hd, ?_⟩
  rintro S' (h3 | ⟨e, h3⟩) <;> rw [h3] at h2 <;> exact of_decide_eq_true h2

theorem cautious_may (op : Nat → SOp) {c : Sys → Nat → Bool} (hc : ∀ o, calm (op o) = true) (hk : ∀ o, KeepsFeatures actDecls livePledge (op o)) (hd : ∀ o o', ¬ destroys o' (op o)) (S : Sys) (o : Nat) :
    MayDoL actDecls objOrc 0 livePledge S (cautious actDecls objOrc 0 c op S o) := by
  unfold cautious
  by_cases h : wise actDecls objOrc 0 S (op o) && c S o
  · rw [if_pos h]
    rw [Bool.and_eq_true] at h
    exact wise_allowed h.1 (hc o) (hk o) (hd o)
  · rw [if_neg h]; trivial

theorem cautious_quiet (op : Nat → SOp) {c : Sys → Nat → Bool} (hc : ∀ o, calm (op o) = true) (hk : ∀ o, KeepsFeatures actDecls livePledge (op o)) (hd : ∀ o o', ¬ destroys o' (op o))
    (hn : ∀ o, changed (op o) = []) (S : Sys) (o : Nat) : QuietDeed actDecls objOrc 0 livePledge S (cautious actDecls objOrc 0 c op S o) := by
  unfold cautious
  by_cases h : wise actDecls objOrc 0 S (op o) && c S o
  · rw [if_pos h]
    rw [Bool.and_eq_true] at h
    exact ⟨wise_allowed h.1 (hc o) (hk o) (hd o), hn o⟩
  · rw [if_neg h]; trivial

theorem gc_quiet (S : Sys) (o : Nat) : QuietDeed actDecls objOrc 0 livePledge S (liveOp (fun _ => .gc) S o) :=
  cautious_quiet (fun _ => .gc) (fun _ => rfl) (fun _ => trivial) (fun _ _ h => h) (fun _ => rfl) S o

theorem quiet_may {S : Sys} {a : Deed} (h : QuietDeed actDecls objOrc 0 livePledge S a) : MayDoL actDecls objOrc 0 livePledge S a := by
  cases a with
  | sys op => exact h.1
  | send o f multi => exact h.1
  | next f => exact h.1
  | nextSet f => exact ⟨h.1, h.2.1⟩
  | nextTop f => exact h.1
  | nothing => trivial
  | use => trivial
  | raise n => trivial

/-- The quiet implementations. -/
theorem live_quiet (m : Mix) (p : Nat) (hp : p = 13 ∨ p = 23 ∨ p = 30) : ∀ a ∈ liveBody m p, ∀ S o, Alive S.h o → QuietDeed actDecls objOrc 0 livePledge S (a.1 S o) := by
  intro a ha S o hal
  unfold liveBody at ha
  have hsend : QuietDeed actDecls objOrc 0 livePledge S (.send o 3 false) := ⟨⟨hal, rfl, fun h => by simp at h⟩, rfl⟩
  split at ha
  · simp only [List.mem_cons, List.not_mem_nil, or_false] at ha
    rcases ha with rfl | rfl | rfl | rfl | rfl
    · trivial
    · exact gc_quiet S o
    · exact cautious_quiet (c := fun _ _ => true) (fun _ => .dom (.getTypeMut 0 0 [2])) (fun _ => rfl) (fun _ => trivial) (fun _ _ h => h) (fun _ => rfl) S o
    · exact hsend
    · exact gc_quiet S o
  · split at ha
    · rename_i h; obtain ⟨-, rfl⟩ := h; simp at hp
    · split at ha
      · rename_i h; obtain ⟨-, rfl⟩ := h; simp at hp
      · split at ha
        · simp only [List.mem_cons, List.not_mem_nil, or_false] at ha
          rcases ha with rfl | rfl
          · trivial
          · exact cautious_quiet (c := fun _ _ => true) (fun _ => .obj false (.newEmpty emptyTid 0)) (fun _ => rfl) (fun _ => trivial) (fun _ _ h => by simp [destroys] at h) (fun _ => rfl) S o
        · split at ha
          · simp only [List.mem_cons, List.not_mem_nil, or_false] at ha
            subst ha; trivial
          · simp at ha

theorem seen_alive {D : Decls} {d : DomId} {P : Pledge} {S : Sys} {m : Mix} {o : Nat} (h : Seen D d P S m o) : Alive S.h o := by
  obtain ⟨-, l, v, hh⟩ := h
  obtain ⟨ob, ho⟩ := holds_obj hh
  exact obj_alive ho

/-- The rule for mixins, along the list. -/
def TailRuleL (m : Mix) : List (Doing × Bool) → Prop
  | [] => True
  | (a, _) :: as => (∀ S o, Seen actDecls 0 livePledge S m o → MayDoL actDecls objOrc 0 livePledge S (a S o) ∧ (as ≠ [] → GoesOn actDecls objOrc 0 livePledge m S o (a S o))) ∧ TailRuleL m as

theorem TailRuleL.at {m : Mix} : ∀ {as : List (Doing × Bool)}, TailRuleL m as → ∀ pre a c post, as = pre ++ (a, c) :: post → ∀ S o, Seen actDecls 0 livePledge S m o →
    MayDoL actDecls objOrc 0 livePledge S (a S o) ∧ (post ≠ [] → GoesOn actDecls objOrc 0 livePledge m S o (a S o))
  | _, h, [], a, c, post, he => by subst he; exact h.1
  | _, h, (b, d) :: pre, a, c, post, he => by subst he; exact TailRuleL.at (as := pre ++ (a, c) :: post) h.2 pre a c post rfl

theorem live_rule (m : Mix) (p : Nat) : TailRuleL m (liveBody m p) := by
  have hq : ∀ {a : Doing} {as : List (Doing × Bool)}, (∀ S o, Alive S.h o → QuietDeed actDecls objOrc 0 livePledge S (a S o)) →
      ∀ S o, Seen actDecls 0 livePledge S m o → MayDoL actDecls objOrc 0 livePledge S (a S o) ∧ (as ≠ [] → GoesOn actDecls objOrc 0 livePledge m S o (a S o)) :=
    fun h S o hs => ⟨quiet_may (h S o (seen_alive hs)), fun _ => .inl (h S o (seen_alive hs))⟩
  have hl : ∀ {a : Doing}, (∀ S o, MayDoL actDecls objOrc 0 livePledge S (a S o)) →
      ∀ S o, Seen actDecls 0 livePledge S m o → MayDoL actDecls objOrc 0 livePledge S (a S o) ∧ (([] : List (Doing × Bool)) ≠ [] → GoesOn actDecls objOrc 0 livePledge m S o (a S o)) :=
    fun h S o hs => ⟨h S o, fun h => absurd rfl h⟩
  have hsend : ∀ (S : Sys) o, Alive S.h o → QuietDeed actDecls objOrc 0 livePledge S (.send o 3 false) := fun S o hal => ⟨⟨hal, rfl, fun h => by simp at h⟩, rfl⟩
  have hgc : ∀ (S : Sys) o, Alive S.h o → QuietDeed actDecls objOrc 0 livePledge S (liveOp (fun _ => .gc) S o) := fun S o _ => gc_quiet S o
  have huse : ∀ (S : Sys) (o : Nat), Alive S.h o → QuietDeed actDecls objOrc 0 livePledge S .use := fun _ _ _ => trivial
  unfold liveBody
  split
  · refine ⟨hq huse, hq hgc, hq ?_, hq hsend, hq hgc, trivial⟩
    exact fun S o _ => cautious_quiet (fun _ => .dom (.getTypeMut 0 0 [2])) (fun _ => rfl) (fun _ => trivial) (fun _ _ h => h) (fun _ => rfl) S o
  · split
    · refine ⟨hq huse, hq hsend, hl ?_, trivial⟩
      exact fun S o => cautious_may (fun o => .mutate false o [(.remove 1, none)]) (fun _ => rfl) (fun _ => trivial) (fun _ _ h => h) S o
    · split
      · rename_i h
        obtain ⟨rfl, -⟩ := h
        refine ⟨?_, hq hgc, hq huse, hl ?_, trivial⟩
        · intro S o hs
          refine ⟨cautious_may addTwo (fun _ => rfl) (fun _ => trivial) (fun _ _ h => h) S o, fun _ => ?_⟩
          unfold cautious
          by_cases h : wise actDecls objOrc 0 S (addTwo o) && keepsThree S o
          · rw [if_pos h]
            rw [Bool.and_eq_true] at h
            exact .inr ⟨_, rfl, .inr ⟨by decide +kernel, rfl, of_decide_eq_true h.2⟩⟩
          · rw [if_neg h]; exact .inl trivial
        · exact fun S o => cautious_may (fun o => .gradual false o [.remove 3]) (fun _ => rfl) (fun _ => trivial) (fun _ _ h => h) S o
      · split
        · refine ⟨hq huse, hl ?_, trivial⟩
          exact fun S o => cautious_may (fun _ => .obj false (.newEmpty emptyTid 0)) (fun _ => rfl) (fun _ => trivial) (fun _ _ h => by simp [destroys] at h) S o
        · split
          · exact ⟨hq huse, trivial⟩
          · trivial

theorem live_once (ms : List Mix) : ListsOnce actDecls ms 0 := by
  intro m _
  show ((actFeats m).filter (fun ff => ff.feat = 0)).length ≤ 1
  unfold actFeats
  split
  · decide
  · split
    · decide
    · split
      · decide
      · decide

/-- Implementations of message 0: those of mixin 3 follow in the ranking. -/
theorem live_later {ms : List Mix} {l : List (Nat × FeatFor)} (hn : ms.Nodup) (hR : RanksImpls actDecls ms 0 l) {i j : Nat} {x y : Nat × FeatFor} (hij : i < j) (hi : l[i]? = some x) (hj : l[j]? = some y) :
    y.2.payload = 30 := by
  have hcase : ∀ z ∈ l, (ms[z.1]? = some 1 ∧ z.2 = ⟨0, 10, 0, 0⟩) ∨ (ms[z.1]? = some 3 ∧ z.2 = ⟨0, 30, 0, 1⟩) := by
    intro z hz
    obtain ⟨m, h1, h2, h3⟩ := allImpls_idx_lt (hR.complete.mem_iff.1 hz)
    have h2 : z.2 ∈ actFeats m := h2
    unfold actFeats at h2
    split at h2
    · rename_i hm
      rw [hm] at h1
      simp only [List.mem_cons, List.not_mem_nil, or_false] at h2
      rcases h2 with h2 | h2
      · exact .inl ⟨h1, h2⟩
      · rw [h2] at h3; simp at h3
    · split at h2
      · simp only [List.mem_cons, List.not_mem_nil, or_false] at h2; rw [h2] at h3; simp at h3
      · split at h2
        · rename_i hm
          rw [hm] at h1
          simp only [List.mem_cons, List.not_mem_nil, or_false] at h2
          rcases h2 with h2 | h2
          · exact .inr ⟨h1, h2⟩
          · rw [h2] at h3; simp at h3
        · simp at h2
  rcases hcase y (List.mem_of_getElem? hj) with ⟨h1, h2⟩ | ⟨h1, h2⟩
  · exfalso
    have hw : WinsOrSame x y := by
      obtain ⟨hi', rfl⟩ := List.getElem?_eq_some_iff.1 hi
      obtain ⟨hj', rfl⟩ := List.getElem?_eq_some_iff.1 hj
      exact List.pairwise_iff_getElem.1 hR.ordered i j hi' hj' hij
    rcases hcase x (List.mem_of_getElem? hi) with ⟨h3, h4⟩ | ⟨h3, h4⟩
    · have hx : x.1 = y.1 := (List.getElem?_inj (List.getElem?_eq_some_iff.1 h3).1 hn).1 (by rw [h3, h1])
      have hnd := Spec.RanksImpls.idx_nodup hR (live_once ms)
      have := (List.getElem?_inj (i := i) (j := j) (by rw [List.length_map]; exact (List.getElem?_eq_some_iff.1 hi).1) hnd).1 (by rw [List.getElem?_map, List.getElem?_map, hi, hj]; simp [hx])
      omega
    · unfold WinsOrSame at hw
      rw [h2, h4] at hw
      simp at hw
  · rw [h2]

theorem live_follows : KeepsRulesL actDecls objOrc 0 livePledge liveBodies where
  mixins m p pre a c post h := (live_rule m p).at pre a c post h
  defaults p a ha S o hw hal := by
    have ha : a ∈ liveDflt p := ha
    unfold liveDflt at ha
    split at ha
    · simp only [List.mem_cons, List.not_mem_nil, or_false] at ha
      have hnx : ∀ (op : Nat → SOp), isNextL (liveOp op S o) = false := by
        intro op; unfold liveOp cautious; split <;> rfl
      rcases ha with rfl | rfl | rfl | rfl | rfl
      · exact ⟨cautious_may (c := fun _ _ => true) (fun o => .gradual false o [.add 1, .add 3]) (fun _ => rfl) (fun _ => trivial) (fun _ _ h => h) S o, hnx (fun o => .gradual false o [.add 1, .add 3])⟩
      · exact ⟨trivial, rfl⟩
      · exact ⟨⟨hal, rfl, fun _ => rfl⟩, rfl⟩
      · exact ⟨quiet_may (gc_quiet S o), hnx (fun _ => .gc)⟩
      · exact ⟨trivial, rfl⟩
    · simp at ha
  quiet f hf := by
    have hf : f = 3 := hf
    subst hf
    refine ⟨fun m ff hff h3 a ha S o hs => ?_, fun p hp => by simp [actDecls] at hp⟩
    refine live_quiet m ff.payload ?_ a ha S o (seen_alive hs)
    have h2 : ff ∈ actFeats m := hff
    unfold actFeats at h2
    split at h2
    · simp only [List.mem_cons, List.not_mem_nil, or_false] at h2; rcases h2 with h2 | h2 <;> rw [h2] at h3 ⊢ <;> simp_all
    · split at h2
      · simp only [List.mem_cons, List.not_mem_nil, or_false] at h2; rw [h2]; simp
      · split at h2
        · simp only [List.mem_cons, List.not_mem_nil, or_false] at h2; rcases h2 with h2 | h2 <;> rw [h2] at h3 <;> simp at h3
        · simp at h2
  multicasts f hf ms l i j x y m hn hR hij hi hj hb hm a ha S o hs := by
    have hf : f = 0 := hf
    subst hf
    exact live_quiet m y.2.payload (.inr (.inr (live_later hn hR hij hi hj))) a ha S o (seen_alive hs)

/-! A program that calls the messages. -/

def liveProg : List LOp := [.sys (.dom (.regMixin 0 1)), .sys (.dom (.regMixin 0 2)), .sys (.dom (.regMixin 0 3)), .sys (.dom (.getTypeMut 0 0 [1, 3])),
  .sys (.obj false (.newOfType 1 0 false)), .call 0 0 true, .call 0 1 false, .call 0 2 false]

def liveStart : Sys := ⟨initWorld fun _ => {}, {}⟩

/-- Checks `KeepsFeatures`. -/
def keepsF : SOp → Bool
  | .dom (.regMixin d _) => d == 0
  | .dom (.regFeature d _) => d == 0
  | .dom (.unregFeature _ _) => false
  | _ => true

theorem keepsF_sound {op : SOp} (h : keepsF op = true) : KeepsFeatures actDecls livePledge op := by
  cases op with
  | dom op =>
    cases op with
    | regMixin d m => intro ff _; simp only [keepsF, beq_iff_eq] at h; exact ⟨h.symm, trivial⟩
    | regFeature d f => simp only [keepsF, beq_iff_eq] at h; exact h.symm
    | unregFeature d f => simp [keepsF] at h
    | _ => trivial
  | _ => trivial

/-- Checks `Permitted`. -/
def permits (S : Sys) : LOp → Bool
  | .sys op => wise actDecls objOrc 0 S op && keepsF op
  | .call o f multi => (S.h.obj? o).isSome && (!multi || f == 0)

theorem permits_sound {S : Sys} {op : LOp} (h : permits S op = true) : Permitted actDecls objOrc 0 livePledge S op := by
  cases op with
  | sys op =>
    simp only [permits, wise, Bool.and_eq_true] at h
    obtain ⟨⟨h1, h2⟩, h3⟩ := h
    refine ⟨of_decide_eq_true h1, keepsF_sound h3, fun o ho => absurd ho (fun h => h), ?_⟩
    rintro S' (h4 | ⟨e, h4⟩) <;> rw [h4] at h2 <;> exact of_decide_eq_true h2
  | call o f multi =>
    simp only [permits, Bool.and_eq_true, Bool.or_eq_true, Bool.not_eq_true', beq_iff_eq] at h
    refine ⟨?_, rfl, fun hm => ?_⟩
    · intro hn; rw [hn] at h; simp at h
    · rcases h.2 with h | h
      · rw [hm] at h; simp at h
      · exact h

/-- Checks `PermittedRun`. -/
def permitsRun (B : Bodies) (n : Nat) : List LOp → Sys → Bool
  | [], _ => true
  | op :: ops, S => permits S op && match lstep actDecls objOrc 0 B n S op with
    | .done S' => permitsRun B n ops S'
    | .thrown S' _ => permitsRun B n ops S'
    | _ => true

theorem permitsRun_sound (B : Bodies) (n : Nat) : ∀ {ops : List LOp} {S : Sys}, permitsRun B n ops S = true → PermittedRun actDecls objOrc 0 livePledge B n ops S
  | [], _, _ => trivial
  | op :: ops, S, h => by
    rw [permitsRun, Bool.and_eq_true] at h
    refine ⟨permits_sound h.1, ?_⟩
    rintro S' (h4 | ⟨e, h4⟩)
    · have h2 := h.2; rw [h4] at h2; exact permitsRun_sound B n h2
    · have h2 := h.2; rw [h4] at h2; exact permitsRun_sound B n h2

/-- What there is at the end: types of the objects, and types of the domain with their mixins. -/
def LOut.shows : LOut → Option (List (Option TypeId) × List (TypeId × List Mix))
  | .done S => some (S.h.objs.map (fun ob => ob.bind (·.ty)), (S.W.doms 0).types.map (fun r => (r.tid, r.mixins)))
  | _ => none

def LOut.isUb : LOut → Bool
  | .ub => true
  | _ => false

theorem LOut.isUb_sound {r : LOut} (h : LOut.isUb r = true) : r = .ub := by
  cases r with
  | ub => rfl
  | _ => simp [LOut.isUb] at h

theorem live_permitted : PermittedRun actDecls objOrc 0 livePledge liveBodies 40 liveProg liveStart := permitsRun_sound _ _ (by decide +kernel)

theorem live_any (n : Nat) (prog : List LOp) (S : Sys) (hw : WellS actDecls 0 livePledge S) (hp : PermittedRun actDecls objOrc 0 livePledge liveBodies n prog S) :
    ∃ r, lrun actDecls objOrc 0 liveBodies n prog S = r ∧ SafeL (WellS actDecls 0 livePledge) r := ⟨_, rfl, C90_safe actDecls objOrc 0 livePledge liveBodies live_follows n prog S hw hp⟩

/-- The theorem applies to the program. -/
theorem live_safe : ∃ r, lrun actDecls objOrc 0 liveBodies 40 liveProg liveStart = r ∧ SafeL (WellS actDecls 0 livePledge) r :=
  live_any 40 liveProg liveStart (C90_start actDecls 0 livePledge (fun _ h => h) (fun _ => {})) live_permitted

/-- What it does: the multicast makes type 3 and leaves the object with mixin 3 alone; message 1 adds mixin 2 and removes 3; message 2 adds 1 and 3 and sends the multicast, which removes 1. Of eight
types that were made, one is left after garbage collection. -/
example : LOut.shows (lrun actDecls objOrc 0 liveBodies 40 (liveProg.take 6) liveStart) = some ([some 3, some 0, some 0], [(1, [1, 3]), (3, [3])]) ∧
    LOut.shows (lrun actDecls objOrc 0 liveBodies 40 (liveProg.take 7) liveStart) = some ([some 5, some 0, some 0], [(4, [3, 2]), (5, [2])]) ∧
    LOut.shows (lrun actDecls objOrc 0 liveBodies 40 liveProg liveStart) = some ([some 8, some 0, some 0, some 0, some 0], [(8, [2, 3])]) := by decide +kernel

/-! ## What the rules are needed for -/

/-- As in the example, but the implementation of the multicast that is called first mutates its object, and, if `gc`, collects garbage. -/
def rashBodies (gc : Bool) : Bodies :=
  ⟨fun m p => if m = 3 ∧ p = 30 then (cautious actDecls objOrc 0 keepsThree addTwo, true) :: (if gc then [(liveOp (fun _ => .gc), false)] else []) else liveBody m p, liveDflt⟩

/-- Four of the five rules hold. -/
theorem rash_keeps (gc : Bool) : (∀ m p pre a c post, (rashBodies gc).body m p = pre ++ (a, c) :: post → ∀ S o, Seen actDecls 0 livePledge S m o →
      MayDoL actDecls objOrc 0 livePledge S (a S o) ∧ (post ≠ [] → GoesOn actDecls objOrc 0 livePledge m S o (a S o))) ∧
    (∀ p, ∀ a ∈ (rashBodies gc).dflt p, ∀ S o, WellS actDecls 0 livePledge S → Alive S.h o → MayDoL actDecls objOrc 0 livePledge S (a.1 S o) ∧ isNextL (a.1 S o) = false) ∧
    (∀ f, livePledge.quiet f → (∀ m, ∀ ff ∈ (actDecls.mix m).feats, ff.feat = f → ∀ a ∈ (rashBodies gc).body m ff.payload, ∀ S o, Seen actDecls 0 livePledge S m o →
        QuietDeed actDecls objOrc 0 livePledge S (a.1 S o)) ∧
      ∀ p, (actDecls.feat f).defaultPayload = some p → ∀ a ∈ (rashBodies gc).dflt p, ∀ S o, WellS actDecls 0 livePledge S → Alive S.h o → QuietDeed actDecls objOrc 0 livePledge S (a.1 S o)) := by
  refine ⟨fun m p pre a c post h => ?_, live_follows.defaults, fun f hf => ⟨fun m ff hff h3 a ha => ?_, (live_follows.quiet f hf).2⟩⟩
  · have hb : TailRuleL m ((rashBodies gc).body m p) := by
      show TailRuleL m (if m = 3 ∧ p = 30 then _ else liveBody m p)
      by_cases h3 : m = 3 ∧ p = 30
      · rw [if_pos h3]
        obtain ⟨rfl, -⟩ := h3
        refine ⟨fun S o hs => ⟨cautious_may addTwo (fun _ => rfl) (fun _ => trivial) (fun _ _ h => h) S o, fun _ => ?_⟩, ?_⟩
        · unfold cautious
          by_cases h : wise actDecls objOrc 0 S (addTwo o) && keepsThree S o
          · rw [if_pos h]
            rw [Bool.and_eq_true] at h
            exact .inr ⟨_, rfl, .inr ⟨by decide +kernel, rfl, of_decide_eq_true h.2⟩⟩
          · rw [if_neg h]; exact .inl trivial
        · cases gc
          · trivial
          · exact ⟨fun S o hs => ⟨quiet_may (gc_quiet S o), fun _ => .inl (gc_quiet S o)⟩, trivial⟩
      · rw [if_neg h3]; exact live_rule m p
    exact hb.at pre a c post h
  · have ha : a ∈ (if m = 3 ∧ ff.payload = 30 then (cautious actDecls objOrc 0 keepsThree addTwo, true) :: (if gc then [(liveOp (fun _ => .gc), false)] else []) else liveBody m ff.payload) := ha
    rw [if_neg] at ha
    · exact (live_follows.quiet f hf).1 m ff hff h3 a ha
    · rintro ⟨rfl, hp⟩
      have hf : f = 3 := hf
      subst hf
      have h2 : ff ∈ actFeats 3 := hff
      unfold actFeats at h2
      simp at h2
      rcases h2 with rfl | rfl <;> simp at h3

/-- C90: in a multicast an implementation that is not called last must not let its object change its type, even though its own mixin stays where it is: if garbage is collected then, the next
payload is read from a type that was destroyed. All other rules are kept, the program is permitted, and without the garbage collection all is well. -/
theorem C90_multicast_needed :
    PermittedRun actDecls objOrc 0 livePledge (rashBodies true) 40 (liveProg.take 6) liveStart ∧ lrun actDecls objOrc 0 (rashBodies true) 40 (liveProg.take 6) liveStart = .ub ∧
    LOut.shows (lrun actDecls objOrc 0 (rashBodies false) 40 (liveProg.take 6) liveStart) = some ([some 3, some 0], [(1, [1, 3]), (2, [1, 3, 2]), (3, [3, 2])]) := by
  refine ⟨permitsRun_sound _ _ (by decide +kernel), ?_, by decide +kernel⟩
  exact LOut.isUb_sound (by decide +kernel)

/-- As in the example, but an implementation unregisters a mixin of its object; then it calls a message. -/
def rudeBodies (send : Bool) : Bodies :=
  ⟨fun m p => if m = 3 ∧ p = 31 then (fun _ _ => .sys (.dom (.unregMixin 0 1)), true) :: (if send then [(fun _ o => .send o 3 false, true)] else []) else liveBody m p, liveDflt⟩

/-- C90: messages may not unregister mixins of living objects: the next call of a message has undefined behaviour, in the implementation or, after it, in the program. -/
theorem C90_unregister_needed (send : Bool) :
    lrun actDecls objOrc 0 (rudeBodies send) 40 (liveProg.take 5 ++ [.call 0 1 false] ++ if send then [] else [.call 0 0 true]) liveStart = .ub := by
  cases send
  · exact LOut.isUb_sound (by decide +kernel)
  · exact LOut.isUb_sound (by decide +kernel)

end Dnmx.Props
