import Verif.Proofs.ObjMessageOps
import Verif.Props.Objects
import Verif.Props.Dispatch

/-!
# What exceptions of operations on objects and of messages say (C84)
-/

set_option linter.unusedSimpArgs false
set_option linter.unusedVariables false

namespace Dnmx.Props
open Spec

/-- Domain 7 for all types; functions fail with code 3 if the number of the call is even, with an exception if not. -/
def objTelling : Telling := ⟨fun _ => 7, fun n => if n % 2 = 0 then some 3 else none⟩

/-! ## Operations on objects -/

/-- C84: an operation throws exactly the exceptions that the texts are for. -/
theorem C84_thrown_iff_text (D : Decls) (E : TyEnv) (orc : Orc) (T : Telling) (hE : EnvOk D E) (u : Bool) (h : Heap) (op : OOp) (hp : PlainOps E op)
    (hd : ostep D E orc u h op ≠ .ub) (e : XErr) :
    (∃ h', ostep D E orc u h op = .throw h' e) ↔ ∃ x, oopThrows D E orc T u h op = some x ∧ x.err = e := by
  have := told_op (orc := orc) (T := T) hE u h op hp
  cases hr : ostep D E orc u h op with
  | ub => exact absurd hr hd
  | ok h' => rw [hr] at this; simp [ToldBy] at this; simp [this.1]
  | throw h' e' =>
    rw [hr] at this
    obtain ⟨x, h1, h2, -⟩ := this
    constructor
    · rintro ⟨h'', he⟩; simp at he; exact ⟨x, h1, by rw [h2, he.2]⟩
    · rintro ⟨x', h1', h2'⟩
      rw [h1] at h1'; simp at h1'; subst h1'
      exact ⟨h', by rw [← h2', h2]⟩

example : EnvOk objDecls objEnv ∧ PlainOps objEnv (.mutateTo 0 3 [(4, 9), (2, 5)]) ∧
    threw (ostep objDecls objEnv (failAt 14) false objHeap (.mutateTo 0 3 [(4, 9), (2, 5)])) = some (.user 14) ∧
    oopThrows objDecls objEnv (failAt 14) objTelling false objHeap (.mutateTo 0 3 [(4, 9), (2, 5)]) = some ⟨.user 14, none⟩ :=
  ⟨objEnv_ok, ⟨by decide, by intro x hx; exact ⟨3, by revert x; decide⟩⟩, by decide +kernel, by decide +kernel⟩

/-- C84: what an exception says is true: it names the operation, the domain and the composition of the type concerned, and if a mixin is to blame, this mixin and what it lacks, or
which of its functions failed with which code. See `OpSays` for when which exception is right. -/
theorem C84_says_the_truth (D : Decls) (E : TyEnv) (orc : Orc) (T : Telling) (hE : EnvOk D E) (u : Bool) (h : Heap) (op : OOp) (hp : PlainOps E op)
    (h' : Heap) (e : XErr) (hr : ostep D E orc u h op = .throw h' e) : ∃ x, oopThrows D E orc T u h op = some x ∧ x.err = e ∧ OpSays D E orc T h op x := by
  have := told_op (orc := orc) (T := T) hE u h op hp
  rw [hr] at this
  exact this

-- a mixin without default initialization, a function that returns 3, one that throws, a mixin that cannot be copied, a step out of order
example :
    oopThrows objDecls objEnv objOrc objTelling false objHeap (.reset 0 3) =
      some ⟨.missingFunc 4, some [.dom 7, .lit ": ", .lit "mutate to", .lit " object of type ", .comp [2, 4], .lit ": ", .mix 4, .lit " ", .lit "missing default init"]⟩ ∧
    oopThrows objDecls objEnv (failAt 14) objTelling false objHeap (.reset 0 3) =
      some ⟨.user 14, some [.dom 7, .lit ": ", .lit "mutate to", .lit " object of type ", .comp [2, 4], .lit ": ", .lit "deafult init", .lit " ", .mix 2,
        .lit " failed with error ", .code 3]⟩ ∧
    oopThrows objDecls objEnv (failAt 15) objTelling false objHeap (.copy 0 0) = some ⟨.user 15, none⟩ ∧
    oopThrows objDecls objEnv objOrc objTelling false (runOf (objOps ++ [.newOfType 5 0 false, .newOfType 5 0 false])) (.copyFrom 3 4) =
      some ⟨.missingFunc 6, some [.dom 7, .lit ": ", .lit "copy_from", .lit " object of type ", .comp [1, 6], .lit ": ", .mix 6, .lit " ", .lit "missing copy assign"]⟩ ∧
    oopThrows objDecls objEnv objOrc objTelling false objHeap (.mutation 0 2 [(.at 2 .dflt .noop, false), (.at 1 .dflt .noop, false)]) =
      some ⟨.outOfOrder, some [.dom 7, .lit ": ", .lit "piecewise mutation out of order while mtating to", .lit " object of type ", .comp [2, 1, 3]]⟩ :=
  ⟨by decide +kernel, by decide +kernel, by decide +kernel, by decide +kernel, by decide +kernel⟩

/-- C84: and it is all of the truth: in every state that programs can reach, an operation throws exactly if there is a reason to, and then that exception is the only one that is
right. Mutations with steps by hand are left out, see `C84_by_hand`. -/
theorem C84_throws_exactly (D : Decls) (E : TyEnv) (orc : Orc) (T : Telling) (hE : EnvOk D E) (h : Heap) (hk : HeapOk D E h) (ht : AllTyped h) (op : OOp) (hp : Proper E h op)
    (hq : PlainOps E op) (hb : byHand op = false) (x : ObjThrown) :
    OpSays D E orc T h op x ↔ oopThrows D E orc T false h op = some x ∧ ∃ h', ostep D E orc false h op = .throw h' x.err := by
  have htold := told_op (orc := orc) (T := T) hE false h op hq
  have hgood := good_step (orc := orc) hE ⟨hk, ht⟩ hp (u := false) rfl
  cases hr : ostep D E orc false h op with
  | ub => rw [hr] at hgood; exact hgood.elim
  | ok h' =>
    rw [hr] at htold
    obtain ⟨h1, h2⟩ := htold
    rw [h1]
    simp only [reduceCtorEq, false_and, iff_false]
    exact h2 rfl hb x
  | throw h' e =>
    rw [hr] at htold
    obtain ⟨y, h1, h2, h3⟩ := htold
    rw [h1]
    constructor
    · intro hx
      have := opSays_unique hq hb hx h3
      subst this
      exact ⟨rfl, h', by rw [h2]⟩
    · rintro ⟨hx, -⟩
      simp at hx; subst hx; exact h3

-- the second external mixin, an object that is sealed, allocators that differ
example : HeapOk objDecls objEnv objHeap ∧ AllTyped objHeap ∧ Proper objEnv objHeap (.reset 0 3) ∧ byHand (.reset 0 3) = false ∧
    OpSays objDecls objEnv objOrc objTelling objHeap (.reset 0 3)
      ⟨.missingFunc 4, some [.dom 7, .lit ": ", .lit "mutate to", .lit " object of type ", .comp [2, 4], .lit ": ", .mix 4, .lit " ", .lit "missing default init"]⟩ ∧
    (oopThrows objDecls objEnv objOrc objTelling false (runOf (objOps ++ [.seal 0])) (.clear 0)).map (·.text) =
      some (some [.dom 7, .lit ": ", .lit "clear", .lit " sealed object of type ", .comp [1, 3]]) ∧
    (oopThrows objDecls objEnv objOrc objTelling false (runOf (objOps ++ [.newOfType 1 1 false])) (.moveAssign 0 3)).map (·.text) =
      some (some [.dom 7, .lit ": ", .lit "move assign with mismatched allocators", .lit " object of type ", .comp [1, 3]]) := by
  refine ⟨objHeap_good.1, objHeap_good.2, by decide +kernel, rfl, ?_, by decide +kernel, by decide +kernel⟩
  refine (C84_throws_exactly objDecls objEnv objOrc objTelling objEnv_ok objHeap objHeap_good.1 objHeap_good.2 (.reset 0 3) (by decide +kernel) trivial rfl _).2
    ⟨by decide +kernel, after (ostep objDecls objEnv objOrc false objHeap (.reset 0 3)), ?_⟩
  have h1 : threw (ostep objDecls objEnv objOrc false objHeap (.reset 0 3)) = some (.missingFunc 4) := by decide +kernel
  cases hr : ostep objDecls objEnv objOrc false objHeap (.reset 0 3) with
  | ok _ => rw [hr] at h1; simp [threw] at h1
  | ub => rw [hr] at h1; simp [threw] at h1
  | throw h' e => rw [hr] at h1; simp [threw] at h1; rw [h1]; rfl

/-- C84: exceptions of mutations with steps by hand: the object is sealed, an allocation failed, a mixin of the new type could not be treated by one of the functions given (or the
defaults), a step was out of order, or they come from the program itself. -/
theorem C84_by_hand (D : Decls) (E : TyEnv) (orc : Orc) (T : Telling) (hE : EnvOk D E) (u : Bool) (h : Heap) (o : Nat) (ob : Obj) (ho : h.obj? o = some ob) (t : TypeId)
    (steps : List (MStep × Bool)) (h' : Heap) (e : XErr) (hr : withMutation D E orc u h o t steps = .throw h' e) :
    ∃ x, mutationThrows D E orc T u h o t steps = some x ∧ x.err = e ∧ StepsSay D E orc T h ob t steps x := by
  have := told_steps (orc := orc) (T := T) hE u ho t steps
  rw [hr] at this
  exact this

example : (objHeap.obj? 0).isSome = true ∧
    threw (withMutation objDecls objEnv objOrc false objHeap 0 3 [(.next (.custom 1) .noop, false)]) = some (.missingFunc 4) ∧
    (mutationThrows objDecls objEnv objOrc objTelling false objHeap 0 3 [(.next (.custom 1) .noop, false)]).map (·.err) = some (.missingFunc 4) := by decide +kernel

/-- C84: all exceptions of the library itself have a text, apart from `std::bad_alloc`; exceptions of user functions pass through as they are, unless a function of a mixin
returned a code. -/
theorem C84_library_exceptions_have_text (D : Decls) (E : TyEnv) (orc : Orc) (T : Telling) (h : Heap) (ht : AllTyped h) (op : OOp) (x : ObjThrown) (hx : OpSays D E orc T h op x) :
    match x.err with
    | .isSealed => x.text.isSome
    | .missingFunc _ => x.text.isSome
    | .outOfOrder => x.text.isSome
    | .allocMismatch => x.text.isSome
    | .badAlloc => x.text = none
    | .outside => x.text = none
    | .user n => T.code n = none → x.text = none := by
  have hseal : ∀ (o : Nat) (ob : Obj) (s : String) (y : ObjThrown), h.obj? o = some ob → SealedSays E T ob s y → y.err = .isSealed ∧ y.text.isSome := by
    rintro o ob s y ho ⟨-, rfl⟩
    have := ht o ob ho
    cases hty : ob.ty with
    | none => exact absurd hty this
    | some t => simp
  have hfn : ∀ (t : TypeId) (m : Mix) (n : Nat) (a : Bool) (f : NewFn) (g : UpdFn) (y : ObjThrown), FnSays D E orc T t m n a f g y →
      match y.err with
      | .isSealed => y.text.isSome
      | .missingFunc _ => y.text.isSome
      | .outOfOrder => y.text.isSome
      | .allocMismatch => y.text.isSome
      | .badAlloc => y.text = none
      | .outside => y.text = none
      | .user n => T.code n = none → y.text = none := by
    intro t m n a f g y hy
    cases hy <;> simp [lacking, failedWith]
  have hmut : ∀ (ob : Obj) (t : TypeId) (fs : Mix → NewFn → Prop) (g : UpdFn) (y : ObjThrown), (ob.isSealed = true → ∃ o, h.obj? o = some ob) →
      MutSays D E orc T h ob t fs g y →
      match y.err with
      | .isSealed => y.text.isSome
      | .missingFunc _ => y.text.isSome
      | .outOfOrder => y.text.isSome
      | .allocMismatch => y.text.isSome
      | .badAlloc => y.text = none
      | .outside => y.text = none
      | .user n => T.code n = none → y.text = none := by
    intro ob t fs g y ho hy
    cases hy with
    | «sealed» hs =>
      obtain ⟨o, ho⟩ := ho hs.1
      obtain ⟨h1, h2⟩ := hseal o ob _ y ho hs
      rw [h1]; exact h2
    | alloc _ ha => obtain ⟨rfl, -⟩ := ha; rfl
    | mixin _ _ hf => obtain ⟨i, m, -, ⟨f, -, hx⟩, -⟩ := hf; exact hfn _ _ _ _ _ _ _ hx
  cases hx with
  | newOfType t al sd _ _ hm => exact hmut _ _ _ _ _ (by simp) hm
  | reset o t ob _ ho _ _ _ hm => exact hmut _ _ _ _ _ (fun _ => ⟨o, ho⟩) hm
  | resetSealed o t ob _ ho hs => obtain ⟨h1, h2⟩ := hseal o ob _ x ho hs; rw [h1]; exact h2
  | moveSealed o src ob sb _ _ ho _ _ hs => obtain ⟨h1, h2⟩ := hseal o ob _ x ho hs; rw [h1]; exact h2
  | moveAllocators o src ob sb _ ho _ _ =>
    have := ht o ob ho
    cases hty : ob.ty with
    | none => exact absurd hty this
    | some t => simp
  | copy src al sb t _ _ _ _ hm => exact hmut _ _ _ _ _ (by simp) hm
  | copyFromSealed o src ob sb _ ho _ _ hs => obtain ⟨h1, h2⟩ := hseal o ob _ x ho hs; rw [h1]; exact h2
  | copyFromLacks => rfl
  | copyFrom o src ob sb own t _ ho _ _ _ _ _ hm => exact hmut _ _ _ _ _ (fun _ => ⟨o, ho⟩) hm
  | copyMatchingLacks => rfl
  | copyMatching => simp [failedWith]
  | moveMatchingLacks => rfl
  | clear o ob _ ho hs => obtain ⟨h1, h2⟩ := hseal o ob _ x ho hs; rw [h1]; exact h2
  | mutation o t steps ob _ ho hs =>
    cases hs with
    | «sealed» hs => obtain ⟨h1, h2⟩ := hseal o ob _ x ho hs; rw [h1]; exact h2
    | alloc ha => obtain ⟨rfl, -⟩ := ha; rfl
    | mixin m n a f g _ _ hx => exact hfn _ _ _ _ _ _ _ hx
    | outOfOrder i f g _ hx => subst hx; rfl
    | outside _ hx => subst hx; rfl
  | mutateTo o t ops ob _ ho _ hm => exact hmut _ _ _ _ _ (fun _ => ⟨o, ho⟩) hm

example : AllTyped objHeap ∧ (oopThrows objDecls objEnv (failAt 13) objTelling false objHeap (.reset 0 3)) = some ⟨.badAlloc, none⟩ :=
  ⟨objHeap_good.2, by decide +kernel⟩

/-! ## Messages -/

/-- C84: calling a message is reported as not implemented exactly if no mixin of the type implements it and it has no default implementation; the text has the domain, the composition and
the message. -/
theorem C84_not_implemented (D : Decls) (t : TypeRec) (f : Feat) (fid : Option Nat) (hb : BuiltFor D t f fid) (tx : List Piece) :
    notImplementedThrows D t f fid = some tx ↔
      (∀ m ∈ t.mixins, ∀ ff ∈ (D.mix m).feats, ff.feat ≠ f) ∧ (D.feat f).defaultPayload = none ∧
      tx = [.dom t.dom, .lit ": ", .comp t.mixins, .lit " ", .lit "does not implement", .lit " ", .lit "dynamix msg", .lit " ", .feat f] := by
  have hfacts := hb.facts
  have hnil : allImpls D t.mixins f = [] ↔ ∀ m ∈ t.mixins, ∀ ff ∈ (D.mix m).feats, ff.feat ≠ f := by
    constructor
    · intro h m hm ff hff he
      obtain ⟨i, hi⟩ := List.mem_iff_getElem?.1 hm
      have : (i, ff) ∈ allImpls D t.mixins f := mem_allImpls_of hi hff he
      rw [h] at this; simp at this
    · intro h
      cases ha : allImpls D t.mixins f with
      | nil => rfl
      | cons x xs =>
        have hx : x ∈ allImpls D t.mixins f := by rw [ha]; simp
        obtain ⟨m, a1, a2, a3⟩ := allImpls_idx_lt hx
        exact absurd a3 (h m (List.mem_of_getElem? a1) _ a2)
  rw [← hnil]
  unfold notImplementedThrows
  cases he : t.ftableAt fid with
  | none =>
    rw [he] at hfacts
    cases hd : (D.feat f).defaultPayload with
    | none => simp [hfacts, eq_comm (a := tx)]
    | some p => simp
  | some e =>
    rw [he] at hfacts
    have hne : allImpls D t.mixins f ≠ [] := by
      intro h
      have := hfacts.2.1.complete
      rw [h] at this
      exact hfacts.1 (by simpa using this.eq_nil)
    simp [hne]

/-- C84: this exception is what the calls throw, without having called anything. -/
theorem C84_not_implemented_calls {σ R : Type} (D : Decls) (I : Impls σ R) (t : TypeRec) (f : Feat) (fid : Option Nat) (s : σ) (h : notImplementedThrows D t f fid ≠ none) :
    callUnicast D I t f fid s = (.error .notImplemented, s) ∧ callMulticast D I t f fid s = (.error .notImplemented, s) := by
  unfold notImplementedThrows at h
  cases he : t.ftableAt fid with
  | some e => rw [he] at h; simp at h
  | none =>
    cases hd : (D.feat f).defaultPayload with
    | some p => rw [he, hd] at h; simp at h
    | none => simp [callUnicast, callMulticast, he, tryDefault, hd]

example : BuiltFor (featDecls 4) callType 7 (exFid 7) ∧ notImplementedThrows (featDecls 4) callType 7 (exFid 7) = none ∧
    notImplementedThrows (featDecls 4) callType 9 (exFid 9) =
      some [.dom 0, .lit ": ", .comp [2, 1, 3], .lit " ", .lit "does not implement", .lit " ", .lit "dynamix msg", .lit " ", .feat 9] :=
  ⟨callType_built.1, by decide +kernel, by decide +kernel⟩

/-- C84: for a mixin that implements the message, that there is no next implementation is reported exactly if none ranks behind. `L` is the ranking. -/
theorem C84_no_next (D : Decls) (t : TypeRec) (f : Feat) (fid : Option Nat) (hb : BuiltFor D t f fid) (mid : Mix → Option Nat) (hix : IndexedBy t mid)
    (hone : ListsOnce D t.mixins f) :
    ∃ L, RanksImpls D t.mixins f L ∧ ∀ (k : Nat) (x : Nat × FeatFor) (m : Mix), L[k]? = some x → t.mixins[x.1]? = some m → ∀ tx,
      (nextImplThrows t f m fid (mid m) = some tx ↔ L.length = k + 1 ∧
        tx = [.dom t.dom, .lit ": ", .comp t.mixins, .lit " ", .lit "no next implementer of", .lit " ", .lit "dynamix msg", .lit " ", .feat f, .lit " with ", .mix m]) := by
  obtain ⟨L, hL, hnext, -⟩ := C31_next_implementer D t f fid hb mid hix hone
  refine ⟨L, hL, fun k x m hk hm tx => ?_⟩
  have := hnext k x m hk hm
  have hlt := (List.getElem?_eq_some_iff.1 hk).1
  unfold nextImplThrows noNextText
  cases hn : t.findNextImplementer fid (mid m) with
  | none =>
    rw [hn] at this
    have : L.length ≤ k + 1 := by simpa using this.symm
    simp only [Option.some.injEq]
    exact ⟨fun h => ⟨by omega, h.symm⟩, fun h => h.2.symm⟩
  | some p =>
    rw [hn] at this
    have : k + 1 < L.length := (List.getElem?_eq_some_iff.1 this.symm).1
    simp only [reduceCtorEq, false_iff]
    omega

/-- C84: that there are no next bidders is reported exactly if no implementation has a smaller bid. -/
theorem C84_no_next_bidder (D : Decls) (t : TypeRec) (f : Feat) (fid : Option Nat) (hb : BuiltFor D t f fid) (mid : Mix → Option Nat) (hix : IndexedBy t mid)
    (hone : ListsOnce D t.mixins f) (x : Nat × FeatFor) (hx : x ∈ allImpls D t.mixins f) (m : Mix) (hm : t.mixins[x.1]? = some m) (set : Bool) (tx : List Piece) :
    nextBidderThrows t set f m fid (mid m) = some tx ↔ (∀ y ∈ allImpls D t.mixins f, x.2.bid ≤ y.2.bid) ∧
      tx = [.dom t.dom, .lit ": ", .comp t.mixins, .lit " ", .lit (if set then "no next bidder set of" else "no next bidder of"), .lit " ", .lit "dynamix msg", .lit " ", .feat f,
        .lit " with ", .mix m] := by
  have hperm := (C31_next_bidder_set D t f fid hb mid hix hone x hx m hm).1
  have hnil : nextTopImpls D t.mixins f x.2.bid = [] ↔ ∀ y ∈ allImpls D t.mixins f, x.2.bid ≤ y.2.bid := by
    constructor
    · intro h y hy
      have key : ∀ (l : List (Nat × FeatFor)), (∃ z ∈ l, z.2.bid < x.2.bid) → ∃ z ∈ l, z.2.bid < x.2.bid ∧ ∀ w ∈ l, w.2.bid < x.2.bid → w.2.bid ≤ z.2.bid := by
        intro l
        induction l with
        | nil => rintro ⟨z, hz, -⟩; simp at hz
        | cons a l ih =>
          intro hex
          by_cases hl : ∃ z ∈ l, z.2.bid < x.2.bid
          · obtain ⟨z, hz, h1, h2⟩ := ih hl
            by_cases ha : a.2.bid < x.2.bid ∧ z.2.bid < a.2.bid
            · refine ⟨a, by simp, ha.1, fun w hw hwb => ?_⟩
              rcases List.mem_cons.1 hw with rfl | hw
              · omega
              · have := h2 w hw hwb; omega
            · refine ⟨z, List.mem_cons_of_mem _ hz, h1, fun w hw hwb => ?_⟩
              rcases List.mem_cons.1 hw with rfl | hw
              · omega
              · exact h2 w hw hwb
          · obtain ⟨z, hz, h1⟩ := hex
            rcases List.mem_cons.1 hz with rfl | hz
            · refine ⟨z, by simp, h1, fun w hw hwb => ?_⟩
              rcases List.mem_cons.1 hw with rfl | hw
              · omega
              · exact absurd ⟨w, hw, hwb⟩ hl
            · exact absurd ⟨z, hz, h1⟩ hl
      by_cases hlt : x.2.bid ≤ y.2.bid
      · exact hlt
      · obtain ⟨z, hz, h1, h2⟩ := key _ ⟨y, hy, by omega⟩
        have : z ∈ nextTopImpls D t.mixins f x.2.bid := by
          unfold nextTopImpls
          rw [List.mem_filter]
          refine ⟨hz, ?_⟩
          simp only [Bool.and_eq_true, decide_eq_true_eq, List.all_eq_true]
          exact ⟨h1, fun w hw hwb => h2 w hw hwb⟩
        rw [h] at this; simp at this
    · intro h
      unfold nextTopImpls
      rw [List.filter_eq_nil_iff]
      intro y hy
      have := h y hy
      simp only [Bool.and_eq_true, decide_eq_true_eq, not_and]
      intro h'; omega
  unfold nextBidderThrows noNextText
  cases hs : t.findNextBidderSet fid (mid m) with
  | nil =>
    rw [hs] at hperm
    have := hperm.symm.eq_nil
    rw [hnil] at this
    simp only [Option.some.injEq]
    exact ⟨fun h => ⟨this, h.symm⟩, fun h => h.2.symm⟩
  | cons p ps =>
    rw [hs] at hperm
    have : ¬ nextTopImpls D t.mixins f x.2.bid = [] := by
      intro h; rw [h] at hperm; simpa using hperm.eq_nil
    rw [hnil] at this
    simp only [reduceCtorEq, false_iff]
    exact fun h => this h.1

/-- C84: and these are the exceptions that the calls throw, without having called anything. -/
theorem C84_no_next_calls {σ R : Type} (I : Impls σ R) (t : TypeRec) (f : Feat) (m : Mix) (fid mid : Option Nat) (s : σ) :
    (nextImplThrows t f m fid mid ≠ none → callNextImpl I t fid mid s = (.error .noNext, s)) ∧
    (nextBidderThrows t true f m fid mid ≠ none → callNextBidderSet I t fid mid s = (.error .noNext, s)) ∧
    (nextBidderThrows t false f m fid mid ≠ none → callNextBidderTop I t fid mid s = (.error .noNext, s)) := by
  refine ⟨fun h => ?_, fun h => ?_, fun h => ?_⟩
  · unfold nextImplThrows at h; unfold callNextImpl
    cases hn : t.findNextImplementer fid mid with
    | none => rfl
    | some p => rw [hn] at h; simp at h
  · unfold nextBidderThrows at h; unfold callNextBidderSet
    cases hn : t.findNextBidderSet fid mid with
    | nil => rfl
    | cons p ps => rw [hn] at h; simp at h
  · unfold nextBidderThrows at h; unfold callNextBidderTop
    cases hn : t.findNextBidderSet fid mid with
    | nil => rfl
    | cons p ps => rw [hn] at h; simp at h

-- mixin 1 is the last, mixin 3 is in the last but one
example : nextImplThrows callType 7 3 (exFid 7) (some 3) = none ∧ nextBidderThrows callType true 7 2 (exFid 7) (some 2) = none ∧
    nextImplThrows callType 7 1 (exFid 7) (some 1) = some [.dom 0, .lit ": ", .comp [2, 1, 3], .lit " ", .lit "no next implementer of", .lit " ", .lit "dynamix msg", .lit " ", .feat 7,
      .lit " with ", .mix 1] ∧
    nextBidderThrows callType false 7 1 (exFid 7) (some 1) = some [.dom 0, .lit ": ", .comp [2, 1, 3], .lit " ", .lit "no next bidder of", .lit " ", .lit "dynamix msg", .lit " ", .feat 7,
      .lit " with ", .mix 1] := by decide +kernel

end Dnmx.Props
