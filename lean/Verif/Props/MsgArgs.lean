import Verif.Proofs.MsgArgKeep
import Verif.Props.Dispatch

/-!
# C80: arguments of messages
-/

namespace Dnmx.Props
open Spec

variable {σ R : Type}

/-- C80, unicast: a call with arguments does what the winning implementation does with the values of the arguments that are given by value
and with the caller's variables that are given by reference. Variables which are given by rvalue for a parameter by value are moved from. -/
theorem C80_unicast (D : Decls) (I : ArgFns σ R) (sig : List Pass) (t : TypeRec) (f : Feat) (fid : Option Nat) (hb : BuiltFor D t f fid)
    (hne : allImpls D t.mixins f ≠ []) (hm : GoodMethods I sig) :
    ∃ w, Winner D t.mixins f w ∧ ∀ (as : List Arg) (st : Store) (s : σ), GoodArgs sig as st.next →
      EndsLike st.next (unicastArgs D I sig t f fid as st s)
        (callImpl (directly I sig as (as.map (fun a => st.val a.cell))) w (argsTaken sig as st.val, s)) := by
  cases he : t.ftableAt fid with
  | none => have := hb.facts; rw [he] at this; exact absurd this hne
  | some e =>
    obtain ⟨p, ps, hp, -, hw, -⟩ := hb.split he
    refine ⟨p.pair, hw, fun as st s hg => ?_⟩
    have h := unicastArgs_sim D I sig as st hg hm t f fid s
    simp only [callUnicast, he, hp] at h
    exact h

/-- C80, multicast: the calls of C30, where each implementation, also the last one, gets the same values for parameters by value, whatever the
others do with theirs; parameters by reference are the caller's variables for all of them. -/
theorem C80_multicast (D : Decls) (I : ArgFns σ R) (sig : List Pass) (t : TypeRec) (f : Feat) (fid : Option Nat) (hb : BuiltFor D t f fid)
    (hne : allImpls D t.mixins f ≠ []) (hm : GoodMethods I sig) (hs : Pass.rref ∉ sig) :
    ∃ xs w, (xs ++ [w]).Perm (topImpls D t.mixins f) ∧ (xs ++ [w]).Pairwise CalledBefore ∧ Winner D t.mixins f w ∧
      ∀ (as : List Arg) (st : Store) (s : σ), GoodArgs sig as st.next →
        ∃ r, multicastArgs D I sig t f fid as st s = some r ∧
          EndsLike st.next r (callInOrder (directly I sig as (as.map (fun a => st.val a.cell))) w xs (argsTaken sig as st.val, s)) := by
  have hs' : lvaluesFit sig = true := by
    unfold lvaluesFit; rw [List.all_eq_true]; intro k hk
    simp only [bne_iff_ne]; rintro rfl; exact hs hk
  cases he : t.ftableAt fid with
  | none => have := hb.facts; rw [he] at this; exact absurd this hne
  | some e =>
    obtain ⟨p, ps, hp, -, hw, -, h1, h2⟩ := hb.split he
    have hrev : ((ps.take e.topBack).reverse.map Payload.pair ++ [p.pair]) = (p.pair :: (ps.take e.topBack).map Payload.pair).reverse := by
      simp [List.map_reverse]
    refine ⟨(ps.take e.topBack).reverse.map Payload.pair, p.pair, ?_, ?_, hw, fun as st s hg => ?_⟩
    · rw [hrev]; exact (List.reverse_perm _).trans h1
    · rw [hrev, List.pairwise_reverse]; exact h2
    · obtain ⟨r, st', s', h, h1, h2, h3, -⟩ := multicastArgs_sim D I sig as st hg hm t f fid s hs'
      refine ⟨(r, st', s'), h, ?_⟩
      have hspec : ∀ (J : Impls ((Nat → Val) × σ) R) x, callMulticast D J t f fid x =
          callInOrder J p.pair ((ps.take e.topBack).reverse.map Payload.pair) x := by
        intro J x; simp only [callMulticast, he, hp]; exact multicastLoop_spec J p _ x
      rw [hspec] at h1 h2
      refine ⟨h1, h2, fun v hv => ?_⟩
      rw [← hspec]; exact h3 v hv

/-- C80, without implementations: the default implementation gets the arguments in the same way; without one there is an exception. -/
theorem C80_default (D : Decls) (I : ArgFns σ R) (sig : List Pass) (t : TypeRec) (f : Feat) (fid : Option Nat) (hb : BuiltFor D t f fid)
    (hne : allImpls D t.mixins f = []) (hm : GoodMethods I sig) (as : List Arg) (st : Store) (s : σ) (hg : GoodArgs sig as st.next) :
    EndsLike st.next (unicastArgs D I sig t f fid as st s)
      (match (D.feat f).defaultPayload with
        | some p => (directly I sig as (as.map (fun a => st.val a.cell))).dflt p (argsTaken sig as st.val, s)
        | none => (.error .notImplemented, (argsTaken sig as st.val, s))) ∧
    (Pass.rref ∉ sig → multicastArgs D I sig t f fid as st s = some (unicastArgs D I sig t f fid as st s)) := by
  have hnone : t.ftableAt fid = none := by
    cases he : t.ftableAt fid with
    | none => rfl
    | some e =>
      obtain ⟨p, ps, -, -, hw, -⟩ := hb.split he
      rw [Winner, hne] at hw; simp at hw
  constructor
  · have h := unicastArgs_sim D I sig as st hg hm t f fid s
    rw [C29_unicast_default D _ t f fid hb hne] at h
    exact h
  · intro hs
    have hs' : lvaluesFit sig = true := by
      unfold lvaluesFit; rw [List.all_eq_true]; intro k hk
      simp only [bne_iff_ne]; rintro rfl; exact hs hk
    simp only [multicastArgs, unicastArgs, hnone, hs', if_true]

/-- C80: a multicast message can not have rvalue references as parameters (it does not compile); all others can be called. -/
theorem C80_multicast_compiles (D : Decls) (I : ArgFns σ R) (sig : List Pass) (t : TypeRec) (f : Feat) (fid : Option Nat) (as : List Arg)
    (st : Store) (s : σ) : multicastArgs D I sig t f fid as st s = none ↔ Pass.rref ∈ sig := by
  unfold multicastArgs lvaluesFit
  constructor
  · intro h
    split at h
    · simp at h
    · rename_i hn
      simpa using hn
  · intro h
    rw [if_neg]
    simpa using h

/-- C80: all functions that are called get the values that the arguments for parameters by value have at the start of the call. -/
theorem C80_all_get_the_values (D : Decls) (I : ArgFns σ R) (sig : List Pass) (t : TypeRec) (f : Feat) (fid : Option Nat) (hm : GoodMethods I sig)
    (as : List Arg) (st : Store) (s : σ) (hg : GoodArgs sig as st.next) (i : Nat) (a : Arg) (hi : sig[i]? = some .value) (ha : as[i]? = some a) :
    (∀ x ∈ (unicastArgs D (logged I) sig t f fid as st (s, [])).2.2.2, x.2[i]? = some (st.val a.cell)) ∧
    (∀ r, multicastArgs D (logged I) sig t f fid as st (s, []) = some r → ∀ x ∈ r.2.2.2, x.2[i]? = some (st.val a.cell)) := by
  have hm' : GoodMethods (logged I) sig := hm
  have hvi : ∀ m, (seen sig as (as.map (fun a => st.val a.cell)) m)[i]? = some (st.val a.cell) := by
    intro m
    exact seen_at _ _ _ _ i hi (List.getElem?_eq_some_iff.1 ha).1 _ (by simp [ha])
  let P : (Nat → Val) × σ × List (Nat × List Val) → Prop := fun x => ∀ y ∈ x.2.2, y.2[i]? = some (st.val a.cell)
  have h1 : ∀ p d x, P x → P ((directly (logged I) sig as (as.map (fun a => st.val a.cell))).fn p d x).2 := by
    intro p d x hx y hy
    simp only [directly, logged, List.mem_append, List.mem_singleton] at hy
    rcases hy with hy | rfl
    · exact hx y hy
    · exact hvi _
  have h2 : ∀ p x, P x → P ((directly (logged I) sig as (as.map (fun a => st.val a.cell))).dflt p x).2 := by
    intro p x hx y hy
    simp only [directly, logged, List.mem_append, List.mem_singleton] at hy
    rcases hy with hy | rfl
    · exact hx y hy
    · exact hvi _
  have h0 : P (argsTaken sig as st.val, s, []) := by intro y hy; simp at hy
  constructor
  · obtain ⟨-, e, -⟩ := unicastArgs_sim D (logged I) sig as st hg hm' t f fid (s, [])
    rw [e]
    exact callUnicast_keeps h1 h2 t f fid _ h0
  · intro r hr
    have hs : lvaluesFit sig = true := by
      cases h : lvaluesFit sig with
      | true => rfl
      | false => simp [multicastArgs, h] at hr
    obtain ⟨r', st', s', h, -, e, -⟩ := multicastArgs_sim D (logged I) sig as st hg hm' t f fid (s, []) hs
    rw [h] at hr
    simp only [Option.some.injEq] at hr
    subst hr
    show ∀ x ∈ s'.2, _
    rw [e]
    exact callMulticast_keeps h1 h2 t f fid _ h0

/-- C80: the caller's variables. One that is given by non-const or rvalue reference may be changed. One that is given by rvalue for a parameter by value is
moved from. All others keep their values, whatever the implementations do. -/
theorem C80_variables (D : Decls) (I : ArgFns σ R) (sig : List Pass) (t : TypeRec) (f : Feat) (fid : Option Nat) (hm : GoodMethods I sig)
    (as : List Arg) (st : Store) (s : σ) (hg : GoodArgs sig as st.next) (y : Nat) (hy : y < st.next)
    (hr : ∀ (i : Nat) k a, sig[i]? = some k → as[i]? = some a → k = .ref ∨ k = .rref → a.cell ≠ y)
    (st' : Store) (hst : st' = (unicastArgs D I sig t f fid as st s).2.1 ∨ ∃ r, multicastArgs D I sig t f fid as st s = some r ∧ st' = r.2.1) :
    ((∃ (i : Nat), sig[i]? = some .value ∧ as[i]? = some ⟨y, true⟩) → st'.val y = none) ∧
    ((¬ ∃ (i : Nat), sig[i]? = some .value ∧ as[i]? = some ⟨y, true⟩) → st'.val y = st.val y) := by
  have key : st'.val y = argsTaken sig as st.val y := by
    let P : (Nat → Val) × σ → Prop := fun x => x.1 y = argsTaken sig as st.val y
    have h1 : ∀ p d x, P x → P ((directly I sig as (as.map (fun a => st.val a.cell))).fn p d x).2 := by
      intro p d x hx
      show left _ _ _ _ _ y = _
      rw [left_keep _ _ _ _ _ hr, takenBy_keep _ _ _ _ hr]
      exact hx
    have h2 : ∀ p x, P x → P ((directly I sig as (as.map (fun a => st.val a.cell))).dflt p x).2 := by
      intro p x hx
      show left _ _ _ _ _ y = _
      rw [left_keep _ _ _ _ _ hr]
      exact hx
    have h0 : P (argsTaken sig as st.val, s) := rfl
    rcases hst with rfl | ⟨r, hr', rfl⟩
    · obtain ⟨-, -, e⟩ := unicastArgs_sim D I sig as st hg hm t f fid s
      rw [e y hy]
      exact callUnicast_keeps h1 h2 t f fid _ h0
    · have hs : lvaluesFit sig = true := by
        cases h : lvaluesFit sig with
        | true => rfl
        | false => simp [multicastArgs, h] at hr'
      obtain ⟨r', st', s', h, -, -, e, -⟩ := multicastArgs_sim D I sig as st hg hm t f fid s hs
      rw [h] at hr'
      simp only [Option.some.injEq] at hr'
      subst hr'
      rw [e y hy]
      exact callMulticast_keeps h1 h2 t f fid _ h0
  rw [key]
  exact taken_at sig as st.val

/-- C80: the numbers of copies and moves of a unicast call. By-value parameters are moved once after they were initialized. -/
theorem C80_unicast_copies (D : Decls) (I : ArgFns σ R) (sig : List Pass) (t : TypeRec) (f : Feat) (fid : Option Nat) (hb : BuiltFor D t f fid)
    (hne : allImpls D t.mixins f ≠ []) (hm : GoodMethods I sig) :
    ∃ w, Winner D t.mixins f w ∧ ∀ (as : List Arg) (st : Store) (s : σ), GoodArgs sig as st.next →
      (unicastArgs D I sig t f fid as st s).2.1.copies = st.copies + made false sig as + payloadCopies I sig w.2.payload ∧
      (unicastArgs D I sig t f fid as st s).2.1.moves = st.moves + made true sig as + byValue sig + payloadMoves I sig w.2.payload := by
  cases he : t.ftableAt fid with
  | none => have := hb.facts; rw [he] at this; exact absurd this hne
  | some e =>
    obtain ⟨p, ps, hp, -, hw, -⟩ := hb.split he
    exact ⟨p.pair, hw, fun as st s hg => unicastArgs_counts D I sig as st hg hm t f fid s e p ps he hp⟩

/-- C80: the numbers of copies and moves of a multicast call without exceptions: by-value parameters are copied for all
implementations but one. -/
theorem C80_multicast_copies (D : Decls) (I : ArgFns σ R) (sig : List Pass) (t : TypeRec) (f : Feat) (fid : Option Nat) (hb : BuiltFor D t f fid)
    (hne : allImpls D t.mixins f ≠ []) (hm : GoodMethods I sig) (as : List Arg) (st : Store) (s : σ) (hg : GoodArgs sig as st.next)
    (x : R) (st' : Store) (s' : σ) (hr : multicastArgs D I sig t f fid as st s = some (.ok x, st', s')) :
    st'.copies = st.copies + made false sig as + ((topImpls D t.mixins f).length - 1) * byValue sig +
      ((topImpls D t.mixins f).map (fun w => payloadCopies I sig w.2.payload)).sum ∧
    st'.moves = st.moves + made true sig as + byValue sig + ((topImpls D t.mixins f).map (fun w => payloadMoves I sig w.2.payload)).sum := by
  have hs : lvaluesFit sig = true := by
    cases h : lvaluesFit sig with
    | true => rfl
    | false => simp [multicastArgs, h] at hr
  cases he : t.ftableAt fid with
  | none => have := hb.facts; rw [he] at this; exact absurd this hne
  | some e =>
    obtain ⟨p, ps, hp, -, hw, -, h1, -⟩ := hb.split he
    obtain ⟨r', st'', s'', h, -, -, -, hcnt⟩ := multicastArgs_sim D I sig as st hg hm t f fid s hs
    rw [h] at hr
    simp only [Option.some.injEq, Prod.mk.injEq] at hr
    obtain ⟨rfl, rfl, rfl⟩ := hr
    obtain ⟨c1, c2⟩ := hcnt e p ps he hp x rfl
    have hlen : (topImpls D t.mixins f).length - 1 = (ps.take e.topBack).length := by rw [← h1.length_eq]; simp
    have hsum : ∀ g : Nat → Nat, ((topImpls D t.mixins f).map (fun w => g w.2.payload)).sum =
        ((p :: ps.take e.topBack).map (fun p => g p.data.payload)).sum := by
      intro g
      rw [← (h1.map (fun w => g w.2.payload)).sum_nat]
      simp only [List.map_cons, List.map_map]
      rfl
    rw [hlen, hsum (payloadCopies I sig), hsum (payloadMoves I sig)]
    exact ⟨c1, c2⟩

/-! ## An instance: a message with parameters `T, T&, const T&` that two mixins implement; 301 is a method with parameters by value -/

def argFns : ArgFns (List (List Val)) Nat where
  dataAt _ i := i
  own p := if p = 301 then some [.value, .value, .cref] else none
  fn p _ vs s := (.ok p, vs.map (fun v => v.map (· + 1000)), s ++ [vs])
  dflt p vs s := (.ok p, vs, s ++ [vs])

def argStore : Store := ⟨fun x => if x < 4 then some (x + 5) else none, 4, 0, 0⟩

theorem argFns_good : GoodMethods argFns [.value, .ref, .cref] ∧ GoodArgs [.value, .ref, .cref] [⟨0, true⟩, ⟨1, false⟩, ⟨2, false⟩] argStore.next := by
  refine ⟨fun p own h => ?_, ⟨rfl, fun i k a h1 h2 => ?_, by decide, by decide⟩⟩
  · simp only [argFns] at h
    split at h
    · simp at h; subst h
      refine ⟨rfl, fun i o k h1 h2 => ?_⟩
      rcases i with _ | _ | _ | i <;> simp at h1 h2 <;> subst h1 <;> subst h2 <;> trivial
    · simp at h
  · rcases i with _ | _ | _ | i <;> simp at h1 h2 <;> subst h1 <;> subst h2 <;> trivial

/-- Both get 5 for the first parameter; 301 has a copy of the second one, 200 changes it; the first variable was moved from. -/
example : (multicastArgs (featDecls 4) argFns [.value, .ref, .cref] callType 7 (exFid 7) [⟨0, true⟩, ⟨1, false⟩, ⟨2, false⟩] argStore []).map
      (fun r => (r.1.toOption, [0, 1, 2, 3].map r.2.1.val, [r.2.1.copies, r.2.1.moves])) =
    some (some 200, [none, some 1006, some 7, some 8], [2, 3]) ∧
    (multicastArgs (featDecls 4) argFns [.value, .ref, .cref] callType 7 (exFid 7) [⟨0, true⟩, ⟨1, false⟩, ⟨2, false⟩] argStore []).map
      (fun r => r.2.2) = some [[some 5, some 6, some 7], [some 5, some 6, some 7]] := by decide +kernel

/-- A condition of C80: a variable that is given twice, by rvalue and by lvalue, for parameters by value is moved from before its value is taken
the second time (in this order of initialization). -/
theorem C80_once_needed :
    ∃ as, (as.map (fun a => argStore.val a.cell) = [some 5, some 5]) ∧
      (unicastArgs (featDecls 4) argFns [.value, .value] callType 7 (exFid 7) as argStore []).2.2 = [[some 5, none]] := by
  refine ⟨[⟨0, true⟩, ⟨0, false⟩], by decide +kernel, by decide +kernel⟩

end Dnmx.Props
