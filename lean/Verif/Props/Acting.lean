import Verif.Proofs.ActingLemmas
import Verif.Props.Dispatch
import Verif.Props.Objects

/-!
# Mutating an object within a message (C71)

What doc/advanced/danger.md says about implementations of messages that mutate the object they are called for.
-/

set_option linter.unusedVariables false

namespace Dnmx.Props
open Spec

/-! ## The tables of types -/

/-- A table that was built for a composition. -/
theorem built_entry {D : Decls} {r : TypeRec} {f : Feat} {fid : Option Nat} (hb : BuiltFor D r f fid) {e : FEntry} (he : r.ftableAt fid = some e) :
    (∃ p ps, e.pls = p :: ps ∧ ∀ q ∈ ps.take e.topBack, q.data.bid = p.data.bid) ∧ ∀ p ∈ e.pls, ∃ m, r.mixins[p.mixinIndex]? = some m := by
  have h1 := hb.facts
  rw [he] at h1
  obtain ⟨h2, h3, h4, h5⟩ := h1
  have hin : ∀ p ∈ e.pls, p.pair ∈ allImpls D r.mixins f := fun p hp => h3.complete.mem_iff.1 (List.mem_map_of_mem hp)
  refine ⟨?_, fun p hp => ?_⟩
  · cases hp : e.pls with
    | nil => exact absurd hp h2
    | cons p ps =>
      refine ⟨p, ps, rfl, ?_⟩
      intro q hq
      obtain ⟨j, hj⟩ := List.mem_iff_getElem?.1 hq
      rw [List.getElem?_take] at hj
      split at hj
      · rename_i hlt
        have hjq : e.pls[j + 1]? = some q := by rw [hp]; exact hj
        have h0p : e.pls[0]? = some p := by rw [hp]; rfl
        have k1 := (h5 (j + 1) q hjq).1 (by omega) p.pair (hin p (List.mem_of_getElem? h0p))
        have k2 := (h5 0 p h0p).1 (by omega) q.pair (hin q (List.mem_of_getElem? hjq))
        simp only [Payload.pair] at k1 k2
        omega
      · simp at hj
  · obtain ⟨m, h6, -⟩ := allImpls_idx_lt (hin p hp)
    exact ⟨m, h6⟩

/-- C71: the theorems below are about environments with proper tables; those of the types of a domain are such, for messages that are registered there
(and programs that keep to `FeatureDiscipline`, see `C29`). -/
theorem C71_tables (D : Decls) (s : DomId → Settings) (ops : List Op) (hd : FeatureDiscipline D ops) (d : DomId) (M : MsgEnv)
    (hM : ∀ t f e, M.table t f = some e → f ∈ featuresOf (run D (initWorld s) ops) d ∧ tablesOf (run D (initWorld s) ops) d t f = some e) :
    EntriesOk (TyEnv.ofWorld (run D (initWorld s) ops) d) M := by
  intro t f e he
  obtain ⟨h1, h2⟩ := hM t f e he
  unfold tablesOf at h2
  cases ht : ((run D (initWorld s) ops).doms d).typeAt d t with
  | none => rw [ht] at h2; simp at h2
  | some r =>
    rw [ht] at h2
    have h3 : (TyEnv.ofWorld (run D (initWorld s) ops) d).mixins t = r.mixins := by simp [TyEnv.ofWorld, ht]
    rw [h3]
    exact built_entry (C29_types_of_domain_partial D s ops hd d t r ht f h1) h2

/-! ## An example

Mixins 1 and 2 are in the buffer of the object, 3 is external; types as in `objTypes`. Message 0 is a multicast, implemented by 3 (called first) and 1; message 1 is implemented
by 3; message 2 has a default implementation only; message 3 is implemented by 1 and 2. -/

def actFeats (m : Mix) : List FeatFor :=
  if m = 1 then [⟨0, 10, 0, 0⟩, ⟨3, 13, 0, 0⟩] else if m = 2 then [⟨3, 23, 0, 1⟩] else if m = 3 then [⟨0, 30, 0, 1⟩, ⟨1, 31, 0, 0⟩] else []

def actDecls : Decls := { objDecls with
  mix := fun m => { objDecls.mix m with feats := actFeats m }
  feat := fun f => { objDecls.feat f with defaultPayload := if f = 2 then some 7 else none, allowClashes := true } }

def actEnv : TyEnv := envOf actDecls objTypes

theorem actEnv_ok : EnvOk actDecls actEnv := envOf_ok objEnv_ok.nodup rfl

/-- The type as the domain makes it; the id of a message is its number. -/
def actType (t : TypeId) : TypeRec :=
  { emptyType 0 with mixins := objTypes t, ftable := match buildFtable actDecls some (objTypes t) with
    | .ok l => l
    | .error _ => [] }

def actTable (t : TypeId) (f : Feat) : Option FEntry := (actType t).ftableAt (some f)

def actHeap : Heap := (orun actDecls actEnv objOrc (objOps.map (fun op => (false, op))) {}).getD {}

theorem actHeap_good : HeapOk actDecls actEnv actHeap ∧ AllTyped actHeap := by
  obtain ⟨h', h1, h2⟩ := good_run (orc := objOrc) (D := actDecls) (E := actEnv) actEnv_ok (objOps.map (fun op => (false, op))) {} good_start (by decide +kernel)
  unfold actHeap; rw [h1]; exact h2

theorem actType_fits (t : TypeId) : ∃ l, buildFtable actDecls some (objTypes t) = .ok l := by
  unfold objTypes
  split
  · exact ⟨_, by rfl⟩
  · split
    · exact ⟨_, by rfl⟩
    · split
      · exact ⟨_, by rfl⟩
      · split
        · exact ⟨_, by rfl⟩
        · split
          · exact ⟨_, by rfl⟩
          · exact ⟨_, by rfl⟩

theorem act_entries (body : Mix → Nat → List (Action × Bool)) (dflt : Nat → List (Action × Bool)) : EntriesOk actEnv ⟨actTable, body, dflt⟩ := by
  intro t f e he
  obtain ⟨l, hl⟩ := actType_fits t
  have hb : BuiltFor actDecls (actType t) f (some f) :=
    ⟨some, ⟨fun m _ ff _ => ⟨ff.feat, rfl⟩, fun f g i h1 h2 => by simp at h1 h2; rw [h1, h2]⟩, by simp only [actType, hl], rfl, rfl⟩
  exact built_entry hb he

/-- A program that keeps to the rules: the first implementation of the multicast only uses its mixin; the last mutates the object at its end, after a quiet message. The external
mixin goes on after a mutation, and so does the default implementation. -/
def actBody (m : Mix) (p : Nat) : List (Action × Bool) :=
  if m = 3 ∧ p = 30 then [(.use, false), (.send id 3 false, true)]
  else if m = 1 ∧ p = 10 then [(.use, false), (.send id 3 false, false), (.op (.reset · 2), false)]
  else if m = 3 ∧ p = 31 then [(.op (.reset · 2), true), (.use, false), (.op (.reset · 4), false)]
  else if m = 1 ∧ p = 13 then [(.use, false), (.op (fun _ => .newOfType 1 0 false), true)]
  else if m = 2 ∧ p = 23 then [(.use, false)]
  else []

def actDflt (p : Nat) : List (Action × Bool) := if p = 7 then [(.op (.reset · 2), true), (.use, false), (.send id 0 true, false), (.op .clear, false), (.use, false)] else []

def actMsgs : MsgEnv := ⟨actTable, actBody, actDflt⟩

def actPromise : Agreed := ⟨fun k => k = 1, fun f => f = 3, fun f => f = 0⟩

/-- The rule for mixins, along the list. -/
def TailRule (D : Decls) (E : TyEnv) (P : Agreed) (m : Mix) : List (Action × Bool) → Prop
  | [] => True
  | (a, _) :: as => MayDo E P a ∧ (as ≠ [] → MayGoOn D E P m a) ∧ TailRule D E P m as

theorem TailRule.at {D : Decls} {E : TyEnv} {P : Agreed} {m : Mix} : ∀ {as : List (Action × Bool)}, TailRule D E P m as → ∀ pre a c post, as = pre ++ (a, c) :: post →
    MayDo E P a ∧ (post ≠ [] → MayGoOn D E P m a)
  | _, h, [], a, c, post, he => by subst he; exact ⟨h.1, h.2.1⟩
  | _, h, (b, d) :: pre, a, c, post, he => by subst he; exact TailRule.at (as := pre ++ (a, c) :: post) h.2.2 pre a c post rfl

theorem act_rule (m : Mix) (p : Nat) : TailRule actDecls actEnv actPromise m (actBody m p) := by
  have hr : ∀ t, ProperFor actEnv actPromise (OOp.reset · t) := fun t => ⟨fun h o ha _ => ha, fun o x h => by simp at h⟩
  have hs : ReceiverOk actPromise id 3 false := ⟨fun o => .inl rfl, fun h => by simp at h⟩
  have hn : ProperFor actEnv actPromise (fun _ => OOp.newOfType 1 0 false) := ⟨fun h o ha _ => trivial, fun o x h => by simp at h⟩
  unfold actBody
  split
  · exact ⟨trivial, fun _ => .inl trivial, hs, fun h => absurd rfl h, trivial⟩
  · split
    · exact ⟨trivial, fun _ => .inl trivial, hs, fun _ => .inl ⟨hs, rfl⟩, hr 2, fun h => absurd rfl h, trivial⟩
    · split
      · rename_i h
        obtain ⟨rfl, -⟩ := h
        exact ⟨hr 2, fun _ => .inr ⟨_, rfl, fun o => .inr ⟨by decide +kernel, rfl, by decide +kernel⟩⟩, trivial, fun _ => .inl trivial, hr 4, fun h => absurd rfl h, trivial⟩
      · split
        · exact ⟨trivial, fun _ => .inl trivial, hn, fun h => absurd rfl h, trivial⟩
        · split
          · exact ⟨trivial, fun h => absurd rfl h, trivial⟩
          · trivial

/-- What is in the tables of the example. -/
theorem act_payload {t : TypeId} {f : Feat} {e : FEntry} (he : actTable t f = some e) {p : Payload} (hp : p ∈ e.pls) :
    ∃ m, (objTypes t)[p.mixinIndex]? = some m ∧ p.data ∈ actFeats m ∧ p.data.feat = f := by
  obtain ⟨l, hl⟩ := actType_fits t
  have hb : BuiltFor actDecls (actType t) f (some f) :=
    ⟨some, ⟨fun m _ ff _ => ⟨ff.feat, rfl⟩, fun f g i h1 h2 => by simp at h1 h2; rw [h1, h2]⟩, by simp only [actType, hl], rfl, rfl⟩
  have h1 := hb.facts
  unfold actTable at he
  rw [he] at h1
  exact allImpls_idx_lt (h1.2.1.complete.mem_iff.1 (List.mem_map_of_mem hp))

theorem act_mixin {t : TypeId} {i : Nat} {m n : Mix} (h1 : (actEnv.mixins t)[i]? = some m) (h2 : (objTypes t)[i]? = some n) : m = n := by
  have h3 : (objTypes t)[i]? = some m := h1
  rw [h3] at h2
  exact Option.some.inj h2

theorem quiet_body (m : Mix) (p : Nat) (hp : p = 13 ∨ p = 23 ∨ p = 30) : ∀ a ∈ actBody m p, QuietAct actEnv actPromise a.1 := by
  have hs : ReceiverOk actPromise id 3 false := ⟨fun o => .inl rfl, fun h => by simp at h⟩
  have hn : ProperFor actEnv actPromise (fun _ => OOp.newOfType 1 0 false) := ⟨fun h o ha _ => trivial, fun o x h => by simp at h⟩
  intro a ha
  unfold actBody at ha
  split at ha
  · simp only [List.mem_cons, List.not_mem_nil, or_false] at ha
    rcases ha with rfl | rfl
    · trivial
    · exact ⟨hs, rfl⟩
  · split at ha
    · omega
    · split at ha
      · omega
      · split at ha
        · simp only [List.mem_cons, List.not_mem_nil, or_false] at ha
          rcases ha with rfl | rfl
          · trivial
          · exact ⟨hn, fun o => rfl⟩
        · split at ha
          · simp only [List.mem_cons, List.not_mem_nil, or_false] at ha
            subst ha; trivial
          · simp at ha

/-- In the multicast, mixin 3 is called before mixin 1. -/
theorem act_later (t : TypeId) (e : FEntry) (he : actTable t 0 = some e) (q : Payload) (hq : q ∈ e.pls.drop 1) : q.data.payload = 30 := by
  have key : ∀ ms ∈ [objTypes 1, objTypes 2, objTypes 3, objTypes 4, objTypes 5, []],
      (({ emptyType 0 with mixins := ms, ftable := match buildFtable actDecls some ms with
        | .ok l => l
        | .error _ => [] } : TypeRec).ftableAt (some 0)).all (fun e => (e.pls.drop 1).all (fun q => q.data.payload == 30)) = true := by decide +kernel
  have hm : objTypes t ∈ [objTypes 1, objTypes 2, objTypes 3, objTypes 4, objTypes 5, []] := by
    by_cases h1 : t = 1; · subst h1; simp
    by_cases h2 : t = 2; · subst h2; simp
    by_cases h3 : t = 3; · subst h3; simp
    by_cases h4 : t = 4; · subst h4; simp
    by_cases h5 : t = 5; · subst h5; simp
    simp [objTypes, h1, h2, h3, h4, h5]
  have h1 := key _ hm
  unfold actTable actType at he
  rw [he] at h1
  simp only [Option.all_some, List.all_eq_true, beq_iff_eq] at h1
  exact h1 q hq

theorem act_follows : KeepsRules actDecls actEnv actMsgs actPromise where
  mixins m p pre a c post h := (act_rule m p).at pre a c post h
  defaults p a ha := by
    have hr : ∀ t, ProperFor actEnv actPromise (OOp.reset · t) := fun t => ⟨fun h o ha _ => ha, fun o x h => by simp at h⟩
    have hc : ProperFor actEnv actPromise OOp.clear := ⟨fun h o ha _ => ha, fun o x h => by simp at h⟩
    have ha : a ∈ actDflt p := ha
    unfold actDflt at ha
    split at ha
    · simp only [List.mem_cons, List.not_mem_nil, or_false] at ha
      rcases ha with rfl | rfl | rfl | rfl | rfl
      · exact ⟨hr 2, rfl⟩
      · exact ⟨trivial, rfl⟩
      · exact ⟨⟨fun o => .inl rfl, fun _ => rfl⟩, rfl⟩
      · exact ⟨hc, rfl⟩
      · exact ⟨trivial, rfl⟩
    · simp at ha
  quiet f hf := by
    have hf : f = 3 := hf
    subst hf
    refine ⟨fun t e p m he hp hm a ha => ?_, fun p hp => by simp [actDecls] at hp⟩
    obtain ⟨n, h1, h2, h3⟩ := act_payload he hp
    refine quiet_body m p.data.payload ?_ a ha
    unfold actFeats at h2
    split at h2
    · simp only [List.mem_cons, List.not_mem_nil, or_false] at h2; rcases h2 with h2 | h2 <;> rw [h2] at h3 ⊢ <;> simp_all
    · split at h2
      · simp only [List.mem_cons, List.not_mem_nil, or_false] at h2; rw [h2]; simp
      · split at h2
        · simp only [List.mem_cons, List.not_mem_nil, or_false] at h2; rcases h2 with h2 | h2 <;> rw [h2] at h3 <;> simp at h3
        · simp at h2
  multicasts f hf t e i j p q m he hij hi hj hb hm a ha := by
    have hf : f = 0 := hf
    subst hf
    refine quiet_body m q.data.payload (.inr (.inr (act_later t e he q ?_))) a ha
    refine List.mem_of_getElem? (i := j - 1) ?_
    rw [List.getElem?_drop, show 1 + (j - 1) = j by omega]
    exact hj

/-! ## The theorems -/

theorem safeOut {D : Decls} {E : TyEnv} {P : Agreed} {h : Heap} {r : Out} (hr : OutOk r (fun h' => Fine D E P h' ∧ LivesOn h h')) : SafeOut D E h r := by
  cases r with
  | done h' => exact ⟨hr.1.good.1, hr.1.good.2, hr.2⟩
  | thrown h' e => exact ⟨hr.1.good.1, hr.1.good.2, hr.2⟩
  | ub => exact hr
  | more => trivial

/-- C71: if all implementations keep to the rules, no call of a message on a living object has undefined behaviour, however deep the calls, whatever is thrown on the way
and wherever it is caught; all objects are well afterwards and no object is lost. -/
theorem C71_safe (D : Decls) (E : TyEnv) (hE : EnvOk D E) (orc : Orc) (M : MsgEnv) (hT : EntriesOk E M) (P : Agreed) (hF : KeepsRules D E M P)
    (h : Heap) (hk : HeapOk D E h) (ht : AllTyped h) (hkn : ∀ k, P.known k → Alive h k) (o : Nat) (ha : Alive h o) (f : Feat) (multi : Bool)
    (hmu : multi = true → P.multi f) (n : Nat) : SafeOut D E h (callMsg D E orc M n o f multi h) :=
  safeOut (sendTo_ok hE (runActs_ok hE hT hF n) hT hF ⟨⟨hk, ht⟩, hkn⟩ ha f multi hmu)

/-- C71: a message that is promised to be quiet leaves all objects as they are, with their mixins at the same addresses. -/
theorem C71_quiet (D : Decls) (E : TyEnv) (hE : EnvOk D E) (orc : Orc) (M : MsgEnv) (hT : EntriesOk E M) (P : Agreed) (hF : KeepsRules D E M P)
    (h : Heap) (hk : HeapOk D E h) (ht : AllTyped h) (hkn : ∀ k, P.known k → Alive h k) (o : Nat) (ha : Alive h o) (f : Feat) (hq : P.quiet f) (multi : Bool) (n : Nat) (h' : Heap)
    (hc : callMsg D E orc M n o f multi h = .done h' ∨ ∃ e, callMsg D E orc M n o f multi h = .thrown h' e) : StillThere E h h' := by
  have h1 := sendTo_quiet hE (runActs_ok (orc := orc) hE hT hF n) hT hF ⟨⟨hk, ht⟩, hkn⟩ ha f multi hq
  unfold callMsg at hc
  rcases hc with hc | ⟨e, hc⟩
  · rw [hc] at h1; exact h1.2
  · rw [hc] at h1; exact h1.2

/-- C71: why the rules are what they are. After a mutation of its object, a mixin can be used through the pointer of an implementation (`this`) if and only if it is external
and was not removed. -/
theorem C71_self_after_mutation (D : Decls) (E : TyEnv) (hE : EnvOk D E) (orc : Orc) (h h' : Heap) (hk : HeapOk D E h) (o : Nat) (ob : Obj) (t : TypeId)
    (kind : Mix → Kind → Prop) (keeps : Mix → Prop) (hmut : Mutated D E h o ob t kind keeps h') (m : Mix) (l : Loc) (v : Nat) (hh : Holds E h o m l v) :
    (∃ h'', useSelf orc h' (.mixin m l) = .done h'') ↔ (D.mix m).external = true ∧ m ∈ E.mixins t := by
  constructor
  · rintro ⟨h'', hu⟩
    simp only [useSelf] at hu
    cases hl : h'.live l with
    | none => rw [hl] at hu; simp at hu
    | some x =>
      obtain ⟨m', v'⟩ := x
      rw [hl] at hu
      by_cases hc : m' = m ∧ (h'.blk l.1).isSome
      · obtain ⟨rfl, -⟩ := hc
        obtain ⟨o', i, m2, sl, hs, rfl⟩ := hmut.healthy.lives l _ hl
        obtain ⟨ob', t', a', w, k1, k2, k3, k4, k5, k6, k7, k8, k9⟩ := hs.facts hmut.healthy
        rw [k7] at hl
        simp only [Option.some.injEq, Prod.mk.injEq] at hl
        obtain ⟨rfl, rfl⟩ := hl
        have hh' : Holds E h' o' m2 sl.loc w := ⟨i, sl, hs, rfl, k7⟩
        obtain ⟨q1, q2⟩ := holds_facts hE hk hh
        by_cases ho : o' = o
        · subst ho
          have hm := (hmut.mixins m2).1 ⟨_, _, hh'⟩
          obtain ⟨a, ha, hob⟩ := hmut.obj
          rw [hob] at k1
          obtain rfl := Option.some.inj k1
          simp only [Option.some.injEq] at k3
          subst k3
          refine ⟨?_, hm⟩
          cases hx : (D.mix m2).external with
          | true => rfl
          | false =>
            have hi := hE.internal t' i m2 k4
            rw [hx] at hi
            unfold PlaceOk at k6
            rw [if_pos (by simpa using hi)] at k6
            rw [k6] at q1
            simp [ha] at q1
        · have h3 := (hmut.others o' m2 sl.loc w ho).1 hh'
          have h4 := (holds_facts hE hk h3).2
          rw [q2] at h4
          exact absurd (Option.some.inj h4).symm ho
      · simp [hc] at hu
  · rintro ⟨hx, hm⟩
    obtain ⟨l', v', h1, h2, -⟩ := hmut.common m l v hm hh
    have h3 := h2 hx
    subst h3
    obtain ⟨h4, h5⟩ := holds_facts hE hmut.healthy h1
    obtain ⟨i, sl, h6, rfl, h7⟩ := h1
    simp only [useSelf]
    rw [h7]
    simp [h4]

/-- The example meets the hypotheses of `C71_safe`, for all messages and objects. -/
example (o : Nat) (ho : o < 3) (f : Feat) (n : Nat) : SafeOut actDecls actEnv actHeap (callMsg actDecls actEnv objOrc actMsgs n o f (f == 0) actHeap) :=
  C71_safe actDecls actEnv actEnv_ok objOrc actMsgs (act_entries _ _) actPromise act_follows actHeap actHeap_good.1 actHeap_good.2
    (fun k hk => by have hk : k = 1 := hk; subst hk; decide +kernel)
    o (by have h : ∀ o < 3, Alive actHeap o := by decide +kernel
          exact h o ho) f (f == 0) (fun h => show f = 0 by simpa using h) n

/-- The type of an object after a call that was completed. -/
def tyAfter (o : Nat) : Out → Option (Option TypeId)
  | .done h => (h.obj? o).map (·.ty)
  | _ => none

def isUb : Out → Bool
  | .ub => true
  | _ => false

def isThrown : Out → Bool
  | .thrown _ _ => true
  | _ => false

/-- Within it, objects are mutated: by the last implementation of the multicast, by an external mixin that goes on, and by a default implementation. The last one sends the
multicast to the object it has mutated, empties it, and still uses it. -/
example : tyAfter 0 (callMsg actDecls actEnv objOrc actMsgs 20 0 0 true actHeap) = some (some 2) ∧ tyAfter 0 (callMsg actDecls actEnv objOrc actMsgs 20 0 1 false actHeap) = some (some 4) ∧
    tyAfter 2 (callMsg actDecls actEnv objOrc actMsgs 20 2 3 false actHeap) = some (some 2) := by decide +kernel

/-- A failing constructor in the mutation ends the call with its exception; the object is what it was. -/
example : isThrown (callMsg actDecls actEnv (failAt 25) actMsgs 20 0 0 true actHeap) = true := by decide +kernel

/-! ## The calls are those of `Model.Dispatch` -/

/-- The outcome of a call in `Model.Dispatch`. -/
def outcome : Except CallErr Unit × Heap → Out
  | (.ok _, h) => .done h
  | (.error e, h) => .thrown h (.call e)

/-- `I` describes what the implementations for object `o` of type `t` do. -/
structure SameImpls (E : TyEnv) (M : MsgEnv) (run : Self → List (Action × Bool) → Heap → Out) (o : Nat) (t : TypeId) (I : Impls Heap Unit) : Prop where
  mixins : ∀ p h, callAt E M run o t p h = outcome (callPayload I p h)
  defaults : ∀ p h, run (.object o) (M.dflt p) h = outcome (I.dflt p h)

/-- What follows the loop of a multicast. -/
def afterLoop (I : Impls Heap Unit) (p : Payload) : Except CallErr Unit × Heap → Except CallErr Unit × Heap
  | (.error e, h) => (.error e, h)
  | (.ok _, h) => callPayload I p h

theorem callEach_same {E : TyEnv} {M : MsgEnv} {run : Self → List (Action × Bool) → Heap → Out} {o : Nat} {t : TypeId} {I : Impls Heap Unit} (hI : SameImpls E M run o t I) (p : Payload) :
    ∀ (ps : List Payload) (h : Heap), callEach E M run o t (ps ++ [p]) h = outcome (afterLoop I p (multicastLoop I ps h))
  | [], h => by
    simp only [List.nil_append, callEach, hI.mixins, multicastLoop, afterLoop]
    rcases callPayload I p h with ⟨r, h'⟩
    cases r <;> rfl
  | q :: ps, h => by
    simp only [List.cons_append, callEach, hI.mixins, multicastLoop]
    rcases callPayload I q h with ⟨r, h'⟩
    cases r with
    | error e => rfl
    | ok u => exact callEach_same hI p ps h'

/-- C71: the calls of this model are those of the model of messages, to which `C27`, `C28` and the like apply: the same implementations are called in the same order, with the same exceptions. -/
theorem C71_same_calls (D : Decls) (E : TyEnv) (M : MsgEnv) (run : Self → List (Action × Bool) → Heap → Out) (h : Heap) (o : Nat) (ob : Obj) (t : TypeId) (I : Impls Heap Unit) (r : TypeRec)
    (f : Feat) (fid : Option Nat) (ho : h.obj? o = some ob) (hty : ob.ty = some t) (hI : SameImpls E M run o t I) (hr : M.table t f = r.ftableAt fid)
    (hne : ∀ e, r.ftableAt fid = some e → e.pls ≠ []) :
    sendTo D E M run o f false h = outcome (callUnicast D I r f fid h) ∧ sendTo D E M run o f true h = outcome (callMulticast D I r f fid h) := by
  unfold sendTo callUnicast callMulticast
  rw [ho]
  simp only [hty, hr]
  cases he : r.ftableAt fid with
  | none =>
    simp only [tryDefault]
    cases (D.feat f).defaultPayload with
    | none => exact ⟨rfl, rfl⟩
    | some p => exact ⟨hI.defaults p h, hI.defaults p h⟩
  | some e =>
    cases hp : e.pls with
    | nil => exact absurd hp (hne e he)
    | cons p ps =>
      simp only [hp]
      refine ⟨?_, ?_⟩
      · exact callEach_same hI p [] h
      · refine (callEach_same hI p (ps.take e.topBack).reverse h).trans (congrArg outcome ?_)
        rcases multicastLoop I (ps.take e.topBack).reverse h with ⟨x, h2⟩
        cases x <;> rfl

/-- C71: and so are the calls of next implementations. -/
theorem C71_same_next_calls (E : TyEnv) (M : MsgEnv) (run : Self → List (Action × Bool) → Heap → Out) (h : Heap) (o : Nat) (ob : Obj) (t : TypeId) (I : Impls Heap Unit) (r : TypeRec)
    (f : Feat) (fid mid : Option Nat) (m : Mix) (l : Loc) (hl : (Self.mixin m l).obj? h = some o) (ho : h.obj? o = some ob) (hty : ob.ty = some t) (hI : SameImpls E M run o t I)
    (hr : M.table t f = r.ftableAt fid) (hm : E.indexOf t m = r.indexOf mid) :
    following E M run .impl f h (.mixin m l) = outcome (callNextImpl I r fid mid h) ∧ following E M run .set f h (.mixin m l) = outcome (callNextBidderSet I r fid mid h) ∧
      following E M run .top f h (.mixin m l) = outcome (callNextBidderTop I r fid mid h) := by
  simp only [following, callFollowing, callNextImpl, callNextBidderSet, callNextBidderTop, hl, ho, hty, hr, hm]
  cases he : r.ftableAt fid with
  | none => simp only [TypeRec.findNextImplementer, TypeRec.findNextBidderSet, he]; exact ⟨rfl, rfl, rfl⟩
  | some e =>
    cases hi : r.indexOf mid with
    | none => simp only [TypeRec.findNextImplementer, TypeRec.findNextBidderSet, he, hi]; exact ⟨rfl, rfl, rfl⟩
    | some i =>
      have hset : r.findNextBidderSet fid mid = nextSetIn e i := by simp only [TypeRec.findNextBidderSet, nextSetIn, he, hi] <;> rfl
      have himp : r.findNextImplementer fid mid = nextIn e i := by simp only [TypeRec.findNextImplementer, nextIn, he, hi] <;> rfl
      rw [hset, himp]
      simp only [Following.payloads]
      refine ⟨?_, ?_, ?_⟩
      · cases hn : nextIn e i with
        | none => rfl
        | some p => exact callEach_same hI p [] h
      · cases hn : nextSetIn e i with
        | nil => rfl
        | cons p ps =>
          simp only [List.reverse_cons]
          have h1 := callEach_same hI p ps.reverse h
          refine Eq.trans (Eq.trans ?_ h1) (congrArg outcome ?_)
          · cases hps : ps.reverse ++ [p] with
            | nil => simp at hps
            | cons x xs => rfl
          · rcases multicastLoop I ps.reverse h with ⟨x, h2⟩
            cases x <;> rfl
      · cases hn : nextSetIn e i with
        | nil => rfl
        | cons p ps => exact callEach_same hI p [] h

/-- C71: an exception that is not caught ends an implementation: what would follow is not done. -/
theorem C71_exceptions_end (D : Decls) (E : TyEnv) (orc : Orc) (M : MsgEnv) (self : Self) (a : Action) (post : List (Action × Bool)) (e : MErr) (h' : Heap) :
    ∀ (n : Nat) (pre : List (Action × Bool)) (h : Heap), runActs D E orc M n self (pre ++ [(a, false)]) h = .thrown h' e → runActs D E orc M n self (pre ++ (a, false) :: post) h = .thrown h' e
  | 0, _, _, hr => by simp [runActs] at hr
  | n + 1, [], h, hr => by
    simp only [List.nil_append, runActs] at hr ⊢
    cases hx : act D E orc M (runActs D E orc M n) self h a with
    | done h2 =>
      rw [hx] at hr
      cases n <;> simp [runActs] at hr
    | thrown h2 e2 => rw [hx] at hr; simpa using hr
    | ub => rw [hx] at hr; simp at hr
    | more => rw [hx] at hr; simp at hr
  | n + 1, (b, c) :: pre, h, hr => by
    simp only [List.cons_append, runActs] at hr ⊢
    cases hx : (if c then (act D E orc M (runActs D E orc M n) self h b).caught else act D E orc M (runActs D E orc M n) self h b) with
    | done h2 =>
      rw [hx] at hr
      exact C71_exceptions_end D E orc M self a post e h' n pre h2 hr
    | thrown h2 e2 => rw [hx] at hr; simpa using hr
    | ub => rw [hx] at hr; simp at hr
    | more => rw [hx] at hr; simp at hr

/-! ## The rules are needed

Programs that break one of the rules. -/

def breaking (body : Mix → Nat → List (Action × Bool)) (dflt : Nat → List (Action × Bool)) (f : Feat) (multi : Bool) : Out :=
  callMsg actDecls actEnv objOrc ⟨actTable, body, dflt⟩ 20 0 f multi actHeap

def none2 (_ : Nat) : List (Action × Bool) := []

/-- Mixin 1 mutates its object and goes on: its memory is gone. -/
def goesOn (m : Mix) (_ : Nat) : List (Action × Bool) := if m = 1 then [(.op (.reset · 2), false), (.use, false)] else []

/-- The first implementation of the multicast mutates the object; nothing else is done. -/
def mutatesFirst (m : Mix) (_ : Nat) : List (Action × Bool) := if m = 3 then [(.op (.reset · 2), false)] else []

/-- The same, to a type without mixins behind the one that follows. -/
def emptiesFirst (m : Mix) (_ : Nat) : List (Action × Bool) := if m = 3 then [(.op .clear, false)] else []

/-- An external mixin removes itself and goes on. -/
def removesItself (m : Mix) (_ : Nat) : List (Action × Bool) := if m = 3 then [(.op (.reset · 5), false), (.use, false)] else []

/-- Mixin 1 calls a message, whose default implementation mutates the object, and goes on. -/
def throughDefault (m : Mix) (_ : Nat) : List (Action × Bool) := if m = 1 then [(.send id 2 false, false), (.use, false)] else []

def resetsIt (_ : Nat) : List (Action × Bool) := [(.op (.reset · 2), false)]

/-- C71: mutation and going on, in a mixin that is part of the object's buffer. -/
theorem C71_not_going_on_needed : isUb (breaking goesOn none2 3 false) = true := by decide +kernel

/-- C71: mutation by an implementation of a multicast that is not the last one. The remaining ones are called for the mixins that have their index now: here mixin 2 is at the
index of mixin 1, whose function is called. -/
theorem C71_last_of_multicast_needed : isUb (breaking (fun m p => if m = 1 then [(.use, false)] else mutatesFirst m p) none2 0 true) = true ∧
    isUb (breaking emptiesFirst none2 0 true) = true := by decide +kernel

/-- C71: an external mixin that removes itself and goes on. -/
theorem C71_not_removing_itself_needed : isUb (breaking removesItself none2 1 false) = true := by decide +kernel

/-- C71: the default implementation keeps to the rules, the mixin that called it does not. -/
theorem C71_calls_counted_needed : isUb (breaking throughDefault resetsIt 3 false) = true ∧ isUb (breaking (fun _ _ => []) resetsIt 2 false) = false := by decide +kernel

/-- C71: mutation and a call of the next implementation. -/
def thenNext (m : Mix) (p : Nat) : List (Action × Bool) := if m = 1 ∧ p = 13 then [(.op (.reset · 5), false), (.next 3, false)] else []

theorem C71_no_next_after_mutation_needed : isUb (callMsg actDecls actEnv objOrc ⟨actTable, thenNext, none2⟩ 20 2 3 false actHeap) = true := by decide +kernel

end Dnmx.Props
