import Verif.Props.DomainMemory
import Verif.Props.Unparted

/-! C86 for all histories in which no call makes features and mixins part. -/

namespace Dnmx.Props
open Spec

theorem noParts_iff (D : Decls) : ∀ (ops : List Op) (W : World), NoParts D W ops ↔ ∀ pre op post, ops = pre ++ op :: post → ¬ Parts D (run D W pre) op
  | [], W => ⟨fun _ pre op post he => by simp at he, fun _ => trivial⟩
  | o :: ops, W => by
    constructor
    · intro h pre op post he
      cases pre with
      | nil => simp at he; rw [← he.1]; exact h.1
      | cons p pre => simp at he; rw [← he.1]; exact (noParts_iff D ops _).1 h.2 pre op post he.2
    · intro h
      refine ⟨h [] o ops rfl, (noParts_iff D ops _).2 fun pre op post he => ?_⟩
      exact h (o :: pre) op post (by rw [he]; rfl)

theorem noParts_append (D : Decls) : ∀ (a b : List Op) (W : World), NoParts D W (a ++ b) ↔ NoParts D W a ∧ NoParts D (run D W a) b
  | [], b, W => ⟨fun h => ⟨trivial, h⟩, fun h => h.2⟩
  | o :: a, b, W => by
    have := noParts_append D a b (step D W o).2
    exact ⟨fun h => ⟨⟨h.1, (this.1 h.2).1⟩, (this.1 h.2).2⟩, fun h => ⟨h.1.1, this.2 ⟨h.1.2, h.2⟩⟩⟩

/-- Features are where the mixins are, and the tables of all types are those of their mixins. -/
structure Settled (D : Decls) (W : World) : Prop where
  here : FeatsHere D W
  tables : ∀ d, TablesOk D W d

theorem Settled.step {D : Decls} {W : World} (h : Settled D W) (hs : Sound D W) (op : Op) (hp : ¬ Parts D W op) : Settled D (Dnmx.step D W op).2 :=
  ⟨(step_here D W hs.reg op h.here).2 hp, fun d => step_tables_here D W hs.reg op hp h.here d (hs.types d) (h.tables d)⟩

theorem Settled.run {D : Decls} : ∀ (ops : List Op) {W : World}, Settled D W → Sound D W → NoParts D W ops → Settled D (Dnmx.run D W ops)
  | [], _, h, _, _ => h
  | op :: ops, _, h, hs, hn => Settled.run ops (h.step hs op hn.1) (hs.step op) hn.2

theorem Settled.homed {D : Decls} {W : World} (h : Settled D W) (hs : Sound D W) : ∃ home used, Homed D home used W := by
  obtain ⟨home, used, hh⟩ := here_home hs.reg h.here
  exact ⟨home, used, hh, h.tables⟩

theorem Settled.answer {D : Decls} {W : World} (h : Settled D W) (hs : Sound D W) {d : DomId} (hp : ∀ r ∈ (W.doms d).rules.map (·.1), RulePure D r) (q : List Mix)
    (res : Except Err TypeId × World) (hc : GetCase D W d q res) : Spec.answerOf d res = typeAnswer D W d q := by
  obtain ⟨home, used, hh⟩ := h.homed hs
  exact hh.answer hs hp q res hc

theorem here_same {D : Decls} {V W : World} (h : SameRegistered V W) (hv : FeatsHere D V) : FeatsHere D W := by
  intro d m hm ff hff
  exact (h.feats d _).2 (hv d m ((h.mixins d m).1 hm) ff hff)

/-- one call that registers the same in both states -/
theorem settled_alike {D : Decls} {V W : World} (hv : Sound D V) (hw : Sound D W) (hV : Settled D V) (hW : Settled D W) (h : SameRegistered V W) (op : Op) (hn : ¬ Parts D V op) :
    ¬ Parts D W op := by
  have h1 := (registrationAnswers_alike (D := D) [op] hv hw h).2
  have h2 : FeatsHere D (Dnmx.step D W op).2 := here_same h1 (hV.step hv op hn).here
  exact (step_here D W hw.reg op hW.here).1 h2

theorem settled_left {D : Decls} {W W' : World} {op : Op} (hl : LeftBehind D W op W') (h : Sound D W) (hh : Settled D W) : Settled D W' := by
  cases hl with
  | nothing => exact hh
  | features d m fs W' hmi hp hr =>
    obtain ⟨post, hpost⟩ := hp
    have : Dnmx.run D W (leftCalls D W W' (.regMixin d m)) = W' := by
      rw [show leftCalls D W W' (.regMixin d m) = (((D.mix m).feats.map (·.feat)).filter (fun f => (W.featId f).isNone && (W'.featId f).isSome)).map (fun f => .regFeature d f) from rfl]
      rw [← hpost]
      refine registerFeatures_calls D d _ W' post ?_ fs W h.reg hr ?_
      · intro f _ hP
        simp only [Bool.and_eq_true] at hP
        exact Option.isSome_iff_ne_none.1 hP.2
      · intro f h1 h2
        simp only [Bool.and_eq_true]
        exact ⟨by rw [h1]; rfl, Option.isSome_iff_ne_none.2 h2⟩
    rw [← this]
    refine hh.run _ h ((noParts_iff D _ _).2 ?_)
    intro pre o post he
    have ho : o ∈ leftCalls D W W' (.regMixin d m) := by rw [he]; simp
    unfold leftCalls at ho
    obtain ⟨f, hf, rfl⟩ := List.mem_map.1 ho
    exact id
  | type op d q r ha hq hne h1 hn hb =>
    refine ⟨hh.here.same ⟨fun d' => ?_, fun d' => ?_, fun d' => ?_, rfl, rfl, rfl⟩, ?_⟩
    · simp only [World.setDom, upd]; split
      · rename_i e; subst e; rfl
      · rfl
    · simp only [World.setDom, upd]; split
      · rename_i e; subst e; rfl
      · rfl
    · simp only [World.setDom, upd]; split
      · rename_i e; subst e; rfl
      · rfl
    · intro d' t ht
      simp only [World.setDom, upd] at ht
      split at ht
      · rename_i e; subst e
        rcases List.mem_append.1 ht with h3 | h3
        · exact hh.tables _ t h3
        · simp only [List.mem_singleton] at h3; subst h3
          exact (buildType_ok D W _ W.nextType t.mixins t hne hb).2.2.2
      · exact hh.tables d' t ht

theorem settled_runM {D : Decls} (h : List (Faults × Op)) : ∀ {M : MWorld} {R : World}, MOk D M → Sound D M.W → Sound D R → SameRegistered R M.W → Settled D R → Settled D M.W →
    NoParts D R (withoutFailed D M h) → Settled D (runM D M h).W := by
  induction h with
  | nil => intro M R _ _ _ _ _ hh _; exact hh
  | cons x h ih =>
    intro M R hm hs hR hsame hsR hh hn
    obtain ⟨F, op⟩ := x
    rw [withoutFailed_cons, noParts_append] at hn
    refine ih (hm.step F op) (sound_stepM hm hs F op) (hR.run _) (stepM_without hm hs hR hsame F op) (hsR.run _ hR hn.1) ?_ hn.2
    rcases (stepM_ok hm F op).cases with ⟨e1, e⟩ | ⟨-, hl⟩
    · rw [e]
      refine hh.step hs op (settled_alike hR hs hsR hh hsame op ?_)
      have hw : withoutFailed D M [(F, op)] = [op] := by
        unfold withoutFailed
        rw [e1]
        cases (Dnmx.step D M.W op).1 <;> simp [sameOutcome, withoutFailed]
      rw [hw] at hn
      exact hn.1.1
    · exact settled_left hl hs hh

theorem answers_settled {D : Decls} (more : List Op) : ∀ {W W' : World}, Sound D W → Sound D W' → Settled D W → Settled D W' →
    PureWorld D W → SameRegistered W W' → NoParts D W more → (∀ d r, .addRule d r ∈ more → RulePure D r) → answers D W' more = answers D W more := by
  induction more with
  | nil => intros; rfl
  | cons op more ih =>
    intro W W' hs hs' hh hh' hp hsame hd hpr
    have hal : Alike W W' := ⟨hs.reg, hs'.reg, hsame⟩
    obtain ⟨a, b⟩ := step_alike (D := D) hal hs.types hs'.types hs.cls hs'.cls op
    have ih := ih (hs.step op) (hs'.step op) (hh.step hs op hd.1) (hh'.step hs' op (settled_alike hs hs' hh hh' hsame op hd.1))
      (hp.step hs op (fun d r e => hpr d r (by rw [e]; exact List.mem_cons_self))) a.same hd.2 (fun d r h => hpr d r (List.mem_cons_of_mem _ h))
    unfold answers
    rw [ih]
    congr 1
    cases hq : asksForTypes op with
    | false => exact answer_registration hq (b hq)
    | true =>
      have hp' : PureWorld D W' := by intro d r hr; rw [hsame.rules] at hr; exact hp d r hr
      have same : ∀ d q, typeAnswer D W' d q = typeAnswer D W d q := by
        intro d q
        unfold typeAnswer
        rw [rulesOf_pure (by rw [hsame.rules d]) (hp d) (W'.view D d) (W.view D d)]
        cases resolve D (rulesOf D (W.view D d) (W.doms d)) q with
        | error e => rfl
        | ok ms => simp only; rw [hal.check d ms]
      cases op <;> simp [asksForTypes] at hq
      · rename_i d md q
        simp only [answer]
        by_cases hm : md = d
        · subst hm
          rw [hh.answer hs (hp md) q _ (getTypeMut_cases D W md q), hh'.answer hs' (hp' md) q _ (getTypeMut_cases D W' md q), same]
        · unfold getTypeMut
          rw [if_pos hm, if_pos hm]; rfl
      · rename_i d q
        simp only [answer]
        rw [hh.answer hs (hp d) q _ (getType_cases D W d q), hh'.answer hs' (hp' d) q _ (getType_cases D W' d q), same]
      · rfl

/-- C86, for all histories in which (without the calls that failed) no call makes features and mixins part, with pure rules: no further calls can tell that memory ever failed. -/
theorem C86_answers_unparted (D : Decls) (s : DomId → Settings) (h : List (Faults × Op)) (more : List Op) (hn : NeverParts D s (withoutFailed D (initM s) h ++ more))
    (hp : OnlyPureRules D s (h.map (·.2) ++ more)) :
    answers D (runM D (initM s) h).W more = answers D (run D (initWorld s) (withoutFailed D (initM s) h)) more := by
  have hno := (noParts_iff D _ _).2 hn
  rw [noParts_append] at hno
  have hs := (sound_init D s).run (withoutFailed D (initM s) h)
  have h0 : Settled D (initWorld s) := ⟨here_init D s, fun d t ht => by simp [initWorld, newDom] at ht⟩
  refine answers_settled more hs (sound_runM h (mok_init D s) (sound_init D s)) (h0.run _ (sound_init D s) hno.1)
    (settled_runM h (mok_init D s) (sound_init D s) (sound_init D s)
      (⟨fun _ => rfl, fun _ _ => Iff.rfl, fun _ _ => Iff.rfl, fun _ _ => Iff.rfl, fun _ => Iff.rfl, fun _ => rfl⟩ : SameRegistered (initWorld s) (initM s).W) h0 h0 hno.1) ?_
    (C86_registrations D s h []).1 hno.2 (fun d r hr => hp.1 d r (List.mem_append_right _ hr))
  have hp' : OnlyPureRules D s (withoutFailed D (initM s) h) := by
    refine ⟨fun d r hr => ?_, hp.2⟩
    rcases withoutFailed_mem h hr with h1 | ⟨d', m, f, -, -, e⟩
    · exact hp.1 d r (List.mem_append_left _ h1)
    · cases e
  exact fun d => hp'.inForce d

-- a history with a failure that does not keep to `FeatureDiscipline`: the mixin's feature is unregistered after the mixin
example : let h : List (Faults × Op) := [({}, .regMixin 0 1), ({ block := true }, .getType 0 [1]), ({}, .unregMixin 0 1), ({}, .unregFeature 0 1)]
    withoutFailed regDecls (initM fun _ => {}) h = [.regMixin 0 1, .unregMixin 0 1, .unregFeature 0 1] ∧
    NeverParts regDecls (fun _ => {}) (withoutFailed regDecls (initM fun _ => {}) h ++ [.getType 0 [1]]) ∧
    ¬ FeatureDiscipline regDecls (h.map (·.2) ++ [.getType 0 [1]]) := by
  have e : withoutFailed regDecls (initM fun _ => {}) [({}, .regMixin 0 1), ({ block := true }, .getType 0 [1]), ({}, .unregMixin 0 1), ({}, .unregFeature 0 1)] =
      [.regMixin 0 1, .unregMixin 0 1, .unregFeature 0 1] := rfl
  refine ⟨e, ?_, ?_⟩
  · rw [e]
    refine neverParts_of _ _ _ ⟨?_, id, ?_, id, trivial⟩
    · exact not_parts_new regDecls (fun _ => {}) [] 0 1 (by decide +kernel)
    · rintro ⟨-, m, hm, -⟩
      have hno : ∀ W : World, mixinsOf W 0 = [] → m ∈ mixinsOf W 0 → False := fun W e h => by rw [e] at h; cases h
      exact hno _ (by decide +kernel) hm
  · rintro ⟨home, used, h⟩
    have h1 : ∀ ff ∈ (regDecls.mix 1).feats, home ff.feat = 0 ∧ used ff.feat := h (.regMixin 0 1) (by simp)
    have h2 := h (.unregFeature 0 1) (by simp)
    have hm : (⟨1, 10, 0, 0⟩ : FeatFor) ∈ (regDecls.mix 1).feats := by decide +kernel
    exact h2 (h1 _ hm).2

end Dnmx.Props
