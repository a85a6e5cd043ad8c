import Verif.Props.FeaturesExact
import Verif.Props.Answers

/-! C72 for all histories in which no call makes features and mixins part. -/

namespace Dnmx.Props
open Spec

/-- C72, for the same histories and pure rules: what `get_type` answers is given by the rules in force, the registered mixins and the declarations alone. -/
theorem C72_get_type_unparted (D : Decls) (s : DomId → Settings) (ops : List Op) (hd : NeverParts D s ops) (hp : OnlyPureRules D s ops) (d : DomId) (q : List Mix) :
    answerOf d (getType D (run D (initWorld s) ops) d q) = typeAnswer D (run D (initWorld s) ops) d q ∧
    answerOf d (getTypeMut D (run D (initWorld s) ops) d d q) = typeAnswer D (run D (initWorld s) ops) d q := by
  have hbuild := C28_clash_unparted D s ops hd d
  have hregd : ∀ m, mixinRegistered d m (trace D (initWorld s) ops) = true ↔ _ := fun m => mixinRegistered_iff D s ops d m
  have htab := tables_here D s ops hd d
  have hpure := hp.inForce d
  have hi := reachable_types D s ops d
  have hr := reachable_reg D s ops
  have hk := reachable_cache D s ops d
  have key : ∀ res, GetCase D (run D (initWorld s) ops) d q res → answerOf d res = typeAnswer D (run D (initWorld s) ops) d q := by
    intro res hc
    generalize run D (initWorld s) ops = W at hbuild hregd htab hpure hi hr hk hc ⊢
    have hreg' : ∀ ms, checkMixins W.mixId W.mixDom d ms = .ok () → ms.Nodup ∧ ∀ m ∈ ms, mixinRegistered d m (trace D (initWorld s) ops) = true := by
      intro ms h
      obtain ⟨h1, h2⟩ := (checkMixins_ok _ _ _ _).1 h
      exact ⟨h1, fun m hm => (hregd m).2 ((hr.mem_mixinsOf_iff d m).2 (h2 m hm))⟩
    have hclash : ∀ (tid : TypeId) (ms : List Mix), checkMixins W.mixId W.mixDom d ms = .ok () → (∃ r, buildType D W d tid ms = .ok r) →
        ¬ ∃ f, (D.feat f).allowClashes = false ∧ ClashesOn D ms f := by
      rintro tid ms h1 ⟨r, h2⟩ h3
      obtain ⟨n1, n2⟩ := hreg' ms h1
      have := (hbuild tid ms n1 n2).1.2 h3
      rw [h2] at this; simp at this
    have exists_ok : ∀ t r, (W.doms d).typeAt d t = some r → checkMixins W.mixId W.mixDom d r.mixins = .ok () ∧ ¬ ∃ f, (D.feat f).allowClashes = false ∧ ClashesOn D r.mixins f := by
      intro t r ht
      obtain ⟨-, -, h1, h2⟩ := hi.typeAt_ok ht
      have hc := (checkMixins_ok W.mixId W.mixDom d r.mixins).2 ⟨h1, h2⟩
      refine ⟨hc, ?_⟩
      rcases typeAt_some ht with ⟨a, b⟩ | ⟨a, b, c⟩
      · subst b
        rintro ⟨f, -, k, l, x, y, -, hx, -⟩
        simp [emptyType, allImpls] at hx
      · refine hclash 0 r.mixins hc ⟨⟨0, d, r.mixins, layout (r.mixins.map D.mix), sparseTable (r.mixins.filterMap W.mixId), r.ftable⟩, ?_⟩
        unfold buildType; rw [hc, htab r b]
    cases hc with
    | hit t h =>
      obtain ⟨r, h1, h2⟩ := hk hpure _ h
      obtain ⟨h3, h4⟩ := exists_ok t r h1
      rw [typeAnswer_ok (by simp [resolve, h2]) h3 h4]
      simp [answerOf, compositionOf, h1]
    | ruleError e h => simp [answerOf, typeAnswer, resolve, h]
    | empty h =>
      obtain ⟨h3, h4⟩ := exists_ok emptyTid (emptyType d) (typeAt_empty _ _)
      rw [typeAnswer_ok (ms := []) (by simp [resolve, h]) h3 h4]
      simp [answerOf, compositionOf, typeAt_empty, emptyType]
    | found r hne h hr hf =>
      have ht := hi.typeAt_mem r hr
      obtain ⟨h3, h4⟩ := exists_ok r.tid r ht
      rw [typeAnswer_ok (by simp [resolve, h]) h3 h4]
      have : ((W.setDom d { W.doms d with queries := storeQuery q r.tid (W.doms d).queries }).doms d).typeAt d r.tid = some r := by
        rw [setDom_same]; exact ht
      simp only [answerOf, compositionOf, this, Option.map_some]
    | buildError ms e hne h hn hb =>
      have hres : resolve D (rulesOf D (W.view D d) (W.doms d)) q = .ok ms := by simp [resolve, h]
      unfold typeAnswer; rw [hres]
      simp only [answerOf]
      cases hc : checkMixins W.mixId W.mixDom d ms with
      | error e' => unfold buildType at hb; rw [hc] at hb; simp at hb; subst hb; rfl
      | ok u =>
        obtain ⟨n1, n2⟩ := hreg' ms hc
        obtain ⟨h1, h2⟩ := hbuild W.nextType ms n1 n2
        rcases h2 with h2 | ⟨r, h2⟩
        · rw [hb] at h2; simp at h2; subst h2
          simp only [if_pos (h1.1 hb)]
        · rw [hb] at h2; simp at h2
    | built r hne h hn hb ht =>
      have hc : checkMixins W.mixId W.mixDom d r.mixins = .ok () := by
        cases hc : checkMixins W.mixId W.mixDom d r.mixins with
        | ok u => rfl
        | error e => unfold buildType at hb; rw [hc] at hb; simp at hb
      have hcomp := getCase_composition (GetCase.built r hne h hn hb ht) hi r.tid rfl
      obtain ⟨r', h1, h2⟩ := hcomp
      have : r'.mixins = r.mixins := by
        rcases h2 with ⟨-, h3⟩ | h2
        · exfalso
          rcases typeAt_some h3 with ⟨a, b⟩ | ⟨a, b, c⟩
          · have := hi.nextPos; rw [ht] at a; simp [emptyTid] at a; omega
          · have := (hi.tidPos r' b).2; omega
        · rw [h] at h2; simp at h2; exact h2.symm
      rw [typeAnswer_ok (by simp [resolve, h]) hc (hclash _ _ hc ⟨r, hb⟩)]
      simp only [answerOf, compositionOf, h1, Option.map_some, this]
  exact ⟨key _ (getType_cases D _ d q), key _ (getTypeMut_cases D _ d q)⟩

/-- C72, for the same histories and pure rules: no sequence of calls can tell apart two states in which the same is registered. -/
theorem C72_answers_unparted (D : Decls) (s s' : DomId → Settings) (ops ops' more : List Op) (hd : NeverParts D s (ops ++ more)) (hd' : NeverParts D s' (ops' ++ more))
    (hp : OnlyPureRules D s (ops ++ more)) (hp' : OnlyPureRules D s' (ops' ++ more)) (h : SameRegistered (run D (initWorld s) ops) (run D (initWorld s') ops')) :
    answers D (run D (initWorld s') ops') more = answers D (run D (initWorld s) ops) more := by
  have left : ∀ {s : DomId → Settings} {a b : List Op}, NeverParts D s (a ++ b) → NeverParts D s a := by
    rintro s a b h pre op post rfl
    exact h pre op (post ++ b) (by simp)
  have leftp : ∀ {s : DomId → Settings} {a b : List Op}, OnlyPureRules D s (a ++ b) → OnlyPureRules D s a :=
    fun h => ⟨fun d r hr => h.1 d r (List.mem_append_left _ hr), h.2⟩
  induction more generalizing ops ops' with
  | nil => rfl
  | cons op more ih =>
    obtain ⟨a, b⟩ := reachable_step_alike h op
    have ih := ih (ops ++ [op]) (ops' ++ [op]) (by simpa using hd) (by simpa using hd') (by simpa using hp) (by simpa using hp') a
    rw [run_append, run_append] at ih
    change answers D (step D (run D (initWorld s') ops') op).2 more = answers D (step D (run D (initWorld s) ops) op).2 more at ih
    unfold answers
    rw [ih]
    congr 1
    cases hq : asksForTypes op with
    | false => exact answer_registration hq (b hq)
    | true =>
      have same : ∀ d q, typeAnswer D (run D (initWorld s') ops') d q = typeAnswer D (run D (initWorld s) ops) d q := by
        intro d q
        have hpure := (leftp hp).inForce d
        unfold typeAnswer
        rw [rulesOf_pure (by rw [h.rules d]) hpure ((run D (initWorld s') ops').view D d) ((run D (initWorld s) ops).view D d)]
        cases resolve D (rulesOf D ((run D (initWorld s) ops).view D d) ((run D (initWorld s) ops).doms d)) q with
        | error e => rfl
        | ok ms => simp only; rw [(reachable_alike h).check d ms]
      have k := C72_get_type_unparted D s ops (left hd) (leftp hp)
      have k' := C72_get_type_unparted D s' ops' (left hd') (leftp hp')
      cases op <;> simp [asksForTypes] at hq
      · rename_i d md q
        simp only [answer]
        by_cases hm : md = d
        · subst hm
          rw [(k md q).2, (k' md q).2, same]
        · unfold getTypeMut
          rw [if_pos hm, if_pos hm]; rfl
      · rename_i d q
        simp only [answer]
        rw [(k d q).1, (k' d q).1, same]
      · rfl

end Dnmx.Props
