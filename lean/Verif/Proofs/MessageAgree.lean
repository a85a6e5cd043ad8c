import Verif.Spec.Messages
import Verif.Proofs.HistoryLemmas
import Verif.Proofs.RulesLemmas
import Verif.Proofs.ClassLemmas

/-! # Exceptions with their texts are those of the operations -/

set_option linter.unusedSimpArgs false
set_option linter.unusedVariables false

namespace Dnmx
open Spec

variable {D : Decls} {X : RuleFails}

theorem basicRegister_not_ub {nameOf : Nat → List UInt8} {b : Bool} {id : Option Nat} {x : Nat} {l : List (Option Nat)} {e : Err}
    (h : basicRegister nameOf b id x l = .error e) : e ≠ .ub := by
  rcases basicRegister_error _ _ _ _ _ _ h with ⟨rfl, -⟩ | ⟨rfl, -⟩ | ⟨rfl, -⟩ <;> simp

theorem registerFeature_fst (W : World) (d : DomId) (f : Feat) : (registerFeature D W d f).1 =
    (basicRegister D.featName (!(W.doms d).settings.allowDupFeat) (W.featId f) f (W.doms d).feats).map (fun _ => ()) := by
  unfold registerFeature
  cases basicRegister D.featName (!(W.doms d).settings.allowDupFeat) (W.featId f) f (W.doms d).feats with
  | error e => rfl
  | ok p => rfl

theorem registerFeature_err (W : World) (d : DomId) (f : Feat) :
    (registerFeatureThrows D W d f).map (·.err) = exceptionOf (registerFeature D W d f).1 := by
  have h := registerFeature_fst (D := D) W d f
  unfold registerFeatureThrows
  rw [h]
  cases hb : basicRegister D.featName (!(W.doms d).settings.allowDupFeat) (W.featId f) f (W.doms d).feats with
  | error e => simp [Except.map, exceptionOf, basicRegister_not_ub hb, featureThrown]
  | ok p => rfl

theorem registerFeatures_err (d : DomId) : ∀ (fs : List Feat) (W : World),
    (registerFeaturesThrows D W d fs).map (·.err) = exceptionOf (registerFeatures D W d fs).1
  | [], W => rfl
  | f :: fs, W => by
    unfold registerFeaturesThrows registerFeatures
    by_cases hf : W.featId f ≠ none
    · rw [if_pos hf, if_pos hf]; exact registerFeatures_err d fs W
    · rw [if_neg hf, if_neg hf]
      have h1 := registerFeature_err (D := D) W d f
      unfold registerFeatureThrows at h1 ⊢
      rcases hr : registerFeature D W d f with ⟨r, W'⟩
      rw [hr] at h1
      cases r with
      | error e => simpa using h1
      | ok u => simpa using registerFeatures_err d fs W'

theorem registerFeaturesThrows_none (d : DomId) : ∀ (fs : List Feat) (W : World), registerFeaturesThrows D W d fs = none ↔ (registerFeatures D W d fs).1 = .ok ()
  | [], W => by simp [registerFeaturesThrows, registerFeatures]
  | f :: fs, W => by
    unfold registerFeaturesThrows registerFeatures
    by_cases hf : W.featId f ≠ none
    · rw [if_pos hf, if_pos hf]; exact registerFeaturesThrows_none d fs W
    · rw [if_neg hf, if_neg hf]
      unfold registerFeatureThrows
      rcases hr : registerFeature D W d f with ⟨r, W'⟩
      cases r with
      | error e => simp
      | ok u => simpa using registerFeaturesThrows_none d fs W'

theorem registerMixin_err (W : World) (d : DomId) (m : Mix) :
    (registerMixinThrows D W d m).map (·.err) = exceptionOf (registerMixin D W d m).1 := by
  unfold registerMixinThrows registerMixin
  by_cases hd : W.mixDom m ≠ none ∧ W.mixDom m ≠ some d
  · rw [if_pos hd, if_pos hd]; rfl
  · rw [if_neg hd, if_neg hd]
    have h1 := registerFeatures_err (D := D) d ((D.mix m).feats.map (·.feat)) W
    have h2 := registerFeaturesThrows_none (D := D) d ((D.mix m).feats.map (·.feat)) W
    rcases hr : registerFeatures D W d ((D.mix m).feats.map (·.feat)) with ⟨r, W'⟩
    rw [hr] at h1 h2
    simp only [hr]
    cases r with
    | error e =>
      cases ht : registerFeaturesThrows D W d ((D.mix m).feats.map (·.feat)) with
      | none => rw [ht] at h2; simp at h2
      | some t => rw [ht] at h1; simpa using h1
    | ok u =>
      rw [h2.2 rfl]
      simp only
      cases hb : basicRegister D.mixName (!(W'.doms d).settings.allowDupMix) (W'.mixId m) m (W'.doms d).mixins with
      | error e => simp [exceptionOf, basicRegister_not_ub hb, mixinThrown]
      | ok p => rfl

theorem unregisterFeature_err (W : World) (d : DomId) (f : Feat) :
    (unregisterFeatureThrows W d f).map (·.err) = exceptionOf (unregisterFeature W d f).1 := by
  unfold unregisterFeatureThrows unregisterFeature
  cases ownSlot (W.doms d).feats (W.featId f) f <;> rfl

theorem unregisterMixin_err (W : World) (d : DomId) (m : Mix) :
    (unregisterMixinThrows W d m).map (·.err) = exceptionOf (unregisterMixin W d m).1 := by
  unfold unregisterMixinThrows unregisterMixin
  simp only []
  cases purgeQueries (W.doms d) d (W.mixId m) m (W.doms d).queries with
  | none => simp [exceptionOf]
  | some qs => simp only []; cases ownSlot (W.doms d).mixins (W.mixId m) m <;> rfl

theorem registerTypeClass_err (W : World) (d : DomId) (c : Cls) :
    (registerTypeClassThrows D W d c).map (·.err) = exceptionOf (registerTypeClass D W d c).1 := by
  unfold registerTypeClassThrows registerTypeClass
  split
  · rfl
  · split
    · rfl
    · simp only []
      split
      · rfl
      · first | rfl | (split <;> rfl)

theorem addRule_err (W : World) (d : DomId) (r : Rule) : (addRuleThrows D d r).map (·.err) = exceptionOf (addRule D W d r).1 := by
  unfold addRuleThrows addRule
  split
  · rfl
  · simp only []
    split <;> rfl

/-! ## Rules -/

theorem passThrows_err (v : ElemView) (d : DomId) : ∀ (rs : List Rule) (ms : List Mix),
    (passThrows D v X d rs ms).map (·.err) = exceptionOf (applyPass (rs.map (ruleFn D v)) ms)
  | [], ms => rfl
  | r :: rs, ms => by
    simp only [passThrows, List.map_cons, applyPass]
    cases h : ruleFn D v r ms with
    | ok ms' => exact passThrows_err v d rs ms'
    | error e => cases e <;> simp [exceptionOf]

theorem rulesThrows_step (v : ElemView) (d : DomId) (rules : List Rule) (left : Nat) (last nt : List Mix) :
    rulesThrows D v X d rules left last nt =
      match passThrows D v X d rules nt with
      | some t => some t
      | none =>
        match applyPass (rules.map (ruleFn D v)) nt with
        | .error _ => none
        | .ok nt' =>
          if last = nt' then none
          else if left = 0 ∨ 5 - left = rules.length then some (cyclicThrown d nt')
          else rulesThrows D v X d rules (left - 1) nt' nt' := by
  rw [rulesThrows]
  cases passThrows D v X d rules nt with
  | some t => rfl
  | none =>
    simp only
    cases applyPass (rules.map (ruleFn D v)) nt with
    | error e => rfl
    | ok nt' =>
      simp only
      split
      · rfl
      · cases left with
        | zero => simp
        | succ l =>
          have e5 : maxDependencyDepth = 5 := rfl
          simp only [e5, Nat.add_sub_cancel]
          by_cases h : 5 - (l + 1) = rules.length
          · rw [if_pos h, if_pos (.inr h)]
          · rw [if_neg h, if_neg]; rintro (h' | h'); · omega
            · exact h h'

theorem rulesThrows_err (v : ElemView) (d : DomId) (rules : List Rule) : ∀ (left : Nat) (o last nt : List Mix),
    (rulesThrows D v X d rules left last nt).map (·.err) = exceptionOf (rulesLoop (rules.map (ruleFn D v)) left o last nt).result := by
  intro left
  induction left with
  | zero =>
    intro o last nt
    rw [rulesThrows_step, rulesLoop_step]
    have h := passThrows_err (X := X) v d rules nt (D := D)
    cases hp : passThrows D v X d rules nt with
    | some t =>
      rw [hp] at h
      cases ha : applyPass (rules.map (ruleFn D v)) nt with
      | ok _ => rw [ha] at h; simp [exceptionOf] at h
      | error e => rw [ha] at h; exact h
    | none =>
      rw [hp] at h
      cases ha : applyPass (rules.map (ruleFn D v)) nt with
      | error e => rw [ha] at h; exact h
      | ok nt' =>
        simp only
        by_cases hl : last = nt'
        · rw [if_pos hl, if_pos hl]; rfl
        · rw [if_neg hl, if_neg hl]; simp [cyclicThrown, exceptionOf]
  | succ left ih =>
    intro o last nt
    rw [rulesThrows_step, rulesLoop_step]
    have h := passThrows_err (X := X) v d rules nt (D := D)
    cases hp : passThrows D v X d rules nt with
    | some t =>
      rw [hp] at h
      cases ha : applyPass (rules.map (ruleFn D v)) nt with
      | ok _ => rw [ha] at h; simp [exceptionOf] at h
      | error e => rw [ha] at h; exact h
    | none =>
      rw [hp] at h
      cases ha : applyPass (rules.map (ruleFn D v)) nt with
      | error e => rw [ha] at h; exact h
      | ok nt' =>
        simp only
        by_cases hl : last = nt'
        · rw [if_pos hl, if_pos hl]; rfl
        · rw [if_neg hl, if_neg hl]
          simp only [List.length_map, Nat.succ_ne_zero, false_or, Nat.add_sub_cancel]
          by_cases hi : 5 - (left + 1) = rules.length
          · rw [if_pos hi, if_pos hi]; simp [cyclicThrown, exceptionOf]
          · rw [if_neg hi, if_neg hi]; exact ih _ _ _

/-! ## Types -/

theorem checkThrows_err (W : World) (d : DomId) (all : List Mix) : ∀ ms : List Mix,
    (checkThrows W d all ms).map (·.err) = exceptionOf (checkMixins W.mixId W.mixDom d ms)
  | [] => rfl
  | m :: ms => by
    unfold checkThrows checkMixins
    split
    · rfl
    · split
      · rfl
      · split
        · rfl
        · exact checkThrows_err W d all ms

theorem firstClash_hasClash : ∀ ps : List Payload, (firstClash ps).isSome = hasClash ps
  | [] => rfl
  | [_] => rfl
  | a :: b :: rest => by
    unfold firstClash hasClash
    by_cases h : a.data.bid = b.data.bid ∧ a.data.priority = b.data.priority
    · simp [h]
    · rw [if_neg h, firstClash_hasClash (b :: rest)]
      have : (a.data.bid == b.data.bid && a.data.priority == b.data.priority) = false := by
        simpa [Bool.and_eq_false_iff, Decidable.not_and_iff_or_not] using h
      rw [this]; rfl

theorem entryThrows_err (d : DomId) (ms : List Mix) (pls : List Payload) :
    (entryThrows D d ms pls).map (·.err) = exceptionOf (finishEntry D pls) := by
  unfold entryThrows finishEntry
  cases sortPayloads pls with
  | nil => rfl
  | cons p ps =>
    simp only
    have h := firstClash_hasClash (p :: ps)
    cases ha : (D.feat p.data.feat).allowClashes with
    | true => simp [exceptionOf]
    | false =>
      cases hf : firstClash (p :: ps) with
      | none => rw [hf] at h; simp at h; simp [h, exceptionOf]
      | some x => rw [hf] at h; simp at h; simp [h, exceptionOf, clashThrown]

theorem finishEntry_errors {pls : List Payload} {e : Err} (h : finishEntry D pls = .error e) : e = .featureClash := by
  unfold finishEntry at h
  split at h
  · simp at h
  · split at h
    · simp at h; exact h.symm
    · simp at h

theorem finishThrows_err (d : DomId) (ms : List Mix) (buf : List (Option Payload)) : ∀ es : List (Option (Nat × Nat)),
    (finishThrows D d ms buf es).map (·.err) = exceptionOf (finishAll D buf es)
  | [] => rfl
  | e :: es => by
    unfold finishThrows finishAll
    have h := entryThrows_err (D := D) d ms (entryPayloads buf e)
    have ih := finishThrows_err d ms buf es
    cases hf : finishEntry D (entryPayloads buf e) with
    | error x =>
      have := finishEntry_errors hf
      subst this
      rw [hf] at h
      cases he : entryThrows D d ms (entryPayloads buf e) with
      | none => rw [he] at h; simp [exceptionOf] at h
      | some t => rw [he] at h; exact h
    | ok r =>
      rw [hf] at h
      cases he : entryThrows D d ms (entryPayloads buf e) with
      | some t => rw [he] at h; simp [exceptionOf] at h
      | none =>
        simp only [ih]
        cases finishAll D buf es <;> rfl

theorem ftableThrows_err (fid : Feat → Option Nat) (d : DomId) (ms : List Mix) :
    (ftableThrows D fid d ms).map (·.err) = exceptionOf (buildFtable D fid ms) := by
  unfold ftableThrows buildFtable
  simp only
  cases ftableCounts fid (featStream D 0 ms) (List.replicate (ftableSize fid (featStream D 0 ms)) 0) with
  | none => simp [exceptionOf]
  | some counts =>
    simp only
    cases ftableFill fid counts ⟨List.replicate (ftableSize fid (featStream D 0 ms)) none, 0, List.replicate (featStream D 0 ms).length none⟩ (featStream D 0 ms) with
    | none => simp [exceptionOf]
    | some s => exact finishThrows_err d ms s.buf s.entries

theorem checkMixins_not_ub {mixId : Mix → Option Nat} {mixDom : Mix → Option DomId} {d : DomId} : ∀ {ms : List Mix} {e : Err},
    checkMixins mixId mixDom d ms = .error e → e ≠ .ub
  | [], e, h => by simp [checkMixins] at h
  | m :: ms, e, h => by
    unfold checkMixins at h
    split at h
    · simp at h; subst h; simp
    · split at h
      · simp at h; subst h; simp
      · split at h
        · simp at h; subst h; simp
        · exact checkMixins_not_ub h

theorem checkThrows_none (W : World) (d : DomId) (all ms : List Mix) : checkThrows W d all ms = none ↔ checkMixins W.mixId W.mixDom d ms = .ok () := by
  have h := checkThrows_err W d all ms
  cases hc : checkMixins W.mixId W.mixDom d ms with
  | ok u =>
    rw [hc] at h
    cases ht : checkThrows W d all ms with
    | none => simp
    | some t => rw [ht] at h; simp [exceptionOf] at h
  | error e =>
    rw [hc] at h
    cases ht : checkThrows W d all ms with
    | none => rw [ht] at h; simp [exceptionOf, checkMixins_not_ub hc] at h
    | some t => simp

theorem createType_err (W : World) (d : DomId) (tid : TypeId) (ms : List Mix) :
    (createTypeThrows D W d ms).map (·.err) = exceptionOf (buildType D W d tid ms) := by
  unfold createTypeThrows buildType
  have h := checkThrows_err W d ms ms
  have hn := checkThrows_none W d ms ms
  cases hc : checkMixins W.mixId W.mixDom d ms with
  | ok u =>
    rw [hn.2 hc]
    simp only
    rw [ftableThrows_err]
    cases buildFtable D W.featId ms <;> rfl
  | error e =>
    rw [hc] at h
    cases ht : checkThrows W d ms ms with
    | none => rw [hn.1 ht] at hc; simp at hc
    | some t => rw [ht] at h; exact h

theorem exceptionOf_discard {α : Type} (r : Except Err α × World) : exceptionOf (discard r).1 = exceptionOf r.1 := by
  rcases r with ⟨r, W⟩
  cases r <;> rfl

theorem rulesOf_map (v : ElemView) (x : Dom) : rulesOf D v x = (x.rules.map (·.1)).map (ruleFn D v) := by
  simp [rulesOf, List.map_map, Function.comp_def]

theorem getTypeMut_err (W : World) (d md : DomId) (q : List Mix) :
    (getTypeMutThrows D X W d md q).map (·.err) = exceptionOf (getTypeMut D W d md q).1 := by
  unfold getTypeMutThrows getTypeMut
  by_cases hm : md ≠ d
  · rw [if_pos hm, if_pos hm]; rfl
  · rw [if_neg hm, if_neg hm]
    simp only
    cases hl : lookupSection D (W.view D d) (W.doms d) q with
    | hit t => rfl
    | failed e =>
      simp only
      rw [rulesThrows_err _ _ _ _ [] _ _, ← rulesOf_map]
      unfold lookupSection at hl
      split at hl
      · simp at hl
      · cases ha : (applyMutationRules D (rulesOf D (W.view D d) (W.doms d)) q).result with
        | error e' =>
          rw [ha] at hl; simp at hl; subst hl
          unfold applyMutationRules at ha
          rw [ha]; rfl
        | ok p => rw [ha] at hl; simp at hl
    | resolved key ms found =>
      cases found with
      | some t => rfl
      | none =>
        simp only
        rw [createType_err W d W.nextType ms]
        cases buildType D W d W.nextType ms <;> rfl

theorem getType_err (W : World) (d : DomId) (q : List Mix) : (getTypeThrows D X W d q).map (·.err) = exceptionOf (getType D W d q).1 := by
  unfold getTypeThrows getType
  cases findQuery q (W.doms d).queries with
  | some t => rfl
  | none => exact getTypeMut_err W d d q

theorem opThrows_err (W : World) (op : Op) : (opThrows D X W op).map (·.err) = exceptionOf (step D W op).1 := by
  cases op with
  | regFeature d f => exact registerFeature_err W d f
  | unregFeature d f => exact unregisterFeature_err W d f
  | regMixin d m => exact registerMixin_err W d m
  | unregMixin d m => exact unregisterMixin_err W d m
  | regClass d c => exact registerTypeClass_err W d c
  | unregClass d c => rfl
  | addRule d r => exact addRule_err W d r
  | removeRule d r =>
    simp only [opThrows, step, removeRule]
    split
    · rfl
    · split <;> rfl
  | getTypeMut d md q => simp only [opThrows, step, exceptionOf_discard]; exact getTypeMut_err W d md q
  | getType d q => simp only [opThrows, step, exceptionOf_discard]; exact getType_err W d q
  | gc d num => rfl

end Dnmx
