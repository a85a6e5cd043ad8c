import Verif.Proofs.MessageAgree
import Verif.Proofs.FtableLemmas
import Verif.Proofs.PartLemmas

/-! # Exceptions tell the truth -/

set_option linter.unusedSimpArgs false
set_option linter.unusedVariables false

namespace Dnmx
open Spec

variable {D : Decls} {X : RuleFails} {W : World} {d : DomId}

theorem registerFeature_says {f : Feat} {t : Thrown} (h : registerFeatureThrows D W d f = some t) : SaysFeature D W d f t := by
  unfold registerFeatureThrows at h
  rw [registerFeature_fst] at h
  cases hb : basicRegister D.featName (!(W.doms d).settings.allowDupFeat) (W.featId f) f (W.doms d).feats with
  | ok p => rw [hb] at h; simp [Except.map] at h
  | error e =>
    rw [hb] at h
    simp only [Except.map, Option.some.injEq] at h
    subst h
    rcases basicRegister_error _ _ _ _ _ _ hb with ⟨rfl, a⟩ | ⟨rfl, a, b, c⟩ | ⟨rfl, a, b, j, r, c1, c2⟩
    · cases hi : W.featId f with
      | none => exact absurd hi a
      | some i => exact .idRegistered i hi
    · exact .emptyName a (by simpa using b) c
    · exact .duplicateName a (by simpa using b) ⟨r, (mem_featuresOf W d r).2 ⟨j, c1⟩, c2⟩

theorem registerFeature_world_error {f : Feat} {e : Err} (h : (registerFeature D W d f).1 = .error e) : (registerFeature D W d f).2 = W := by
  unfold registerFeature at h ⊢
  cases hb : basicRegister D.featName (!(W.doms d).settings.allowDupFeat) (W.featId f) f (W.doms d).feats with
  | error e => rfl
  | ok p => rw [hb] at h; simp at h

theorem registerFeature_known {f : Feat} (h : W.featId f ≠ none) : (registerFeature D W d f).2 = W := by
  have : basicRegister D.featName (!(W.doms d).settings.allowDupFeat) (W.featId f) f (W.doms d).feats = .error .idRegistered := by
    unfold basicRegister; rw [if_pos h]
  unfold registerFeature
  rw [this]

/-- Registering a feature changes only its own id. -/
theorem registerFeature_featId (f g : Feat) (hg : (registerFeature D W d f).2.featId g = none) : W.featId g = none := by
  unfold registerFeature at hg
  cases hb : basicRegister D.featName (!(W.doms d).settings.allowDupFeat) (W.featId f) f (W.doms d).feats with
  | error e => rw [hb] at hg; exact hg
  | ok p =>
    rw [hb] at hg
    simp only [upd] at hg
    split at hg
    · simp at hg
    · exact hg

theorem registerFeatures_says : ∀ (fs : List Feat) {W : World} {t : Thrown}, registerFeaturesThrows D W d fs = some t →
    ∃ pre f post, fs = pre ++ f :: post ∧ W.featId f = none ∧ SaysFeature D (run D W (pre.map (Op.regFeature d))) d f t
  | [], W, t, h => by simp [registerFeaturesThrows] at h
  | f :: fs, W, t, h => by
    unfold registerFeaturesThrows at h
    by_cases hf : W.featId f ≠ none
    · rw [if_pos hf] at h
      obtain ⟨pre, g, post, e, h1, h2⟩ := registerFeatures_says fs h
      refine ⟨f :: pre, g, post, by rw [e]; rfl, h1, ?_⟩
      simp only [List.map_cons, run, step]
      rw [registerFeature_known hf]; exact h2
    · rw [if_neg hf] at h
      have hf' : W.featId f = none := by simpa using hf
      cases ht : registerFeatureThrows D W d f with
      | some t' =>
        rw [ht] at h
        simp at h; subst h
        exact ⟨[], f, fs, rfl, hf', registerFeature_says ht⟩
      | none =>
        rw [ht] at h
        obtain ⟨pre, g, post, e, h1, h2⟩ := registerFeatures_says fs h
        exact ⟨f :: pre, g, post, by rw [e]; rfl, registerFeature_featId f g h1, h2⟩

theorem registerFeature_same (W : World) (f : Feat) : (registerFeature D W d f).2.mixId = W.mixId ∧
    ((registerFeature D W d f).2.doms d).settings = (W.doms d).settings ∧ ((registerFeature D W d f).2.doms d).mixins = (W.doms d).mixins := by
  unfold registerFeature
  cases hb : basicRegister D.featName (!(W.doms d).settings.allowDupFeat) (W.featId f) f (W.doms d).feats with
  | error e => exact ⟨rfl, rfl, rfl⟩
  | ok p => simp [World.setDom, upd]

theorem registerFeatures_same : ∀ (fs : List Feat) (W : World), (registerFeatures D W d fs).2.mixId = W.mixId ∧
    ((registerFeatures D W d fs).2.doms d).settings = (W.doms d).settings ∧ ((registerFeatures D W d fs).2.doms d).mixins = (W.doms d).mixins
  | [], W => ⟨rfl, rfl, rfl⟩
  | f :: fs, W => by
    unfold registerFeatures
    by_cases hf : W.featId f ≠ none
    · rw [if_pos hf]; exact registerFeatures_same fs W
    · rw [if_neg hf]
      have h1 := registerFeature_same (D := D) (d := d) W f
      rcases hr : registerFeature D W d f with ⟨r, W'⟩
      rw [hr] at h1
      cases r with
      | error e => exact h1
      | ok u =>
        have h2 := registerFeatures_same fs W'
        exact ⟨h2.1.trans h1.1, h2.2.1.trans h1.2.1, h2.2.2.trans h1.2.2⟩

theorem registerMixin_says {m : Mix} {t : Thrown} (h : registerMixinThrows D W d m = some t) : SaysMixin D W d m t := by
  unfold registerMixinThrows at h
  by_cases hd : W.mixDom m ≠ none ∧ W.mixDom m ≠ some d
  · rw [if_pos hd] at h
    simp only [Option.some.injEq] at h
    subst h
    cases hx : W.mixDom m with
    | none => exact absurd hx hd.1
    | some x => exact .hasDomain x hx (fun e => hd.2 (by rw [hx, e]))
  · rw [if_neg hd] at h
    cases ht : registerFeaturesThrows D W d ((D.mix m).feats.map (·.feat)) with
    | some t' =>
      rw [ht] at h
      simp at h; subst h
      obtain ⟨pre, f, post, e, h1, h2⟩ := registerFeatures_says _ ht
      obtain ⟨pre', rest, e1, e2, e3⟩ := List.map_eq_append_iff.1 e
      obtain ⟨ff, post', e4, e5, e6⟩ := List.map_eq_cons_iff.1 e3
      subst e2 e5 e4
      exact .feature pre' post' ff t' e1 h1 h2
    | none =>
      rw [ht] at h
      simp only at h
      have hk : (registerFeatures D W d ((D.mix m).feats.map (·.feat))).2.mixId = W.mixId ∧
          ((registerFeatures D W d ((D.mix m).feats.map (·.feat))).2.doms d).settings = (W.doms d).settings ∧
          ((registerFeatures D W d ((D.mix m).feats.map (·.feat))).2.doms d).mixins = (W.doms d).mixins := registerFeatures_same _ W
      obtain ⟨k1, k2, k3⟩ := hk
      rw [k1, k2, k3] at h
      cases hb : basicRegister D.mixName (!(W.doms d).settings.allowDupMix) (W.mixId m) m (W.doms d).mixins with
      | ok p => rw [hb] at h; simp at h
      | error e =>
        rw [hb] at h
        simp only [Option.some.injEq] at h
        subst h
        rcases basicRegister_error _ _ _ _ _ _ hb with ⟨rfl, a⟩ | ⟨rfl, a, b, c⟩ | ⟨rfl, a, b, j, r, c1, c2⟩
        · cases hi : W.mixId m with
          | none => exact absurd hi a
          | some i => exact .idRegistered i hi
        · exact .emptyName a (by simpa using b) c
        · exact .duplicateName a (by simpa using b) ⟨r, (mem_mixinsOf W d r).2 ⟨j, c1⟩, c2⟩

theorem unregisterFeature_says (hr : RegInv W) {f : Feat} {t : Thrown} (h : unregisterFeatureThrows W d f = some t) : SaysForeign W d (.unregFeature d f) t := by
  unfold unregisterFeatureThrows at h
  cases ho : ownSlot (W.doms d).feats (W.featId f) f with
  | some i => rw [ho] at h; simp at h
  | none =>
    rw [ho] at h
    simp only [Option.some.injEq] at h
    subst h
    refine .feature f (fun hm => ?_)
    obtain ⟨i, hi⟩ := (mem_featuresOf W d f).1 hm
    exact (ownSlot_none _ _ _).1 ho i (hr.featSlot d i f hi) hi

theorem unregisterMixin_says (hr : RegInv W) {m : Mix} {t : Thrown} (h : unregisterMixinThrows W d m = some t) : SaysForeign W d (.unregMixin d m) t := by
  unfold unregisterMixinThrows at h
  cases hp : purgeQueries (W.doms d) d (W.mixId m) m (W.doms d).queries with
  | none => rw [hp] at h; simp at h
  | some qs =>
    rw [hp] at h
    simp only at h
    cases ho : ownSlot (W.doms d).mixins (W.mixId m) m with
    | some i => rw [ho] at h; simp at h
    | none =>
      rw [ho] at h
      simp only [Option.some.injEq] at h
      subst h
      have hm : m ∉ mixinsOf W d := fun hm => by
        obtain ⟨i, hi⟩ := (mem_mixinsOf W d m).1 hm
        exact (ownSlot_none _ _ _).1 ho i (hr.mixSlot d i m hi).1 hi
      cases hx : W.mixDom m with
      | none => exact .nowhere m hx hm
      | some x => exact .elsewhere m x hx hm

theorem registerTypeClass_says {c : Cls} {t : Thrown} (h : registerTypeClassThrows D W d c = some t) : SaysOther D W d (.regClass d c) t := by
  unfold registerTypeClassThrows at h
  split at h
  · rename_i h1; simp only [Option.some.injEq] at h; subst h; exact .emptyName c (by simpa using h1)
  · split at h
    · rename_i h1; simp only [Option.some.injEq] at h; subst h; exact .noMatches c h1
    · split at h
      · rename_i h1
        simp only [Option.some.injEq] at h; subst h
        obtain ⟨i, c', h2, h3⟩ := (classNameTaken_iff D _ _).1 h1
        exact .duplicateName c ⟨c', (mem_classesOf W d c').2 ⟨i, h2⟩, h3⟩
      · simp at h

theorem addRule_says {r : Rule} {t : Thrown} (h : addRuleThrows D d r = some t) : SaysOther D W d (.addRule d r) t := by
  unfold addRuleThrows at h
  split at h
  · rename_i h1; simp only [Option.some.injEq] at h; subst h; exact .noApply r (by simpa using h1)
  · simp at h

/-! ## Rules -/

theorem inTurn_cons (f : RuleFn) (fs : List RuleFn) (ms : List Mix) : inTurn (f :: fs) ms = (f ms).bind (inTurn fs) := by
  unfold inTurn; rw [List.foldlM_cons]; rfl

theorem inTurn_append (fs gs : List RuleFn) (ms : List Mix) : inTurn (fs ++ gs) ms = (inTurn fs ms).bind (inTurn gs) := by
  unfold inTurn; rw [List.foldlM_append]; rfl

theorem applyPass_inTurn : ∀ (fs : List RuleFn) (ms : List Mix), applyPass fs ms = inTurn fs ms
  | [], ms => rfl
  | f :: fs, ms => by
    rw [inTurn_cons]
    unfold applyPass
    cases f ms with
    | error e => rfl
    | ok ms' => exact applyPass_inTurn fs ms'

theorem ruleFns_fst (W : World) (d : DomId) : (ruleFns D W d).map (·.2) = ((W.doms d).rules.map (·.1)).map (ruleFn D (W.view D d)) := by
  simp [ruleFns, List.map_map, Function.comp_def]

theorem flatten_replicate_succ' {α : Type} (n : Nat) (l : List α) : (List.replicate (n + 1) l).flatten = (List.replicate n l).flatten ++ l := by
  rw [List.replicate_succ', List.flatten_append]; simp

theorem ruled_succ {q : List Mix} {n : Nat} {ms : List Mix} (h : ruled D W d q n = .ok ms) :
    ruled D W d q (n + 1) = applyPass (((W.doms d).rules.map (·.1)).map (ruleFn D (W.view D d))) ms := by
  unfold ruled at h ⊢
  rw [flatten_replicate_succ', inTurn_append, h, applyPass_inTurn, ruleFns_fst]; rfl

/-- The first rule that fails. -/
theorem passThrows_says (v : ElemView) : ∀ (rs : List Rule) (ms : List Mix) {t : Thrown}, passThrows D v X d rs ms = some t →
    ∃ pre r post ms' e, rs = pre ++ r :: post ∧ inTurn (pre.map (ruleFn D v)) ms = .ok ms' ∧ ruleFn D v r ms' = .error e ∧
      ((e = .ruleUserError ∧ t = ⟨.ruleUserError, from_ d ++ [.lit "applying mutation rule ", .rule r, .lit " to ", .comp (X.left r ms'), .lit " failed with error ",
        .code (X.code r ms')]⟩) ∨ (e ≠ .ruleUserError ∧ e ≠ .ub ∧ t = ⟨e, X.own r ms'⟩))
  | [], ms, t, h => by simp [passThrows] at h
  | r :: rs, ms, t, h => by
    unfold passThrows at h
    cases hf : ruleFn D v r ms with
    | ok ms' =>
      rw [hf] at h
      obtain ⟨pre, r', post, m', e, h1, h2, h3, h4⟩ := passThrows_says v rs ms' h
      refine ⟨r :: pre, r', post, m', e, by rw [h1]; rfl, ?_, h3, h4⟩
      rw [List.map_cons, inTurn_cons, hf]; exact h2
    | error e =>
      rw [hf] at h
      refine ⟨[], r, rs, ms, e, rfl, rfl, hf, ?_⟩
      cases e <;> simp at h <;> first | exact .inl ⟨rfl, h.symm⟩ | exact .inr ⟨by simp, by simp, h.symm⟩

theorem ruleFns_split {pre post : List Rule} {r : Rule} (h : (W.doms d).rules.map (·.1) = pre ++ r :: post) :
    ruleFns D W d = pre.map (fun r => (r, ruleFn D (W.view D d) r)) ++ (r, ruleFn D (W.view D d) r) :: post.map (fun r => (r, ruleFn D (W.view D d) r)) := by
  have : ruleFns D W d = ((W.doms d).rules.map (·.1)).map (fun r => (r, ruleFn D (W.view D d) r)) := by
    simp [ruleFns, List.map_map, Function.comp_def]
  rw [this, h]; simp

theorem pass_says {q : List Mix} {n : Nat} {nt : List Mix} {t : Thrown} (hn : n ≤ 5) (hq : ruled D W d q n = .ok nt)
    (h : passThrows D (W.view D d) X d ((W.doms d).rules.map (·.1)) nt = some t) : SaysType D X W d q t := by
  obtain ⟨pre, r, post, ms', e, h1, h2, h3, h4⟩ := passThrows_says _ _ _ h
  have hs := ruleFns_split (D := D) h1
  have hp : inTurn ((pre.map (fun r => (r, ruleFn D (W.view D d) r))).map (·.2)) nt = .ok ms' := by
    simpa [List.map_map, Function.comp_def] using h2
  rcases h4 with ⟨rfl, rfl⟩ | ⟨g1, g2, rfl⟩
  · exact .rule n nt ms' _ _ r _ hn hq hs hp h3
  · exact .ruleThrows n nt ms' _ _ r _ e hn hq hs hp h3 g1 g2

theorem rulesThrows_says (q : List Mix) : ∀ (left : Nat) (last nt : List Mix) {t : Thrown}, left ≤ 5 → 5 - left ≤ (ruleFns D W d).length →
    (if 5 - left = 0 then last = q else last = nt) → ruled D W d q (5 - left) = .ok nt →
    rulesThrows D (W.view D d) X d ((W.doms d).rules.map (·.1)) left last nt = some t → SaysType D X W d q t := by
  intro left
  have hl : (ruleFns D W d).length = ((W.doms d).rules.map (·.1)).length := by simp [ruleFns]
  induction left with
  | zero =>
    intro last nt t h5 hlen hlast hnt h
    rw [rulesThrows_step] at h
    cases hp : passThrows D (W.view D d) X d ((W.doms d).rules.map (·.1)) nt with
    | some t' =>
      rw [hp] at h; simp at h; subst h
      exact pass_says (by omega) hnt hp
    | none =>
      rw [hp] at h
      simp only at h
      cases ha : applyPass (((W.doms d).rules.map (·.1)).map (ruleFn D (W.view D d))) nt with
      | error e => rw [ha] at h; simp at h
      | ok nt' =>
        rw [ha] at h
        simp only at h
        split at h
        · simp at h
        · rename_i hne
          rw [if_pos (.inl trivial)] at h
          simp at h; subst h
          rw [if_neg (by omega)] at hlast
          subst hlast
          exact .cyclic 5 last nt' (by omega) (by rw [if_neg (by omega)]; exact hnt) (by rw [ruled_succ hnt]; exact ha) hne
  | succ left ih =>
    intro last nt t h5 hlen hlast hnt h
    rw [rulesThrows_step] at h
    cases hp : passThrows D (W.view D d) X d ((W.doms d).rules.map (·.1)) nt with
    | some t' =>
      rw [hp] at h; simp at h; subst h
      exact pass_says (by omega) hnt hp
    | none =>
      rw [hp] at h
      simp only at h
      cases ha : applyPass (((W.doms d).rules.map (·.1)).map (ruleFn D (W.view D d))) nt with
      | error e => rw [ha] at h; simp at h
      | ok nt' =>
        rw [ha] at h
        simp only at h
        have hnext : ruled D W d q (5 - (left + 1) + 1) = .ok nt' := by rw [ruled_succ hnt]; exact ha
        split at h
        · simp at h
        · rename_i hne
          by_cases hi : 5 - (left + 1) = ((W.doms d).rules.map (·.1)).length
          · rw [if_pos (.inr hi)] at h
            simp at h; subst h
            refine .cyclic (5 - (left + 1)) last nt' (by omega) ?_ hnext hne
            by_cases h0 : 5 - (left + 1) = 0
            · rw [if_pos h0] at hlast ⊢; exact hlast
            · rw [if_neg h0] at hlast ⊢; subst hlast; exact hnt
          · rw [if_neg (by rintro (h' | h'); · omega
                           · exact hi h')] at h
            have e1 : 5 - (left + 1) + 1 = 5 - left := by omega
            refine ih nt' nt' (by omega) (by omega) ?_ (by rw [← e1]; exact hnext) h
            rw [if_neg (by omega)]

theorem rulesLoop_ruled (q : List Mix) : ∀ (left : Nat) (o last nt k ms : List Mix), left ≤ 5 → ruled D W d q (5 - left) = .ok nt →
    (rulesLoop (((W.doms d).rules.map (·.1)).map (ruleFn D (W.view D d))) left o last nt).result = .ok (k, ms) →
    ∃ n, ruled D W d q n = .ok ms := by
  intro left
  induction left with
  | zero =>
    intro o last nt k ms h5 hnt h
    rw [rulesLoop_step] at h
    cases ha : applyPass (((W.doms d).rules.map (·.1)).map (ruleFn D (W.view D d))) nt with
    | error e => rw [ha] at h; simp at h
    | ok nt' =>
      rw [ha] at h
      simp only at h
      split at h
      · simp at h; rw [← h.2]; exact ⟨5 - 0 + 1, by rw [ruled_succ hnt]; exact ha⟩
      · simp at h
  | succ left ih =>
    intro o last nt k ms h5 hnt h
    rw [rulesLoop_step] at h
    cases ha : applyPass (((W.doms d).rules.map (·.1)).map (ruleFn D (W.view D d))) nt with
    | error e => rw [ha] at h; simp at h
    | ok nt' =>
      rw [ha] at h
      simp only at h
      have hnext : ruled D W d q (5 - (left + 1) + 1) = .ok nt' := by rw [ruled_succ hnt]; exact ha
      split at h
      · simp at h; rw [← h.2]; exact ⟨_, hnext⟩
      · split at h
        · simp at h
        · have e1 : 5 - (left + 1) + 1 = 5 - left := by omega
          exact ih _ _ _ _ _ (by omega) (by rw [← e1]; exact hnext) h

/-! ## Types -/

theorem checkThrows_says (hr : RegInv W) {q all : List Mix} {n : Nat} (hq : ruled D W d q n = .ok all) : ∀ (pre ms : List Mix) {t : Thrown}, all = pre ++ ms →
    checkThrows W d all ms = some t → SaysType D X W d q t
  | pre, [], t, e, h => by simp [checkThrows] at h
  | pre, m :: ms, t, e, h => by
    have hm : m ∈ all := by rw [e]; simp
    unfold checkThrows at h
    split at h
    · rename_i h1
      simp only [Option.some.injEq] at h; subst h
      exact .unregistered n all m hq hm h1
    · rename_i h0
      split at h
      · rename_i h1
        simp only [Option.some.injEq] at h; subst h
        cases hx : W.mixDom m with
        | none =>
          cases hi : W.mixId m with
          | none => exact absurd hi h0
          | some i => obtain ⟨d', g, -⟩ := hr.mixReg m i hi; rw [hx] at g; simp at g
        | some x =>
          exact .foreignMixin n all m x hq hm hx (fun e => h1 (by rw [hx, e]))
      · split at h
        · rename_i h1 h2
          simp only [Option.some.injEq] at h; subst h
          have h2' : m ∈ ms := by simpa using h2
          obtain ⟨j, hj⟩ := List.mem_iff_getElem?.1 h2'
          refine .duplicate n all m pre.length (pre.length + (j + 1)) hq (by omega) ?_ ?_
          · rw [e]; simp
          · rw [e, List.getElem?_append_right (by omega)]; simpa using hj
        · exact checkThrows_says hr hq (pre ++ [m]) ms (by rw [e]; simp) h

theorem pair_sublist {α : Type} {l : List α} {a b : α} (h : List.Sublist [a, b] l) : ∃ k j : Nat, k < j ∧ l[k]? = some a ∧ l[j]? = some b := by
  induction l with
  | nil => simp at h
  | cons x xs ih =>
    cases h with
    | cons _ h =>
      obtain ⟨k, j, h1, h2, h3⟩ := ih h
      exact ⟨k + 1, j + 1, by omega, by simpa using h2, by simpa using h3⟩
    | cons_cons _ h =>
      have hb : b ∈ xs := by simpa using h
      obtain ⟨j, hj⟩ := List.mem_iff_getElem?.1 hb
      exact ⟨0, j + 1, by omega, by simp, by simpa using hj⟩

/-- Neighbours in a rearranged part of a list are at different places of the list. -/
theorem pair_places {α : Type} [DecidableEq α] {l p s : List α} {a b : α} (h : List.Sublist [a, b] s) (hp : s.Perm p) (hl : List.Sublist p l) :
    ∃ k j : Nat, k ≠ j ∧ l[k]? = some a ∧ l[j]? = some b := by
  by_cases hab : a = b
  · subst hab
    have h1 : 2 ≤ s.count a := by
      have := h.count_le a; simpa using this
    have h2 : 2 ≤ l.count a := by
      rw [hp.count_eq] at h1
      exact Nat.le_trans h1 (hl.count_le a)
    have h3 : List.Sublist [a, a] l := List.replicate_sublist_iff.2 h2
    obtain ⟨k, j, g1, g2, g3⟩ := pair_sublist h3
    exact ⟨k, j, by omega, g2, g3⟩
  · have ha : a ∈ l := hl.subset (hp.subset (h.subset (by simp)))
    have hb : b ∈ l := hl.subset (hp.subset (h.subset (by simp)))
    obtain ⟨k, hk⟩ := List.mem_iff_getElem?.1 ha
    obtain ⟨j, hj⟩ := List.mem_iff_getElem?.1 hb
    refine ⟨k, j, fun e => ?_, hk, hj⟩
    subst e; rw [hk] at hj; simp at hj; exact hab hj

theorem firstClash_some : ∀ {ps : List Payload} {a b : Payload}, firstClash ps = some (a, b) →
    List.Sublist [a, b] ps ∧ a.data.bid = b.data.bid ∧ a.data.priority = b.data.priority
  | [], a, b, h => by simp [firstClash] at h
  | [_], a, b, h => by simp [firstClash] at h
  | x :: y :: rest, a, b, h => by
    unfold firstClash at h
    split at h
    · rename_i h1
      simp at h; obtain ⟨rfl, rfl⟩ := h
      exact ⟨by simp, h1⟩
    · obtain ⟨h1, h2⟩ := firstClash_some h
      exact ⟨.cons x h1, h2⟩

theorem featStream_provided (D : Decls) : ∀ (ms : List Mix) (i : Nat),
    (featStream D i ms).map (fun p => (p.mixinIndex, p.data)) = (ms.zipIdx i).flatMap (fun (m, i) => (D.mix m).feats.map (fun ff => (i, ff)))
  | [], i => rfl
  | m :: ms, i => by
    simp only [featStream, List.map_append, List.map_map, List.zipIdx_cons, List.flatMap_cons, featStream_provided D ms (i + 1)]
    rfl

theorem ftableCounts_reg {fid : Feat → Option Nat} : ∀ {ps : List Payload} {c r : List Nat}, ftableCounts fid ps c = some r →
    ∀ p ∈ ps, ∃ i, fid p.data.feat = some i
  | [], c, r, h, p, hp => by simp at hp
  | x :: ps, c, r, h, p, hp => by
    unfold ftableCounts at h
    cases hx : fid x.data.feat with
    | none => rw [hx] at h; simp at h
    | some i =>
      rw [hx] at h
      simp only at h
      cases hc : c[i]? with
      | none => rw [hc] at h; simp at h
      | some k =>
        rw [hc] at h
        rcases List.mem_cons.1 hp with rfl | hp'
        · exact ⟨i, hx⟩
        · exact ftableCounts_reg h p hp'

theorem finishThrows_entry {ms : List Mix} {buf : List (Option Payload)} : ∀ {es : List (Option (Nat × Nat))} {t : Thrown}, finishThrows D d ms buf es = some t →
    ∃ (i : Nat) (e : Option (Nat × Nat)), es[i]? = some e ∧ entryThrows D d ms (entryPayloads buf e) = some t
  | [], t, h => by simp [finishThrows] at h
  | e :: es, t, h => by
    unfold finishThrows at h
    cases he : entryThrows D d ms (entryPayloads buf e) with
    | some t' => rw [he] at h; simp at h; subst h; exact ⟨0, e, rfl, he⟩
    | none =>
      rw [he] at h
      obtain ⟨i, e', h1, h2⟩ := finishThrows_entry h
      exact ⟨i + 1, e', by simpa using h1, h2⟩

theorem ftableThrows_entry {fid : Feat → Option Nat} {ms : List Mix} {t : Thrown} (h : ftableThrows D fid d ms = some t) :
    ∃ i, entryThrows D d ms (implsOf fid i (featStream D 0 ms)) = some t := by
  unfold ftableThrows at h
  simp only at h
  cases hc : ftableCounts fid (featStream D 0 ms) (List.replicate (ftableSize fid (featStream D 0 ms)) 0) with
  | none => rw [hc] at h; simp at h
  | some counts =>
    rw [hc] at h
    simp only at h
    have hids : ∀ p ∈ featStream D 0 ms, ∃ i, fid p.data.feat = some i ∧ i < ftableSize fid (featStream D 0 ms) := by
      intro p hp
      obtain ⟨i, hi⟩ := ftableCounts_reg hc p hp
      exact ⟨i, hi, ftableSize_gt fid _ p hp i hi⟩
    obtain ⟨counts', h1, h2, h3, h4⟩ := ftableCounts_spec fid (featStream D 0 ms)
      (List.replicate (ftableSize fid (featStream D 0 ms)) 0) (by simpa using hids)
    rw [hc] at h1
    simp only [Option.some.injEq] at h1
    subst h1
    simp only [List.length_replicate] at h2
    have hcounts : ∀ i c : Nat, counts[i]? = some c → c = (implsOf fid i (featStream D 0 ms)).length := by
      intro i c hc
      have hlt : i < counts.length := (List.getElem?_eq_some_iff.1 hc).1
      have := h3 i 0 (by rw [List.getElem?_replicate, if_pos (by omega)])
      rw [this] at hc; simp at hc; exact hc.symm
    have hinit : FillInv fid counts (featStream D 0 ms) []
        ⟨List.replicate (ftableSize fid (featStream D 0 ms)) none, 0, List.replicate (featStream D 0 ms).length none⟩ := by
      refine ⟨by simp [h2], by simp, ?_, ?_, ?_, ?_⟩
      · simp only [← h2, pending_replicate, h4]
        simp
      · intro i hi
        rw [List.getElem?_replicate, if_pos (by omega)]
        simp [implsOf]
      · intro i b e c h
        rw [List.getElem?_replicate] at h
        split at h <;> simp at h
      · intro i j b e b' e' c c' _ h
        rw [List.getElem?_replicate] at h
        split at h <;> simp at h
    obtain ⟨s, h5, inv⟩ := ftableFill_inv fid counts (featStream D 0 ms) (by rw [h2]; exact hids) hcounts
      (featStream D 0 ms) [] _ (by simp) hinit
    rw [h5] at h
    obtain ⟨i, e, g1, g2⟩ := finishThrows_entry h
    exact ⟨i, by rw [← entryPayloads_eq fid counts _ s inv i e g1]; exact g2⟩

theorem ftableThrows_says {q ms : List Mix} {n : Nat} (hq : ruled D W d q n = .ok ms) (hms : ∀ m ∈ ms, m ∈ mixinsOf W d) {t : Thrown}
    (h : ftableThrows D W.featId d ms = some t) : SaysType D X W d q t := by
  obtain ⟨i, h⟩ := ftableThrows_entry h
  unfold entryThrows at h
  cases hs : sortPayloads (implsOf W.featId i (featStream D 0 ms)) with
  | nil => rw [hs] at h; simp at h
  | cons p ps =>
    rw [hs] at h
    simp only at h
    have hperm := sortPayloads_perm (implsOf W.featId i (featStream D 0 ms))
    have hsort := sortPayloads_sorted (implsOf W.featId i (featStream D 0 ms))
    rw [hs] at hperm hsort
    have hall : ∀ x ∈ p :: ps, W.featId x.data.feat = some i := by
      intro x hx
      have := hperm.subset hx
      simpa [implsOf] using (List.mem_filter.1 this).2
    cases ha : (D.feat p.data.feat).allowClashes with
    | true => rw [ha] at h; simp at h
    | false =>
      rw [ha] at h
      simp only [Bool.false_eq_true, if_false] at h
      cases hf : firstClash (p :: ps) with
      | none => rw [hf] at h; simp at h
      | some x =>
        rcases x with ⟨a, b⟩
        rw [hf] at h
        simp only [Option.map_some, Option.some.injEq] at h
        subst h
        obtain ⟨s1, s2, s3⟩ := firstClash_some hf
        obtain ⟨k, l, g1, g2, g3⟩ := pair_places s1 hperm (List.filter_sublist (l := featStream D 0 ms))
        have hab : payloadLt b a = false := by
          have := List.Pairwise.sublist s1 hsort
          simpa using this
        have hle : b.mixinIndex ≤ a.mixinIndex := by
          unfold payloadLt at hab
          rw [if_neg (by simp [s2]), if_neg (by simp [s3])] at hab
          simpa using hab
        have hsp : provided D ms = (featStream D 0 ms).map (fun p => (p.mixinIndex, p.data)) := (featStream_provided D ms 0).symm
        have fa := hall a (s1.subset (by simp))
        have fb := hall b (s1.subset (by simp))
        exact .clash n ms k l (a.mixinIndex, a.data) (b.mixinIndex, b.data) p.data.feat hq hms g1 (by rw [hsp, List.getElem?_map, g2]; rfl)
          (by rw [hsp, List.getElem?_map, g3]; rfl) (by rw [fa]; simp) (by rw [fa, fb]) (by rw [fa, hall p (by simp)]) ha s2 s3 hle

theorem checkMixins_in (hr : RegInv W) : ∀ {ms : List Mix}, checkMixins W.mixId W.mixDom d ms = .ok () → ∀ m ∈ ms, m ∈ mixinsOf W d
  | [], h, m, hm => by simp at hm
  | x :: ms, h, m, hm => by
    unfold checkMixins at h
    split at h
    · simp at h
    · rename_i h0
      split at h
      · simp at h
      · rename_i h1
        split at h
        · simp at h
        · rcases List.mem_cons.1 hm with rfl | hm'
          · cases hi : W.mixId m with
            | none => exact absurd hi h0
            | some i =>
              obtain ⟨d', g1, g2⟩ := hr.mixReg m i hi
              have : W.mixDom m = some d := by simpa using h1
              rw [this] at g1; simp at g1; subst g1
              exact (mem_mixinsOf W d m).2 ⟨i, g2⟩
          · exact checkMixins_in hr h m hm'

theorem getTypeMut_says (hr : RegInv W) {q : List Mix} {t : Thrown} (h : getTypeMutThrows D X W d d q = some t) : SaysType D X W d q t := by
  unfold getTypeMutThrows at h
  rw [if_neg (by simp)] at h
  have h0 : ruled D W d q 0 = .ok (q.filter (fun m => !(D.mix m).dependency)) := rfl
  cases hl : lookupSection D (W.view D d) (W.doms d) q with
  | hit t' => rw [hl] at h; simp at h
  | failed e =>
    rw [hl] at h
    exact rulesThrows_says q 5 q _ (Nat.le_refl 5) (by omega) rfl h0 h
  | resolved key ms found =>
    rw [hl] at h
    cases found with
    | some t' => simp at h
    | none =>
      simp only at h
      have hq : ∃ n, ruled D W d q n = .ok ms := by
        unfold lookupSection at hl
        split at hl
        · simp at hl
        · cases ha : (applyMutationRules D (rulesOf D (W.view D d) (W.doms d)) q).result with
          | error e' => rw [ha] at hl; simp at hl
          | ok p =>
            rcases p with ⟨k, ms'⟩
            rw [ha] at hl; simp at hl
            unfold applyMutationRules at ha
            rw [rulesOf_map] at ha
            rw [← hl.2.1]
            exact rulesLoop_ruled q 5 _ _ _ _ _ (Nat.le_refl 5) h0 ha
      obtain ⟨n, hq⟩ := hq
      unfold createTypeThrows at h
      cases hc : checkThrows W d ms ms with
      | some t' => rw [hc] at h; simp at h; subst h; exact checkThrows_says hr hq [] ms rfl hc
      | none =>
        rw [hc] at h
        exact ftableThrows_says hq (checkMixins_in hr ((checkThrows_none W d ms ms).1 hc)) h

theorem getType_says (hr : RegInv W) {q : List Mix} {t : Thrown} (h : getTypeThrows D X W d q = some t) : SaysType D X W d q t := by
  unfold getTypeThrows at h
  cases hf : findQuery q (W.doms d).queries with
  | some t' => rw [hf] at h; simp at h
  | none => rw [hf] at h; exact getTypeMut_says hr h

theorem opThrows_says (hr : RegInv W) {op : Op} {t : Thrown} (h : opThrows D X W op = some t) : Says D X W op t := by
  cases op with
  | regFeature d f => exact .regFeature d f t (registerFeature_says h)
  | unregFeature d f => exact .foreign d _ t (unregisterFeature_says hr h)
  | regMixin d m => exact .regMixin d m t (registerMixin_says h)
  | unregMixin d m => exact .foreign d _ t (unregisterMixin_says hr h)
  | regClass d c => exact .other d _ t (registerTypeClass_says h)
  | unregClass d c => simp [opThrows] at h
  | addRule d r => exact .other d _ t (addRule_says h)
  | removeRule d r => simp [opThrows] at h
  | getTypeMut d md q =>
    by_cases hm : md = d
    · subst hm; exact .getTypeMut md q t (getTypeMut_says hr h)
    · simp only [opThrows, getTypeMutThrows, if_pos hm, Option.some.injEq, ne_eq, not_false_eq_true] at h
      subst h
      exact .foreignMutation d md q hm
  | getType d q => exact .getType d q t (getType_says hr h)
  | gc d num => simp [opThrows] at h

end Dnmx
