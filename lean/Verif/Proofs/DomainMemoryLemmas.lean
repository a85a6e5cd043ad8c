import Verif.Spec.DomainMemory
import Verif.Proofs.TypeLemmas
import Verif.Proofs.AnswerLemmas

/-! # Lemmas about domains that run out of memory -/

set_option linter.unusedSimpArgs false
set_option linter.unusedVariables false
set_option linter.unusedSectionVars false

namespace Dnmx
open Spec

/-! ## registration -/

def liftM {α : Type} : Except Err α → Except MemErr α
  | .ok a => .ok a
  | .error e => .error (.err e)

theorem basicRegisterM_cases (nameOf : Nat → List UInt8) (enforce : Bool) (id : Option Nat) (info : Nat) (sparse : List (Option Nat)) (fail : Bool) :
    basicRegisterM nameOf enforce id info sparse fail = liftM (basicRegister nameOf enforce id info sparse) ∨
    (fail = true ∧ basicRegisterM nameOf enforce id info sparse fail = .error .badAlloc) := by
  unfold basicRegisterM basicRegister
  split
  · left; rfl
  · split
    · left; rfl
    · split
      · rename_i e h; left; simp only [h]; rfl
      · rename_i h
        cases fail
        · left; simp only [h]; rfl
        · right; simp
      · rename_i i h; left; simp only [h]; rfl

theorem registerFeatureM_cases (D : Decls) (fail : Bool) (W : World) (d : DomId) (f : Feat) :
    registerFeatureM D fail W d f = noAlloc (registerFeature D W d f) ∨
    (fail = true ∧ registerFeatureM D fail W d f = (.error .badAlloc, W)) := by
  unfold registerFeatureM registerFeature
  rcases basicRegisterM_cases D.featName (!(W.doms d).settings.allowDupFeat) (W.featId f) f (W.doms d).feats fail with h | ⟨hf, h⟩
  · left; rw [h]
    cases basicRegister D.featName (!(W.doms d).settings.allowDupFeat) (W.featId f) f (W.doms d).feats with
    | error e => rfl
    | ok p => rfl
  · right; rw [h]; exact ⟨hf, rfl⟩

theorem noAlloc_ok {r : Except Err Unit × World} {W' : World} (h : noAlloc r = (.ok (), W')) : r = (.ok (), W') := by
  obtain ⟨a, b⟩ := r
  cases a with
  | error e => simp [noAlloc] at h
  | ok u => cases u; simp [noAlloc] at h; rw [h]

theorem noAlloc_err {r : Except Err Unit × World} {W' : World} {e : MemErr} (h : noAlloc r = (.error e, W')) : ∃ e', e = .err e' ∧ r = (.error e', W') := by
  obtain ⟨a, b⟩ := r
  cases a with
  | ok u => simp [noAlloc] at h
  | error e' => simp [noAlloc] at h; exact ⟨e', h.1.symm, by rw [h.2]⟩

theorem registerFeaturesM_cases (D : Decls) (grow : Nat → Bool) (d : DomId) : ∀ (fs : List Feat) (i : Nat) (W : World),
    registerFeaturesM D grow W d i fs = noAlloc (registerFeatures D W d fs) ∨
    ((∃ j, i ≤ j ∧ j < i + fs.length ∧ grow j = true) ∧ ∃ pre W', pre <+: fs ∧ registerFeatures D W d pre = (.ok (), W') ∧ registerFeaturesM D grow W d i fs = (.error .badAlloc, W'))
  | [], i, W => .inl rfl
  | f :: fs, i, W => by
    unfold registerFeaturesM
    by_cases hf : W.featId f ≠ none
    · rw [if_pos hf]
      rcases registerFeaturesM_cases D grow d fs (i + 1) W with h | ⟨⟨j, h1, h2, h3⟩, pre, W', hp, hr, h⟩
      · left; rw [h, registerFeatures, if_pos hf]
      · right
        refine ⟨⟨j, by omega, by simp; omega, h3⟩, f :: pre, W', ?_, ?_, h⟩
        · obtain ⟨t, rfl⟩ := hp; exact ⟨t, rfl⟩
        · rw [registerFeatures, if_pos hf]; exact hr
    · rw [if_neg hf]
      rcases registerFeatureM_cases D (grow i) W d f with h | ⟨hg, h⟩
      · rw [h]
        cases hr : registerFeature D W d f with
        | mk a W1 =>
          cases a with
          | error e => left; rw [registerFeatures, if_neg hf, hr]; rfl
          | ok u =>
            cases u
            simp only [noAlloc]
            rcases registerFeaturesM_cases D grow d fs (i + 1) W1 with h' | ⟨⟨j, h1, h2, h3⟩, pre, W', hp, hr', h'⟩
            · left; rw [h', registerFeatures, if_neg hf, hr]; rfl
            · right
              refine ⟨⟨j, by omega, by simp; omega, h3⟩, f :: pre, W', ?_, ?_, h'⟩
              · obtain ⟨t, rfl⟩ := hp; exact ⟨t, rfl⟩
              · rw [registerFeatures, if_neg hf, hr]; exact hr'
      · right
        rw [h]
        exact ⟨⟨i, by omega, by simp, hg⟩, [], W, ⟨f :: fs, rfl⟩, rfl, rfl⟩

theorem registerMixinM_cases (D : Decls) (grow : Nat → Bool) (W : World) (d : DomId) (m : Mix) :
    registerMixinM D grow W d m = noAlloc (registerMixin D W d m) ∨
    ((∃ j, j ≤ (D.mix m).feats.length ∧ grow j = true) ∧
      (W.mixDom m = none ∨ W.mixDom m = some d) ∧ ∃ pre W', pre <+: (D.mix m).feats.map (·.feat) ∧ registerFeatures D W d pre = (.ok (), W') ∧ registerMixinM D grow W d m = (.error .badAlloc, W')) := by
  unfold registerMixinM registerMixin
  split
  · left; rfl
  · rename_i hmine
    have hmine' : W.mixDom m = none ∨ W.mixDom m = some d := by
      by_cases h1 : W.mixDom m = none
      · exact .inl h1
      · by_cases h2 : W.mixDom m = some d
        · exact .inr h2
        · exact absurd ⟨h1, h2⟩ hmine
    rcases registerFeaturesM_cases D grow d ((D.mix m).feats.map (·.feat)) 0 W with h | ⟨⟨j, h1, h2, h3⟩, pre, W', hp, hr, h⟩
    · rw [h]
      cases hr : registerFeatures D W d ((D.mix m).feats.map (·.feat)) with
      | mk a W1 =>
        cases a with
        | error e => left; rfl
        | ok u =>
          cases u
          simp only [noAlloc]
          rcases basicRegisterM_cases D.mixName (!(W1.doms d).settings.allowDupMix) (W1.mixId m) m (W1.doms d).mixins (grow (D.mix m).feats.length) with h' | ⟨hg, h'⟩
          · left; rw [h']
            cases basicRegister D.mixName (!(W1.doms d).settings.allowDupMix) (W1.mixId m) m (W1.doms d).mixins with
            | error e => rfl
            | ok p => rfl
          · right; rw [h']
            exact ⟨⟨_, Nat.le_refl _, hg⟩, hmine', _, W1, List.prefix_refl _, hr, rfl⟩
    · right
      rw [h]
      exact ⟨⟨j, by simp at h2; omega, h3⟩, hmine', pre, W', hp, hr, rfl⟩

theorem registerTypeClassM_cases (D : Decls) (fail : Bool) (W : World) (d : DomId) (c : Cls) :
    registerTypeClassM D fail W d c = noAlloc (registerTypeClass D W d c) ∨
    (fail = true ∧ registerTypeClassM D fail W d c = (.error .badAlloc, W)) := by
  unfold registerTypeClassM registerTypeClass
  simp only
  split
  · left; rfl
  · split
    · left; rfl
    · split
      · left; rfl
      · split
        · left; rfl
        · cases fail
          · left; rfl
          · right; simp

theorem addRuleM_cases (D : Decls) (fail : Bool) (W : World) (d : DomId) (r : Rule) :
    addRuleM D fail W d r = noAlloc (addRule D W d r) ∨ (fail = true ∧ addRuleM D fail W d r = (.error .badAlloc, W)) := by
  unfold addRuleM addRule
  split
  · left; rfl
  · simp only
    split
    · left; rfl
    · cases fail
      · left; rfl
      · right; simp

/-! ## blocks -/

theorem freeBlock_some {d : DomId} {t : TypeId} {bs bs' : List (DomId × TypeId)} (h : freeBlock d t bs = some bs') : (d, t) ∈ bs ∧ bs' = bs.erase (d, t) := by
  unfold freeBlock at h
  split at h
  · rename_i hc
    exact ⟨by simpa using hc, (Option.some.inj h).symm⟩
  · cases h

theorem freeBlock_of_mem {d : DomId} {t : TypeId} {bs : List (DomId × TypeId)} (h : (d, t) ∈ bs) : freeBlock d t bs = some (bs.erase (d, t)) := by
  unfold freeBlock
  rw [if_pos (by simpa using h)]

theorem freeBlocks_spec (d : DomId) : ∀ (ts : List TypeId) (bs : List (DomId × TypeId)), bs.Nodup → ts.Nodup → (∀ t ∈ ts, (d, t) ∈ bs) →
    ∃ bs', freeBlocks d ts bs = some bs' ∧ bs'.Nodup ∧ ∀ d' t, (d', t) ∈ bs' ↔ (d', t) ∈ bs ∧ ¬ (d' = d ∧ t ∈ ts)
  | [], bs, hn, _, _ => ⟨bs, rfl, hn, by simp⟩
  | t :: ts, bs, hn, ht, hm => by
    obtain ⟨h1, h2⟩ := List.nodup_cons.1 ht
    have hb : (bs.erase (d, t)).Nodup := hn.erase _
    obtain ⟨bs', e, hn', hx⟩ := freeBlocks_spec d ts (bs.erase (d, t)) hb h2 (fun t' ht' => by
      rw [hn.mem_erase_iff]
      exact ⟨by intro e; simp at e; subst e; exact h1 ht', hm t' (List.mem_cons_of_mem _ ht')⟩)
    refine ⟨bs', ?_, hn', ?_⟩
    · unfold freeBlocks; rw [freeBlock_of_mem (hm t List.mem_cons_self)]; exact e
    · intro d' t'
      rw [hx, hn.mem_erase_iff]
      simp only [ne_eq, Prod.mk.injEq, List.mem_cons]
      constructor
      · rintro ⟨⟨a, b⟩, c⟩
        refine ⟨b, ?_⟩
        rintro ⟨rfl, rfl | h⟩
        · exact a ⟨rfl, rfl⟩
        · exact c ⟨rfl, h⟩
      · rintro ⟨a, b⟩
        refine ⟨⟨?_, a⟩, ?_⟩
        · rintro ⟨rfl, rfl⟩; exact b ⟨rfl, .inl rfl⟩
        · rintro ⟨rfl, h⟩; exact b ⟨rfl, .inr h⟩

theorem collectTypesM_spec (num : TypeId → Nat) (d : DomId) : ∀ (ts : List TypeRec) (qs : List (List Mix × TypeId)) (bs : List (DomId × TypeId)),
    bs.Nodup → ts.Pairwise (fun a b => a.tid ≠ b.tid) → (∀ t ∈ ts, (d, t.tid) ∈ bs) →
    ∃ bs', collectTypesM num d ts qs bs = some ((collectTypes num ts qs).1, (collectTypes num ts qs).2, bs') ∧ bs'.Nodup ∧
      ∀ d' t, (d', t) ∈ bs' ↔ (d', t) ∈ bs ∧ ¬ (d' = d ∧ ∃ r ∈ ts, r.tid = t ∧ ¬ num r.tid > 0)
  | [], qs, bs, hn, _, _ => ⟨bs, rfl, hn, by simp⟩
  | t :: ts, qs, bs, hn, hp, hm => by
    obtain ⟨h1, h2⟩ := List.pairwise_cons.1 hp
    unfold collectTypesM collectTypes
    by_cases hg : num t.tid > 0
    · rw [if_pos hg, if_pos hg]
      obtain ⟨bs', e, hn', hx⟩ := collectTypesM_spec num d ts qs bs hn h2 (fun r hr => hm r (List.mem_cons_of_mem _ hr))
      refine ⟨bs', by rw [e]; rfl, hn', ?_⟩
      intro d' t'
      rw [hx]
      simp only [List.mem_cons, exists_eq_or_imp]
      simp [hg]
    · rw [if_neg hg, if_neg hg, freeBlock_of_mem (hm t List.mem_cons_self)]
      have hb : (bs.erase (d, t.tid)).Nodup := hn.erase _
      obtain ⟨bs', e, hn', hx⟩ := collectTypesM_spec num d ts (qs.filter (fun e => e.2 != t.tid)) (bs.erase (d, t.tid)) hb h2 (fun r hr => by
        rw [hn.mem_erase_iff]
        exact ⟨by intro e; simp at e; exact h1 r hr e.symm, hm r (List.mem_cons_of_mem _ hr)⟩)
      refine ⟨bs', e, hn', ?_⟩
      intro d' t'
      rw [hx, hn.mem_erase_iff]
      simp only [ne_eq, Prod.mk.injEq, List.mem_cons, exists_eq_or_imp]
      constructor
      · rintro ⟨⟨a, b⟩, c⟩
        refine ⟨b, ?_⟩
        rintro ⟨rfl, ⟨rfl, _⟩ | h⟩
        · exact a ⟨rfl, rfl⟩
        · exact c ⟨rfl, h⟩
      · rintro ⟨a, b⟩
        refine ⟨⟨?_, a⟩, ?_⟩
        · rintro ⟨rfl, rfl⟩; exact b ⟨rfl, .inl ⟨rfl, hg⟩⟩
        · rintro ⟨rfl, h⟩; exact b ⟨rfl, .inr h⟩

theorem BlocksExact.sameTypes {M M' : MWorld} (h : BlocksExact M) (hb : M'.blocks = M.blocks) (ht : ∀ d, (M'.W.doms d).types = (M.W.doms d).types) : BlocksExact M' :=
  ⟨by rw [hb]; exact h.nodup, fun d t => by rw [hb, h.exact, ht]⟩

theorem tids_nodup {types : List TypeRec} (h : types.Pairwise (fun a b => a.tid ≠ b.tid)) : (types.map (·.tid)).Nodup := by
  unfold List.Nodup
  rw [List.pairwise_map]
  exact h

/-! ## get_type -/

/-- how get_type ends -/
inductive GetM (D : Decls) (M : MWorld) (d : DomId) (q : List Mix) (r : Except Err TypeId × World) : Except MemErr TypeId × MWorld → Prop
  | same (M' : MWorld) (hW : M'.W = r.2) (hb : M'.blocks = M.blocks ∧ ((M'.W.doms d).types = (M.W.doms d).types) ∨
      M'.blocks = (d, M.W.nextType) :: M.blocks ∧ ∃ t, t.tid = M.W.nextType ∧ (M'.W.doms d).types = (M.W.doms d).types ++ [t]) : GetM D M d q r (liftM r.1, M')
  | nothing : GetM D M d q r (.error .badAlloc, M)
  | type (t : TypeRec) (h : (applyMutationRules D (rulesOf D (M.W.view D d) (M.W.doms d)) q).result = .ok (q, t.mixins))
      (hmiss : findQuery q (M.W.doms d).queries = none) (hne : t.mixins ≠ [])
      (hn : ∀ r ∈ (M.W.doms d).types, r.mixins ≠ t.mixins) (hb : buildType D M.W d M.W.nextType t.mixins = .ok t) (htid : t.tid = M.W.nextType) :
      GetM D M d q r (.error .badAlloc, ⟨{ M.W.setDom d { M.W.doms d with types := (M.W.doms d).types ++ [t] } with nextType := M.W.nextType + 1 }, (d, M.W.nextType) :: M.blocks⟩)

theorem setDom_doms_self (W : World) (d : DomId) (x : Dom) : (W.setDom d x).doms d = x := by simp [World.setDom, upd]

theorem getTypeMut_miss (D : Decls) (W : World) (d : DomId) (q : List Mix) (hq : findQuery q (W.doms d).queries = none) :
    getTypeMut D W d d q =
    match (applyMutationRules D (rulesOf D (W.view D d) (W.doms d)) q).result with
    | .error e => (.error e, W)
    | .ok (key, ms) =>
      match (if ms.isEmpty then some emptyTid else (findType ms (W.doms d).types).map (·.tid)) with
      | some t => (.ok t, W.setDom d { W.doms d with queries := storeQuery key t (W.doms d).queries })
      | none =>
        match buildType D W d W.nextType ms with
        | .error e => (.error e, W)
        | .ok t => (.ok (emplaceSection (W.doms d) key t).1, { W.setDom d (emplaceSection (W.doms d) key t).2 with nextType := W.nextType + 1 }) := by
  unfold getTypeMut
  rw [if_neg (by simp)]
  simp only [lookupSection, hq]
  cases (applyMutationRules D (rulesOf D (W.view D d) (W.doms d)) q).result with
  | error e => rfl
  | ok p =>
    obtain ⟨key, ms⟩ := p
    simp only
    cases (if ms.isEmpty then some emptyTid else (findType ms (W.doms d).types).map (·.tid)) with
    | none => rfl
    | some t => rfl

theorem resolveM_cases (D : Decls) (F : Faults) (M : MWorld) (d : DomId) (q : List Mix) (hq : findQuery q (M.W.doms d).queries = none) :
    GetM D M d q (getTypeMut D M.W d d q) (resolveM D F M d q) := by
  rw [getTypeMut_miss D M.W d q hq]
  unfold resolveM
  simp only
  by_cases hl : (List.range ((applyMutationRules D (rulesOf D (M.W.view D d) (M.W.doms d)) q).passes + 1)).any F.lists = true
  · rw [if_pos hl]; exact .nothing
  · rw [if_neg hl]
    cases hr : (applyMutationRules D (rulesOf D (M.W.view D d) (M.W.doms d)) q).result with
    | error e => exact .same (r := (.error e, M.W)) M rfl (.inl ⟨rfl, rfl⟩)
    | ok p =>
      obtain ⟨key, ms⟩ := p
      have hk := applyMutationRules_key D _ q key ms hr
      subst hk
      simp only
      by_cases he : ms = []
      · subst he
        simp only [List.isEmpty_nil, if_true, storeFoundM, storeQueryM]
        by_cases hf : F.queryNode = true
        · rw [hq]; simp only [hf, Option.isNone_none, Bool.and_self, if_true]
          exact .nothing
        · simp only [hf, Bool.false_and, Bool.false_eq_true, if_false]
          exact .same (r := (.ok emptyTid, M.W.setDom d { M.W.doms d with queries := storeQuery key emptyTid (M.W.doms d).queries })) _ rfl
            (.inl ⟨rfl, by simp [setDom_doms_self]⟩)
      · have he' : ms.isEmpty = false := by simpa using he
        simp only [he', Bool.false_eq_true, if_false]
        cases hf : findType ms (M.W.doms d).types with
        | some t =>
          simp only [Option.map_some, storeFoundM, storeQueryM]
          by_cases hq' : F.queryNode = true
          · rw [hq]; simp only [hq', Option.isNone_none, Bool.and_self, if_true]
            exact .nothing
          · simp only [hq', Bool.false_and, Bool.false_eq_true, if_false]
            exact .same (r := (.ok t.tid, M.W.setDom d { M.W.doms d with queries := storeQuery key t.tid (M.W.doms d).queries })) _ rfl
              (.inl ⟨rfl, by simp [setDom_doms_self]⟩)
        | none =>
          simp only [Option.map_none, createTypeM]
          cases hc : checkMixins M.W.mixId M.W.mixDom d ms with
          | error e =>
            have hb : buildType D M.W d M.W.nextType ms = .error e := by unfold buildType; rw [hc]
            rw [hb]
            exact .same (r := (.error e, M.W)) M rfl (.inl ⟨rfl, rfl⟩)
          | ok u =>
            cases u
            simp only
            by_cases hcn : F.counts = true
            · rw [if_pos hcn]; exact .nothing
            · rw [if_neg hcn]
              by_cases hbl : F.block = true
              · rw [if_pos hbl]; exact .nothing
              · rw [if_neg hbl]
                cases hft : buildFtable D M.W.featId ms with
                | error e =>
                  have hb : buildType D M.W d M.W.nextType ms = .error e := by unfold buildType; rw [hc]; simp only [hft]
                  rw [hb]
                  simp only [dropTypeM]
                  rw [freeBlock_of_mem List.mem_cons_self]
                  simp only [List.erase_cons_head]
                  exact .same (r := (.error e, M.W)) _ rfl (.inl ⟨rfl, rfl⟩)
                | ok ft =>
                  have hb : buildType D M.W d M.W.nextType ms =
                      .ok ⟨M.W.nextType, d, ms, layout (ms.map D.mix), sparseTable (ms.filterMap M.W.mixId), ft⟩ := by
                    unfold buildType; rw [hc]; simp only [hft]
                  have hn := findType_none.1 hf
                  have h2 := hr
                  rw [hb]
                  simp only [emplaceM]
                  split
                  · simp only [dropTypeM]
                    rw [freeBlock_of_mem List.mem_cons_self]
                    simp only [List.erase_cons_head]
                    exact .nothing
                  · simp only [hf, emplaceSection, storeFoundM, storeQueryM]
                    by_cases hq' : F.queryNode = true
                    · simp only [setDom_doms_self, hq, hq', Option.isNone_none, Bool.and_self, if_true]
                      exact .type ⟨M.W.nextType, d, ms, layout (ms.map D.mix), sparseTable (ms.filterMap M.W.mixId), ft⟩ hr hq he hn hb rfl
                    · simp only [hq', Bool.false_and, Bool.false_eq_true, if_false]
                      exact .same (r := (.ok M.W.nextType, { M.W.setDom d { M.W.doms d with
                          types := (M.W.doms d).types ++ [⟨M.W.nextType, d, ms, layout (ms.map D.mix), sparseTable (ms.filterMap M.W.mixId), ft⟩],
                          queries := storeQuery key M.W.nextType (M.W.doms d).queries } with nextType := M.W.nextType + 1 })) _
                        (by
                          simp only [World.setDom]
                          congr 1
                          funext x
                          simp only [upd]
                          by_cases hx : x = d
                          · simp [hx]
                          · simp [hx])
                        (.inr ⟨rfl, ⟨M.W.nextType, d, ms, layout (ms.map D.mix), sparseTable (ms.filterMap M.W.mixId), ft⟩, rfl, by simp [World.setDom, upd]⟩)

theorem getTypeMutM_cases (D : Decls) (F : Faults) (M : MWorld) (d md : DomId) (q : List Mix) :
    GetM D M d q (getTypeMut D M.W d md q) (getTypeMutM D F M d md q) := by
  unfold getTypeMutM
  by_cases hmd : md ≠ d
  · rw [if_pos hmd]
    have : getTypeMut D M.W d md q = (.error .foreignMutation, M.W) := by unfold getTypeMut; rw [if_pos hmd]
    rw [this]
    exact .same (r := (.error .foreignMutation, M.W)) M rfl (.inl ⟨rfl, rfl⟩)
  · rw [if_neg hmd]
    simp only [ne_eq, Decidable.not_not] at hmd
    subst hmd
    cases hq : findQuery q (M.W.doms md).queries with
    | some t =>
      have : getTypeMut D M.W md md q = (.ok t, M.W) := by unfold getTypeMut; rw [if_neg (by simp)]; simp only [lookupSection, hq]
      rw [this]
      exact .same (r := (.ok t, M.W)) M rfl (.inl ⟨rfl, rfl⟩)
    | none => exact resolveM_cases D F M md q hq

theorem getTypeM_cases (D : Decls) (F : Faults) (M : MWorld) (d : DomId) (q : List Mix) :
    GetM D M d q (getType D M.W d q) (getTypeM D F M d q) := by
  unfold getTypeM getType
  cases hq : findQuery q (M.W.doms d).queries with
  | some t => exact .same (r := (.ok t, M.W)) M rfl (.inl ⟨rfl, rfl⟩)
  | none =>
    simp only
    split
    · exact .nothing
    · exact getTypeMutM_cases D F M d d q

end Dnmx
