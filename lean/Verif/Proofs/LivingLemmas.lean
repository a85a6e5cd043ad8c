import Verif.Proofs.ActingLemmas
import Verif.Proofs.HomeLemmas
import Verif.Props.Acting
import Verif.Spec.Living

/-! # Lemmas about messages that use domains and objects -/

set_option linter.unusedSimpArgs false
set_option linter.unusedVariables false
set_option linter.unusedSectionVars false

namespace Dnmx
open Spec

variable {D : Decls} {orc : Orc} {d : DomId} {P : Pledge} {B : Bodies}

/-! ## States in which all is well -/

theorem WellS.inv {S : Sys} (hw : WellS D d P S) : SysInv D d S := by
  obtain ⟨s, ops, -, hW⟩ := hw.past
  refine ⟨?_, ?_, ⟨hw.ok.heap, hw.ok.typed⟩, fun o ob t h1 h2 => there_some.1 (hw.ok.there o ob t h1 h2), hw.log⟩
  · rw [hW]; exact reachable_reg D s ops
  · rw [hW]; exact reachable_types D s ops d

theorem WellS.env {S : Sys} (hw : WellS D d P S) : EnvOk D (TyEnv.ofWorld S.W d) := ofWorld_ok (WellS.inv hw).reg (WellS.inv hw).types hw.fits

theorem featureUse_disciplined {op : Op} (h : FeatureUse D P op) : op.disciplined D P.home P.used := by
  cases op <;> exact h

theorem WellS.next {S S' : Sys} (hw : WellS D d P S) (hi : SysInv D d S') (hp : ∃ more, (∀ op ∈ more, FeatureUse D P op) ∧ S'.W = run D S.W more) (hf : TypesFit D S'.W d)
    (hl : ∀ k, P.known k → Alive S.h k → Alive S'.h k) : WellS D d P S' := by
  obtain ⟨s, ops, h1, h2⟩ := hw.past
  obtain ⟨more, h3, h4⟩ := hp
  refine ⟨SysInv.ok hi, hi.log, ⟨s, ops ++ more, ?_, ?_⟩, hf, fun k hk => hl k hk (hw.known k hk)⟩
  · intro op hop
    rcases List.mem_append.1 hop with h | h
    · exact h1 op h
    · exact h3 op h
  · rw [h4, h2, run_append]

/-- A message of the domain is in the table of a type as its declaration says. -/
theorem entry_facts {S : Sys} (hw : WellS D d P S) {t : TypeId} {r : TypeRec} (hr : (S.W.doms d).typeAt d t = some r) {f : Feat} (hf : P.home f = d) {e : FEntry}
    (he : r.ftableAt (S.W.featId f) = some e) :
    (∃ p ps, e.pls = p :: ps ∧ ∀ q ∈ ps.take e.topBack, q.data.bid = p.data.bid) ∧ (∀ p ∈ e.pls, ∃ m, r.mixins[p.mixinIndex]? = some m ∧ p.data ∈ (D.mix m).feats ∧ p.data.feat = f) ∧
    RanksImpls D r.mixins f (e.pls.map Payload.pair) ∧ r.mixins.Nodup := by
  obtain ⟨s, ops, h1, h2⟩ := hw.past
  have hd : Props.FeatureDiscipline D ops := ⟨P.home, P.used, fun op h => featureUse_disciplined (h1 op h)⟩
  have hi := WellS.inv hw
  have hb : BuiltFor D r f (S.W.featId f) := by
    cases hx : S.W.featId f with
    | none => rw [hx] at he; simp [TypeRec.ftableAt] at he
    | some i =>
      obtain ⟨d', hd'⟩ := hi.reg.featReg f i hx
      have hhome := (reachable_home D P.home P.used s ops (fun op h => featureUse_disciplined (h1 op h))).1
      rw [← h2] at hhome
      have := hhome.home d' i f hd'
      rw [hf] at this; subst this
      have := Props.C29_types_of_domain_partial D s ops hd d t r (by rw [← h2]; exact hr) f ((mem_featuresOf _ _ _).2 ⟨i, by rw [← h2]; exact hd'⟩)
      rw [← h2, hx] at this
      exact this
  have hfacts := hb.facts
  rw [he] at hfacts
  refine ⟨(Props.built_entry hb he).1, ?_, hfacts.2.1, ?_⟩
  · intro p hp
    obtain ⟨m, k1, k2, k3⟩ := allImpls_idx_lt (hfacts.2.1.complete.mem_iff.1 (List.mem_map_of_mem hp))
    exact ⟨m, k1, k2, k3⟩
  · have := (WellS.env hw).nodup t
    have hm : (TyEnv.ofWorld S.W d).mixins t = r.mixins := by simp [TyEnv.ofWorld, hr]
    rw [hm] at this; exact this

/-! ## Outcomes -/

theorem SafeL.mono {r : LOut} {Q R : Sys → Prop} (h : SafeL Q r) (hq : ∀ x, Q x → R x) : SafeL R r := by
  cases r with
  | done x => exact hq x h
  | thrown x e => exact hq x h
  | ub => exact h
  | more => trivial

theorem SafeL.caught {r : LOut} {Q : Sys → Prop} (h : SafeL Q r) (c : Bool) : SafeL Q (if c then r.caught else r) := by
  cases c with
  | false => exact h
  | true => cases r <;> first | exact h | trivial

theorem StillThereS.refl (S : Sys) : StillThereS d S S := fun o ob ho => ⟨ho, fun _ _ => rfl, fun m l v hh => ⟨v, hh⟩⟩

theorem StillThereS.trans {S S' S'' : Sys} (h1 : StillThereS d S S') (h2 : StillThereS d S' S'') : StillThereS d S S'' := by
  intro o ob ho
  obtain ⟨k1, k2, k3⟩ := h1 o ob ho
  obtain ⟨k4, k5, k6⟩ := h2 o ob k1
  refine ⟨k4, fun t ht => by rw [k5 t ht, k2 t ht], fun m l v hh => ?_⟩
  obtain ⟨v', hh'⟩ := k3 m l v hh
  exact k6 m l v' hh'

theorem StillThereS.lives {S S' : Sys} (h : StillThereS d S S') : LivesOn S.h S'.h := by
  intro o ha
  cases hx : S.h.obj? o with
  | none => exact absurd hx ha
  | some ob => exact obj_alive (h o ob hx).1

/-- What an implementation is called for is there. -/
def SelfOkS (d : DomId) (S : Sys) (w : Self) : Prop := SelfOk (TyEnv.ofWorld S.W d) S.h w

theorem StillThereS.self {S S' : Sys} (hs : StillThereS d S S') {w : Self} (hw : SelfOkS d S w) : SelfOkS d S' w := by
  cases w with
  | object o => exact StillThereS.lives hs o hw
  | mixin m l =>
    obtain ⟨o, v, hh⟩ := hw
    obtain ⟨ob, ho⟩ := holds_obj hh
    obtain ⟨v', hh'⟩ := (hs o ob ho).2.2 m l v hh
    exact ⟨o, v', hh'⟩

/-! ## Operations -/

theorem affected_mutateTo (o : Nat) (t : TypeId) (ops : List InitOp) : affected (.mutateTo o t ops) = [o] := rfl

/-- What an operation is: a change of the domains, followed by nothing, an exception, or an operation on objects. -/
theorem sstep_split {S : Sys} (hi : SysInv D d S) (hfit : TypesFit D S.W d) {op : SOp} (hp : ProperS D d S op) :
    ∃ W', (∃ more, (KeepsFeatures D P op → ∀ x ∈ more, FeatureUse D P x) ∧ W' = run D S.W more) ∧ SysInv D d ⟨W', S.h⟩ ∧ TyIn (Stays S.W W' d) S.h ∧
      ((sstep D orc d S op = .ok ⟨W', S.h⟩ ∨ ∃ e, sstep D orc d S op = .throw ⟨W', S.h⟩ e) ∨
       ∃ u oop, sstep D orc d S op = .ofObj W' (ostep D (TyEnv.ofWorld W' d) orc u S.h oop) ∧ TypesFit D W' d ∧ Proper (TyEnv.ofWorld W' d) S.h oop ∧ (u && makesObject oop) = false ∧
         (∀ t ∈ typesIn oop, ∃ r, (W'.doms d).typeAt d t = some r) ∧ (∀ o, oop = .destroy o → destroys o op) ∧ (∀ o, o ∈ affected oop → o ∈ changed op) ∧ (calm op = true → u = false) ∧
         ∀ m o, KeepsMixin D d S m o op → MutatesKeeping (TyEnv.ofWorld W' d) m o oop) := by
  have hsame : TyIn (Stays S.W S.W d) S.h := fun o ob t h1 h2 => by obtain ⟨r, hr⟩ := hi.there o ob t h1 h2; exact ⟨r, hr, hr⟩
  have hdom : ∀ (r : Except Err Unit × World), r.1 ≠ .error .ub → SRes.ofDom S.h r = .ok ⟨r.2, S.h⟩ ∨ ∃ e, SRes.ofDom S.h r = .throw ⟨r.2, S.h⟩ e := by
    rintro ⟨x, W⟩ hx
    cases x with
    | ok u => exact .inl rfl
    | error e => cases e <;> first | exact absurd rfl hx | exact .inr ⟨_, rfl⟩
  have hmut : ∀ o ops (p : World → TypeId → Prop) (k : World → TypeId → SRes), Alive S.h o → ResultFits D d S o ops p →
      ∃ W', (∃ more, (∀ x ∈ more, FeatureUse D P x) ∧ W' = run D S.W more) ∧ SysInv D d ⟨W', S.h⟩ ∧ TyIn (Stays S.W W' d) S.h ∧
        ((∃ e, withMutatedType D d S o ops k = .throw ⟨W', S.h⟩ e) ∨
          ∃ q t r, mutatedList D d S.W S.h o ops = some (.ok q) ∧ getTypeMut D S.W d d q = (.ok t, W') ∧ withMutatedType D d S o ops k = k W' t ∧ TypesFit D W' d ∧ p W' t ∧ (W'.doms d).typeAt d t = some r) := by
    intro o ops p k ha hf
    obtain ⟨x, hx⟩ := mutatedList_some hi ha ops
    unfold withMutatedType
    have hf0 := hf
    unfold ResultFits at hf
    rw [hx] at hf ⊢
    cases x with
    | error e => exact ⟨S.W, ⟨[], by simp, rfl⟩, hi, hsame, .inl ⟨_, rfl⟩⟩
    | ok q =>
      simp only at hf ⊢
      have h1 := hi.getType q
      have h2 : TyIn (Stays S.W (getTypeMut D S.W d d q).2 d) S.h := by
        intro o ob t h1 h2
        obtain ⟨r, h3⟩ := hi.there o ob t h1 h2
        exact ⟨r, h3, stays_append (getTypeMut_grow S.W d d q) h3⟩
      have h3 : (getTypeMut D S.W d d q).2 = run D S.W [.getTypeMut d d q] := rfl
      have h4 := withMutatedType_ok (k := fun W t => .ok ⟨W, S.h⟩) (ok := fun S' => ∃ t r, getTypeMut D S.W d d q = (.ok t, S'.W) ∧ (S'.W.doms d).typeAt d t = some r)
        (bad := fun _ _ => True) hi ha hf0 (fun _ _ => trivial) (fun _ _ _ _ _ _ => trivial) (by
          intro q' t W k1 k2 k3 k4 k5 k6
          rw [hx] at k1; simp at k1; subst k1
          obtain ⟨r, k5⟩ := k5
          exact ⟨t, r, k2, k5⟩)
      unfold withMutatedType at h4
      rw [hx] at h4
      simp only at h4
      cases hg : getTypeMut D S.W d d q with
      | mk y W =>
        rw [hg] at hf h1 h2 h3 h4
        refine ⟨W, ⟨[.getTypeMut d d q], by simp [FeatureUse], h3⟩, h1, h2, ?_⟩
        cases y with
        | error e =>
          left
          cases e <;> first | exact absurd rfl hf | exact ⟨_, rfl⟩
        | ok t =>
          right
          obtain ⟨t', r, k1, k2⟩ := h4
          simp at k1
          subst k1
          exact ⟨q, t, r, rfl, hg, rfl, hf.1, hf.2, k2⟩
  have hkeep : ∀ m o ops q t W', mutatedList D d S.W S.h o ops = some (.ok q) → getTypeMut D S.W d d q = (.ok t, W') →
      ResultFits D d S o ops (fun W t => m ∈ (compositionOf W d t).getD []) → ∀ r, (W'.doms d).typeAt d t = some r → m ∈ (TyEnv.ofWorld W' d).mixins t := by
    intro m o ops q t W' h1 h2 h3 r h4
    unfold ResultFits at h3
    rw [h1] at h3
    simp only [h2] at h3
    have := h3.2
    rw [composition_env h4] at this
    exact this
  cases op with
  | dom op => exact ⟨_, ⟨[op], fun h x hx => by simp at hx; subst hx; exact h, rfl⟩, hi.change (step_reg D S.W op hi.reg) (step_types D S.W hi.reg op d hi.types) (dom_stays hi hp), dom_stays hi hp, .inl (hdom _ hp.1)⟩
  | gc =>
    refine ⟨_, ⟨[.gc d (fun t => (S.h.count t).toNat)], fun _ x hx => by simp at hx; subst hx; trivial, rfl⟩,
      hi.change (step_reg D S.W (.gc d _) hi.reg) (step_types D S.W hi.reg (.gc d _) d hi.types) (gc_stays hi), gc_stays hi, .inl ?_⟩
    have hg : (garbageCollect S.W d (fun t => (S.h.count t).toNat)).1 ≠ .error .ub := by unfold garbageCollect; simp
    exact hdom _ hg
  | obj u op =>
    refine ⟨S.W, ⟨[], by simp, rfl⟩, hi, hsame, .inr ⟨u, op, ?_, hfit, hp.1, hp.2.1, fun t ht => there_some.1 (hp.2.2 t ht), fun o h => h, fun o h => h, fun h => by simpa [calm] using h, fun m o h => h⟩⟩
    unfold sstep
    simp only
    rw [if_pos]
    rw [Bool.and_eq_true, List.all_eq_true, List.all_eq_true]
    refine ⟨fun o _ => hi.used o, fun t ht => ?_⟩
    obtain ⟨r, hr⟩ := there_some.1 (hp.2.2 t ht)
    rw [hr]; rfl
  | mutate u o ops =>
    obtain ⟨W', ⟨more, h1, h2⟩, h3, h4, h5⟩ := hmut o _ _ (fun W t => .ofObj W (mutateTo D (TyEnv.ofWorld W d) orc u S.h o t (initsIn ops))) hp.1 hp.2
    refine ⟨W', ⟨more, fun _ => h1, h2⟩, h3, h4, ?_⟩
    rcases h5 with ⟨e, h5⟩ | ⟨q, t, r, h5, h6, h7, h8, h9, h10⟩
    · exact .inl (.inr ⟨e, h5⟩)
    · have hE := ofWorld_ok h3.reg h3.types h8
      obtain ⟨ob, ho⟩ := alive_obj hE hp.1
      refine .inr ⟨u, .mutateTo o t (initsIn ops), h7, h8, ⟨ob, ho, ?_⟩, by simp [makesObject], ?_, fun o' h => by simp at h, fun o' h => h, fun h => by simpa [calm] using h, ?_⟩
      · rcases h9 with h9 | h9
        · exact .inr (composition_mixins h9 ⟨r, h10⟩)
        · rw [ho] at h9; exact .inl h9
      · intro t' ht'; simp [typesIn] at ht'; subst ht'; exact ⟨r, h10⟩
      · rintro m o' ⟨rfl, hk⟩
        exact ⟨rfl, hkeep m o _ q t W' h5 h6 hk r h10⟩
  | gradual u o ops =>
    cases u with
    | true =>
      refine ⟨S.W, ⟨[], by simp, rfl⟩, hi, hsame, .inl ?_⟩
      unfold sstep
      simp only [if_true]
      obtain ⟨x, hx⟩ := mutatedList_some hi hp.1 ops
      rw [hx]
      cases x with
      | error e => exact .inr ⟨_, rfl⟩
      | ok q => exact .inl rfl
    | false =>
      obtain ⟨W', ⟨more, h1, h2⟩, h3, h4, h5⟩ := hmut o _ _ (fun W t => .ofObj W (resetType D (TyEnv.ofWorld W d) orc false S.h o t)) hp.1 hp.2
      refine ⟨W', ⟨more, fun _ => h1, h2⟩, h3, h4, ?_⟩
      rcases h5 with ⟨e, h5⟩ | ⟨q, t, r, h5, h6, h7, h8, h9, h10⟩
      · exact .inl (.inr ⟨e, h5⟩)
      · refine .inr ⟨false, .reset o t, h7, h8, hp.1, rfl, ?_, fun o' h => by simp at h, fun o' h => h, fun _ => rfl, ?_⟩
        · intro t' ht'; simp [typesIn] at ht'; subst ht'; exact ⟨r, h10⟩
        · rintro m o' ⟨rfl, hk⟩
          exact ⟨rfl, hkeep m o _ q t W' h5 h6 hk r h10⟩
  | cMutate u o ops =>
    obtain ⟨W', ⟨more, h1, h2⟩, h3, h4, h5⟩ := hmut o _ _ (fun W t => .ofObj W (withMutation D (TyEnv.ofWorld W d) orc u S.h o t (cMutateOpSteps D ops 0 ((TyEnv.ofWorld W d).mixins t)))) hp.1 hp.2
    refine ⟨W', ⟨more, fun _ => h1, h2⟩, h3, h4, ?_⟩
    rcases h5 with ⟨e, h5⟩ | ⟨q, t, r, h5, h6, h7, h8, h9, h10⟩
    · exact .inl (.inr ⟨e, h5⟩)
    · refine .inr ⟨u, .mutation o t _, h7, h8, ⟨hp.1, composition_mixins h9 ⟨r, h10⟩, cMutateOpSteps_proper ops _ 0⟩, by simp [makesObject], ?_, fun o' h => by simp at h, fun o' h => h,
        fun h => by simpa [calm] using h, ?_⟩
      · intro t' ht'; simp [typesIn] at ht'; subst ht'; exact ⟨r, h10⟩
      · rintro m o' ⟨rfl, hk⟩
        exact ⟨rfl, hkeep m o _ q t W' h5 h6 hk r h10⟩

/-- Who lives on: all objects that are not destroyed, if those that are changed are not changed during unwinding. -/
theorem ostep_lives {E : TyEnv} (hE : EnvOk D E) {h : Heap} (hg : Good D E h) {u : Bool} {op : OOp} (hp : Proper E h op) {o : Nat} (ha : Alive h o) (hd : op ≠ .destroy o) (hu : o ∈ affected op → u = false) :
    HStepOk (ostep D E orc u h op) (fun h' => Alive h' o) (fun h' _ => Alive h' o) := by
  by_cases hn : o ∉ subjects op
  · exact (bystander (orc := orc) hE hg u hp ha hn).mono (fun h' hx => by unfold Alive; rw [hx]; exact ha) (fun h' _ hx => by unfold Alive; rw [hx]; exact ha)
  · have hn' : o ∈ affected op := Classical.not_not.1 (fun h => hn (affected_subjects h))
    rw [hu hn']
    refine alive_step (orc := orc) hE hg hp ?_ ha
    rintro x rfl
    simp [affected, subjects] at hn'
    exact hd (by rw [hn'])

/-- An operation of the program: all is well afterwards, and what is not destroyed lives. -/
theorem sstep_well {S : Sys} (hw : WellS D d P S) {op : SOp} (hp : ProperS D d S op) (hk : KeepsFeatures D P op)
    (hf : ∀ S', (sstep D orc d S op = .ok S' ∨ ∃ e, sstep D orc d S op = .throw S' e) → TypesFit D S'.W d)
    (hs : ∀ o, P.known o → ¬ destroys o op ∧ (o ∈ changed op → calm op = true)) :
    SafeL (fun S' => WellS D d P S' ∧ ∀ o, Alive S.h o → ¬ destroys o op → (o ∈ changed op → calm op = true) → Alive S'.h o) (.ofSys (sstep D orc d S op)) := by
  have hi := WellS.inv hw
  obtain ⟨W', ⟨more, h1, h2⟩, h3, h4, h5⟩ := sstep_split (orc := orc) (P := P) hi hw.fits hp
  have h0 := sstep_ok (orc := orc) hi hw.fits hp
  rcases h5 with h5 | ⟨u, oop, h5, h6, h7, h8, h9, h10, h11, h12, h13⟩
  · have hfit : TypesFit D W' d := hf ⟨W', S.h⟩ h5
    have hwell : WellS D d P ⟨W', S.h⟩ := WellS.next hw h3 ⟨more, h1 hk, h2⟩ hfit (fun k _ h => h)
    rcases h5 with h5 | ⟨e, h5⟩ <;> rw [h5] <;> exact ⟨hwell, fun o ha _ _ => ha⟩
  · have hE := ofWorld_ok h3.reg h3.types h6
    have hl : ∀ o, Alive S.h o → ¬ destroys o op → (o ∈ changed op → calm op = true) → HStepOk (ostep D (TyEnv.ofWorld W' d) orc u S.h oop) (fun h' => Alive h' o) (fun h' _ => Alive h' o) :=
      fun o ha hnd hc => ostep_lives hE h3.good h7 ha (fun h => hnd (h10 o h)) (fun h => h12 (hc (h11 o h)))
    rw [h5] at h0 ⊢
    have key : ∀ h', SysInv D d ⟨W', h'⟩ → (∀ o, Alive S.h o → ¬ destroys o op → (o ∈ changed op → calm op = true) → Alive h' o) →
        WellS D d P ⟨W', h'⟩ ∧ ∀ o, Alive S.h o → ¬ destroys o op → (o ∈ changed op → calm op = true) → Alive h' o :=
      fun h' k1 k2 => ⟨WellS.next hw k1 ⟨more, h1 hk, h2⟩ h6 (fun k hk' ha => k2 k ha (hs k hk').1 (hs k hk').2), k2⟩
    cases hr : ostep D (TyEnv.ofWorld W' d) orc u S.h oop with
    | ok x => rw [hr] at h0 hl; exact key x h0 hl
    | throw x e => rw [hr] at h0 hl; exact key x h0 hl
    | ub => rw [hr] at h0; exact h0

/-- An operation in a message. -/
theorem sstep_allowed {S : Sys} (hw : WellS D d P S) {op : SOp} (ha : Allowed D orc d P S op) :
    SafeL (fun S' => WellS D d P S' ∧ LivesOn S.h S'.h) (.ofSys (sstep D orc d S op)) := by
  obtain ⟨h1, h2, h3, h4, h5⟩ := ha
  exact SafeL.mono (sstep_well hw h1 h3 h5 (fun o _ => ⟨h4 o, fun _ => h2⟩)) (fun S' hx => ⟨hx.1, fun o ho => hx.2 o ho (h4 o) (fun _ => h2)⟩)

theorem stays_holds {S : Sys} {W' : World} (hs : TyIn (Stays S.W W' d) S.h) {o : Nat} {m : Mix} {l : Loc} {v : Nat} : Holds (TyEnv.ofWorld W' d) S.h o m l v ↔ Holds (TyEnv.ofWorld S.W d) S.h o m l v :=
  holds_congr (fun o ob t h1 h2 => (hs o ob t h1 h2).env)

/-- An operation that does not concern an object: it stays what it is. -/
theorem sstep_frame {S : Sys} (hw : WellS D d P S) {op : SOp} (ha : Allowed D orc d P S op) {o : Nat} {ob : Obj} (ho : S.h.obj? o = some ob) (hn : o ∉ changed op) :
    SafeL (fun S' => S'.h.obj? o = some ob ∧ (∀ t, ob.ty = some t → (S'.W.doms d).typeAt d t = (S.W.doms d).typeAt d t) ∧
      ∀ m l v, Holds (TyEnv.ofWorld S.W d) S.h o m l v → ∃ v', Holds (TyEnv.ofWorld S'.W d) S'.h o m l v') (.ofSys (sstep D orc d S op)) := by
  have hi := WellS.inv hw
  obtain ⟨W', ⟨more, h1, h2⟩, h3, h4, h5⟩ := sstep_split (orc := orc) (P := P) hi hw.fits ha.1
  have hty : ∀ t, ob.ty = some t → (W'.doms d).typeAt d t = (S.W.doms d).typeAt d t := by
    intro t ht
    obtain ⟨r, k1, k2⟩ := h4 o ob t ho ht
    rw [k1, k2]
  rcases h5 with h5 | ⟨u, oop, h5, h6, h7, h8, h9, h10, h11, h12, h13⟩
  · have : ∀ m l v, Holds (TyEnv.ofWorld S.W d) S.h o m l v → ∃ v', Holds (TyEnv.ofWorld W' d) S.h o m l v' := fun m l v hh => ⟨v, (stays_holds h4).2 hh⟩
    rcases h5 with h5 | ⟨e, h5⟩ <;> rw [h5] <;> exact ⟨ho, hty, this⟩
  · have hE := ofWorld_ok h3.reg h3.types h6
    have hna : o ∉ affected oop := fun h => hn (h11 o h)
    have k1 := frame (orc := orc) hE h3.good u h7 (obj_alive ho) hna
    have k2 := bystander (orc := orc) hE h3.good u h7 (obj_alive ho) (affected_subjects hna)
    rw [h5]
    have key : ∀ x, SameHolds (TyEnv.ofWorld W' d) o S.h x → ∀ m l v, Holds (TyEnv.ofWorld S.W d) S.h o m l v → ∃ v', Holds (TyEnv.ofWorld W' d) x o m l v' :=
      fun x hx m l v hh => ⟨v, (hx m l v).2 ((stays_holds h4).2 hh)⟩
    cases hr : ostep D (TyEnv.ofWorld W' d) orc u S.h oop with
    | ok x => rw [hr] at k1 k2; exact ⟨by rw [k2]; exact ho, hty, key x k1⟩
    | throw x e => rw [hr] at k1 k2; exact ⟨by rw [k2]; exact ho, hty, key x k1⟩
    | ub => rw [hr] at k1; exact k1

theorem sstep_quiet {S : Sys} (hw : WellS D d P S) {op : SOp} (ha : Allowed D orc d P S op) (hq : changed op = []) :
    SafeL (fun S' => WellS D d P S' ∧ StillThereS d S S') (.ofSys (sstep D orc d S op)) := by
  have h1 := sstep_allowed hw ha
  have h2 : ∀ o ob, S.h.obj? o = some ob → _ := fun o ob ho => sstep_frame hw ha ho (by rw [hq]; simp)
  cases hr : sstep D orc d S op with
  | ok S' => rw [hr] at h1 h2; exact ⟨h1.1, h2⟩
  | throw S' e => rw [hr] at h1 h2; exact ⟨h1.1, h2⟩
  | ub => rw [hr] at h1; exact h1

/-- An external mixin that the operation does not remove. -/
theorem sstep_keeps {S : Sys} (hw : WellS D d P S) {op : SOp} (ha : Allowed D orc d P S op) {o : Nat} {m : Mix} {l : Loc} {v : Nat} (hx : (D.mix m).external = true) (hk : KeepsMixin D d S m o op)
    (hh : Holds (TyEnv.ofWorld S.W d) S.h o m l v) : SafeL (fun S' => ∃ v', Holds (TyEnv.ofWorld S'.W d) S'.h o m l v') (.ofSys (sstep D orc d S op)) := by
  have hi := WellS.inv hw
  obtain ⟨W', ⟨more, h1, h2⟩, h3, h4, h5⟩ := sstep_split (orc := orc) (P := P) hi hw.fits ha.1
  rcases h5 with h5 | ⟨u, oop, h5, h6, h7, h8, h9, h10, h11, h12, h13⟩
  · have := (stays_holds h4).2 hh
    rcases h5 with h5 | ⟨e, h5⟩ <;> rw [h5] <;> exact ⟨v, this⟩
  · have hE := ofWorld_ok h3.reg h3.types h6
    have hu := h12 ha.2.1
    subst hu
    have k1 := external_kept (orc := orc) hE h3.good h7 hx (h13 m o hk) ((stays_holds h4).2 hh)
    rw [h5]
    cases hr : ostep D (TyEnv.ofWorld W' d) orc false S.h oop with
    | ok x => rw [hr] at k1; exact k1
    | throw x e => rw [hr] at k1; exact k1
    | ub => rw [hr] at k1; exact k1

/-! ## Calls -/

/-- Deeds that are quiet for what they are done for. -/
def QuietFor (D : Decls) (orc : Orc) (d : DomId) (P : Pledge) (w : Self) (a : Doing) : Prop :=
  (∀ m l, w = .mixin m l → ∀ S o, Seen D d P S m o → QuietDeed D orc d P S (a S o)) ∧
  ∀ o', w = .object o' → ∀ S o, WellS D d P S → Alive S.h o → QuietDeed D orc d P S (a S o) ∧ isNextL (a S o) = false

/-- What is needed of calls of implementations: they are fine whenever the rules are followed, and quiet ones leave everything there. -/
structure RunOkL (D : Decls) (orc : Orc) (d : DomId) (P : Pledge) (B : Bodies) (run : Self → List (Doing × Bool) → Sys → LOut) : Prop where
  any : ∀ S, WellS D d P S → (∀ m l p, SelfOkS d S (.mixin m l) → SafeL (fun S' => WellS D d P S' ∧ LivesOn S.h S'.h) (run (.mixin m l) (B.body m p) S)) ∧
    ∀ o p, Alive S.h o → SafeL (fun S' => WellS D d P S' ∧ LivesOn S.h S'.h) (run (.object o) (B.dflt p) S)
  quiet : ∀ S w as, WellS D d P S → SelfOkS d S w → (∀ a ∈ as, QuietFor D orc d P w a.1) → SafeL (fun S' => WellS D d P S' ∧ StillThereS d S S') (run w as S)

theorem ofWorld_mixins_of {W : World} {t : TypeId} {r : TypeRec} (hr : (W.doms d).typeAt d t = some r) : (TyEnv.ofWorld W d).mixins t = r.mixins := by simp [TyEnv.ofWorld, hr]

/-- The functions of these payloads of `r` are quiet. -/
def QuietAtL (D : Decls) (orc : Orc) (d : DomId) (P : Pledge) (B : Bodies) (r : TypeRec) (q : Payload) : Prop :=
  ∀ m, r.mixins[q.mixinIndex]? = some m → ∀ a ∈ B.body m q.data.payload, ∀ S o, Seen D d P S m o → QuietDeed D orc d P S (a.1 S o)

section
variable {run : Self → List (Doing × Bool) → Sys → LOut} (hrun : RunOkL D orc d P B run)
include hrun

theorem callAtL_eq {S : Sys} (hw : WellS D d P S) {o : Nat} {ob : Obj} (ho : S.h.obj? o = some ob) {t : TypeId} (hty : ob.ty = some t) {r : TypeRec} (hr : (S.W.doms d).typeAt d t = some r)
    {p : Payload} {m : Mix} (hm : r.mixins[p.mixinIndex]? = some m) : ∃ l, SelfOkS d S (.mixin m l) ∧ callAtL d B run o t p S = run (.mixin m l) (B.body m p.data.payload) S := by
  have hob := hw.ok.heap.objs o ob ho
  unfold ObjOk at hob
  rw [← ofWorld_mixins_of hr] at hm
  cases hd : ob.data with
  | none =>
    rw [hd] at hob
    have := hob t hty
    rw [this] at hm; simp at hm
  | some a =>
    rw [hd] at hob
    obtain ⟨t', k1, k2, k3, k4⟩ := hob
    rw [hty] at k1; simp at k1; subst k1
    obtain ⟨sl, v, q1, q2, q3, q4⟩ := k4 _ m hm
    refine ⟨sl.loc, ⟨o, v, p.mixinIndex, sl, ⟨ob, t, a, ho, hty, hd, hm, q1⟩, rfl, q3⟩, ?_⟩
    rw [ofWorld_mixins_of hr] at hm
    unfold callAtL
    have : S.h.slot? a p.mixinIndex = some sl := by simp [Heap.slot?, k3, q1]
    simp only [hr, ho, Option.bind_some, hd, this, hm]

theorem callEachL_quiet {o : Nat} {t : TypeId} {r : TypeRec} : ∀ (qs : List Payload) (S : Sys) (ob : Obj), WellS D d P S → S.h.obj? o = some ob → ob.ty = some t → (S.W.doms d).typeAt d t = some r →
    (∀ q ∈ qs, (∃ m, r.mixins[q.mixinIndex]? = some m) ∧ QuietAtL D orc d P B r q) → SafeL (fun S' => WellS D d P S' ∧ StillThereS d S S') (callEachL d B run o t qs S)
  | [], S, ob, hw, ho, hty, hr, hq => ⟨hw, StillThereS.refl S⟩
  | q :: qs, S, ob, hw, ho, hty, hr, hq => by
    obtain ⟨⟨m, hm⟩, hqm⟩ := hq q (by simp)
    obtain ⟨l, h1, h2⟩ := callAtL_eq hrun hw ho hty hr hm
    have h3 := hrun.quiet S (.mixin m l) (B.body m q.data.payload) hw h1 (fun a ha => ⟨fun m' l' h => by simp at h; obtain ⟨rfl, rfl⟩ := h; exact hqm m hm a ha, fun o h => by simp at h⟩)
    unfold callEachL
    rw [h2]
    cases hx : run (.mixin m l) (B.body m q.data.payload) S with
    | done S' =>
      rw [hx] at h3
      simp only
      obtain ⟨k1, k2, -⟩ := h3.2 o ob ho
      exact SafeL.mono (callEachL_quiet qs S' ob h3.1 k1 hty (by rw [k2 t hty]; exact hr) (fun q hq' => hq q (by simp [hq']))) (fun x hx => ⟨hx.1, StillThereS.trans h3.2 hx.2⟩)
    | thrown S' e => rw [hx] at h3; exact h3
    | ub => rw [hx] at h3; exact h3
    | more => trivial

theorem callEachL_last {o : Nat} {t : TypeId} {r : TypeRec} {p : Payload} (hp : ∃ m, r.mixins[p.mixinIndex]? = some m) : ∀ (qs : List Payload) (S : Sys) (ob : Obj), WellS D d P S → S.h.obj? o = some ob → ob.ty = some t → (S.W.doms d).typeAt d t = some r →
    (∀ q ∈ qs, (∃ m, r.mixins[q.mixinIndex]? = some m) ∧ QuietAtL D orc d P B r q) → SafeL (fun S' => WellS D d P S' ∧ LivesOn S.h S'.h) (callEachL d B run o t (qs ++ [p]) S)
  | [], S, ob, hw, ho, hty, hr, hq => by
    obtain ⟨m, hm⟩ := hp
    obtain ⟨l, h1, h2⟩ := callAtL_eq hrun hw ho hty hr hm
    have h3 := (hrun.any S hw).1 m l p.data.payload h1
    rw [List.nil_append]
    unfold callEachL
    rw [h2]
    cases hx : run (.mixin m l) (B.body m p.data.payload) S with
    | done S' => rw [hx] at h3; exact h3
    | thrown S' e => rw [hx] at h3; exact h3
    | ub => rw [hx] at h3; exact h3
    | more => trivial
  | q :: qs, S, ob, hw, ho, hty, hr, hq => by
    obtain ⟨⟨m, hm⟩, hqm⟩ := hq q (by simp)
    obtain ⟨l, h1, h2⟩ := callAtL_eq hrun hw ho hty hr hm
    have h3 := hrun.quiet S (.mixin m l) (B.body m q.data.payload) hw h1 (fun a ha => ⟨fun m' l' h => by simp at h; obtain ⟨rfl, rfl⟩ := h; exact hqm m hm a ha, fun o h => by simp at h⟩)
    rw [List.cons_append]
    unfold callEachL
    rw [h2]
    cases hx : run (.mixin m l) (B.body m q.data.payload) S with
    | done S' =>
      rw [hx] at h3
      simp only
      obtain ⟨k1, k2, -⟩ := h3.2 o ob ho
      exact SafeL.mono (callEachL_last hp qs S' ob h3.1 k1 hty (by rw [k2 t hty]; exact hr) (fun q hq' => hq q (by simp [hq']))) (fun x hx => ⟨hx.1, fun o ha => hx.2 o (StillThereS.lives h3.2 o ha)⟩)
    | thrown S' e => rw [hx] at h3; exact ⟨h3.1, StillThereS.lives h3.2⟩
    | ub => rw [hx] at h3; exact h3
    | more => trivial

variable (hF : KeepsRulesL D orc d P B)
include hF

theorem quietAtL_top {r : TypeRec} {f : Feat} {e : FEntry} (hn : r.mixins.Nodup) (hR : RanksImpls D r.mixins f (e.pls.map Payload.pair)) (hmu : P.multi f) {i j : Nat} {p q : Payload} (hij : i < j)
    (hi : e.pls[i]? = some p) (hj : e.pls[j]? = some q) (hb : p.data.bid = q.data.bid) : QuietAtL D orc d P B r q := by
  intro m hm a ha S o hs
  exact hF.multicasts f hmu r.mixins _ i j p.pair q.pair m hn hR hij (by rw [List.getElem?_map, hi]; rfl) (by rw [List.getElem?_map, hj]; rfl) hb hm a ha S o hs

theorem quietAtL_quiet {r : TypeRec} {f : Feat} (hq : P.quiet f) {q : Payload} (hm : ∃ m, r.mixins[q.mixinIndex]? = some m ∧ q.data ∈ (D.mix m).feats ∧ q.data.feat = f) : QuietAtL D orc d P B r q := by
  intro m hm' a ha S o hs
  obtain ⟨m', k1, k2, k3⟩ := hm
  rw [hm'] at k1; simp at k1; subst k1
  exact (hF.quiet f hq).1 m q.data k2 k3 a ha S o hs

theorem sendToL_ok {S : Sys} (hw : WellS D d P S) {o : Nat} (ha : Alive S.h o) {f : Feat} (hh : P.home f = d) {multi : Bool} (hmu : multi = true → P.multi f) :
    SafeL (fun S' => WellS D d P S' ∧ LivesOn S.h S'.h) (sendToL D d B run o f multi S) := by
  have hi := WellS.inv hw
  obtain ⟨ob, ho⟩ := alive_obj (WellS.env hw) ha
  obtain ⟨t, hty⟩ := typed_obj (WellS.env hw) hi.good ho
  obtain ⟨r, hr⟩ := hi.there o ob t ho hty
  unfold sendToL
  simp only [ho, Option.bind_some, hty, hr]
  cases he : r.ftableAt (S.W.featId f) with
  | none =>
    simp only
    cases hd : (D.feat f).defaultPayload with
    | none => exact ⟨hw, fun _ h => h⟩
    | some p => exact (hrun.any S hw).2 o p ha
  | some e =>
    obtain ⟨⟨p, ps, h1, h2⟩, h3, h4, h5⟩ := entry_facts hw hr hh he
    have h3' : ∀ p ∈ e.pls, ∃ m, r.mixins[p.mixinIndex]? = some m := fun p hp => by obtain ⟨m, k, -⟩ := h3 p hp; exact ⟨m, k⟩
    simp only [h1]
    have hpm := h3' p (by rw [h1]; simp)
    cases multi with
    | false => exact callEachL_last hrun hpm [] S ob hw ho hty hr (by simp)
    | true =>
      refine callEachL_last hrun hpm _ S ob hw ho hty hr ?_
      intro q hq
      rw [List.mem_reverse] at hq
      have hqp : q ∈ ps := List.mem_of_mem_take hq
      refine ⟨h3' q (by rw [h1]; simp [hqp]), ?_⟩
      obtain ⟨j, hj⟩ := List.mem_iff_getElem?.1 hqp
      exact quietAtL_top hrun hF h5 h4 (hmu rfl) (i := 0) (j := j + 1) (by omega) (by rw [h1]; rfl) (by rw [h1]; exact hj) (h2 q hq).symm

theorem sendToL_quiet {S : Sys} (hw : WellS D d P S) {o : Nat} (ha : Alive S.h o) {f : Feat} (hh : P.home f = d) (multi : Bool) (hq : P.quiet f) :
    SafeL (fun S' => WellS D d P S' ∧ StillThereS d S S') (sendToL D d B run o f multi S) := by
  have hi := WellS.inv hw
  obtain ⟨ob, ho⟩ := alive_obj (WellS.env hw) ha
  obtain ⟨t, hty⟩ := typed_obj (WellS.env hw) hi.good ho
  obtain ⟨r, hr⟩ := hi.there o ob t ho hty
  unfold sendToL
  simp only [ho, Option.bind_some, hty, hr]
  cases he : r.ftableAt (S.W.featId f) with
  | none =>
    simp only
    cases hd : (D.feat f).defaultPayload with
    | none => exact ⟨hw, StillThereS.refl S⟩
    | some p =>
      exact hrun.quiet S (.object o) (B.dflt p) hw ha (fun a haa => ⟨fun m l h => by simp at h, fun o' _ S' o'' k1 k2 => ⟨(hF.quiet f hq).2 p hd a haa S' o'' k1 k2, (hF.defaults p a haa S' o'' k1 k2).2⟩⟩)
  | some e =>
    obtain ⟨⟨p, ps, h1, h2⟩, h3, h4, h5⟩ := entry_facts hw hr hh he
    simp only [h1]
    refine callEachL_quiet hrun _ S ob hw ho hty hr ?_
    intro q hq'
    have hqe : q ∈ e.pls := by
      rw [h1]
      cases multi with
      | false => simp at hq'; simp [hq']
      | true =>
        simp at hq'
        rcases hq' with hq' | rfl
        · simp [List.mem_of_mem_take hq']
        · simp
    refine ⟨?_, quietAtL_quiet hrun hF hq (h3 q hqe)⟩
    obtain ⟨m, k, -⟩ := h3 q hqe
    exact ⟨m, k⟩

end

/-- What follows is in the entry; it is one implementation, or a set of bidders. -/
theorem following_facts (w : Following) (e : FEntry) (i : Nat) : w.payloads e i = [] ∨ ∃ (k : Nat) (b : Payload) (bs : List Payload), w.payloads e i = bs ++ [b] ∧ e.pls[k]? = some b ∧
    ∀ q ∈ bs, w = .set ∧ ∃ j, k < j ∧ e.pls[j]? = some q ∧ b.data.bid = q.data.bid := by
  cases w with
  | impl =>
    unfold Following.payloads nextIn
    simp only
    cases findImplementer i 0 e.pls with
    | none => exact .inl rfl
    | some k =>
      simp only
      cases hx : e.pls[k + 1]? with
      | none => exact .inl rfl
      | some b => exact .inr ⟨k + 1, b, [], rfl, hx, by simp⟩
  | set =>
    unfold Following.payloads
    rcases nextSetIn_facts e i with h | ⟨k, b, bs, h1, h2, h3⟩
    · left; simp only [h, List.reverse_nil]
    · right
      refine ⟨k, b, bs.reverse, by simp only [h1, List.reverse_cons], h2, ?_⟩
      intro q hq
      rw [List.mem_reverse] at hq
      exact ⟨rfl, h3 q hq⟩
  | top =>
    unfold Following.payloads
    rcases nextSetIn_facts e i with h | ⟨k, b, bs, h1, h2, h3⟩
    · left; simp only [h, List.take_nil]
    · right
      exact ⟨k, b, [], by simp only [h1]; rfl, h2, by simp⟩

section
variable {run : Self → List (Doing × Bool) → Sys → LOut} (hrun : RunOkL D orc d P B run) (hF : KeepsRulesL D orc d P B)
include hrun hF

theorem followL_ok {S : Sys} (hw : WellS D d P S) {m : Mix} {l : Loc} (hs : SelfOkS d S (.mixin m l)) (k : Following) {f : Feat} (hh : P.home f = d) (hmu : k = .set → P.multi f) :
    SafeL (fun S' => WellS D d P S' ∧ LivesOn S.h S'.h) (followL d B run k f S (.mixin m l)) := by
  have hi := WellS.inv hw
  obtain ⟨o, h1, h2, -⟩ := self_obj (WellS.env hw) hi.good hs
  obtain ⟨ob, ho⟩ := alive_obj (WellS.env hw) h2
  obtain ⟨t, hty⟩ := typed_obj (WellS.env hw) hi.good ho
  obtain ⟨r, hr⟩ := hi.there o ob t ho hty
  unfold followL
  simp only [h1, ho, Option.bind_some, hty, hr]
  cases he : r.ftableAt (S.W.featId f) with
  | none => exact ⟨hw, fun _ h => h⟩
  | some e =>
    cases hx : r.indexOf (S.W.mixId m) with
    | none => exact ⟨hw, fun _ h => h⟩
    | some i =>
      simp only
      obtain ⟨-, h3, h4, h5⟩ := entry_facts hw hr hh he
      have h3' : ∀ p ∈ e.pls, ∃ m, r.mixins[p.mixinIndex]? = some m := fun p hp => by obtain ⟨m, k, -⟩ := h3 p hp; exact ⟨m, k⟩
      rcases following_facts k e i with hy | ⟨n, b, bs, hy, hb, hq⟩
      · rw [hy]; exact ⟨hw, fun _ h => h⟩
      · rw [hy]
        have : SafeL (fun S' => WellS D d P S' ∧ LivesOn S.h S'.h) (callEachL d B run o t (bs ++ [b]) S) := by
          refine callEachL_last hrun (h3' b (List.mem_of_getElem? hb)) bs S ob hw ho hty hr ?_
          intro q hqs
          obtain ⟨hk, j, k1, k2, k3⟩ := hq q hqs
          exact ⟨h3' q (List.mem_of_getElem? k2), quietAtL_top hrun hF h5 h4 (hmu hk) k1 hb k2 k3⟩
        cases hl : bs ++ [b] with
        | nil => simp at hl
        | cons x xs => rw [hl] at this; exact this

theorem followL_quiet {S : Sys} (hw : WellS D d P S) {m : Mix} {l : Loc} (hs : SelfOkS d S (.mixin m l)) (k : Following) {f : Feat} (hh : P.home f = d) (hqf : P.quiet f) :
    SafeL (fun S' => WellS D d P S' ∧ StillThereS d S S') (followL d B run k f S (.mixin m l)) := by
  have hi := WellS.inv hw
  obtain ⟨o, h1, h2, -⟩ := self_obj (WellS.env hw) hi.good hs
  obtain ⟨ob, ho⟩ := alive_obj (WellS.env hw) h2
  obtain ⟨t, hty⟩ := typed_obj (WellS.env hw) hi.good ho
  obtain ⟨r, hr⟩ := hi.there o ob t ho hty
  unfold followL
  simp only [h1, ho, Option.bind_some, hty, hr]
  cases he : r.ftableAt (S.W.featId f) with
  | none => exact ⟨hw, StillThereS.refl S⟩
  | some e =>
    cases hx : r.indexOf (S.W.mixId m) with
    | none => exact ⟨hw, StillThereS.refl S⟩
    | some i =>
      simp only
      obtain ⟨-, h3, h4, h5⟩ := entry_facts hw hr hh he
      rcases following_facts k e i with hy | ⟨n, b, bs, hy, hb, hq⟩
      · rw [hy]; exact ⟨hw, StillThereS.refl S⟩
      · rw [hy]
        have : SafeL (fun S' => WellS D d P S' ∧ StillThereS d S S') (callEachL d B run o t (bs ++ [b]) S) := by
          refine callEachL_quiet hrun _ S ob hw ho hty hr ?_
          intro q hqs
          have hqe : q ∈ e.pls := by
            rcases List.mem_append.1 hqs with hqs | hqs
            · obtain ⟨hk, j, k1, k2, k3⟩ := hq q hqs
              exact List.mem_of_getElem? k2
            · simp at hqs; subst hqs; exact List.mem_of_getElem? hb
          refine ⟨?_, quietAtL_quiet hrun hF hqf (h3 q hqe)⟩
          obtain ⟨m, k, -⟩ := h3 q hqe
          exact ⟨m, k⟩
        cases hl : bs ++ [b] with
        | nil => simp at hl
        | cons x xs => rw [hl] at this; exact this

omit hrun hF in
theorem useL_ok {S : Sys} (hw : WellS D d P S) {w : Self} (hs : SelfOkS d S w) : SafeL (fun S' => WellS D d P S' ∧ StillThereS d S S') ((useSelf orc S.h w).inWorld S.W) := by
  have hi := WellS.inv hw
  have h1 := useSelf_ok (orc := orc) (P := ⟨P.known, P.quiet, P.multi⟩) (WellS.env hw) (h := S.h) ⟨hi.good, hw.known⟩ hs
  have hlog : ∀ h', useSelf orc S.h w = .done h' → LogOk D h' := by
    intro h' hx
    cases w with
    | object o =>
      unfold useSelf at hx
      simp only at hx
      split at hx
      · simp at hx; subst hx; exact hw.log
      · simp at hx
    | mixin m l =>
      unfold useSelf at hx
      simp only at hx
      cases hl : S.h.live l with
      | none => rw [hl] at hx; simp at hx
      | some y =>
        obtain ⟨m', v⟩ := y
        rw [hl] at hx
        simp only at hx
        split at hx
        · rename_i hc
          obtain ⟨rfl, -⟩ := hc
          simp at hx; subst hx
          obtain ⟨a1, a2, a3, a4, a5⟩ := hw.log
          refine ⟨?_, a2, a3, a4, a5⟩
          intro m l' hm
          have := a1 m l' hm
          refine this.trans ?_
          congr 1
          show (if (S.h.live l').map Prod.fst = some m then 1 else 0) = (if ((if l' = l then some (m', orc.val S.h.tick) else S.h.live l')).map Prod.fst = some m then 1 else 0)
          by_cases hll : l' = l
          · subst hll; rw [if_pos rfl, hl]; rfl
          · rw [if_neg hll]
        · simp at hx
  have hnt : ∀ h' e, useSelf orc S.h w ≠ .thrown h' e := by
    intro h' e hx
    unfold useSelf at hx
    cases w with
    | object o => simp only at hx; split at hx <;> simp at hx
    | mixin m l =>
      simp only at hx
      split at hx
      · split at hx <;> simp at hx
      · simp at hx
  cases hr : useSelf orc S.h w with
  | done h' =>
    rw [hr] at h1
    obtain ⟨h2, h3⟩ := h1
    have hst : StillThereS d S ⟨S.W, h'⟩ := fun o ob ho => ⟨(h3 o ob ho).1, fun _ _ => rfl, (h3 o ob ho).2⟩
    have hthere : TyIn (fun t => ∃ r, (S.W.doms d).typeAt d t = some r) h' := by
      have hobj : h'.objs = S.h.objs := by
        unfold useSelf at hr
        cases w with
        | object o => simp only at hr; split at hr <;> simp at hr; rw [← hr]
        | mixin m l =>
          simp only at hr
          split at hr
          · split at hr <;> simp at hr; rw [← hr]
          · simp at hr
      intro o ob t k1 k2
      refine hi.there o ob t ?_ k2
      unfold Heap.obj? at k1 ⊢
      rw [← hobj]; exact k1
    exact ⟨WellS.next hw (hi.obj h2.good hthere (hlog h' hr)) ⟨[], by simp, rfl⟩ hw.fits (fun k hk _ => h2.known k hk), hst⟩
  | thrown h' e => exact absurd hr (hnt h' e)
  | ub => rw [hr] at h1; exact h1
  | more => trivial

theorem deed_ok {S : Sys} (hw : WellS D d P S) {w : Self} (hs : SelfOkS d S w) {a : Deed} (ha : MayDoL D orc d P S a) (hn : ∀ o, w = .object o → isNextL a = false) :
    SafeL (fun S' => WellS D d P S' ∧ LivesOn S.h S'.h) (perform1 D orc d B run w S a) := by
  have hfol : ∀ k f, P.home f = d → (k = .set → P.multi f) → (∀ o, w ≠ .object o) → SafeL (fun S' => WellS D d P S' ∧ LivesOn S.h S'.h) (followL d B run k f S w) := by
    intro k f h1 h2 h3
    cases w with
    | object o => exact absurd rfl (h3 o)
    | mixin m l => exact followL_ok hrun hF hw hs k h1 h2
  cases a with
  | nothing => exact ⟨hw, fun _ h => h⟩
  | use => exact SafeL.mono (useL_ok hw hs) (fun x hx => ⟨hx.1, StillThereS.lives hx.2⟩)
  | sys op => exact sstep_allowed hw ha
  | send o f multi => exact sendToL_ok hrun hF hw ha.1 ha.2.1 ha.2.2
  | next f => exact hfol .impl f ha (by simp) (fun o ho => by have := hn o ho; simp [isNextL] at this)
  | nextSet f => exact hfol .set f ha.1 (fun _ => ha.2) (fun o ho => by have := hn o ho; simp [isNextL] at this)
  | nextTop f => exact hfol .top f ha (by simp) (fun o ho => by have := hn o ho; simp [isNextL] at this)
  | raise n => exact ⟨hw, fun _ h => h⟩

theorem deed_quiet {S : Sys} (hw : WellS D d P S) {w : Self} (hs : SelfOkS d S w) {a : Deed} (ha : QuietDeed D orc d P S a) (hn : ∀ o, w = .object o → isNextL a = false) :
    SafeL (fun S' => WellS D d P S' ∧ StillThereS d S S') (perform1 D orc d B run w S a) := by
  have hfol : ∀ k f, P.home f = d → P.quiet f → (∀ o, w ≠ .object o) → SafeL (fun S' => WellS D d P S' ∧ StillThereS d S S') (followL d B run k f S w) := by
    intro k f h1 h2 h3
    cases w with
    | object o => exact absurd rfl (h3 o)
    | mixin m l => exact followL_quiet hrun hF hw hs k h1 h2
  cases a with
  | nothing => exact ⟨hw, StillThereS.refl S⟩
  | use => exact useL_ok hw hs
  | sys op => exact sstep_quiet hw ha.1 ha.2
  | send o f multi => exact sendToL_quiet hrun hF hw ha.1.1 ha.1.2.1 multi ha.2
  | next f => exact hfol .impl f ha.1 ha.2 (fun o ho => by have := hn o ho; simp [isNextL] at this)
  | nextSet f => exact hfol .set f ha.1 ha.2.2 (fun o ho => by have := hn o ho; simp [isNextL] at this)
  | nextTop f => exact hfol .top f ha.1 ha.2 (fun o ho => by have := hn o ho; simp [isNextL] at this)
  | raise n => exact ⟨hw, StillThereS.refl S⟩

/-- After a deed with which a mixin may go on, it is still there. -/
theorem deed_goesOn {S : Sys} (hw : WellS D d P S) {m : Mix} {l : Loc} {o : Nat} {v : Nat} (hh : Holds (TyEnv.ofWorld S.W d) S.h o m l v) {a : Deed} (ha : MayDoL D orc d P S a)
    (hg : GoesOn D orc d P m S o a) : SafeL (fun S' => SelfOkS d S' (.mixin m l)) (perform1 D orc d B run (.mixin m l) S a) := by
  have hs : SelfOkS d S (.mixin m l) := ⟨o, v, hh⟩
  rcases hg with hq | ⟨op, rfl, hc⟩
  · exact SafeL.mono (deed_quiet hrun hF hw hs hq (fun o h => by simp at h)) (fun x hx => StillThereS.self hx.2 hs)
  · rcases hc with hc | ⟨hx, hk⟩
    · obtain ⟨ob, ho⟩ := holds_obj hh
      exact SafeL.mono (sstep_frame hw ha ho hc) (fun x hx => by obtain ⟨v', hv⟩ := hx.2.2 m l v hh; exact ⟨o, v', hv⟩)
    · exact SafeL.mono (sstep_keeps hw ha hx hk hh) (fun x hx => by obtain ⟨v', hv⟩ := hx; exact ⟨o, v', hv⟩)

end

section
variable (hF : KeepsRulesL D orc d P B)
include hF

theorem runDeeds_all : ∀ (n : Nat),
    (∀ S m l p pre as, WellS D d P S → (as ≠ [] → SelfOkS d S (.mixin m l)) → B.body m p = pre ++ as → SafeL (fun S' => WellS D d P S' ∧ LivesOn S.h S'.h) (runDeeds D orc d B n (.mixin m l) as S)) ∧
    (∀ S o p as, WellS D d P S → Alive S.h o → (∀ a ∈ as, a ∈ B.dflt p) → SafeL (fun S' => WellS D d P S' ∧ LivesOn S.h S'.h) (runDeeds D orc d B n (.object o) as S)) ∧
    (∀ S w as, WellS D d P S → SelfOkS d S w → (∀ a ∈ as, QuietFor D orc d P w a.1) → SafeL (fun S' => WellS D d P S' ∧ StillThereS d S S') (runDeeds D orc d B n w as S))
  | 0 => ⟨fun _ _ _ _ _ _ _ _ _ => trivial, fun _ _ _ _ _ _ _ => trivial, fun _ _ _ _ _ _ => trivial⟩
  | n + 1 => by
    obtain ⟨i1, i2, i3⟩ := runDeeds_all n
    have hrun : RunOkL D orc d P B (runDeeds D orc d B n) :=
      ⟨fun S hw => ⟨fun m l p hs => i1 S m l p [] _ hw (fun _ => hs) rfl, fun o p ha => i2 S o p _ hw ha (fun a h => h)⟩, i3⟩
    refine ⟨?_, ?_, ?_⟩
    · intro S m l p pre as hw hs hb
      cases as with
      | nil => exact ⟨hw, fun _ h => h⟩
      | cons ac as =>
        obtain ⟨a, c⟩ := ac
        have hs := hs (by simp)
        obtain ⟨o, k1, k2, k3⟩ := self_obj (WellS.env hw) (WellS.inv hw).good hs
        obtain ⟨v, hh⟩ := k3 m l rfl
        obtain ⟨r1, r2⟩ := hF.mixins m p pre a c as hb S o ⟨hw, l, v, hh⟩
        have hdec : decided D orc d B (runDeeds D orc d B n) a (.mixin m l) S = perform1 D orc d B (runDeeds D orc d B n) (.mixin m l) S (a S o) := by
          unfold decided; simp only [k1]
        have h1 := SafeL.caught (deed_ok hrun hF hw hs r1 (fun o h => by simp at h)) c
        have h2 := fun hne => SafeL.caught (deed_goesOn hrun hF hw hh r1 (r2 hne)) c
        simp only [runDeeds, hdec]
        cases hr : (if c then (perform1 D orc d B (runDeeds D orc d B n) (.mixin m l) S (a S o)).caught else perform1 D orc d B (runDeeds D orc d B n) (.mixin m l) S (a S o)) with
        | done S' =>
          rw [hr] at h1 h2
          simp only
          exact SafeL.mono (i1 S' m l p (pre ++ [(a, c)]) as h1.1 h2 (by rw [hb]; simp)) (fun x hx => ⟨hx.1, fun o ho => hx.2 o (h1.2 o ho)⟩)
        | thrown S' e => rw [hr] at h1; exact h1
        | ub => rw [hr] at h1; exact h1
        | more => trivial
    · intro S o p as hw ha hsub
      cases as with
      | nil => exact ⟨hw, fun _ h => h⟩
      | cons ac as =>
        obtain ⟨a, c⟩ := ac
        obtain ⟨r1, r2⟩ := hF.defaults p (a, c) (hsub (a, c) (by simp)) S o hw ha
        obtain ⟨ob, ho⟩ := alive_obj (WellS.env hw) ha
        have hdec : decided D orc d B (runDeeds D orc d B n) a (.object o) S = perform1 D orc d B (runDeeds D orc d B n) (.object o) S (a S o) := by
          unfold decided; simp [Self.obj?, ho]
        have h1 := SafeL.caught (deed_ok hrun hF hw (w := .object o) ha r1 (fun _ _ => r2)) c
        simp only [runDeeds, hdec]
        cases hr : (if c then (perform1 D orc d B (runDeeds D orc d B n) (.object o) S (a S o)).caught else perform1 D orc d B (runDeeds D orc d B n) (.object o) S (a S o)) with
        | done S' =>
          rw [hr] at h1
          simp only
          exact SafeL.mono (i2 S' o p as h1.1 (h1.2 o ha) (fun a ha => hsub a (by simp [ha]))) (fun x hx => ⟨hx.1, fun o ho => hx.2 o (h1.2 o ho)⟩)
        | thrown S' e => rw [hr] at h1; exact h1
        | ub => rw [hr] at h1; exact h1
        | more => trivial
    · intro S w as hw hs hq
      cases as with
      | nil => exact ⟨hw, StillThereS.refl S⟩
      | cons ac as =>
        obtain ⟨a, c⟩ := ac
        obtain ⟨o, k1, k2, k3⟩ := self_obj (WellS.env hw) (WellS.inv hw).good hs
        have hqa : QuietDeed D orc d P S (a S o) ∧ ∀ o', w = .object o' → isNextL (a S o) = false := by
          obtain ⟨q1, q2⟩ := hq (a, c) (by simp)
          cases w with
          | mixin m l =>
            obtain ⟨v, hh⟩ := k3 m l rfl
            exact ⟨q1 m l rfl S o ⟨hw, l, v, hh⟩, fun o' h => by simp at h⟩
          | object o' => exact ⟨(q2 o' rfl S o hw k2).1, fun _ _ => (q2 o' rfl S o hw k2).2⟩
        have hdec : decided D orc d B (runDeeds D orc d B n) a w S = perform1 D orc d B (runDeeds D orc d B n) w S (a S o) := by
          unfold decided; simp only [k1]
        have h1 := SafeL.caught (deed_quiet hrun hF hw hs hqa.1 hqa.2) c
        simp only [runDeeds, hdec]
        cases hr : (if c then (perform1 D orc d B (runDeeds D orc d B n) w S (a S o)).caught else perform1 D orc d B (runDeeds D orc d B n) w S (a S o)) with
        | done S' =>
          rw [hr] at h1
          simp only
          exact SafeL.mono (i3 S' w as h1.1 (StillThereS.self h1.2 hs) (fun a ha => hq a (by simp [ha]))) (fun x hx => ⟨hx.1, StillThereS.trans h1.2 hx.2⟩)
        | thrown S' e => rw [hr] at h1; exact h1
        | ub => rw [hr] at h1; exact h1
        | more => trivial

theorem runDeeds_ok (n : Nat) : RunOkL D orc d P B (runDeeds D orc d B n) := by
  obtain ⟨i1, i2, i3⟩ := runDeeds_all hF n
  exact ⟨fun S hw => ⟨fun m l p hs => i1 S m l p [] _ hw (fun _ => hs) rfl, fun o p ha => i2 S o p _ hw ha (fun a h => h)⟩, i3⟩

theorem lstep_ok (n : Nat) {S : Sys} (hw : WellS D d P S) {op : LOp} (hp : Permitted D orc d P S op) : SafeL (WellS D d P) (lstep D orc d B n S op) := by
  cases op with
  | sys op =>
    obtain ⟨h1, h2, h3, h4⟩ := hp
    exact SafeL.mono (sstep_well hw h1 h2 h4 h3) (fun S' hx => hx.1)
  | call o f multi => exact SafeL.mono (sendToL_ok (runDeeds_ok hF n) hF hw hp.1 hp.2.1 hp.2.2) (fun S' hx => hx.1)

theorem lrun_ok (n : Nat) : ∀ (ops : List LOp) (S : Sys), WellS D d P S → PermittedRun D orc d P B n ops S → SafeL (WellS D d P) (lrun D orc d B n ops S)
  | [], S, hw, _ => hw
  | op :: ops, S, hw, hp => by
    have h1 := lstep_ok hF n hw hp.1
    unfold lrun
    cases hr : lstep D orc d B n S op with
    | done S' => rw [hr] at h1; exact lrun_ok n ops S' h1 (hp.2 S' (.inl hr))
    | thrown S' e => rw [hr] at h1; exact lrun_ok n ops S' h1 (hp.2 S' (.inr ⟨e, hr⟩))
    | ub => rw [hr] at h1; exact h1
    | more => trivial

end

/-! ## Messages that do not use the domain -/

section
variable {W : World} {M : MsgEnv} (hM : M.table = tablesOf W d)
variable {runL : Self → List (Doing × Bool) → Sys → LOut} {runA : Self → List (Action × Bool) → Heap → Out}
variable (hsame : ∀ w as h, runL w (asDoings as) ⟨W, h⟩ = .ub ∨ runL w (asDoings as) ⟨W, h⟩ = (runA w as h).inWorld W)
include hM hsame

theorem callAtL_same (o : Nat) (t : TypeId) (p : Payload) (h : Heap) :
    callAtL d (asBodies M) runL o t p ⟨W, h⟩ = .ub ∨ callAtL d (asBodies M) runL o t p ⟨W, h⟩ = (callAt (TyEnv.ofWorld W d) M runA o t p h).inWorld W := by
  unfold callAtL callAt
  simp only
  cases hr : (W.doms d).typeAt d t with
  | none => exact .inl rfl
  | some r =>
    have hmx := ofWorld_mixins_of hr
    simp only [hmx]
    cases ho : h.obj? o with
    | none => exact .inl rfl
    | some ob =>
      simp only [Option.bind_some]
      cases hd : ob.data with
      | none => exact .inl rfl
      | some a =>
        simp only
        cases hs : h.slot? a p.mixinIndex with
        | none => exact .inl rfl
        | some sl =>
          cases hm : r.mixins[p.mixinIndex]? with
          | none => exact .inl rfl
          | some m => exact hsame _ _ h

theorem callEachL_same (o : Nat) (t : TypeId) : ∀ (ps : List Payload) (h : Heap),
    callEachL d (asBodies M) runL o t ps ⟨W, h⟩ = .ub ∨ callEachL d (asBodies M) runL o t ps ⟨W, h⟩ = (callEach (TyEnv.ofWorld W d) M runA o t ps h).inWorld W
  | [], h => .inr rfl
  | p :: ps, h => by
    unfold callEachL callEach
    rcases callAtL_same hM hsame o t p h with h1 | h1
    · rw [h1]; exact .inl rfl
    · rw [h1]
      cases hc : callAt (TyEnv.ofWorld W d) M runA o t p h with
      | done h' => exact callEachL_same o t ps h'
      | thrown h' e => cases e <;> exact .inr rfl
      | ub => exact .inl rfl
      | more => exact .inr rfl

theorem sendToL_same (o : Nat) (f : Feat) (multi : Bool) (h : Heap) :
    sendToL D d (asBodies M) runL o f multi ⟨W, h⟩ = .ub ∨ sendToL D d (asBodies M) runL o f multi ⟨W, h⟩ = (sendTo D (TyEnv.ofWorld W d) M runA o f multi h).inWorld W := by
  unfold sendToL sendTo
  simp only
  cases ho : h.obj? o with
  | none => exact .inl rfl
  | some ob =>
    simp only [Option.bind_some]
    cases ht : ob.ty with
    | none => exact .inl rfl
    | some t =>
      simp only
      cases hr : (W.doms d).typeAt d t with
      | none => exact .inl rfl
      | some r =>
        have htab : M.table t f = r.ftableAt (W.featId f) := by rw [hM]; unfold tablesOf; rw [hr]; rfl
        simp only [htab]
        cases he : r.ftableAt (W.featId f) with
        | none =>
          simp only
          cases hd : (D.feat f).defaultPayload with
          | none => exact .inr rfl
          | some p => exact hsame _ _ h
        | some e =>
          simp only
          cases hp : e.pls with
          | nil => exact .inl rfl
          | cons p ps => exact callEachL_same hM hsame o t _ h

theorem followL_same (k : Following) (f : Feat) (h : Heap) (w : Self) :
    followL d (asBodies M) runL k f ⟨W, h⟩ w = .ub ∨ followL d (asBodies M) runL k f ⟨W, h⟩ w = (following (TyEnv.ofWorld W d) M runA k f h w).inWorld W := by
  cases w with
  | object o => exact .inl rfl
  | mixin m l =>
    unfold followL following callFollowing
    simp only
    cases hs : (Self.mixin m l).obj? h with
    | none => exact .inl rfl
    | some o =>
      simp only
      cases ho : h.obj? o with
      | none => exact .inl rfl
      | some ob =>
        simp only [Option.bind_some]
        cases ht : ob.ty with
        | none => exact .inl rfl
        | some t =>
          simp only
          cases hr : (W.doms d).typeAt d t with
          | none => exact .inl rfl
          | some r =>
            have htab : M.table t f = r.ftableAt (W.featId f) := by rw [hM]; unfold tablesOf; rw [hr]; rfl
            have hidx : (TyEnv.ofWorld W d).indexOf t m = r.indexOf (W.mixId m) := by simp [TyEnv.ofWorld, hr]
            simp only [htab, hidx]
            cases he : r.ftableAt (W.featId f) with
            | none => exact .inr rfl
            | some e =>
              cases hi : r.indexOf (W.mixId m) with
              | none => exact .inr rfl
              | some i =>
                simp only
                cases hp : k.payloads e i with
                | nil => exact .inr rfl
                | cons p ps => exact callEachL_same hM hsame o t _ h

theorem decided_same (a : Action) (w : Self) (h : Heap) :
    decided D orc d (asBodies M) runL (asDoing a) w ⟨W, h⟩ = .ub ∨ decided D orc d (asBodies M) runL (asDoing a) w ⟨W, h⟩ = (act D (TyEnv.ofWorld W d) orc M runA w h a).inWorld W := by
  unfold decided
  simp only
  cases hs : w.obj? h with
  | none => exact .inl rfl
  | some o =>
    simp only
    cases a with
    | use => exact .inr rfl
    | op f =>
      simp only [act, hs]
      show LOut.ofSys (sstep D orc d ⟨W, h⟩ (.obj false (f o))) = .ub ∨ LOut.ofSys (sstep D orc d ⟨W, h⟩ (.obj false (f o))) = _
      unfold sstep
      simp only
      split
      · right
        cases ostep D (TyEnv.ofWorld W d) orc false h (f o) <;> rfl
      · exact .inl rfl
    | send to f multi =>
      simp only [act, hs]
      exact sendToL_same hM hsame (to o) f multi h
    | next f => exact followL_same hM hsame .impl f h w
    | nextSet f => exact followL_same hM hsame .set f h w
    | nextTop f => exact followL_same hM hsame .top f h w
    | raise n => exact .inr rfl

end

theorem inWorld_caught (W : World) (r : Out) (c : Bool) : (if c then (r.inWorld W).caught else r.inWorld W) = (if c then r.caught else r).inWorld W := by
  cases c with
  | false => rfl
  | true =>
    cases r with
    | thrown h e => cases e <;> rfl
    | done h => rfl
    | ub => rfl
    | more => rfl

theorem runDeeds_same {W : World} {M : MsgEnv} (hM : M.table = tablesOf W d) : ∀ (n : Nat) (w : Self) (as : List (Action × Bool)) (h : Heap),
    runDeeds D orc d (asBodies M) n w (asDoings as) ⟨W, h⟩ = .ub ∨
    runDeeds D orc d (asBodies M) n w (asDoings as) ⟨W, h⟩ = (runActs D (TyEnv.ofWorld W d) orc M n w as h).inWorld W
  | 0, w, as, h => .inr rfl
  | n + 1, w, [], h => .inr rfl
  | n + 1, w, (a, c) :: as, h => by
    have hd := decided_same (D := D) (orc := orc) hM (fun w as h => runDeeds_same hM n w as h) a w h
    show (match (if c then (decided D orc d (asBodies M) (runDeeds D orc d (asBodies M) n) (asDoing a) w ⟨W, h⟩).caught else decided D orc d (asBodies M) (runDeeds D orc d (asBodies M) n) (asDoing a) w ⟨W, h⟩) with
      | .done S' => runDeeds D orc d (asBodies M) n w (asDoings as) S'
      | r => r) = .ub ∨ (match (if c then (decided D orc d (asBodies M) (runDeeds D orc d (asBodies M) n) (asDoing a) w ⟨W, h⟩).caught else decided D orc d (asBodies M) (runDeeds D orc d (asBodies M) n) (asDoing a) w ⟨W, h⟩) with
      | .done S' => runDeeds D orc d (asBodies M) n w (asDoings as) S'
      | r => r) = _
    rcases hd with hd | hd
    · rw [hd]; left; cases c <;> rfl
    · rw [hd, inWorld_caught]
      simp only [runActs]
      cases hr : (if c then (act D (TyEnv.ofWorld W d) orc M (runActs D (TyEnv.ofWorld W d) orc M n) w h a).caught else act D (TyEnv.ofWorld W d) orc M (runActs D (TyEnv.ofWorld W d) orc M n) w h a) with
      | done h' => exact runDeeds_same hM n w as h'
      | thrown h' e => cases e <;> exact .inr rfl
      | ub => exact .inl rfl
      | more => exact .inr rfl

end Dnmx
