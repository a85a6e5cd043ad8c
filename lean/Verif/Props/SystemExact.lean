import Verif.Props.System

/-! C59: exactly which calls on domains take away the types of living objects. -/

namespace Dnmx.Props
open Spec

/-- Garbage collection with a number of objects for each type that an object has; unregistering of a mixin whose id no mixin of an object has. -/
def KeepsTypes (d : DomId) (S : Sys) : Op → Prop
  | .gc d' num => d' = d → ∀ o ob t, S.h.obj? o = some ob → ob.ty = some t → compositionOf S.W d t ≠ some [] → 0 < num t
  | .unregMixin d' m => d' = d → ∀ m' ∈ mixinsInUse S.W d S.h, S.W.mixId m' ≠ S.W.mixId m
  | _ => True

theorem typeAt_filter_none {D : Decls} {W W' : World} {d : DomId} (h : TypesInv D W d) (p : TypeRec → Bool) (h1 : (W'.doms d).types = (W.doms d).types.filter p) (r : TypeRec)
    (hr : r ∈ (W.doms d).types) (hp : p r = false) : (W'.doms d).typeAt d r.tid = none := by
  cases hx : (W'.doms d).typeAt d r.tid with
  | none => rfl
  | some r' =>
    exfalso
    rcases typeAt_some hx with ⟨a, -⟩ | ⟨-, b, c⟩
    · have := (h.tidPos r hr).1
      rw [a] at this
      simp [emptyTid] at this
    · rw [h1, List.mem_filter] at b
      have e1 := find?_tid h.tids r' b.1
      have e2 := find?_tid h.tids r hr
      rw [c, e2] at e1
      have : r = r' := by simpa using e1
      rw [← this, hp] at b
      exact absurd b.2 (by simp)

theorem mem_inUse (W : World) (d : DomId) (h : Heap) (m : Mix) :
    m ∈ mixinsInUse W d h ↔ ∃ o ob t r, h.obj? o = some ob ∧ ob.ty = some t ∧ (W.doms d).typeAt d t = some r ∧ m ∈ r.mixins := by
  unfold mixinsInUse
  rw [List.mem_flatMap]
  constructor
  · rintro ⟨x, hx, hm⟩
    cases x with
    | none => simp at hm
    | some ob =>
      obtain ⟨o, ho⟩ := List.getElem?_of_mem hx
      cases ht : ob.ty with
      | none => simp [ownMixins, ht] at hm
      | some t =>
        simp only [Option.elim_some, ownMixins, ht, TyEnv.ofWorld] at hm
        cases hr : (W.doms d).typeAt d t with
        | none => rw [hr] at hm; simp at hm
        | some r =>
          rw [hr] at hm
          exact ⟨o, ob, t, r, by simp [Heap.obj?, ho], ht, hr, by simpa using hm⟩
  · rintro ⟨o, ob, t, r, h1, h2, h3, h4⟩
    unfold Heap.obj? at h1
    cases hx : h.objs[o]? with
    | none => rw [hx] at h1; simp at h1
    | some x =>
      rw [hx] at h1; simp at h1; subst h1
      exact ⟨_, List.mem_of_getElem? hx, by simp [ownMixins, h2, TyEnv.ofWorld, h3, h4]⟩

/-- C59: whatever programs reach that use domains and objects properly, after any further call on any domain the types of all living objects are there exactly if the call is none that
collects the type of an object because it is told that there are none of it, and none that unregisters from the objects' domain a mixin, of this domain or another, with the id of
a mixin of an object. -/
theorem C59_types_stay_exactly (D : Decls) (orc : Orc) (d : DomId) (S : Sys) (hS : Reachable D orc d S) (op : Op) :
    TypesThere (step D S.W op).2 d S.h ↔ KeepsTypes d S op := by
  have hi := reachable_inv hS
  have ofAt : ∀ {W : World}, (∀ o ob t r, S.h.obj? o = some ob → ob.ty = some t → (S.W.doms d).typeAt d t = some r → (W.doms d).typeAt d t = some r) → TypesThere W d S.h := by
    intro W h o ob t h1 h2
    obtain ⟨r, h3⟩ := hi.there o ob t h1 h2
    unfold compositionOf
    rw [h o ob t r h1 h2 h3]; simp
  have gen : (∀ num, op ≠ .gc d num) → (∀ m, op ≠ .unregMixin d m) → TypesThere (step D S.W op).2 d S.h :=
    fun k1 k2 => ofAt fun o ob t r _ _ h3 => stays_append (step_grow hi.reg k1 k2) h3
  cases op with
  | gc d' num =>
    by_cases hd : d' = d
    · subst hd
      have ht := gc_types (d := d') S.W num
      constructor
      · intro h _ o ob t h1 h2 h3
        obtain ⟨r, h4⟩ := hi.there o ob t h1 h2
        rcases typeAt_some h4 with ⟨a, b⟩ | ⟨a, b, c⟩
        · exact absurd (by simp [compositionOf, h4, b, emptyType]) h3
        · cases hn : decide (num r.tid > 0) with
          | true => rw [← c]; exact of_decide_eq_true hn
          | false =>
            have := typeAt_filter_none hi.types _ ht r b hn
            refine absurd ?_ (h o ob t h1 h2)
            show ((((garbageCollect S.W d' num).2).doms d').typeAt d' t).map _ = none
            rw [← c, this]; rfl
      · intro h
        refine ofAt fun o ob t r h1 h2 h3 => gc_keeps hi.types num h3 fun hne => h rfl o ob t h1 h2 ?_
        simpa [compositionOf, h3] using hne
    · exact ⟨fun _ e => absurd e hd, fun _ => gen (fun num' e => by simp only [Op.gc.injEq] at e; exact hd e.1) (fun m => by simp)⟩
  | unregMixin d' m =>
    by_cases hd : d' = d
    · subst hd
      have ht := (unregisterMixin_effect hi.types m).1
      have hid : ∀ r ∈ (S.W.doms d').types, (r.hasId (S.W.mixId m) = true ↔ ∃ m' ∈ r.mixins, S.W.mixId m' = S.W.mixId m) := by
        intro r hr
        have hok := hi.types.ok r hr
        rw [hok.hasId hi.reg]
        constructor
        · rintro ⟨x, m', a, b, c⟩; exact ⟨m', b, c.trans a.symm⟩
        · rintro ⟨m', b, c⟩
          obtain ⟨x, hx⟩ := (hok.reg m' b).1
          exact ⟨x, m', by rw [← c, hx], b, hx⟩
      constructor
      · intro h _ m' hm' he
        obtain ⟨o, ob, t, r, h1, h2, h3, h4⟩ := (mem_inUse _ _ _ _).1 hm'
        rcases typeAt_some h3 with ⟨a, b⟩ | ⟨a, b, c⟩
        · subst b; simp [emptyType] at h4
        · have := typeAt_filter_none hi.types _ ht r b (by rw [(hid r b).2 ⟨m', h4, he⟩]; rfl)
          refine absurd ?_ (h o ob t h1 h2)
          show ((((unregisterMixin S.W d' m).2).doms d').typeAt d' t).map _ = none
          rw [← c, this]; rfl
      · intro h
        refine ofAt fun o ob t r h1 h2 h3 => typeAt_filter hi.types _ ht t r h3 fun hr => ?_
        cases hc : r.hasId (S.W.mixId m) with
        | false => rfl
        | true =>
          obtain ⟨m', b, c⟩ := (hid r hr).1 hc
          exact absurd c (h rfl m' ((mem_inUse _ _ _ _).2 ⟨o, ob, t, r, h1, h2, h3, b⟩))
    · exact ⟨fun _ e => absurd e hd, fun _ => gen (fun num => by simp) (fun m' e => by simp only [Op.unregMixin.injEq] at e; exact hd e.1)⟩
  | regFeature d' g => exact ⟨fun _ => trivial, fun _ => gen (fun _ => by simp) (fun _ => by simp)⟩
  | unregFeature d' g => exact ⟨fun _ => trivial, fun _ => gen (fun _ => by simp) (fun _ => by simp)⟩
  | regMixin d' g => exact ⟨fun _ => trivial, fun _ => gen (fun _ => by simp) (fun _ => by simp)⟩
  | regClass d' g => exact ⟨fun _ => trivial, fun _ => gen (fun _ => by simp) (fun _ => by simp)⟩
  | unregClass d' g => exact ⟨fun _ => trivial, fun _ => gen (fun _ => by simp) (fun _ => by simp)⟩
  | addRule d' g => exact ⟨fun _ => trivial, fun _ => gen (fun _ => by simp) (fun _ => by simp)⟩
  | removeRule d' g => exact ⟨fun _ => trivial, fun _ => gen (fun _ => by simp) (fun _ => by simp)⟩
  | getTypeMut d' md g => exact ⟨fun _ => trivial, fun _ => gen (fun _ => by simp) (fun _ => by simp)⟩
  | getType d' g => exact ⟨fun _ => trivial, fun _ => gen (fun _ => by simp) (fun _ => by simp)⟩

-- an object of mixins 1, 3 and 2; mixin 2 has id 1 there, and a mixin of domain 1 with another id may be unregistered by mistake without harm
example : Reachable objDecls objOrc 0 (sysAfter 9) ∧ 2 ∈ mixinsInUse (sysAfter 9).W 0 (sysAfter 9).h ∧ (sysAfter 9).W.mixId 2 = some 1 ∧
    (sysAfter 9).W.mixId 7 = none ∧ KeepsTypes 0 (sysAfter 9) (.unregMixin 0 7) ∧ ¬ KeepsTypes 0 (sysAfter 9) (.unregMixin 0 2) := by
  have h1 : ∀ m' ∈ mixinsInUse (sysAfter 9).W 0 (sysAfter 9).h, (sysAfter 9).W.mixId m' ≠ (sysAfter 9).W.mixId 7 := by decide +kernel
  have h2 : 2 ∈ mixinsInUse (sysAfter 9).W 0 (sysAfter 9).h := by decide +kernel
  exact ⟨sysAfter_reachable 9 (by decide +kernel) (by decide +kernel), h2, by decide +kernel, by decide +kernel, fun _ => h1, fun h => h rfl 2 h2 rfl⟩

end Dnmx.Props
