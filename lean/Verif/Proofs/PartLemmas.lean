import Verif.Spec.Locks
import Verif.Proofs.RegistryLemmas

/-!
# Lemmas: what the parts of calls change
-/

namespace Dnmx
open Spec

set_option linter.unusedSimpArgs false
set_option linter.unusedVariables false

theorem _root_.Spec.SameTypeReg.refl (d : DomId) (W : World) : SameTypeReg d W W := ⟨rfl, rfl, rfl⟩
theorem _root_.Spec.SameElemReg.refl (d : DomId) (W : World) : SameElemReg d W W := ⟨rfl, rfl, rfl⟩
theorem _root_.Spec.SameInfos.refl (W : World) : SameInfos W W := ⟨rfl, rfl, rfl⟩
theorem _root_.Spec.OnlyElems.refl (d' : DomId) (W : World) : OnlyElems d' W W := fun d => ⟨.refl d W, fun _ => .refl d W⟩
theorem _root_.Spec.OnlyTypes.refl (d' : DomId) (W : World) : OnlyTypes d' W W := fun d => ⟨.refl d W, .refl W, fun _ => .refl d W⟩

theorem _root_.Spec.OnlyElems.trans {d' : DomId} {W W1 W2 : World} (a : OnlyElems d' W W1) (b : OnlyElems d' W1 W2) : OnlyElems d' W W2 := by
  intro d
  obtain ⟨⟨a1, a2, a3⟩, a4⟩ := a d
  obtain ⟨⟨b1, b2, b3⟩, b4⟩ := b d
  refine ⟨⟨by rw [b1, a1], by rw [b2, a2], by rw [b3, a3]⟩, fun h => ?_⟩
  obtain ⟨c1, c2, c3⟩ := a4 h
  obtain ⟨e1, e2, e3⟩ := b4 h
  exact ⟨by rw [e1, c1], by rw [e2, c2], by rw [e3, c3]⟩

/-- A new element registry of `d'`. -/
theorem onlyElems_set {d' : DomId} {W W' : World} {x : Dom} (hd : W'.doms = (W.setDom d' x).doms)
    (h : x.types = (W.doms d').types ∧ x.queries = (W.doms d').queries ∧ x.rules = (W.doms d').rules) : OnlyElems d' W W' := by
  intro d
  by_cases hdd : d = d'
  · subst hdd
    refine ⟨?_, fun h => absurd rfl h⟩
    unfold SameTypeReg
    rw [hd]
    simpa using h
  · unfold SameTypeReg SameElemReg
    rw [hd, setDom_ne _ _ hdd]
    exact ⟨⟨rfl, rfl, rfl⟩, fun _ => ⟨rfl, rfl, rfl⟩⟩

/-- A new type registry of `d'`. -/
theorem onlyTypes_set {d' : DomId} {W W' : World} {x : Dom} (hd : W'.doms = (W.setDom d' x).doms) (hi : SameInfos W W')
    (h : x.feats = (W.doms d').feats ∧ x.mixins = (W.doms d').mixins ∧ x.classes = (W.doms d').classes) : OnlyTypes d' W W' := by
  intro d
  by_cases hdd : d = d'
  · subst hdd
    refine ⟨?_, hi, fun h => absurd rfl h⟩
    unfold SameElemReg
    rw [hd]
    simpa using h
  · unfold SameTypeReg SameElemReg
    rw [hd, setDom_ne _ _ hdd]
    exact ⟨⟨rfl, rfl, rfl⟩, hi, fun _ => ⟨rfl, rfl, rfl⟩⟩

theorem registerFeature_only (D : Decls) (W : World) (d : DomId) (f : Feat) : OnlyElems d W (registerFeature D W d f).2 := by
  unfold registerFeature
  cases h : basicRegister D.featName (!(W.doms d).settings.allowDupFeat) (W.featId f) f (W.doms d).feats with
  | error e => exact .refl d W
  | ok p => exact onlyElems_set rfl ⟨rfl, rfl, rfl⟩

theorem registerFeatures_only (D : Decls) (d : DomId) : ∀ (fs : List Feat) (W : World), OnlyElems d W (registerFeatures D W d fs).2
  | [], W => .refl d W
  | f :: fs, W => by
    unfold registerFeatures
    by_cases h : W.featId f ≠ none
    · rw [if_pos h]; exact registerFeatures_only D d fs W
    · rw [if_neg h]
      have hf := registerFeature_only D W d f
      cases hr : registerFeature D W d f with
      | mk r W' =>
        rw [hr] at hf
        cases r with
        | error e => exact hf
        | ok u => cases u; exact hf.trans (registerFeatures_only D d fs W')

theorem registerMixin_only (D : Decls) (W : World) (d : DomId) (m : Mix) : OnlyElems d W (registerMixin D W d m).2 := by
  unfold registerMixin
  split
  · exact .refl d W
  · have hf := registerFeatures_only D d ((D.mix m).feats.map (·.feat)) W
    cases hr : registerFeatures D W d ((D.mix m).feats.map (·.feat)) with
    | mk r W' =>
      rw [hr] at hf
      cases r with
      | error e => exact hf
      | ok u =>
        cases u
        simp only
        cases hb : basicRegister D.mixName (!(W'.doms d).settings.allowDupMix) (W'.mixId m) m (W'.doms d).mixins with
        | error e => exact hf
        | ok p => exact hf.trans (onlyElems_set rfl ⟨rfl, rfl, rfl⟩)

theorem unregisterFeature_only (W : World) (d : DomId) (f : Feat) : OnlyElems d W (unregisterFeature W d f).2 := by
  unfold unregisterFeature
  split
  · exact .refl d W
  · exact onlyElems_set rfl ⟨rfl, rfl, rfl⟩

theorem registerTypeClass_only (D : Decls) (W : World) (d : DomId) (c : Cls) : OnlyElems d W (registerTypeClass D W d c).2 := by
  unfold registerTypeClass
  dsimp only
  repeat' split
  all_goals first | exact .refl d W | exact onlyElems_set rfl ⟨rfl, rfl, rfl⟩

theorem unregisterTypeClass_only (W : World) (d : DomId) (c : Cls) : OnlyElems d W (unregisterTypeClass W d c).2 :=
  onlyElems_set rfl ⟨rfl, rfl, rfl⟩

theorem addRule_only (D : Decls) (W : World) (d : DomId) (r : Rule) : OnlyTypes d W (addRule D W d r).2 := by
  unfold addRule
  dsimp only
  split
  · exact .refl d W
  · split
    · exact onlyTypes_set rfl (.refl W) ⟨rfl, rfl, rfl⟩
    · exact onlyTypes_set rfl (.refl W) ⟨rfl, rfl, rfl⟩

theorem removeRule_only (D : Decls) (W : World) (d : DomId) (r : Rule) : OnlyTypes d W (removeRule D W d r).2 := by
  unfold removeRule
  dsimp only
  split
  · exact .refl d W
  · split
    · exact onlyTypes_set rfl (.refl W) ⟨rfl, rfl, rfl⟩
    · exact onlyTypes_set rfl (.refl W) ⟨rfl, rfl, rfl⟩

theorem garbageCollect_only (W : World) (d : DomId) (num : TypeId → Nat) : OnlyTypes d W (garbageCollect W d num).2 :=
  onlyTypes_set rfl (.refl W) ⟨rfl, rfl, rfl⟩

theorem purgePart_only (W : World) (d : DomId) (m : Mix) : OnlyTypes d W (purgePart W d m).2 := by
  unfold purgePart
  dsimp only
  split
  · exact .refl d W
  · exact onlyTypes_set rfl (.refl W) ⟨rfl, rfl, rfl⟩

theorem removePart_only (W : World) (d : DomId) (m : Mix) : OnlyElems d W (removePart W d m).2 := by
  unfold removePart
  dsimp only
  split
  · exact .refl d W
  · exact onlyElems_set rfl ⟨rfl, rfl, rfl⟩

theorem _root_.Spec.PartChanges.refl (W : World) (l : Option (Mutex × Bool)) : PartChanges W W l := by
  match l with
  | some (.types d, true) => exact OnlyTypes.refl d W
  | some (.elems d, true) => exact OnlyElems.refl d W
  | some (.types d, false) => exact (rfl : W = W)
  | some (.elems d, false) => exact (rfl : W = W)
  | none => exact ⟨fun d => ⟨.refl d W, .refl d W⟩, .refl W⟩

theorem emplace_elems (x : Dom) (key : List Mix) (t : TypeRec) :
    (emplaceSection x key t).2.feats = x.feats ∧ (emplaceSection x key t).2.mixins = x.mixins ∧ (emplaceSection x key t).2.classes = x.classes := by
  unfold emplaceSection
  split <;> exact ⟨rfl, rfl, rfl⟩

theorem getPart_changes (D : Decls) (W : World) (d : DomId) (q : List Mix) (st : Stage) :
    PartChanges W (getPart D W d q st).2 (match st with
      | .mutating => some (.types d, false)
      | .found _ _ => some (.types d, true)
      | .built _ _ => some (.types d, true)
      | _ => none) := by
  cases st with
  | todo => exact .refl W none
  | mutating => exact .refl W (some (.types d, false))
  | found key t => exact onlyTypes_set rfl (.refl W) ⟨rfl, rfl, rfl⟩
  | missing key ms =>
    simp only [getPart]
    cases hb : buildType D W d W.nextType ms with
    | error e => exact .refl W none
    | ok t => exact ⟨fun d => ⟨⟨rfl, rfl, rfl⟩, ⟨rfl, rfl, rfl⟩⟩, ⟨rfl, rfl, rfl⟩⟩
  | built key t => exact onlyTypes_set rfl (.refl W) (emplace_elems (W.doms d) key t)
  | purged => exact .refl W none
  | done r => exact .refl W none

theorem nextPart_changes (D : Decls) (W : World) (op : Op) (st : Stage) : PartChanges W (nextPart D W op st).2 (partLock op st) := by
  cases op with
  | regFeature d f => cases st <;> first | exact registerFeature_only D W d f | exact PartChanges.refl W none
  | unregFeature d f => cases st <;> first | exact unregisterFeature_only W d f | exact PartChanges.refl W none
  | regMixin d m => cases st <;> first | exact registerMixin_only D W d m | exact PartChanges.refl W none
  | regClass d m => cases st <;> first | exact registerTypeClass_only D W d m | exact PartChanges.refl W none
  | unregClass d m => cases st <;> first | exact unregisterTypeClass_only W d m | exact PartChanges.refl W none
  | addRule d r => cases st <;> first | exact addRule_only D W d r | exact PartChanges.refl W none
  | removeRule d r => cases st <;> first | exact removeRule_only D W d r | exact PartChanges.refl W none
  | gc d num => cases st <;> first | exact garbageCollect_only W d num | exact PartChanges.refl W none
  | unregMixin d m =>
    cases st with
    | todo => exact purgePart_only W d m
    | purged => exact removePart_only W d m
    | _ => exact PartChanges.refl W none
  | getType d q =>
    cases st with
    | todo =>
      show PartChanges W (beginPart D W (.getType d q)).2 _
      simp only [beginPart]
      cases findQuery q (W.doms d).queries <;> exact PartChanges.refl W _
    | done r => exact PartChanges.refl W none
    | mutating => exact getPart_changes D W d q .mutating
    | found key t => exact getPart_changes D W d q (.found key t)
    | missing key ms => exact getPart_changes D W d q (.missing key ms)
    | built key t => exact getPart_changes D W d q (.built key t)
    | purged => exact PartChanges.refl W none
  | getTypeMut d md q =>
    cases st with
    | todo =>
      show PartChanges W (beginPart D W (.getTypeMut d md q)).2 _
      simp only [beginPart]
      by_cases h : md ≠ d
      · rw [if_pos h]; exact PartChanges.refl W _
      · rw [if_neg h]; exact PartChanges.refl W _
    | done r => exact PartChanges.refl W none
    | mutating => exact getPart_changes D W d q .mutating
    | found key t => exact getPart_changes D W d q (.found key t)
    | missing key ms => exact getPart_changes D W d q (.missing key ms)
    | built key t => exact getPart_changes D W d q (.built key t)
    | purged => exact PartChanges.refl W none

/-! ## The locks of a call, part by part -/

theorem trail_done (D : Decls) (op : Op) (r : Except Err (Option TypeId)) : ∀ Ws, lockTrail D op (.done r) Ws = [] ∧ stageAfter D op (.done r) Ws = .done r
  | [] => ⟨rfl, rfl⟩
  | W :: Ws => by
    have h1 : partLock op (.done r) = none := by cases op <;> rfl
    have h2 : (nextPart D W op (.done r)).1 = .done r := by cases op <;> rfl
    simp only [lockTrail, stageAfter, h1, h2]
    exact trail_done D op r Ws

theorem _root_.Spec.Follows.over (r : Except Err (Option TypeId)) : Follows [] (.done r) [] := ⟨⟨[], rfl⟩, fun _ _ => rfl⟩

theorem follows_done (D : Decls) (op : Op) (r : Except Err (Option TypeId)) (Ws : List World) : Follows (lockTrail D op (.done r) Ws) (stageAfter D op (.done r) Ws) [] := by
  obtain ⟨h1, h2⟩ := trail_done D op r Ws
  rw [h1, h2]; exact .over r

theorem follows_start (st : Stage) (h : ∀ r, st ≠ .done r) (locks : List (Mutex × Bool)) : Follows [] st locks := ⟨⟨locks, rfl⟩, fun r hr => absurd hr (h r)⟩

theorem _root_.Spec.Follows.cons {tr : List (Mutex × Bool)} {st : Stage} {locks : List (Mutex × Bool)} (h : Follows tr st locks) (l : List (Mutex × Bool)) : Follows (l ++ tr) st (l ++ locks) := by
  obtain ⟨⟨rest, h1⟩, h2⟩ := h
  exact ⟨⟨rest, by rw [h1, List.append_assoc]⟩, fun r hr => by rw [h2 r hr]⟩

/-- Calls with one part. -/
theorem follows_single {D : Decls} {op : Op} {l : Mutex × Bool} (h1 : partLock op .todo = some l) (h2 : ∀ W, ∃ r, (nextPart D W op .todo).1 = .done r) (Ws : List World) :
    Follows (lockTrail D op .todo Ws) (stageAfter D op .todo Ws) [l] := by
  cases Ws with
  | nil => exact follows_start _ (by intro r; simp [stageAfter]) _
  | cons W Ws =>
    obtain ⟨r, hr⟩ := h2 W
    simp only [lockTrail, stageAfter, h1, hr]
    exact (follows_done D op r Ws).cons [l]

/-- The last parts of `get_type`. -/
theorem follows_built {D : Decls} {op : Op} {d : DomId} {q : List Mix} (h1 : ∀ key t, partLock op (.built key t) = some (.types d, true))
    (h2 : ∀ W key t, (nextPart D W op (.built key t)).1 = (getPart D W d q (.built key t)).1) (key : List Mix) (t : TypeRec) (Ws : List World) :
    Follows (lockTrail D op (.built key t) Ws) (stageAfter D op (.built key t) Ws) [(.types d, true)] := by
  cases Ws with
  | nil => exact follows_start _ (by intro r; simp [stageAfter]) _
  | cons W Ws =>
    simp only [lockTrail, stageAfter, h1, h2, getPart]
    exact (follows_done D op _ Ws).cons [_]

/-- `op` is a `get_type` in domain `d`. -/
structure AsksIn (D : Decls) (op : Op) (d : DomId) (q : List Mix) : Prop where
  next : ∀ W st, st ≠ .todo → (∀ r, st ≠ .done r) → (nextPart D W op st).1 = (getPart D W d q st).1
  mutating : partLock op .mutating = some (.types d, false)
  found : ∀ key t, partLock op (.found key t) = some (.types d, true)
  missing : ∀ key ms, partLock op (.missing key ms) = none
  built : ∀ key t, partLock op (.built key t) = some (.types d, true)

theorem follows_missing {D : Decls} {op : Op} {d : DomId} {q : List Mix} (h : AsksIn D op d q) (key ms : List Mix) (Ws : List World) :
    ∃ stores : Bool, Follows (lockTrail D op (.missing key ms) Ws) (stageAfter D op (.missing key ms) Ws) (if stores then [(.types d, true)] else []) := by
  cases Ws with
  | nil => exact ⟨false, follows_start _ (by intro r; simp [stageAfter]) _⟩
  | cons W Ws =>
    simp only [lockTrail, stageAfter, h.missing, h.next W (.missing key ms) (by simp) (by simp), getPart]
    cases hb : buildType D W d W.nextType ms with
    | error e => exact ⟨false, follows_done D op _ Ws⟩
    | ok t => exact ⟨true, follows_built h.built (fun W key t => h.next W _ (by simp) (by simp)) key t Ws⟩

theorem follows_found {D : Decls} {op : Op} {d : DomId} {q : List Mix} (h : AsksIn D op d q) (key : List Mix) (t : TypeId) (Ws : List World) :
    Follows (lockTrail D op (.found key t) Ws) (stageAfter D op (.found key t) Ws) [(.types d, true)] := by
  cases Ws with
  | nil => exact follows_start _ (by intro r; simp [stageAfter]) _
  | cons W Ws =>
    simp only [lockTrail, stageAfter, h.found, h.next W (.found key t) (by simp) (by simp), getPart]
    exact (follows_done D op _ Ws).cons [_]

/-- After the search under the shared lock. -/
theorem follows_lookup {D : Decls} {op : Op} {d : DomId} {q : List Mix} (h : AsksIn D op d q) (W : World) (Ws : List World) :
    ∃ hit stores : Bool, Follows ([(.types d, false)] ++ lockTrail D op (lookupPart D W d q) Ws) (stageAfter D op (lookupPart D W d q) Ws) (taken (getTypeActs d [] hit stores)) := by
  unfold lookupPart
  cases lookupSection D (W.view D d) (W.doms d) q with
  | hit t => exact ⟨true, false, (follows_done D op _ Ws).cons [_]⟩
  | failed e => exact ⟨false, false, (follows_done D op _ Ws).cons [_]⟩
  | resolved key ms r =>
    cases r with
    | some t => exact ⟨false, true, (follows_found h key t Ws).cons [_]⟩
    | none =>
      obtain ⟨stores, hs⟩ := follows_missing h key ms Ws
      refine ⟨false, stores, ?_⟩
      cases stores with
      | true => exact hs.cons [_]
      | false => exact hs.cons [_]

theorem follows_unregMixin (D : Decls) (d : DomId) (m : Mix) (Ws : List World) (hu : ∀ r, stageAfter D (.unregMixin d m) .todo Ws = .done r → r ≠ .error .ub) :
    Follows (lockTrail D (.unregMixin d m) .todo Ws) (stageAfter D (.unregMixin d m) .todo Ws) [(.types d, true), (.elems d, true)] := by
  cases Ws with
  | nil => exact follows_start _ (by intro r; simp [stageAfter]) _
  | cons W Ws =>
    simp only [lockTrail, stageAfter, partLock, nextPart, beginPart, purgePart] at hu ⊢
    cases hp : purgeQueries (W.doms d) d (W.mixId m) m (W.doms d).queries with
    | none =>
      rw [hp] at hu
      exact absurd rfl (hu _ (trail_done D _ _ Ws).2)
    | some queries =>
      refine Follows.cons (locks := [(.elems d, true)]) ?_ [(.types d, true)]
      cases Ws with
      | nil => exact follows_start _ (by intro r; simp [stageAfter]) _
      | cons W1 Ws =>
        simp only [lockTrail, stageAfter, partLock, nextPart, removePart]
        cases ownSlot (W1.doms d).mixins (W1.mixId m) m with
        | none => exact (follows_done D _ _ Ws).cons [_]
        | some i => exact (follows_done D _ _ Ws).cons [_]

theorem follows_call (D : Decls) (op : Op) (Ws : List World) (hu : ∀ r, stageAfter D op .todo Ws = .done r → r ≠ .error .ub) : ∃ c, IsCall op c ∧ Follows (lockTrail D op .todo Ws) (stageAfter D op .todo Ws) (taken (lockActs c)) := by
  cases op with
  | regFeature d f => exact ⟨.element d, rfl, follows_single (l := (.elems d, true)) rfl (fun W => ⟨_, rfl⟩) Ws⟩
  | unregFeature d f => exact ⟨.element d, rfl, follows_single (l := (.elems d, true)) rfl (fun W => ⟨_, rfl⟩) Ws⟩
  | regMixin d f => exact ⟨.element d, rfl, follows_single (l := (.elems d, true)) rfl (fun W => ⟨_, rfl⟩) Ws⟩
  | regClass d f => exact ⟨.element d, rfl, follows_single (l := (.elems d, true)) rfl (fun W => ⟨_, rfl⟩) Ws⟩
  | unregClass d f => exact ⟨.element d, rfl, follows_single (l := (.elems d, true)) rfl (fun W => ⟨_, rfl⟩) Ws⟩
  | addRule d r => exact ⟨.rule d, rfl, follows_single (l := (.types d, true)) rfl (fun W => ⟨_, rfl⟩) Ws⟩
  | removeRule d r => exact ⟨.rule d, rfl, follows_single (l := (.types d, true)) rfl (fun W => ⟨_, rfl⟩) Ws⟩
  | gc d num => exact ⟨.collect d, rfl, follows_single (l := (.types d, true)) rfl (fun W => ⟨_, rfl⟩) Ws⟩
  | unregMixin d m => exact ⟨.unregisterMixin d, rfl, follows_unregMixin D d m Ws hu⟩
  | getTypeMut d md q =>
    have h : AsksIn D (.getTypeMut d md q) d q := ⟨fun W st h1 h2 => by cases st <;> first | rfl | exact absurd rfl h1 | exact absurd rfl (h2 _), rfl, fun _ _ => rfl, fun _ _ => rfl, fun _ _ => rfl⟩
    cases Ws with
    | nil => exact ⟨_, ⟨false, false, rfl⟩, follows_start _ (by intro r; simp [stageAfter]) _⟩
    | cons W Ws =>
      by_cases hmd : md ≠ d
      · have h1 : (nextPart D W (.getTypeMut d md q) .todo).1 = .done (.error .foreignMutation) := by simp [nextPart, beginPart, hmd]
        refine ⟨.getTypeMut d true [] false false, ⟨false, false, by simp [hmd]⟩, ?_⟩
        simp only [lockTrail, stageAfter, h1, partLock, if_pos hmd]
        exact follows_done D _ _ Ws
      · have h1 : (nextPart D W (.getTypeMut d md q) .todo).1 = lookupPart D W d q := by simp only [nextPart, beginPart, if_neg hmd]
        obtain ⟨hit, stores, hf⟩ := follows_lookup h W Ws
        refine ⟨.getTypeMut d false [] hit stores, ⟨hit, stores, by simp at hmd; simp [hmd]⟩, ?_⟩
        simp only [lockTrail, stageAfter, h1, partLock, if_neg hmd]
        exact hf
  | getType d q =>
    have h : AsksIn D (.getType d q) d q := ⟨fun W st h1 h2 => by cases st <;> first | rfl | exact absurd rfl h1 | exact absurd rfl (h2 _), rfl, fun _ _ => rfl, fun _ _ => rfl, fun _ _ => rfl⟩
    cases Ws with
    | nil => exact ⟨_, ⟨false, false, false, rfl⟩, follows_start _ (by intro r; simp [stageAfter]) _⟩
    | cons W Ws =>
      simp only [lockTrail, stageAfter, partLock, nextPart, beginPart]
      cases findQuery q (W.doms d).queries with
      | some t => exact ⟨.getType d true [] false false, ⟨_, _, _, rfl⟩, (follows_done D _ _ Ws).cons [_]⟩
      | none =>
        cases Ws with
        | nil => exact ⟨.getType d true [] false false, ⟨_, _, _, rfl⟩, (follows_start _ (by intro r; simp [stageAfter]) []).cons [_]⟩
        | cons W1 Ws =>
          obtain ⟨hit, stores, hf⟩ := follows_lookup h W1 Ws
          exact ⟨.getType d false [] hit stores, ⟨_, _, _, rfl⟩, hf.cons [(.types d, false)]⟩

end Dnmx
