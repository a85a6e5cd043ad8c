import Verif.Spec.FeatureDefs
import Verif.Proofs.DefMemoryWorld

namespace Dnmx
open Spec

/-- a feature definition as a mixin definition with the same memory: the default payload is where a mixin definition has its allocator -/
def asDef (d : FDef) : DefData :=
  { mixin := 0, name := d.name, allocator := d.payload, storedName := d.storedName, storedAlloc := d.storage }

def asWorld (W : FWorld) : DefWorld := ⟨W.mem, W.defs.map (Option.map asDef), W.strings, W.held, []⟩

def FResult.asResult : FResult → DefResult
  | .ok W => .ok (asWorld W)
  | .threw W => .threw (asWorld W)
  | .ub => .ub

theorem asWorld_def? (W : FWorld) (i : Nat) : (asWorld W).def? i = (W.def? i).map asDef := by
  unfold DefWorld.def? FWorld.def? asWorld
  simp only [List.getElem?_map]
  cases h : W.defs[i]? with
  | none => rfl
  | some x => cases x <;> rfl

theorem asWorld_set (W : FWorld) (M : DefMem) (i : Nat) (x : Option FDef) :
    asWorld { W with mem := M, defs := W.defs.set i x } = { asWorld W with mem := M, defs := (asWorld W).defs.set i (x.map asDef) } := by
  simp [asWorld, List.map_set]

/-- definitions and their meaning -/
structure FOk (W : FWorld) (val : Nat → Option FVal) : Prop where
  world : ∃ mval, WorldOk (asWorld W) mval ∧ ∀ i m, mval i = some m → ∃ v, val i = some v ∧ v.name = m.name
  payload : ∀ i d, W.def? i = some d → ∃ v, val i = some v ∧ v.payload = d.payload ∧ d.payload = d.storage.map AnyPtr.ptr
  absent : ∀ i, W.def? i = none → val i = none

theorem FOk.start : FOk fStart (fun _ => none) :=
  ⟨⟨_, WorldOk.start, by intro i m h; simp at h⟩, by intro i d h; simp [fStart, FWorld.def?] at h, fun _ _ => rfl⟩

theorem fDef?_set {W : FWorld} {i : Nat} {d : FDef} (hd : W.def? i = some d) (x : Option FDef) (M : DefMem) (j : Nat) :
    FWorld.def? { W with mem := M, defs := W.defs.set i x } j = if j = i then x else W.def? j := by
  unfold FWorld.def? at hd ⊢
  simp only
  by_cases h : j = i
  · subst h
    rw [if_pos rfl]
    have hl : j < W.defs.length := by
      cases h : W.defs[j]? with
      | none => rw [h] at hd; simp at hd
      | some y => exact (List.getElem?_eq_some_iff.1 h).1
    rw [List.getElem?_set_self hl]
    rfl
  · rw [if_neg h, List.getElem?_set_ne (fun e => h e.symm)]

/-- events that leave the definitions alone -/
theorem FOk.outside {W W' : FWorld} {val : Nat → Option FVal} (h : FOk W val) (e : DefEvent) (hl : LegalEvent (asWorld W) e)
    (hs : (defStep (asWorld W) e).world = some (asWorld W')) (hv : ∀ i (v : Option MixinDef), valueStep i (asWorld W) v e = v) (hd : W'.defs = W.defs) : FOk W' val := by
  obtain ⟨mval, h1, h2⟩ := h.world
  obtain ⟨X, h3, h4⟩ := h1.step e hl
  rw [hs] at h3; cases h3
  have hdd : ∀ i, W'.def? i = W.def? i := by intro i; unfold FWorld.def?; rw [hd]
  refine ⟨⟨mval, ?_, h2⟩, fun i d hi => h.payload i d (by rw [← hdd]; exact hi), fun i hi => h.absent i (by rw [← hdd]; exact hi)⟩
  simpa [hv] using h4

theorem asWorld_mem (W : FWorld) : (asWorld W).mem = W.mem := rfl

/-- the names of definitions are old cells -/
theorem FOk.name_old {W : FWorld} {val : Nat → Option FVal} (h : FOk W val) {i : Nat} {d : FDef} (hd : W.def? i = some d) : d.name < W.mem.next ∧ d.storedName < W.mem.next := by
  obtain ⟨mval, h1, -⟩ := h.world
  have hx : (asWorld W).def? i = some (asDef d) := by rw [asWorld_def?, hd]; rfl
  obtain ⟨v, -, v2⟩ := h1.value i _ hx
  have h5 := chars?_eq.1 v2.name
  obtain ⟨s, h6⟩ := (h1.each i _ hx).stored
  exact ⟨lt_of_live h1.mem (liveAt_chars h5), lt_of_live h1.mem (liveAt_chars h6)⟩

theorem FOk.reads {W : FWorld} {val : Nat → Option FVal} (h : FOk W val) (i : Nat) : (W.def? i).bind (readF W.mem) = val i := by
  cases hd : W.def? i with
  | none => exact (h.absent i hd).symm
  | some d =>
    obtain ⟨mval, h1, h2⟩ := h.world
    have hx : (asWorld W).def? i = some (asDef d) := by rw [asWorld_def?, hd]; rfl
    obtain ⟨m, m1, m2⟩ := h1.value i _ hx
    obtain ⟨v, v1, v2⟩ := h2 i m m1
    obtain ⟨v', v3, v4, -⟩ := h.payload i d hd
    rw [v1] at v3; cases v3
    have h5 : W.mem.chars? d.name = some m.name := m2.name
    show readF W.mem d = _
    unfold readF
    rw [h5, v1]
    cases v
    simp only at v2 v4
    simp [v2, v4]

/-- a call of the mixin builder on the world of a feature program -/
theorem defStep_call {X : DefWorld} {i : Nat} {d : DefData} (hd : X.def? i = some d) (c : DefCall) (g : Growths) :
    defStep X (.call i c g) = match defCall X.mem d g c with
      | .ok M d' => .ok { X with mem := M, defs := X.defs.set i (some d') }
      | .threw M d' => .threw { X with mem := M, defs := X.defs.set i (some d') }
      | .ub => .ub := by
  simp only [defStep, hd]
  cases defCall X.mem d g c <;> rfl

theorem assign_sim (M : DefMem) (d : FDef) (s : List UInt8) (g : Growth) (a : Nat) (ha : M.chars? a = some s) :
    (∃ M' d', fAssign M d s g = .ok M' d' ∧ storeName M (asDef d) a g = .ok M' (asDef d') ∧ d'.payload = d.payload ∧ d'.storage = d.storage ∧
      (d'.name = d.storedName ∨ d'.name = M.next)) ∨
    (∃ M', fAssign M d s g = .threw M' d ∧ storeName M (asDef d) a g = .threw M' (asDef d)) := by
  unfold storeName
  rw [ha]
  cases g with
  | fails => exact .inr ⟨M, rfl, rfl⟩
  | inPlace => exact .inl ⟨_, _, rfl, rfl, rfl, rfl, .inl rfl⟩
  | moved => exact .inl ⟨_, _, rfl, rfl, rfl, rfl, .inr rfl⟩

theorem setPayload_sim (M : DefMem) (d : FDef) (p : AnyPtr) :
    (∃ M' d', fSetPayload M d p = .ok M' d' ∧ setAllocator M (asDef d) (some p) = .ok M' (asDef d') ∧ d'.payload = some p.ptr ∧ d'.storage = some p ∧ d'.name = d.name) ∨
    (fSetPayload M d p = .ub ∧ setAllocator M (asDef d) (some p) = .ub) := by
  have e : (asDef d).storedAlloc = d.storage := rfl
  cases h1 : M.retain p.owner with
  | none => exact .inr ⟨by simp only [fSetPayload, h1], by simp only [setAllocator, h1]⟩
  | some M1 =>
    cases h2 : M1.release (d.storage.bind AnyPtr.owner) with
    | none => exact .inr ⟨by simp only [fSetPayload, h1, h2], by simp only [setAllocator, h1, e, h2]⟩
    | some M2 => exact .inl ⟨M2, { d with storage := some p, payload := some p.ptr }, by simp only [fSetPayload, h1, h2], by simp only [setAllocator, h1, e, h2]; rfl, rfl, rfl, rfl⟩

theorem valueStep_other (X : DefWorld) (i j : Nat) (h : j ≠ i) (c : DefCall) (g : Growths) (x : Option MixinDef) : valueStep j X x (.call i c g) = x := by
  simp only [valueStep, if_neg (fun e : i = j => h e.symm)]

theorem valueStep_ok {X : DefWorld} {i : Nat} {d : DefData} (hd : X.def? i = some d) {c : DefCall} {g : Growths} {M : DefMem} {d' : DefData}
    (hc : defCall X.mem d g c = .ok M d') (x : Option MixinDef) : valueStep i X x (.call i c g) = x.map (fun y => buildStep d.mixin y (opOf X.mem c)) := by
  have h := defStep_call hd c g
  rw [hc] at h
  simp only [valueStep, if_true, hd, h]

theorem valueStep_threw {X : DefWorld} {i : Nat} {d : DefData} (hd : X.def? i = some d) {c : DefCall} {g : Growths} {M : DefMem} {d' : DefData}
    (hc : defCall X.mem d g c = .threw M d') (x : Option MixinDef) : valueStep i X x (.call i c g) = x.map (fun y => failedCall y c) := by
  have h := defStep_call hd c g
  rw [hc] at h
  simp only [valueStep, if_true, hd, h]

/-- a call that is one of the mixin builder, between two events outside of the definitions -/
theorem FOk.after {W : FWorld} {val : Nat → Option FVal} (h : FOk W val) {i : Nat} {d d' : FDef} (hd : W.def? i = some d) {X : DefWorld}
    {mval : Nat → Option MixinDef} (hX : WorldOk X mval) {M : DefMem} (hXe : X = asWorld { W with mem := M, defs := W.defs.set i (some d') })
    (val' : Nat → Option FVal) (hother : ∀ j, j ≠ i → val' j = val j) (hself : ∃ v, val' i = some v ∧ v.payload = d'.payload ∧ ∀ m, mval i = some m → v.name = m.name)
    (hm : ∀ j, j ≠ i → ∀ m, mval j = some m → ∃ v, val j = some v ∧ v.name = m.name) (hp : d'.payload = d'.storage.map AnyPtr.ptr) :
    FOk { W with mem := M, defs := W.defs.set i (some d') } val' := by
  subst hXe
  obtain ⟨v, v1, v2, v3⟩ := hself
  refine ⟨⟨mval, hX, fun j m hj => ?_⟩, fun j x hx => ?_, fun j hj => ?_⟩
  · by_cases e : j = i
    · subst e; exact ⟨v, v1, v3 m hj⟩
    · rw [hother j e]; exact hm j e m hj
  · rw [fDef?_set hd] at hx
    by_cases e : j = i
    · subst e
      rw [if_pos rfl] at hx; cases hx
      exact ⟨v, v1, v2, hp⟩
    · rw [if_neg e] at hx
      rw [hother j e]; exact h.payload j x hx
  · rw [fDef?_set hd] at hj
    by_cases e : j = i
    · rw [if_pos e] at hj; simp at hj
    · rw [if_neg e] at hj
      rw [hother j e]; exact h.absent j hj

theorem asDef_of {W : FWorld} {i : Nat} {d : FDef} (hd : W.def? i = some d) : (asWorld W).def? i = some (asDef d) := by
  rw [asWorld_def?, hd]; rfl

theorem FOk.name_call {W : FWorld} {val : Nat → Option FVal} (h : FOk W val) {i : Nat} {d : FDef} (hd : W.def? i = some d) (a : Nat) (ha : a ∈ W.strings ∨ a = d.storedName) :
    FOk { W with defs := W.defs.set i (some { d with name := a }) } (fun j => if i = j then (val j).map (fun x => { x with name := (W.mem.chars? a).getD [] }) else val j) := by
  obtain ⟨mval, h1, h2⟩ := h.world
  obtain ⟨X, h3, h4⟩ := h1.step (.call i (.name a) {}) ⟨_, asDef_of hd, ha⟩
  rw [defStep_call (asDef_of hd)] at h3
  simp only [defCall, DefResult.world, Option.some.injEq] at h3
  obtain ⟨v, v1, v2, v3⟩ := h.payload i d hd
  refine h.after (M := W.mem) (d' := { d with name := a }) hd h4 (by rw [← h3]; simp [asWorld, List.map_set, asDef]) _ (fun j hj => if_neg (fun e => hj e.symm)) ⟨{ v with name := (W.mem.chars? a).getD [] }, ?_, v2, ?_⟩ ?_ v3
  · rw [if_pos rfl, v1]; rfl
  · intro m hm
    rw [valueStep_ok (asDef_of hd) (c := .name a) (g := {}) rfl] at hm
    obtain ⟨m0, -, rfl⟩ := Option.map_eq_some_iff.1 hm
    rfl
  · intro j hj m hm
    rw [valueStep_other _ _ _ hj] at hm
    exact h2 j m hm

theorem erase_new (n : Nat) (l : List Nat) : (n :: l).erase n = l := by simp

/-- `store_name` -/
theorem FOk.store_call {W : FWorld} {val : Nat → Option FVal} (h : FOk W val) {i : Nat} {d : FDef} (hd : W.def? i = some d) (s : List UInt8) (g : Growth) :
    (∃ M d', (fAssign (W.mem.new (.chars s)) d s g).finish (fun M' => M'.freeAll [W.mem.next]) = .ok M d' ∧
      FOk { W with mem := M, defs := W.defs.set i (some d') } (fun j => if i = j then (val j).map (fun x => { x with name := s }) else val j)) ∨
    (∃ M, (fAssign (W.mem.new (.chars s)) d s g).finish (fun M' => M'.freeAll [W.mem.next]) = .threw M d ∧ FOk { W with mem := M, defs := W.defs.set i (some d) } val) := by
  obtain ⟨mval, h1, h2⟩ := h.world
  obtain ⟨X1, e1, h3⟩ := h1.step (.newString s) trivial
  simp only [defStep, DefResult.world, Option.some.injEq] at e1
  subst e1
  have hv1 : ∀ j (x : Option MixinDef), valueStep j (asWorld W) x (.newString s) = x := fun _ _ => rfl
  simp only [hv1] at h3
  have hc : (W.mem.new (.chars s)).chars? W.mem.next = some s := chars?_eq.2 (new_self _ _)
  have hd1 : DefWorld.def? { asWorld W with mem := (asWorld W).mem.new (.chars s), strings := (asWorld W).mem.next :: (asWorld W).strings } i = some (asDef d) := asDef_of hd
  obtain ⟨X2, e2, h4⟩ := h3.step (.call i (.storeName W.mem.next) { first := g }) ⟨_, hd1, s, hc⟩
  rw [defStep_call hd1] at e2
  have hn := h.name_old hd
  obtain ⟨v, v1, v2, v3⟩ := h.payload i d hd
  rcases assign_sim (W.mem.new (.chars s)) d s g W.mem.next hc with ⟨M2, d', a1, a2, a3, a4, a5⟩ | ⟨M2, a1, a2⟩
  · left
    have hcall : defCall (W.mem.new (.chars s)) (asDef d) { first := g } (.storeName W.mem.next) = .ok M2 (asDef d') := a2
    have hcall' := hcall
    change defCall ((asWorld W).mem.new (.chars s)) (asDef d) { first := g } (.storeName W.mem.next) = .ok M2 (asDef d') at hcall'
    simp only [hcall', DefResult.world, Option.some.injEq] at e2
    have hl : LegalEvent X2 (.freeString W.mem.next) := by
      subst e2
      refine ⟨List.mem_cons_self .., fun j x hx => ?_⟩
      have hx' : (asWorld { W with mem := M2, defs := W.defs.set i (some d') }).def? j = some x := by
        rw [asWorld_set]; exact hx
      rw [asWorld_def?, fDef?_set hd] at hx'
      by_cases e : j = i
      · rw [if_pos e] at hx'; simp at hx'; subst hx'
        show d'.name ≠ _
        rcases a5 with a5 | a5
        · omega
        · rw [a5, new_next]; omega
      · rw [if_neg e] at hx'
        obtain ⟨y, hy, rfl⟩ := Option.map_eq_some_iff.1 hx'
        have := (h.name_old hy).1
        show y.name ≠ _
        omega
    obtain ⟨X3, e3, h5⟩ := h4.step _ hl
    subst e2
    simp only [defStep] at e3
    cases hf : M2.freeAll [W.mem.next] with
    | none => rw [hf] at e3; simp [DefResult.world] at e3
    | some M3 =>
      rw [hf] at e3
      simp only [DefResult.world, Option.some.injEq] at e3
      refine ⟨M3, d', by rw [a1]; simp only [FOut.finish, hf], ?_⟩
      refine h.after hd h5 (by rw [← e3, asWorld_set]; simp [asWorld]) _ (fun j hj => if_neg (fun e => hj e.symm))
        ⟨{ v with name := s }, by rw [if_pos rfl, v1]; rfl, by rw [a3]; exact v2, ?_⟩ ?_ (by rw [a3, a4]; exact v3)
      · intro m hm
        rw [show ∀ (x : Option MixinDef) (X : DefWorld), valueStep i X x (.freeString W.mem.next) = x from fun _ _ => rfl, valueStep_ok hd1 hcall'] at hm
        obtain ⟨m0, -, rfl⟩ := Option.map_eq_some_iff.1 hm
        simp only [opOf, buildStep]
        show s = ((W.mem.new (.chars s)).chars? W.mem.next).getD []
        rw [hc]; rfl
      · intro j hj m hm
        rw [show ∀ (x : Option MixinDef) (X : DefWorld), valueStep j X x (.freeString W.mem.next) = x from fun _ _ => rfl, valueStep_other _ _ _ hj] at hm
        exact h2 j m hm
  · right
    have hcall' : defCall ((asWorld W).mem.new (.chars s)) (asDef d) { first := g } (.storeName W.mem.next) = .threw M2 (asDef d) := a2
    simp only [hcall', DefResult.world, Option.some.injEq] at e2
    have hl : LegalEvent X2 (.freeString W.mem.next) := by
      subst e2
      refine ⟨List.mem_cons_self .., fun j x hx => ?_⟩
      have hx' : (asWorld { W with mem := M2, defs := W.defs.set i (some d) }).def? j = some x := by
        rw [asWorld_set]; exact hx
      rw [asWorld_def?, fDef?_set hd] at hx'
      by_cases e : j = i
      · rw [if_pos e] at hx'; simp at hx'; subst hx'
        show d.name ≠ _
        omega
      · rw [if_neg e] at hx'
        obtain ⟨y, hy, rfl⟩ := Option.map_eq_some_iff.1 hx'
        have := (h.name_old hy).1
        show y.name ≠ _
        omega
    obtain ⟨X3, e3, h5⟩ := h4.step _ hl
    subst e2
    simp only [defStep] at e3
    cases hf : M2.freeAll [W.mem.next] with
    | none => rw [hf] at e3; simp [DefResult.world] at e3
    | some M3 =>
      rw [hf] at e3
      simp only [DefResult.world, Option.some.injEq] at e3
      refine ⟨M3, by rw [a1]; simp only [FOut.finish, hf], ?_⟩
      refine h.after hd h5 (by rw [← e3, asWorld_set]; simp [asWorld]) _ (fun j hj => rfl)
        ⟨v, v1, v2, ?_⟩ ?_ v3
      · intro m hm
        rw [show ∀ (x : Option MixinDef) (X : DefWorld), valueStep i X x (.freeString W.mem.next) = x from fun _ _ => rfl, valueStep_threw hd1 hcall'] at hm
        obtain ⟨m0, hm0, rfl⟩ := Option.map_eq_some_iff.1 hm
        obtain ⟨v', v4, v5⟩ := h2 i m0 hm0
        rw [v1] at v4; cases v4
        exact v5
      · intro j hj m hm
        rw [show ∀ (x : Option MixinDef) (X : DefWorld), valueStep j X x (.freeString W.mem.next) = x from fun _ _ => rfl, valueStep_other _ _ _ hj] at hm
        exact h2 j m hm

/-- the assignment of a shared pointer, and the end of the parameter -/
theorem FOk.payload_mid {W : FWorld} {val : Nat → Option FVal} (h : FOk W val) {i : Nat} {d : FDef} (hd : W.def? i = some d) {mval : Nat → Option MixinDef}
    (h2 : ∀ i m, mval i = some m → ∃ v, val i = some v ∧ v.name = m.name) (M1 : DefMem) (c : Nat) (ptr : Nat)
    (h3 : WorldOk { asWorld W with mem := M1, held := c :: W.held } mval) (hs : IsShared M1 c) :
    ∃ M d', (fSetPayload M1 d ⟨ptr, some c⟩).finish (fun M' => M'.release (some c)) = .ok M d' ∧
      FOk { W with mem := M, defs := W.defs.set i (some d') } (fun j => if i = j then (val j).map (fun x => { x with payload := some ptr }) else val j) := by
  have hd1 : DefWorld.def? { asWorld W with mem := M1, held := c :: W.held } i = some (asDef d) := asDef_of hd
  obtain ⟨X2, e2, h4⟩ := h3.step (.call i (.usesAllocator (some ⟨ptr, some c⟩)) {}) ⟨_, hd1, _, rfl, by intro c' e; cases e; exact hs⟩
  rw [defStep_call hd1] at e2
  obtain ⟨v, v1, v2, v3⟩ := h.payload i d hd
  rcases setPayload_sim M1 d ⟨ptr, some c⟩ with ⟨M2, d', a1, a2, a3, a4, a5⟩ | ⟨-, a2⟩
  · have hcall : defCall M1 (asDef d) {} (.usesAllocator (some ⟨ptr, some c⟩)) = .ok M2 (asDef d') := a2
    simp only [hcall, DefResult.world, Option.some.injEq] at e2
    obtain ⟨X3, e3, h5⟩ := h4.step (.dropShared c) (by subst e2; exact List.mem_cons_self ..)
    subst e2
    simp only [defStep] at e3
    cases hf : M2.release (some c) with
    | none => rw [hf] at e3; simp [DefResult.world] at e3
    | some M3 =>
      rw [hf] at e3
      simp only [DefResult.world, Option.some.injEq] at e3
      refine ⟨M3, d', by rw [a1]; simp only [FOut.finish, hf], ?_⟩
      refine h.after hd h5 (by rw [← e3, asWorld_set]; simp [asWorld]) _ (fun j hj => if_neg (fun e => hj e.symm))
        ⟨{ v with payload := some ptr }, by rw [if_pos rfl, v1]; rfl, by rw [a3], ?_⟩ ?_ (by rw [a3, a4]; rfl)
      · intro m hm
        rw [show ∀ (x : Option MixinDef) (X : DefWorld), valueStep i X x (.dropShared c) = x from fun _ _ => rfl, valueStep_ok hd1 hcall] at hm
        obtain ⟨m0, hm0, rfl⟩ := Option.map_eq_some_iff.1 hm
        obtain ⟨v', v4, v5⟩ := h2 i m0 hm0
        rw [v1] at v4; cases v4
        exact v5
      · intro j hj m hm
        rw [show ∀ (x : Option MixinDef) (X : DefWorld), valueStep j X x (.dropShared c) = x from fun _ _ => rfl, valueStep_other _ _ _ hj] at hm
        exact h2 j m hm
  · have hcall : defCall M1 (asDef d) {} (.usesAllocator (some ⟨ptr, some c⟩)) = .ub := a2
    simp only [hcall, DefResult.world] at e2
    simp at e2

/-- `default_payload_by`: nothing is owned -/
theorem FOk.payload_by {W : FWorld} {val : Nat → Option FVal} (h : FOk W val) {i : Nat} {d : FDef} (hd : W.def? i = some d) (ptr : Nat) :
    ∃ M d', fCall W.mem d g (.payload ⟨ptr, none⟩) = .ok M d' ∧
      FOk { W with mem := M, defs := W.defs.set i (some d') } (fun j => if i = j then (val j).map (fun x => { x with payload := some ptr }) else val j) := by
  obtain ⟨mval, h1, h2⟩ := h.world
  have hd1 := asDef_of hd
  obtain ⟨X2, e2, h4⟩ := h1.step (.call i (.usesAllocator (some ⟨ptr, none⟩)) {}) ⟨_, hd1, _, rfl, by intro c' e; cases e⟩
  rw [defStep_call hd1] at e2
  obtain ⟨v, v1, v2, v3⟩ := h.payload i d hd
  rcases setPayload_sim W.mem d ⟨ptr, none⟩ with ⟨M2, d', a1, a2, a3, a4, a5⟩ | ⟨-, a2⟩
  · have hcall : defCall (asWorld W).mem (asDef d) {} (.usesAllocator (some ⟨ptr, none⟩)) = .ok M2 (asDef d') := a2
    simp only [hcall, DefResult.world, Option.some.injEq] at e2
    refine ⟨M2, d', by simp only [fCall, DefMem.retain, a1, FOut.finish, DefMem.release], ?_⟩
    refine h.after hd h4 (by rw [← e2, asWorld_set]; simp [asWorld]) _ (fun j hj => if_neg (fun e => hj e.symm))
        ⟨{ v with payload := some ptr }, by rw [if_pos rfl, v1]; rfl, by rw [a3], ?_⟩ ?_ (by rw [a3, a4]; rfl)
    · intro m hm
      rw [valueStep_ok hd1 hcall] at hm
      obtain ⟨m0, hm0, rfl⟩ := Option.map_eq_some_iff.1 hm
      obtain ⟨v', v4, v5⟩ := h2 i m0 hm0
      rw [v1] at v4; cases v4
      exact v5
    · intro j hj m hm
      rw [valueStep_other _ _ _ hj] at hm
      exact h2 j m hm
  · have hcall : defCall (asWorld W).mem (asDef d) {} (.usesAllocator (some ⟨ptr, none⟩)) = .ub := a2
    simp only [hcall, DefResult.world] at e2
    simp at e2

theorem fSet_same {W : FWorld} {i : Nat} {d : FDef} (hd : W.def? i = some d) : W.defs.set i (some d) = W.defs := by
  unfold FWorld.def? at hd
  apply List.ext_getElem?
  intro j
  by_cases e : i = j
  · subst e
    cases hx : W.defs[i]? with
    | none => rw [hx] at hd; simp at hd
    | some y =>
      rw [hx] at hd
      simp at hd; subst hd
      rw [List.getElem?_set_self (List.getElem?_eq_some_iff.1 hx).1]
  · rw [List.getElem?_set_ne e]

/-- calls -/
theorem FOk.call {W : FWorld} {val : Nat → Option FVal} (h : FOk W val) {i : Nat} {d : FDef} (hd : W.def? i = some d) (c : FCall) (g : Growths) (hl : LegalFCall W d c) :
    (∃ M d', fCall W.mem d g c = .ok M d' ∧
      FOk { W with mem := M, defs := W.defs.set i (some d') } (fun j => if i = j then (val j).map (fun x => fDone W x c) else val j)) ∨
    (∃ M, fCall W.mem d g c = .threw M d ∧ FOk { W with mem := M, defs := W.defs.set i (some d) } val) := by
  cases c with
  | name a => exact .inl ⟨W.mem, _, rfl, h.name_call hd a hl⟩
  | storeName a =>
    obtain ⟨s, ha⟩ := hl
    by_cases hf : g.first = .fails
    · exact .inr ⟨W.mem, by simp only [fCall, ha, if_pos hf], by rw [fSet_same hd]; exact h⟩
    · have e : fCall W.mem d g (.storeName a) = (fAssign (W.mem.new (.chars s)) d s g.second).finish (fun M' => M'.freeAll [W.mem.next]) := by
        simp only [fCall, ha, if_neg hf]
      rw [e]
      have hs := h.store_call hd s g.second
      simp only [fDone, ha, Option.getD_some]
      exact hs
  | payload p =>
    obtain ⟨ptr, owner⟩ := p
    left
    cases owner with
    | none => exact h.payload_by hd ptr
    | some c =>
      obtain ⟨mval, h1, h2⟩ := h.world
      obtain ⟨X1, e1, h3⟩ := h1.step (.copyShared c) (hl c rfl)
      simp only [defStep] at e1
      have hm : (asWorld W).mem = W.mem := rfl
      rw [hm] at e1
      cases hr : W.mem.retain (some c) with
      | none => rw [hr] at e1; simp [DefResult.world] at e1
      | some M1 =>
        rw [hr] at e1
        simp only [DefResult.world, Option.some.injEq] at e1
        subst e1
        have e : fCall W.mem d g (.payload ⟨ptr, some c⟩) = (fSetPayload M1 d ⟨ptr, some c⟩).finish (fun M' => M'.release (some c)) := by
          simp only [fCall, hr]
        rw [e]
        refine h.payload_mid hd h2 M1 c ptr h3 ?_
        obtain ⟨n, hn⟩ := hl c rfl
        simp only [DefMem.retain, hn, Option.some.injEq] at hr
        rw [← hr]
        exact ⟨n + 1, put_self _ _ _⟩
  | payloadWith =>
    by_cases hf : g.first = .fails
    · exact .inr ⟨W.mem, by simp only [fCall, if_pos hf], by rw [fSet_same hd]; exact h⟩
    · left
      have e : fCall W.mem d g .payloadWith = (fSetPayload (W.mem.new (.shared 1)) d ⟨W.mem.next, some W.mem.next⟩).finish (fun M' => M'.release (some W.mem.next)) := by
        simp only [fCall, if_neg hf]
      rw [e]
      obtain ⟨mval, h1, h2⟩ := h.world
      obtain ⟨X1, e1, h3⟩ := h1.step .newShared trivial
      simp only [defStep, DefResult.world, Option.some.injEq] at e1
      subst e1
      exact h.payload_mid hd h2 (W.mem.new (.shared 1)) W.mem.next W.mem.next h3 ⟨1, new_self _ _⟩

theorem FOk.step {W : FWorld} {val : Nat → Option FVal} (h : FOk W val) (e : FEvent) (hl : LegalF W e) :
    ∃ W', (fStep W e).world = some W' ∧ FOk W' (fun i => fValueStep i W (val i) e) := by
  cases e with
  | newString s => exact ⟨_, rfl, h.outside (.newString s) trivial rfl (fun _ _ => rfl) rfl⟩
  | newShared => exact ⟨_, rfl, h.outside .newShared trivial rfl (fun _ _ => rfl) rfl⟩
  | freeString a =>
    obtain ⟨mval, h1, -⟩ := h.world
    have hle : LegalEvent (asWorld W) (.freeString a) := by
      refine ⟨hl.1, fun i x hx => ?_⟩
      rw [asWorld_def?] at hx
      obtain ⟨y, hy, rfl⟩ := Option.map_eq_some_iff.1 hx
      exact hl.2 i y hy
    obtain ⟨X, e1, -⟩ := h1.step _ hle
    simp only [defStep, asWorld_mem] at e1
    cases hf : W.mem.freeAll [a] with
    | none => rw [hf] at e1; simp [DefResult.world] at e1
    | some M =>
      refine ⟨{ W with mem := M, strings := W.strings.erase a }, by simp only [fStep, hf, FResult.world], h.outside (.freeString a) hle ?_ (fun _ _ => rfl) rfl⟩
      simp only [defStep, asWorld_mem, hf, DefResult.world]; rfl
  | copyShared c =>
    obtain ⟨mval, h1, -⟩ := h.world
    obtain ⟨X, e1, -⟩ := h1.step (.copyShared c) hl
    simp only [defStep, asWorld_mem] at e1
    cases hf : W.mem.retain (some c) with
    | none => rw [hf] at e1; simp [DefResult.world] at e1
    | some M =>
      refine ⟨{ W with mem := M, held := c :: W.held }, by simp only [fStep, hf, FResult.world], h.outside (.copyShared c) hl ?_ (fun _ _ => rfl) rfl⟩
      simp only [defStep, asWorld_mem, hf, DefResult.world]; rfl
  | dropShared c =>
    obtain ⟨mval, h1, -⟩ := h.world
    obtain ⟨X, e1, -⟩ := h1.step (.dropShared c) hl
    simp only [defStep, asWorld_mem] at e1
    cases hf : W.mem.release (some c) with
    | none => rw [hf] at e1; simp [DefResult.world] at e1
    | some M =>
      refine ⟨{ W with mem := M, held := W.held.erase c }, by simp only [fStep, hf, FResult.world], h.outside (.dropShared c) hl ?_ (fun _ _ => rfl) rfl⟩
      simp only [defStep, asWorld_mem, hf, DefResult.world]; rfl
  | construct a =>
    obtain ⟨mval, h1, h2⟩ := h.world
    obtain ⟨X, e1, h3⟩ := h1.step (.construct 0 a) hl
    simp only [defStep, DefResult.world, Option.some.injEq] at e1
    refine ⟨_, rfl, ⟨⟨_, by rw [← e1] at h3; simpa [asWorld, asDef] using h3, ?_⟩, ?_, ?_⟩⟩
    · intro i m hm
      simp only [valueStep] at hm
      have hlen : (List.map (Option.map asDef) W.defs).length = W.defs.length := by simp
      simp only [fValueStep]
      by_cases e : W.defs.length = i
      · rw [if_pos (hlen.trans e)] at hm
        rw [if_pos e]
        cases hm
        exact ⟨_, rfl, rfl⟩
      · rw [if_neg (fun e' => e (hlen.symm.trans e'))] at hm
        rw [if_neg e]
        exact h2 i m hm
    · intro i d hd
      simp only [fValueStep]
      unfold FWorld.def? at hd
      simp only at hd
      by_cases e : W.defs.length = i
      · subst e
        rw [if_pos rfl]
        simp at hd
        subst hd
        exact ⟨_, rfl, rfl, rfl⟩
      · rw [if_neg e]
        refine h.payload i d ?_
        unfold FWorld.def?
        rw [List.getElem?_append] at hd
        by_cases e2 : i < W.defs.length
        · rw [if_pos e2] at hd; exact hd
        · rw [if_neg e2, List.getElem?_eq_none (by simp; omega)] at hd
          simp at hd
    · intro i hi
      simp only [fValueStep]
      unfold FWorld.def? at hi
      simp only at hi
      by_cases e : W.defs.length = i
      · subst e; simp at hi
      · rw [if_neg e]
        refine h.absent i ?_
        unfold FWorld.def?
        rw [List.getElem?_append] at hi
        by_cases e2 : i < W.defs.length
        · rw [if_pos e2] at hi; exact hi
        · rw [List.getElem?_eq_none (by omega)]; rfl
  | call i c g =>
    obtain ⟨d, hd, hc⟩ := hl
    rcases h.call hd c g hc with ⟨M, d', h1, h2⟩ | ⟨M, h1, h2⟩
    · have e : fStep W (.call i c g) = .ok { W with mem := M, defs := W.defs.set i (some d') } := by simp only [fStep, hd, h1]
      refine ⟨_, by rw [e]; rfl, ?_⟩
      simp only [fValueStep, e]
      exact h2
    · have e : fStep W (.call i c g) = .threw { W with mem := M, defs := W.defs.set i (some d) } := by simp only [fStep, hd, h1]
      refine ⟨_, by rw [e]; rfl, ?_⟩
      simp only [fValueStep, e, ite_self]
      exact h2
  | destroy i =>
    obtain ⟨d, hd⟩ := hl
    obtain ⟨mval, h1, h2⟩ := h.world
    obtain ⟨X, e1, h3⟩ := h1.step (.destroy i) ⟨_, asDef_of hd⟩
    have hx : defDestroy W.mem (asDef d) = fDestroy W.mem d := by
      unfold fDestroy
      show (do
        let M1 ← W.mem.freeAll []
        let M2 ← M1.freeAll []
        let M3 ← M2.releaseAll []
        let M4 ← M3.freeAll []
        let M5 ← M4.release (d.storage.bind AnyPtr.owner)
        M5.freeAll [d.storedName]) = _
      simp only [DefMem.freeAll, DefMem.releaseAll, Option.bind_eq_bind, Option.bind_some]
      cases W.mem.release (d.storage.bind AnyPtr.owner) <;> rfl
    simp only [defStep, asDef_of hd, asWorld_mem, hx] at e1
    cases hf : fDestroy W.mem d with
    | none => rw [hf] at e1; simp [DefResult.world] at e1
    | some M =>
      rw [hf] at e1
      simp only [DefResult.world, Option.some.injEq] at e1
      refine ⟨{ W with mem := M, defs := W.defs.set i none }, by simp only [fStep, hd, hf, FResult.world], ⟨⟨_, by rw [← e1] at h3; rw [asWorld_set]; exact h3, ?_⟩, ?_, ?_⟩⟩
      · intro j m hm
        simp only [valueStep] at hm
        simp only [fValueStep]
        by_cases e : i = j
        · rw [if_pos e] at hm; simp at hm
        · rw [if_neg e] at hm ⊢; exact h2 j m hm
      · intro j x hxx
        rw [fDef?_set hd] at hxx
        simp only [fValueStep]
        by_cases e : j = i
        · rw [if_pos e] at hxx; simp at hxx
        · rw [if_neg e] at hxx
          rw [if_neg (fun e' => e e'.symm)]; exact h.payload j x hxx
      · intro j hj
        rw [fDef?_set hd] at hj
        simp only [fValueStep]
        by_cases e : j = i
        · rw [if_pos e.symm]
        · rw [if_neg e] at hj
          rw [if_neg (fun e' => e e'.symm)]; exact h.absent j hj

theorem FOk.run : ∀ (es : List FEvent) {W : FWorld} {val : Nat → Option FVal}, FOk W val → LegalFRun W es →
    ∃ W', fRun W es = some W' ∧ FOk W' (fun i => fValueAfter i W (val i) es)
  | [], W, val, h, _ => ⟨W, rfl, h⟩
  | e :: es, W, val, h, hl => by
    obtain ⟨W1, h1, h2⟩ := h.step e hl.1
    obtain ⟨W2, h3, h4⟩ := FOk.run es h2 (hl.2 W1 h1)
    refine ⟨W2, by simp only [fRun, h1]; exact h3, ?_⟩
    simp only [fValueAfter, h1]
    exact h4

end Dnmx
