import Verif.Proofs.StepLemmas
import Verif.Proofs.IndependentLemmas

/-!
# Programs of steps with other addresses and numbers of objects

`PSim`: two programs do the same steps, with addresses renamed by `ρ` (below `n`) and objects renamed by `σ` (below `L`).
-/

set_option linter.unusedSimpArgs false
set_option linter.unusedVariables false

namespace Dnmx.Steps
open Spec Indep

/-- Relations of results that depend on the renaming. -/
abbrev Rel (α : Type) := (Nat → Nat) → (Nat → Nat) → Nat → Nat → α → α → Prop

def renHow (ρ : Nat → Nat) : How → How
  | .copied l => .copied (renLoc ρ l)
  | .moved l => .moved (renLoc ρ l)
  | k => k

/-- The addresses in it are below `n`. -/
def howIn (n : Nat) : How → Prop
  | .copied l => l.1 < n
  | .moved l => l.1 < n
  | _ => True

def objIn (n : Nat) (x : Option Obj) : Prop := ∀ ob a, x = some ob → ob.data = some a → a < n

def slotIn (n : Nat) (sl : Slot) : Prop := sl.loc.1 < n ∧ ∀ e, sl.buf = some e → e < n

inductive PSim {α : Type} (R : Rel α) : (Nat → Nat) → (Nat → Nat) → Nat → Nat → Prog α → Prog α → Prop
  | ub {σ ρ n L P} : PSim R σ ρ n L .ub P
  | ok {σ ρ n L a1 a} : R σ ρ n L a1 a → PSim R σ ρ n L (.ok a1) (.ok a)
  | throw {σ ρ n L a1 a e} : R σ ρ n L a1 a → PSim R σ ρ n L (.throw a1 e) (.throw a e)
  | getObj {σ ρ n L o o' k1 k} : o < L → o' = σ o → (∀ x, objIn n x → PSim R σ ρ n L (k1 x) (k (x.map (renObj ρ)))) → PSim R σ ρ n L (.getObj o k1) (.getObj o' k)
  /-- undefined behaviour whatever happens -/
  | dead {σ ρ n L P1 P} : (∀ D orc h, h.objs.length = L → P1.run D orc h = .ub) → PSim R σ ρ n L P1 P
  | setObj {σ ρ n L o o' x x' k1 k} : o < L → objIn n x → o' = σ o → x' = x.map (renObj ρ) → PSim R σ ρ n L k1 k → PSim R σ ρ n L (.setObj o x k1) (.setObj o' x' k)
  | addObj {σ ρ n L ob k1 k} : ob.data = none → (∀ m, PSim R (extend σ L m) ρ n (L + 1) (k1 L) (k m)) → PSim R σ ρ n L (.addObj ob k1) (.addObj ob k)
  | outside {σ ρ n L k1 k} : (∀ f v t, PSim R σ ρ n L (k1 f v t) (k f v t)) → PSim R σ ρ n L (.outside k1) (.outside k)
  | alloc {σ ρ n L b k1 k} : (∀ m, PSim R σ (extend ρ n m) (n + 1) L (k1 n) (k m)) → PSim R σ ρ n L (.alloc b k1) (.alloc b k)
  | dealloc {σ ρ n L a a' b k1 k} : a' = ρ a → PSim R σ ρ n L k1 k → PSim R σ ρ n L (.dealloc a b k1) (.dealloc a' b k)
  | getSlot {σ ρ n L a a' i k1 k} : a' = ρ a → (∀ sl, slotIn n sl → PSim R σ ρ n L (k1 sl) (k (renSlot ρ sl))) → PSim R σ ρ n L (.getSlot a i k1) (.getSlot a' i k)
  | setSlot {σ ρ n L a a' i sl sl' k1 k} : a < n → slotIn n sl → a' = ρ a → sl' = renSlot ρ sl → PSim R σ ρ n L k1 k → PSim R σ ρ n L (.setSlot a i sl k1) (.setSlot a' i sl' k)
  | setOwner {σ ρ n L l l' o o' k1 k} : l.1 < n → o < L → l' = renLoc ρ l → o' = σ o → PSim R σ ρ n L k1 k → PSim R σ ρ n L (.setOwner l o k1) (.setOwner l' o' k)
  | getLive {σ ρ n L l l' k1 k} : l.1 < n → l' = renLoc ρ l → (∀ x, PSim R σ ρ n L (k1 x) (k x)) → PSim R σ ρ n L (.getLive l k1) (.getLive l' k)
  | setLive {σ ρ n L l l' v k1 k} : l.1 < n → l' = renLoc ρ l → PSim R σ ρ n L k1 k → PSim R σ ρ n L (.setLive l v k1) (.setLive l' v k)
  | construct {σ ρ n L l l' m v how how' k1 k} : l' = renLoc ρ l → howIn n how → how' = renHow ρ how → PSim R σ ρ n L k1 k →
      PSim R σ ρ n L (.construct l m v how k1) (.construct l' m v how' k)
  | destroy {σ ρ n L l l' m k1 k} : l' = renLoc ρ l → PSim R σ ρ n L k1 k → PSim R σ ρ n L (.destroy l m k1) (.destroy l' m k)
  | count {σ ρ n L t c k1 k} : PSim R σ ρ n L k1 k → PSim R σ ρ n L (.count t c k1) (.count t c k)
  | log {σ ρ n L e e' k1 k} : eventSeen e' = eventSeen e → PSim R σ ρ n L k1 k → PSim R σ ρ n L (.log e k1) (.log e' k)

/-- A later renaming: more addresses and objects. -/
structure Ext (σ ρ : Nat → Nat) (n L : Nat) (σ' ρ' : Nat → Nat) (n' L' : Nat) : Prop where
  addr : ∀ a, a < n → ρ' a = ρ a
  obj : ∀ o, o < L → σ' o = σ o
  le : n ≤ n'
  ole : L ≤ L'

theorem Ext.refl (σ ρ : Nat → Nat) (n L : Nat) : Ext σ ρ n L σ ρ n L := ⟨fun _ _ => rfl, fun _ _ => rfl, Nat.le_refl _, Nat.le_refl _⟩

theorem Ext.trans {σ ρ σ' ρ' σ'' ρ'' : Nat → Nat} {n L n' L' n'' L'' : Nat} (h1 : Ext σ ρ n L σ' ρ' n' L') (h2 : Ext σ' ρ' n' L' σ'' ρ'' n'' L'') :
    Ext σ ρ n L σ'' ρ'' n'' L'' :=
  ⟨fun a ha => (h2.addr a (Nat.lt_of_lt_of_le ha h1.le)).trans (h1.addr a ha), fun o ho => (h2.obj o (Nat.lt_of_lt_of_le ho h1.ole)).trans (h1.obj o ho),
    Nat.le_trans h1.le h2.le, Nat.le_trans h1.ole h2.ole⟩

theorem Ext.alloc (σ ρ : Nat → Nat) (n L m : Nat) : Ext σ ρ n L σ (extend ρ n m) (n + 1) L := ⟨fun _ h => extend_old h, fun _ _ => rfl, Nat.le_succ _, Nat.le_refl _⟩
theorem Ext.add (σ ρ : Nat → Nat) (n L m : Nat) : Ext σ ρ n L (extend σ L m) ρ n (L + 1) := ⟨fun _ _ => rfl, fun _ h => extend_old h, Nat.le_refl _, Nat.le_succ _⟩

section
variable {α β : Type} {R : Rel α} {S : Rel β} {σ ρ σ' ρ' : Nat → Nat} {n L n' L' : Nat}

theorem Ext.mapEq (he : Ext σ ρ n L σ' ρ' n' L') {x : Option Nat} (hx : ∀ a, x = some a → a < n) : x.map ρ' = x.map ρ := by
  cases x with
  | none => rfl
  | some a => simp [he.addr a (hx a rfl)]

theorem Ext.locEq (he : Ext σ ρ n L σ' ρ' n' L') {l : Loc} (hl : l.1 < n) : renLoc ρ' l = renLoc ρ l := by unfold renLoc; rw [he.addr _ hl]

theorem PSim.noObj {o : Nat} {k1 : Option Obj → Prog α} {P : Prog α} (ho : L ≤ o) (h : ∀ D orc h, (k1 none).run D orc h = .ub) : PSim R σ ρ n L (.getObj o k1) P := by
  refine .dead (fun D orc x hx => ?_)
  have : x.obj? o = none := by unfold Heap.obj?; rw [List.getElem?_eq_none (by omega)]; rfl
  simp only [Prog.run]
  rw [this]
  exact h D orc x

theorem PSim.bindExt {P1 P : Prog α} {f1 f : α → Prog β} {g1 g : α → XErr → Prog β} (hP : PSim R σ ρ n L P1 P) :
    (∀ σ' ρ' n' L' a1 a, Ext σ ρ n L σ' ρ' n' L' → R σ' ρ' n' L' a1 a → PSim S σ' ρ' n' L' (f1 a1) (f a)) →
    (∀ σ' ρ' n' L' a1 a e, Ext σ ρ n L σ' ρ' n' L' → R σ' ρ' n' L' a1 a → PSim S σ' ρ' n' L' (g1 a1 e) (g a e)) →
    PSim S σ ρ n L (P1.bind f1 g1) (P.bind f g) := by
  induction hP with
  | ub => intro _ _; exact .ub
  | ok h => intro hf _; exact hf _ _ _ _ _ _ (Ext.refl _ _ _ _) h
  | throw h => intro _ hg; exact hg _ _ _ _ _ _ _ (Ext.refl _ _ _ _) h
  | getObj h1 h2 _ ih => intro hf hg; exact .getObj h1 h2 (fun x hx => ih x hx hf hg)
  | dead h1 => intro hf hg; exact .dead (fun D orc h hl => by rw [run_bind, h1 D orc h hl]; rfl)
  | setObj h1 h2 h3 h4 _ ih => intro hf hg; exact .setObj h1 h2 h3 h4 (ih hf hg)
  | addObj h1 _ ih =>
    intro hf hg
    exact .addObj h1 (fun m => ih m (fun _ _ _ _ _ _ he => hf _ _ _ _ _ _ ((Ext.add _ _ _ _ _).trans he)) (fun _ _ _ _ _ _ _ he => hg _ _ _ _ _ _ _ ((Ext.add _ _ _ _ _).trans he)))
  | outside _ ih => intro hf hg; exact .outside (fun f v t => ih f v t hf hg)
  | alloc _ ih =>
    intro hf hg
    exact .alloc (fun m => ih m (fun _ _ _ _ _ _ he => hf _ _ _ _ _ _ ((Ext.alloc _ _ _ _ _).trans he)) (fun _ _ _ _ _ _ _ he => hg _ _ _ _ _ _ _ ((Ext.alloc _ _ _ _ _).trans he)))
  | dealloc h1 _ ih => intro hf hg; exact .dealloc h1 (ih hf hg)
  | getSlot h1 _ ih => intro hf hg; exact .getSlot h1 (fun sl hsl => ih sl hsl hf hg)
  | setSlot h1 h2 h3 h4 _ ih => intro hf hg; exact .setSlot h1 h2 h3 h4 (ih hf hg)
  | setOwner h1 h2 h3 h4 _ ih => intro hf hg; exact .setOwner h1 h2 h3 h4 (ih hf hg)
  | getLive h1 h2 _ ih => intro hf hg; exact .getLive h1 h2 (fun x => ih x hf hg)
  | setLive h1 h2 _ ih => intro hf hg; exact .setLive h1 h2 (ih hf hg)
  | construct h1 h2 h3 _ ih => intro hf hg; exact .construct h1 h2 h3 (ih hf hg)
  | destroy h1 _ ih => intro hf hg; exact .destroy h1 (ih hf hg)
  | count _ ih => intro hf hg; exact .count (ih hf hg)
  | log h1 _ ih => intro hf hg; exact .log h1 (ih hf hg)

theorem PSim.nextExt {P1 P : Prog α} {f1 f : α → Prog β} (hP : PSim R σ ρ n L P1 P)
    (hf : ∀ σ' ρ' n' L' a1 a, Ext σ ρ n L σ' ρ' n' L' → R σ' ρ' n' L' a1 a → PSim S σ' ρ' n' L' (f1 a1) (f a)) : PSim S σ ρ n L (P1.next f1) (P.next f) :=
  hP.bindExt hf (fun _ _ _ _ _ _ _ _ _ => .ub)

/-! ## Sessions -/

/-- A session with other addresses. -/
@[reducible] def renSes (σ ρ : Nat → Nat) (s : Ses) : Ses := { s with o := σ s.o, oldData := s.oldData.map ρ, data := s.data.map ρ }

structure SesIn (n L : Nat) (s : Ses) : Prop where
  o : s.o < L
  old : ∀ a, s.oldData = some a → a < n
  data : ∀ a, s.data = some a → a < n

/-- The results of programs on sessions, and of programs without result. -/
def RSes (σ0 : Nat → Nat) (L0 : Nat) : Rel Ses := fun σ ρ n L s1 s => σ = σ0 ∧ L = L0 ∧ s = renSes σ ρ s1 ∧ SesIn n L s1
def RU (σ0 : Nat → Nat) (L0 : Nat) : Rel Unit := fun σ _ _ L _ _ => σ = σ0 ∧ L = L0

theorem renSes_ext (he : Ext σ ρ n L σ' ρ' n' L') {s : Ses} (hs : SesIn n L s) : renSes σ' ρ' s = renSes σ ρ s := by
  unfold renSes; rw [he.obj _ hs.o, he.mapEq hs.old, he.mapEq hs.data]

theorem SesIn.ext (he : Ext σ ρ n L σ' ρ' n' L') {s : Ses} (hs : SesIn n L s) : SesIn n' L' s :=
  ⟨Nat.lt_of_lt_of_le hs.o he.ole, fun a ha => Nat.lt_of_lt_of_le (hs.old a ha) he.le, fun a ha => Nat.lt_of_lt_of_le (hs.data a ha) he.le⟩

variable {D : Decls} {E : TyEnv}

theorem oldIndex_ren (s : Ses) (m : Mix) : (renSes σ ρ s).oldIndex E m = (s.oldIndex E m).map (fun x => (ρ x.1, x.2)) := by
  obtain ⟨o, al, oldTy, oldData, ty, data, alloced, updated, complete, movedOut⟩ := s
  unfold Ses.oldIndex
  cases oldData with
  | none => rfl
  | some b =>
    cases oldTy with
    | none => rfl
    | some t => simp only [Option.map_some]; cases E.indexOf t m <;> rfl

theorem SesIn.oldIndex {s : Ses} (hs : SesIn n L s) {m : Mix} {b i : Nat} (h : s.oldIndex E m = some (b, i)) : b < n := by
  unfold Ses.oldIndex at h
  cases h1 : s.oldData with
  | none => rw [h1] at h; simp at h
  | some a =>
    cases h2 : s.oldTy with
    | none => rw [h1, h2] at h; simp at h
    | some t =>
      rw [h1, h2] at h
      cases h3 : E.indexOf t m with
      | none => simp [h3] at h
      | some j => simp [h3] at h; rw [← h.1]; exact hs.old a h1

theorem PSim.bindSes {P1 P : Prog Ses} {f1 f : Ses → Prog β} {g1 g : Ses → XErr → Prog β} (hP : PSim (RSes σ L) σ ρ n L P1 P)
    (hf : ∀ ρ' n' s, Ext σ ρ n L σ ρ' n' L → SesIn n' L s → PSim S σ ρ' n' L (f1 s) (f (renSes σ ρ' s)))
    (hg : ∀ ρ' n' s e, Ext σ ρ n L σ ρ' n' L → SesIn n' L s → PSim S σ ρ' n' L (g1 s e) (g (renSes σ ρ' s) e)) : PSim S σ ρ n L (P1.bind f1 g1) (P.bind f g) :=
  hP.bindExt (fun _ _ _ _ s1 s he hr => by obtain ⟨rfl, rfl, rfl, hr⟩ := hr; exact hf _ _ s1 he hr)
    (fun _ _ _ _ s1 s e he hr => by obtain ⟨rfl, rfl, rfl, hr⟩ := hr; exact hg _ _ s1 e he hr)

theorem PSim.bindU {P1 P : Prog Unit} {f1 f : Unit → Prog β} {g1 g : Unit → XErr → Prog β} (hP : PSim (RU σ L) σ ρ n L P1 P)
    (hf : ∀ ρ' n', Ext σ ρ n L σ ρ' n' L → PSim S σ ρ' n' L (f1 ()) (f ()))
    (hg : ∀ ρ' n' e, Ext σ ρ n L σ ρ' n' L → PSim S σ ρ' n' L (g1 () e) (g () e)) : PSim S σ ρ n L (P1.bind f1 g1) (P.bind f g) :=
  hP.bindExt (fun _ _ _ _ _ _ he hr => by obtain ⟨rfl, rfl⟩ := hr; exact hf _ _ he) (fun _ _ _ _ _ _ e he hr => by obtain ⟨rfl, rfl⟩ := hr; exact hg _ _ e he)

theorem PSim.nextU {P1 P : Prog Unit} {f1 f : Unit → Prog β} (hP : PSim (RU σ L) σ ρ n L P1 P)
    (hf : ∀ ρ' n', Ext σ ρ n L σ ρ' n' L → PSim S σ ρ' n' L (f1 ()) (f ())) : PSim S σ ρ n L (P1.next f1) (P.next f) :=
  hP.bindU hf (fun _ _ _ _ => .ub)

theorem PSim.nextSes {P1 P : Prog Ses} {f1 f : Ses → Prog β} (hP : PSim (RSes σ L) σ ρ n L P1 P)
    (hf : ∀ ρ' n' s, Ext σ ρ n L σ ρ' n' L → SesIn n' L s → PSim S σ ρ' n' L (f1 s) (f (renSes σ ρ' s))) : PSim S σ ρ n L (P1.next f1) (P.next f) :=
  hP.bindSes hf (fun _ _ _ _ _ _ => .ub)

theorem andThen_psim {P1 P : Prog Ses} {f1 f : Ses → Prog Ses} (hP : PSim (RSes σ L) σ ρ n L P1 P)
    (hf : ∀ ρ' n' s, Ext σ ρ n L σ ρ' n' L → SesIn n' L s → PSim (RSes σ L) σ ρ' n' L (f1 s) (f (renSes σ ρ' s))) :
    PSim (RSes σ L) σ ρ n L (P1.andThen f1) (P.andThen f) :=
  hP.bindSes hf (fun _ _ _ _ _ hr => .throw ⟨rfl, rfl, rfl, hr⟩)

theorem allocOne_psim {s : Ses} (hs : SesIn n L s) : PSim (RSes σ L) σ ρ n L (allocOne D E s) (allocOne D E (renSes σ ρ s)) := by
  have hoi := oldIndex_ren (σ := σ) (ρ := ρ) (E := E) s
  have hob := @SesIn.oldIndex n L E s hs
  obtain ⟨o, al, oldTy, oldData, ty, data, alloced, updated, complete, movedOut⟩ := s
  obtain ⟨ho, hold, hdata⟩ := hs
  unfold allocOne
  simp only [renSes] at *
  cases data with
  | none => exact .ub
  | some a =>
    have ha := hdata a rfl
    cases hm : (E.mixins ty)[alloced]? with
    | none => exact .ub
    | some m =>
      simp only [Option.map_some] at *
      rw [hoi m]
      cases E.internal ty alloced with
      | true =>
        simp only [if_true]
        exact .setSlot ha ⟨ha, fun _ h => by simp at h⟩ rfl rfl (.setOwner ha ho rfl rfl (.ok ⟨rfl, rfl, rfl, ho, hold, hdata⟩))
      | false =>
        simp only [Bool.false_eq_true, if_false]
        cases hx : Ses.oldIndex E ⟨o, al, oldTy, oldData, ty, some a, alloced, updated, complete, movedOut⟩ m with
        | some x =>
          obtain ⟨b, i⟩ := x
          exact .getSlot rfl (fun sl hsl => .setSlot ha hsl rfl rfl (.ok ⟨rfl, rfl, rfl, ho, hold, hdata⟩))
        | none =>
          refine .outside (fun f v t => ?_)
          cases f with
          | true => exact .throw ⟨rfl, rfl, rfl, ho, hold, hdata⟩
          | false =>
            refine .alloc (fun k => ?_)
            have he := Ext.alloc σ ρ n L k
            refine .setSlot (Nat.lt_succ_of_lt ha) ⟨Nat.lt_succ_self n, fun e h => ?_⟩ (he.addr a ha).symm ?_ (.setOwner (Nat.lt_succ_self n) ho ?_ rfl (.ok ⟨rfl, rfl, ?_, ?_⟩))
            · simp at h; subst h; exact Nat.lt_succ_self n
            · simp [renSlot, renLoc, extend_new]
            · simp [renLoc, extend_new]
            · exact (renSes_ext he (s := ⟨o, al, oldTy, oldData, ty, some a, alloced + 1, updated, complete, movedOut⟩) ⟨ho, hold, hdata⟩).symm
            · exact SesIn.ext he ⟨ho, hold, hdata⟩

theorem allocLoop_psim (k : Nat) : ∀ {σ ρ : Nat → Nat} {n L : Nat} {s : Ses}, SesIn n L s → PSim (RSes σ L) σ ρ n L (allocLoop D E k s) (allocLoop D E k (renSes σ ρ s)) := by
  induction k with
  | zero => intro σ ρ n L s hs; exact .ok ⟨rfl, rfl, rfl, hs⟩
  | succ k ih => intro σ ρ n L s hs; exact andThen_psim (allocOne_psim hs) (fun _ _ s _ hs => ih hs)

theorem allocateMixinData_psim {s : Ses} (hs : SesIn n L s) : PSim (RSes σ L) σ ρ n L (allocateMixinData D E s) (allocateMixinData D E (renSes σ ρ s)) := by
  unfold allocateMixinData
  by_cases hc : s.oldTy = some s.ty
  · rw [if_pos hc, if_pos hc]; exact .ok ⟨rfl, rfl, rfl, hs.o, hs.old, hs.old⟩
  · rw [if_neg hc, if_neg hc]
    refine .outside (fun f v t => ?_)
    cases f with
    | true => exact .throw ⟨rfl, rfl, rfl, hs⟩
    | false =>
      refine .alloc (fun k => .count ?_)
      have he := Ext.alloc σ ρ n L k
      have hs' : SesIn (n + 1) L { s with data := some n } := ⟨hs.o, (hs.ext he).old, fun a ha => by simp at ha; subst ha; exact Nat.lt_succ_self n⟩
      have := allocLoop_psim (D := D) (E := E) (σ := σ) (ρ := extend ρ n k) (E.mixins s.ty).length hs'
      have heq : renSes σ (extend ρ n k) { s with data := some n } = { renSes σ ρ s with data := some k } := by
        unfold renSes
        simp only [Option.map_some, extend_new]
        rw [he.mapEq hs.old]
      rw [heq] at this
      exact this

theorem destroyLoop_psim {s : Ses} (hs : SesIn n L s) (i : Nat) : PSim (RU σ L) σ ρ n L (destroyLoop E s i) (destroyLoop E (renSes σ ρ s) i) := by
  induction i with
  | zero => exact .ok ⟨rfl, rfl⟩
  | succ i ih =>
    have hoi := oldIndex_ren (σ := σ) (ρ := ρ) (E := E) s
    unfold destroyLoop
    rw [show (renSes σ ρ s).data = s.data.map ρ from rfl, show (renSes σ ρ s).ty = s.ty from rfl]
    cases s.data with
    | none => exact .ub
    | some a =>
      cases (E.mixins s.ty)[i]? with
      | none => exact .ub
      | some m =>
        simp only [Option.map_some]
        rw [hoi m]
        cases s.oldIndex E m with
        | some x => exact ih
        | none => exact .getSlot rfl (fun sl hsl => .destroy rfl ih)

theorem deallocLoop_psim {s : Ses} (hs : SesIn n L s) (i : Nat) : PSim (RU σ L) σ ρ n L (deallocLoop D E s i) (deallocLoop D E (renSes σ ρ s) i) := by
  induction i with
  | zero => exact .ok ⟨rfl, rfl⟩
  | succ i ih =>
    have hoi := oldIndex_ren (σ := σ) (ρ := ρ) (E := E) s
    unfold deallocLoop
    rw [show (renSes σ ρ s).data = s.data.map ρ from rfl, show (renSes σ ρ s).ty = s.ty from rfl]
    cases s.data with
    | none => exact .ub
    | some a =>
      cases (E.mixins s.ty)[i]? with
      | none => exact .ub
      | some m =>
        simp only [Option.map_some]
        refine .getSlot rfl (fun sl hsl => ?_)
        rw [show (renSlot ρ sl).buf = sl.buf.map ρ from rfl]
        cases sl.buf with
        | none => exact ih
        | some e =>
          simp only [Option.map_some]
          rw [hoi m]
          cases s.oldIndex E m with
          | some x => exact ih
          | none => exact .dealloc rfl ih

theorem rollback_psim {s : Ses} (hs : SesIn n L s) : PSim (RSes σ L) σ ρ n L (rollback D E s) (rollback D E (renSes σ ρ s)) := by
  unfold rollback
  by_cases hc : s.oldTy = some s.ty
  · rw [if_pos hc, if_pos hc]; exact .ok ⟨rfl, rfl, rfl, hs.o, hs.old, hs.data⟩
  · rw [if_neg hc, if_neg hc]
    refine (destroyLoop_psim hs s.updated).nextU (fun ρ' n' he => ?_)
    rw [← renSes_ext he hs]
    have hs' := hs.ext he
    refine (deallocLoop_psim hs' s.alloced).nextU (fun ρ'' n'' he' => ?_)
    rw [← renSes_ext he' hs']
    have hs'' := hs'.ext he'
    obtain ⟨o, al, oldTy, oldData, ty, data, alloced, updated, complete, movedOut⟩ := s
    simp only [renSes]
    cases data with
    | none => exact .ok ⟨rfl, rfl, rfl, hs''.o, hs''.old, hs''.data⟩
    | some a => exact .dealloc rfl (.count (.ok ⟨rfl, rfl, rfl, hs''.o, hs''.old, fun _ h => by simp at h⟩))

theorem finalizeOne_psim {s : Ses} (hs : SesIn n L s) (b a oi : Nat) (m : Mix) :
    PSim (RU σ L) σ ρ n L (finalizeOne D E s b a oi m) (finalizeOne D E (renSes σ ρ s) (ρ b) (ρ a) oi m) := by
  unfold finalizeOne
  refine .getSlot rfl (fun old hold => ?_)
  rw [show (renSlot ρ old).buf = old.buf.map ρ from rfl, show (renSes σ ρ s).ty = s.ty from rfl]
  cases E.indexOf s.ty m with
  | none =>
    refine .destroy rfl ?_
    cases old.buf with
    | none => exact .ok ⟨rfl, rfl⟩
    | some e => exact .dealloc rfl (.ok ⟨rfl, rfl⟩)
  | some ti =>
    cases old.buf with
    | some e => exact .ok ⟨rfl, rfl⟩
    | none =>
      refine .getSlot rfl (fun new hnew => .getLive hold.1 rfl (fun x => ?_))
      cases x with
      | none => exact .ub
      | some x =>
        obtain ⟨m', v⟩ := x
        simp only []
        by_cases hc : m' = m ∧ (D.mix m).hasMoveInit = true
        · rw [if_pos hc, if_pos hc]
          exact .construct rfl hold.1 rfl (.outside (fun f w t => .setLive hold.1 rfl (.destroy rfl (.ok ⟨rfl, rfl⟩))))
        · rw [if_neg hc, if_neg hc]; exact .ub

theorem finalizeLoop_psim (b a : Nat) (ms : List Mix) : ∀ {σ ρ : Nat → Nat} {n L : Nat} {s : Ses} (oi : Nat), SesIn n L s → b < n → a < n →
    PSim (RU σ L) σ ρ n L (finalizeLoop D E s b a oi ms) (finalizeLoop D E (renSes σ ρ s) (ρ b) (ρ a) oi ms) := by
  induction ms with
  | nil => intro σ ρ n L s oi hs hb ha; exact .ok ⟨rfl, rfl⟩
  | cons m ms ih =>
    intro σ ρ n L s oi hs hb ha
    refine (finalizeOne_psim hs b a oi m).nextU (fun ρ' n' he => ?_)
    rw [← renSes_ext he hs, ← he.addr b hb, ← he.addr a ha]
    exact ih (oi + 1) (hs.ext he) (Nat.lt_of_lt_of_le hb he.le) (Nat.lt_of_lt_of_le ha he.le)

theorem attach_psim {s s' : Ses} (hs : SesIn n L s) (hs' : SesIn n L s') : PSim (RSes σ L) σ ρ n L (attach s s') (attach (renSes σ ρ s) (renSes σ ρ s')) := by
  unfold attach
  refine .getObj hs.o rfl (fun x hx => ?_)
  cases x with
  | none => exact .ok ⟨rfl, rfl, rfl, hs'⟩
  | some ob => exact .setObj hs.o (fun ob' a h1 h2 => by simp at h1; subst h1; exact hs.data a h2) rfl rfl (.ok ⟨rfl, rfl, rfl, hs'⟩)

theorem finalize_psim {s : Ses} (hs : SesIn n L s) : PSim (RSes σ L) σ ρ n L (finalize D E s) (finalize D E (renSes σ ρ s)) := by
  unfold finalize
  rw [show (renSes σ ρ s).complete = s.complete from rfl]
  cases hcm : s.complete with
  | false => exact .ok ⟨rfl, rfl, rfl, hs⟩
  | true =>
    simp only [Bool.not_true, Bool.false_eq_true, if_false]
    by_cases hc : s.oldTy = some s.ty
    · rw [if_pos hc, if_pos hc]
      exact .ok ⟨rfl, rfl, rfl, hs.o, fun _ h => by simp at h, hs.data⟩
    · rw [if_neg hc, if_neg hc]
      cases hod : s.oldData with
      | none => exact attach_psim hs hs
      | some b =>
        cases hot : s.oldTy with
        | none => exact .ub
        | some t =>
          simp only [Option.map_some]
          cases hd : s.data with
          | none => exact .ub
          | some a =>
            simp only [Option.map_some]
            refine (finalizeLoop_psim b a (E.mixins t) 0 hs (hs.old b hod) (hs.data a hd)).nextU (fun ρ' n' he => ?_)
            have hs' := hs.ext he
            have hs2 : SesIn n' L { s with oldData := none, oldTy := none } := ⟨hs'.o, fun _ h => by simp at h, hs'.data⟩
            have := attach_psim (σ := σ) (ρ := ρ') hs' hs2
            refine .dealloc (he.addr b (hs.old b hod)).symm (.count ?_)
            rw [show renSes σ ρ' { s with oldData := none, oldTy := none } = { renSes σ ρ' s with oldData := none, oldTy := none } from rfl, renSes_ext he hs] at this
            obtain ⟨o, al, oldTy, oldData, ty, data, alloced, updated, complete, movedOut⟩ := s
            simp only at hd hcm
            subst hd hcm
            exact this

theorem readMixin_psim {R : Rel α} {b i : Nat} {k1 k : Loc → Mix → Nat → Prog α} (hk : ∀ l m v, l.1 < n → PSim R σ ρ n L (k1 l m v) (k (renLoc ρ l) m v)) :
    PSim R σ ρ n L (readMixin b i k1) (readMixin (ρ b) i k) := by
  unfold readMixin
  refine .getSlot rfl (fun sl hsl => .getLive hsl.1 rfl (fun x => ?_))
  cases x with
  | none => exact .ub
  | some x => exact hk _ _ _ hsl.1

theorem readSource_psim {R : Rel α} {src i : Nat} {k1 k : Loc → Mix → Nat → Prog α} (hk : ∀ l m v, l.1 < n → PSim R σ ρ n L (k1 l m v) (k (renLoc ρ l) m v)) :
    PSim R σ ρ n L (readSource src i k1) (readSource (σ src) i k) := by
  unfold readSource
  by_cases hL : src < L
  · refine .getObj hL rfl (fun x hx => ?_)
    cases x with
    | none => exact .ub
    | some ob =>
      simp only [Option.map_some, Option.bind_some]
      cases ob.data with
      | none => exact .ub
      | some b => exact readMixin_psim hk
  · exact .noObj (Nat.le_of_not_lt hL) (fun _ _ _ => rfl)

theorem constructNew_psim {s : Ses} (hs : SesIn n L s) (f : NewFn) (m : Mix) (ti : Nat) (l : Loc) :
    PSim (RSes σ L) σ ρ n L (constructNew D f s m ti l) (constructNew D (renNew σ f) (renSes σ ρ s) m ti (renLoc ρ l)) := by
  cases f with
  | dflt =>
    simp only [constructNew, renNew]
    cases (D.mix m).hasInit with
    | false => exact .throw ⟨rfl, rfl, rfl, hs⟩
    | true =>
      simp only [Bool.not_true, Bool.false_eq_true, if_false]
      refine .outside (fun f v t => ?_)
      cases f with
      | true => exact .throw ⟨rfl, rfl, rfl, hs⟩
      | false => exact .construct rfl trivial rfl (.ok ⟨rfl, rfl, rfl, hs⟩)
  | custom k =>
    simp only [constructNew, renNew]
    refine .outside (fun f v t => ?_)
    cases f with
    | true => exact .throw ⟨rfl, rfl, rfl, hs⟩
    | false => exact .construct rfl trivial rfl (.ok ⟨rfl, rfl, rfl, hs⟩)
  | copy src checked =>
    simp only [constructNew, renNew]
    refine readSource_psim (fun sl m' v hsl => ?_)
    by_cases hc : m' ≠ m
    · rw [if_pos hc, if_pos hc]; exact .ub
    · rw [if_neg hc, if_neg hc]
      cases (D.mix m).hasCopyInit with
      | false =>
        simp only [Bool.not_false, if_true]
        cases checked with
        | true => exact .throw ⟨rfl, rfl, rfl, hs⟩
        | false => exact .ub
      | true =>
        simp only [Bool.not_true, Bool.false_eq_true, if_false]
        refine .outside (fun f v t => ?_)
        cases f with
        | true => exact .throw ⟨rfl, rfl, rfl, hs⟩
        | false => exact .construct rfl hsl rfl (.ok ⟨rfl, rfl, rfl, hs⟩)

theorem updateCommon_psim {s : Ses} (hs : SesIn n L s) (g : UpdFn) (m : Mix) (ti : Nat) {l : Loc} (hl : l.1 < n) :
    PSim (RSes σ L) σ ρ n L (updateCommon D g s m ti l) (updateCommon D (renUpd σ g) (renSes σ ρ s) m ti (renLoc ρ l)) := by
  cases g with
  | noop => exact .ok ⟨rfl, rfl, rfl, hs⟩
  | custom k =>
    simp only [updateCommon, renUpd]
    refine .getLive hl rfl (fun x => ?_)
    cases x with
    | none => exact .ub
    | some x =>
      obtain ⟨m', v⟩ := x
      simp only []
      by_cases hc : m' ≠ m
      · rw [if_pos hc, if_pos hc]; exact .ub
      · rw [if_neg hc, if_neg hc]
        refine .outside (fun f w t => .setLive hl rfl (.log rfl ?_))
        cases f with
        | true => exact .throw ⟨rfl, rfl, rfl, hs⟩
        | false => exact .ok ⟨rfl, rfl, rfl, hs⟩
  | assign src =>
    simp only [updateCommon, renUpd]
    refine .getLive hl rfl (fun x => ?_)
    cases x with
    | none => exact .ub
    | some x =>
      obtain ⟨m', v⟩ := x
      simp only []
      refine readSource_psim (fun sl m'' v hsl => ?_)
      by_cases hc : m' ≠ m ∨ m'' ≠ m ∨ (!(D.mix m).hasCopyAsgn) = true
      · rw [if_pos hc, if_pos hc]; exact .ub
      · rw [if_neg hc, if_neg hc]
        refine .outside (fun f w t => .setLive hl rfl (.log rfl ?_))
        cases f with
        | true => exact .throw ⟨rfl, rfl, rfl, hs⟩
        | false => exact .ok ⟨rfl, rfl, rfl, hs⟩

theorem advanced_psim {P1 P : Prog Ses} (hP : PSim (RSes σ L) σ ρ n L P1 P) :
    PSim (RSes σ L) σ ρ n L (P1.andThen (fun s => .ok (s.advanced E))) (P.andThen (fun s => .ok (s.advanced E))) :=
  andThen_psim hP (fun _ _ s _ hs => .ok ⟨rfl, rfl, rfl, hs.o, hs.old, hs.data⟩)

theorem updateNext_psim {s : Ses} (hs : SesIn n L s) (f : NewFn) (g : UpdFn) :
    PSim (RSes σ L) σ ρ n L (updateNext D E f g s) (updateNext D E (renNew σ f) (renUpd σ g) (renSes σ ρ s)) := by
  have hoi := oldIndex_ren (σ := σ) (ρ := ρ) (E := E) s
  unfold updateNext
  by_cases hc : s.complete = true
  · rw [if_pos hc, if_pos hc]; exact .ok ⟨rfl, rfl, rfl, hs⟩
  · rw [if_neg hc, if_neg hc]
    rw [show (renSes σ ρ s).ty = s.ty from rfl, show (renSes σ ρ s).updated = s.updated from rfl, show (renSes σ ρ s).data = s.data.map ρ from rfl]
    cases (E.mixins s.ty)[s.updated]? with
    | none => exact .ub
    | some m =>
      simp only []
      rw [hoi m]
      cases s.oldIndex E m with
      | some x =>
        obtain ⟨b, oi⟩ := x
        exact .getSlot rfl (fun sl hsl => advanced_psim (updateCommon_psim hs g m s.updated hsl.1))
      | none =>
        simp only [Option.map_none]
        cases s.data with
        | none => exact .ub
        | some a => exact .getSlot rfl (fun sl hsl => advanced_psim (constructNew_psim hs f m s.updated sl.loc))

theorem updateLoop_psim (f : NewFn) (g : UpdFn) (k : Nat) : ∀ {ρ : Nat → Nat} {n : Nat} {s : Ses}, SesIn n L s →
    PSim (RSes σ L) σ ρ n L (updateLoop D E f g k s) (updateLoop D E (renNew σ f) (renUpd σ g) k (renSes σ ρ s)) := by
  induction k with
  | zero => intro ρ n s hs; exact .ok ⟨rfl, rfl, rfl, hs⟩
  | succ k ih => intro ρ n s hs; exact andThen_psim (updateNext_psim hs f g) (fun _ _ s _ hs => ih hs)

theorem updateEach_psim {s : Ses} (hs : SesIn n L s) (f : NewFn) (g : UpdFn) (upto : Option Nat) :
    PSim (RSes σ L) σ ρ n L (updateEach D E f g upto s) (updateEach D E (renNew σ f) (renUpd σ g) upto (renSes σ ρ s)) := updateLoop_psim f g _ hs

theorem updateAt_psim {s : Ses} (hs : SesIn n L s) (i : Nat) (f : NewFn) (g : UpdFn) :
    PSim (RSes σ L) σ ρ n L (updateAt D E i f g s) (updateAt D E i (renNew σ f) (renUpd σ g) (renSes σ ρ s)) := by
  unfold updateAt
  by_cases hc : i < s.updated ∨ i > (E.mixins s.ty).length
  · rw [if_pos hc, if_pos hc]; exact .throw ⟨rfl, rfl, rfl, hs⟩
  · rw [if_neg hc, if_neg hc]
    exact andThen_psim (updateEach_psim hs .dflt .noop (some i)) (fun _ _ s _ hs => updateNext_psim hs f g)

theorem dtor_psim {s : Ses} (hs : SesIn n L s) (u : Bool) : PSim (RU σ L) σ ρ n L (s.dtor D E u) ((renSes σ ρ s).dtor D E u) := by
  unfold Ses.dtor
  by_cases hc : s.movedOut = true
  · rw [if_pos hc, if_pos hc]; exact .ok ⟨rfl, rfl⟩
  · rw [if_neg hc, if_neg hc]
    cases u with
    | true => exact (rollback_psim hs).nextSes (fun _ _ _ _ _ => .ok ⟨rfl, rfl⟩)
    | false =>
      refine (updateEach_psim hs .dflt .noop none).bindSes (fun ρ' n' s he hs => ?_) (fun ρ' n' s e he hs => ?_)
      · by_cases h2 : s.complete = true
        · rw [if_pos h2, if_pos h2]; exact (finalize_psim hs).nextSes (fun _ _ _ _ _ => .ok ⟨rfl, rfl⟩)
        · rw [if_neg h2, if_neg h2]; exact .log rfl ((finalize_psim hs).nextSes (fun _ _ _ _ _ => .ok ⟨rfl, rfl⟩))
      · exact (rollback_psim hs).nextSes (fun _ _ _ _ _ => .throw ⟨rfl, rfl⟩)

theorem mstep_psim {s : Ses} (hs : SesIn n L s) (st : MStep) : PSim (RSes σ L) σ ρ n L (mstep D E s st) (mstep D E (renSes σ ρ s) (renStep σ st)) := by
  cases st with
  | next f g => exact updateNext_psim hs f g
  | each f g upto => exact updateEach_psim hs f g upto
  | «at» i f g => exact updateAt_psim hs i f g
  | finalize => exact finalize_psim hs
  | rollback => exact rollback_psim hs
  | throw => exact .throw ⟨rfl, rfl, rfl, hs⟩

theorem msteps_psim (l : List (MStep × Bool)) : ∀ {ρ : Nat → Nat} {n : Nat} {s : Ses}, SesIn n L s →
    PSim (RSes σ L) σ ρ n L (msteps D E l s) (msteps D E (l.map (fun x => (renStep σ x.1, x.2))) (renSes σ ρ s)) := by
  induction l with
  | nil => intro ρ n s hs; exact .ok ⟨rfl, rfl, rfl, hs⟩
  | cons x rest ih =>
    intro ρ n s hs
    obtain ⟨st, caught⟩ := x
    refine (mstep_psim hs st).bindSes (fun _ _ s _ hs => ih hs) (fun _ _ s e _ hs => ?_)
    cases caught with
    | true => exact ih hs
    | false => exact .throw ⟨rfl, rfl, rfl, hs⟩

theorem unwindWith_psim {s : Ses} (hs : SesIn n L s) (e : XErr) : PSim (RU σ L) σ ρ n L (unwindWith D E s e) (unwindWith D E (renSes σ ρ s) e) :=
  (dtor_psim hs true).bindU (fun _ _ _ => .throw ⟨rfl, rfl⟩) (fun _ _ _ _ => .ub)

theorem withMutation_psim (u : Bool) (o : Nat) (t : TypeId) (steps : List (MStep × Bool)) :
    PSim (RU σ L) σ ρ n L (withMutation D E u o t steps) (withMutation D E u (σ o) t (steps.map (fun x => (renStep σ x.1, x.2)))) := by
  unfold withMutation
  by_cases hL : o < L
  · refine .getObj hL rfl (fun x hx => ?_)
    cases x with
    | none => exact .ub
    | some ob =>
      have hs : SesIn n L (Ses.begin o ob t) := ⟨hL, fun a ha => hx ob a rfl ha, fun a ha => by simp [Ses.begin] at ha⟩
      simp only [Option.map_some]
      by_cases hc : ob.isSealed = true
      · rw [if_pos hc, if_pos hc]; exact unwindWith_psim hs .isSealed
      · rw [if_neg hc, if_neg hc]
        exact (allocateMixinData_psim hs).bindSes (fun _ _ s _ hs => (msteps_psim steps hs).bindSes (fun _ _ s _ hs => dtor_psim hs u) (fun _ _ s e _ hs => unwindWith_psim hs e))
          (fun _ _ s e _ hs => unwindWith_psim hs e)
  · exact .noObj (Nat.le_of_not_lt hL) (fun _ _ _ => rfl)

theorem perform_psim (u : Bool) (o : Nat) (t : TypeId) (f : NewFn) (g : UpdFn) :
    PSim (RU σ L) σ ρ n L (perform D E u o t f g) (perform D E u (σ o) t (renNew σ f) (renUpd σ g)) := withMutation_psim u o t [(.each f g none, false)]

theorem clearMixinData_psim (o : Nat) : PSim (RU σ L) σ ρ n L (clearMixinData D E o) (clearMixinData D E (σ o)) := by
  unfold clearMixinData
  by_cases hL : o < L
  · refine .getObj hL rfl (fun x hx => ?_)
    cases x with
    | none => exact .ub
    | some ob =>
      obtain ⟨ty, data, isSealed, alloc⟩ := ob
      simp only [Option.map_some, renObj]
      cases data with
      | none => exact .ok ⟨rfl, rfl⟩
      | some a =>
        cases ty with
        | none => exact .ub
        | some t =>
          have hs : SesIn n L ⟨o, alloc, none, none, t, some a, (E.mixins t).length, (E.mixins t).length, false, false⟩ :=
            ⟨hL, fun _ h => by simp at h, fun x h => by simp at h; subst h; exact hx _ a rfl rfl⟩
          exact (rollback_psim hs).nextSes (fun _ _ _ he _ => .setObj hL (fun ob a h1 h2 => by simp at h1; subst h1; simp at h2) rfl rfl (.ok ⟨rfl, rfl⟩))
  · exact .noObj (Nat.le_of_not_lt hL) (fun _ _ _ => rfl)

theorem redirect_psim {o a : Nat} (ho : o < L) (i : Nat) (ha : a < n) : PSim (RU σ L) σ ρ n L (redirect o a i) (redirect (σ o) (ρ a) i) := by
  induction i with
  | zero => exact .ok ⟨rfl, rfl⟩
  | succ i ih =>
    refine ih.nextU (fun ρ' n' he => ?_)
    rw [← he.addr a ha]
    exact .getSlot rfl (fun sl hsl => .setOwner hsl.1 ho rfl rfl (.ok ⟨rfl, rfl⟩))

theorem usurp_psim (o src : Nat) : PSim (RU σ L) σ ρ n L (usurp E o src) (usurp E (σ o) (σ src)) := by
  unfold usurp
  by_cases hL : o < L
  · refine .getObj hL rfl (fun x hx => ?_)
    by_cases hL' : src < L
    · refine .getObj hL' rfl (fun y hy => ?_)
      cases x with
      | none => exact .ub
      | some ob =>
        cases y with
        | none => exact .ub
        | some sb =>
          obtain ⟨ty, data, isSealed, alloc⟩ := sb
          simp only [Option.map_some, renObj]
          cases ty with
          | none => exact .ub
          | some t =>
            refine .setObj hL (fun ob a h1 h2 => by simp at h1; subst h1; exact hy _ a rfl h2) rfl rfl ?_
            have hend : ∀ ρ' n', Ext σ ρ n L σ ρ' n' L → PSim (RU σ L) σ ρ' n' L (.setObj src (some ⟨some (E.emptyOf t), none, isSealed, alloc⟩) (.ok ()))
                (.setObj (σ src) (some ⟨some (E.emptyOf t), none, isSealed, alloc⟩) (.ok ())) :=
              fun ρ' n' _ => .setObj hL' (fun ob a h1 h2 => by simp at h1; subst h1; simp at h2) rfl rfl (.ok ⟨rfl, rfl⟩)
            cases data with
            | none =>
              simp only [Option.map_none]
              by_cases hc : (E.mixins t).length = 0
              · rw [if_pos hc]; exact hend _ _ (Ext.refl _ _ _ _)
              · rw [if_neg hc]; exact .ub
            | some a => exact (redirect_psim hL _ (hy _ a rfl rfl)).nextU hend
    · refine .noObj (Nat.le_of_not_lt hL') (fun _ _ _ => ?_)
      cases x <;> rfl
  · exact .noObj (Nat.le_of_not_lt hL) (fun _ _ h => by simp only [Prog.run])

theorem setType_psim (o : Nat) {f1 f : Obj → Obj} (hf : ∀ ob, objIn n (some ob) → objIn n (some (f1 ob)) ∧ f (renObj ρ ob) = renObj ρ (f1 ob)) :
    PSim (RU σ L) σ ρ n L (setType o f1) (setType (σ o) f) := by
  unfold setType
  by_cases hL : o < L
  · refine .getObj hL rfl (fun x hx => ?_)
    cases x with
    | none => exact .ub
    | some ob =>
      refine .setObj hL (hf ob hx).1 rfl ?_ (.ok ⟨rfl, rfl⟩)
      simp only [Option.map_some]
      rw [(hf ob hx).2]
  · exact .noObj (Nat.le_of_not_lt hL) (fun _ _ _ => rfl)

theorem resetType_psim (u : Bool) (o : Nat) (t : TypeId) : PSim (RU σ L) σ ρ n L (resetType D E u o t) (resetType D E u (σ o) t) := by
  unfold resetType
  by_cases hL : o < L
  · refine .getObj hL rfl (fun x hx => ?_)
    cases x with
    | none => exact .ub
    | some ob =>
      simp only [Option.map_some]
      by_cases h1 : ob.isSealed = true
      · rw [if_pos h1, if_pos h1]; exact .throw ⟨rfl, rfl⟩
      · rw [if_neg h1, if_neg h1]
        by_cases h2 : ob.ty = some t
        · rw [if_pos h2, if_pos h2]; exact .ok ⟨rfl, rfl⟩
        · rw [if_neg h2, if_neg h2]
          by_cases h3 : (E.mixins t).length = 0
          · rw [if_pos h3, if_pos h3]
            exact (clearMixinData_psim o).nextU (fun ρ' n' he => setType_psim o (fun ob hob => ⟨fun ob' a k1 k2 => by simp at k1; subst k1; exact hob ob a rfl k2, rfl⟩))
          · rw [if_neg h3, if_neg h3]
            exact perform_psim u o t .dflt .noop
  · exact .noObj (Nat.le_of_not_lt hL) (fun _ _ _ => rfl)

theorem destroyObject_psim {o : Nat} (hL : o < L) : PSim (RU σ L) σ ρ n L (destroyObject D E o) (destroyObject D E (σ o)) :=
  (clearMixinData_psim o).nextU (fun _ _ _ => .setObj hL (fun _ _ h _ => by simp at h) rfl rfl (.ok ⟨rfl, rfl⟩))

theorem unwindObject_psim {o : Nat} (hL : o < L) (e : XErr) : PSim (RU σ L) σ ρ n L (unwindObject D E o e) (unwindObject D E (σ o) e) :=
  (destroyObject_psim hL).bindU (fun _ _ _ => .throw ⟨rfl, rfl⟩) (fun _ _ _ _ => .ub)

/-- The results of operations. -/
def RT : Rel Unit := fun _ _ _ _ _ _ => True

theorem PSim.mono {R R' : Rel α} (h : ∀ σ ρ n L a1 a, R σ ρ n L a1 a → R' σ ρ n L a1 a) {P1 P : Prog α} (hP : PSim R σ ρ n L P1 P) : PSim R' σ ρ n L P1 P := by
  induction hP with
  | ub => exact .ub
  | ok k => exact .ok (h _ _ _ _ _ _ k)
  | throw k => exact .throw (h _ _ _ _ _ _ k)
  | getObj h1 h2 _ ih => exact .getObj h1 h2 ih
  | dead h1 => exact .dead h1
  | setObj h1 h2 h3 h4 _ ih => exact .setObj h1 h2 h3 h4 ih
  | addObj h1 _ ih => exact .addObj h1 ih
  | outside _ ih => exact .outside ih
  | alloc _ ih => exact .alloc ih
  | dealloc h1 _ ih => exact .dealloc h1 ih
  | getSlot h1 _ ih => exact .getSlot h1 ih
  | setSlot h1 h2 h3 h4 _ ih => exact .setSlot h1 h2 h3 h4 ih
  | setOwner h1 h2 h3 h4 _ ih => exact .setOwner h1 h2 h3 h4 ih
  | getLive h1 h2 _ ih => exact .getLive h1 h2 ih
  | setLive h1 h2 _ ih => exact .setLive h1 h2 ih
  | construct h1 h2 h3 _ ih => exact .construct h1 h2 h3 ih
  | destroy h1 _ ih => exact .destroy h1 ih
  | count _ ih => exact .count ih
  | log h1 _ ih => exact .log h1 ih

theorem PSim.any {P1 P : Prog Unit} {R : Rel Unit} (hP : PSim R σ ρ n L P1 P) : PSim RT σ ρ n L P1 P := hP.mono (fun _ _ _ _ _ _ _ => trivial)

theorem newOfType_psim (u : Bool) (t : TypeId) (al : Nat) (sd : Bool) : PSim RT σ ρ n L (newOfType D E u t al sd) (newOfType D E u t al sd) := by
  unfold newOfType
  refine .addObj rfl (fun m => ?_)
  have h := resetType_psim (D := D) (E := E) (σ := extend σ L m) (ρ := ρ) (n := n) (L := L + 1) u L t
  have hset := fun ρ' n' => setType_psim (σ := extend σ L m) (ρ := ρ') (n := n') (L := L + 1) L (f1 := fun ob => { ob with isSealed := sd }) (f := fun ob => { ob with isSealed := sd })
    (fun ob hob => ⟨fun ob' a k1 k2 => by simp at k1; subst k1; exact hob ob a rfl k2, rfl⟩)
  have hun := fun ρ' n' e => unwindObject_psim (D := D) (E := E) (σ := extend σ L m) (ρ := ρ') (n := n') (o := L) (Nat.lt_succ_self L) e
  rw [extend_new] at h
  simp only [extend_new] at hset hun
  exact (h.bindU (fun ρ' n' _ => hset ρ' n') (fun ρ' n' e _ => hun ρ' n' e)).any

theorem moveConstruct_psim (src : Nat) : PSim RT σ ρ n L (moveConstruct E src) (moveConstruct E (σ src)) := by
  unfold moveConstruct
  by_cases hL : src < L
  · refine .getObj hL rfl (fun x hx => ?_)
    cases x with
    | none => exact .ub
    | some sb =>
      refine .addObj rfl (fun m => ?_)
      have h := usurp_psim (E := E) (σ := extend σ L m) (ρ := ρ) (n := n) (L := L + 1) L src
      rw [extend_new, extend_old hL] at h
      exact h.any
  · exact .noObj (Nat.le_of_not_lt hL) (fun _ _ _ => rfl)

theorem moveAssign_psim (hinj : ∀ o p, o < L → p < L → σ o = σ p → o = p) (o src : Nat) :
    PSim (RU σ L) σ ρ n L (moveAssign D E o src) (moveAssign D E (σ o) (σ src)) := by
  unfold moveAssign
  by_cases hc : o = src
  · rw [if_pos hc, if_pos (by rw [hc])]; exact .ok ⟨rfl, rfl⟩
  · rw [if_neg hc]
    by_cases hL : o < L
    · by_cases hL' : src < L
      · rw [if_neg (fun h => hc (hinj o src hL hL' h))]
        refine .getObj hL rfl (fun x hx => .getObj hL' rfl (fun y hy => ?_))
        cases x with
        | none => exact .ub
        | some ob =>
          cases y with
          | none => exact .ub
          | some sb =>
            simp only [Option.map_some]
            by_cases h1 : ob.alloc = sb.alloc
            · rw [if_pos h1, if_pos h1]
              by_cases h2 : ob.isSealed = true
              · rw [if_pos h2, if_pos h2]; exact .throw ⟨rfl, rfl⟩
              · rw [if_neg h2, if_neg h2]
                exact (clearMixinData_psim o).nextU (fun _ _ _ => usurp_psim o src)
            · rw [if_neg h1, if_neg h1]; exact .throw ⟨rfl, rfl⟩
      · refine .dead (fun D orc h hl => ?_)
        have : h.obj? src = none := by unfold Heap.obj?; rw [List.getElem?_eq_none (by omega)]; rfl
        simp only [Prog.run]
        rw [this]
        cases h.obj? o <;> rfl
    · exact .noObj (Nat.le_of_not_lt hL) (fun _ _ h => by simp only [Prog.run])

theorem copyObject_psim (u : Bool) (src al : Nat) : PSim RT σ ρ n L (copyObject D E u src al) (copyObject D E u (σ src) al) := by
  unfold copyObject
  by_cases hL : src < L
  · refine .getObj hL rfl (fun x hx => ?_)
    cases x with
    | none => exact .ub
    | some sb =>
      obtain ⟨ty, data, isSealed, alloc⟩ := sb
      simp only [Option.map_some, renObj]
      cases data with
      | none =>
        refine .addObj rfl (fun m => .setObj (Nat.lt_succ_self L) (fun ob a h1 h2 => ?_) extend_new.symm rfl (.ok trivial))
        simp at h1; subst h1; simp at h2
      | some a =>
        cases ty with
        | none => exact .ub
        | some t =>
          refine .addObj rfl (fun m => ?_)
          have h := perform_psim (D := D) (E := E) (σ := extend σ L m) (ρ := ρ) (n := n) (L := L + 1) u L t (.copy src true) .noop
          have hun := fun ρ' n' e => unwindObject_psim (D := D) (E := E) (σ := extend σ L m) (ρ := ρ') (n := n') (o := L) (Nat.lt_succ_self L) e
          simp only [extend_new, renNew, renUpd, extend_old hL] at h hun
          exact (h.bindU (S := RU (extend σ L m) (L + 1)) (fun ρ' n' _ => .ok ⟨rfl, rfl⟩) (fun ρ' n' e _ => hun ρ' n' e)).any
  · exact .noObj (Nat.le_of_not_lt hL) (fun _ _ _ => rfl)

/-- Reading two objects. -/
theorem two_psim {o src : Nat} {k1 k : Option Obj → Option Obj → Prog α} (hno : ∀ x y, x = none ∨ y = none → k1 x y = .ub)
    (hk : ∀ ob sb, o < L → src < L → objIn n (some ob) → objIn n (some sb) → PSim R σ ρ n L (k1 (some ob) (some sb)) (k (some (renObj ρ ob)) (some (renObj ρ sb)))) :
    PSim R σ ρ n L (.getObj o (fun x => .getObj src (fun y => k1 x y))) (.getObj (σ o) (fun x => .getObj (σ src) (fun y => k x y))) := by
  by_cases hL : o < L
  · refine .getObj hL rfl (fun x hx => ?_)
    by_cases hL' : src < L
    · refine .getObj hL' rfl (fun y hy => ?_)
      cases x with
      | none => rw [hno _ _ (Or.inl rfl)]; exact .ub
      | some ob =>
        cases y with
        | none => rw [hno _ _ (Or.inr rfl)]; exact .ub
        | some sb => exact hk ob sb hL hL' hx hy
    · refine .noObj (Nat.le_of_not_lt hL') (fun _ _ _ => ?_)
      rw [hno _ _ (Or.inr rfl)]; rfl
  · refine .noObj (Nat.le_of_not_lt hL) (fun _ _ h => ?_)
    simp only [Prog.run]
    rw [hno _ _ (Or.inl rfl)]; rfl

theorem copyFrom_psim (u : Bool) (o src : Nat) : PSim (RU σ L) σ ρ n L (copyFrom D E u o src) (copyFrom D E u (σ o) (σ src)) := by
  unfold copyFrom
  refine two_psim ?_ ?_
  · rintro x y (rfl | rfl)
    · cases y <;> rfl
    · cases x <;> rfl
  · intro ob sb hL hL' hx hy
    obtain ⟨ty, data, isSealed, alloc⟩ := sb
    simp only [renObj]
    cases data with
    | none =>
      simp only [Option.map_none]
      by_cases h1 : ob.isSealed = true
      · rw [if_pos h1, if_pos h1]; exact .throw ⟨rfl, rfl⟩
      · rw [if_neg h1, if_neg h1]
        exact (clearMixinData_psim o).nextU (fun ρ' n' he => setType_psim o (fun ob hob => ⟨fun ob' a k1 k2 => by simp at k1; subst k1; exact hob ob a rfl k2, rfl⟩))
    | some b =>
      cases ty with
      | none => exact .ub
      | some t =>
        obtain ⟨ty', data', isSealed', alloc'⟩ := ob
        simp only [Option.map_some]
        cases ty' with
        | none => exact .ub
        | some own =>
          simp only []
          cases copyFromCheck D E own (E.mixins t) with
          | some m => exact .throw ⟨rfl, rfl⟩
          | none => exact perform_psim u o t (.copy src false) (.assign src)

theorem readMixin?_psim {R : Rel α} {b : Option Nat} {i : Nat} {k1 k : Loc → Mix → Nat → Prog α} (hk : ∀ l m v, l.1 < n → PSim R σ ρ n L (k1 l m v) (k (renLoc ρ l) m v)) :
    PSim R σ ρ n L (readMixin? b i k1) (readMixin? (b.map ρ) i k) := by
  cases b with
  | none => exact .ub
  | some b => exact readMixin_psim hk

theorem copyMatchingLoop_psim (own : TypeId) (a b : Option Nat) (ms : List Mix) : ∀ i : Nat,
    PSim (RU σ L) σ ρ n L (copyMatchingLoop D E own a b i ms) (copyMatchingLoop D E own (a.map ρ) (b.map ρ) i ms) := by
  induction ms with
  | nil => intro i; exact .ok ⟨rfl, rfl⟩
  | cons m ms ih =>
    intro i
    unfold copyMatchingLoop
    cases E.indexOf own m with
    | none => exact ih (i + 1)
    | some oi =>
      refine readMixin?_psim (fun l m' v' hl => readMixin?_psim (fun sl m'' v hsl => ?_))
      by_cases hc : m' ≠ m ∨ m'' ≠ m ∨ (D.mix m).hasCopyAsgn = false
      · rw [if_pos hc, if_pos hc]; exact .ub
      · rw [if_neg hc, if_neg hc]
        refine .outside (fun f w t => .setLive hl rfl (.log rfl ?_))
        cases f with
        | true => exact .throw ⟨rfl, rfl⟩
        | false => exact ih (i + 1)

theorem copyMatchingFrom_psim (o src : Nat) : PSim (RU σ L) σ ρ n L (copyMatchingFrom D E o src) (copyMatchingFrom D E (σ o) (σ src)) := by
  unfold copyMatchingFrom
  refine two_psim ?_ ?_
  · rintro x y (rfl | rfl)
    · cases y <;> rfl
    · cases x <;> rfl
  · intro ob sb hL hL' hx hy
    obtain ⟨ty, data, isSealed, alloc⟩ := sb
    obtain ⟨ty', data', isSealed', alloc'⟩ := ob
    simp only [renObj]
    cases ty' with
    | none => exact .ub
    | some own =>
      cases ty with
      | none => exact .ub
      | some t =>
        simp only []
        cases copyMatchingCheck D E own (E.mixins t) with
        | some m => exact .throw ⟨rfl, rfl⟩
        | none => exact copyMatchingLoop_psim own data' data _ 0

theorem moveMatchingLoop_psim (own : TypeId) (a b : Option Nat) (ms : List Mix) : ∀ i : Nat,
    PSim (RU σ L) σ ρ n L (moveMatchingLoop D E own a b i ms) (moveMatchingLoop D E own (a.map ρ) (b.map ρ) i ms) := by
  induction ms with
  | nil => intro i; exact .ok ⟨rfl, rfl⟩
  | cons m ms ih =>
    intro i
    unfold moveMatchingLoop
    cases E.indexOf own m with
    | none => exact ih (i + 1)
    | some oi =>
      refine readMixin?_psim (fun l m' v' hl => readMixin?_psim (fun sl m'' v hsl => ?_))
      by_cases hc : m' ≠ m ∨ m'' ≠ m
      · rw [if_pos hc, if_pos hc]; exact .ub
      · rw [if_neg hc, if_neg hc]
        cases (D.mix m).hasMoveAsgn with
        | true => exact .outside (fun f w t => .setLive hl rfl (.setLive hsl rfl (.log rfl (ih (i + 1)))))
        | false =>
          simp only [Bool.false_eq_true, if_false]
          refine .destroy rfl (.getLive hsl rfl (fun x => ?_))
          cases x with
          | none => exact .ub
          | some x =>
            obtain ⟨m3, v3⟩ := x
            simp only []
            by_cases h4 : (D.mix m).hasMoveInit = false
            · rw [if_pos h4, if_pos h4]; exact .ub
            · rw [if_neg h4, if_neg h4]
              exact .construct rfl hsl rfl (.outside (fun f w t => .setLive hsl rfl (ih (i + 1))))

theorem moveMatchingFrom_psim (o src : Nat) (fb : Bool) : PSim (RU σ L) σ ρ n L (moveMatchingFrom D E o src fb) (moveMatchingFrom D E (σ o) (σ src) fb) := by
  unfold moveMatchingFrom
  refine two_psim ?_ ?_
  · rintro x y (rfl | rfl)
    · cases y <;> rfl
    · cases x <;> rfl
  · intro ob sb hL hL' hx hy
    obtain ⟨ty, data, isSealed, alloc⟩ := sb
    obtain ⟨ty', data', isSealed', alloc'⟩ := ob
    simp only [renObj]
    cases ty' with
    | none => exact .ub
    | some own =>
      cases ty with
      | none => exact .ub
      | some t =>
        simp only []
        cases moveMatchingCheck D E own fb (E.mixins t) with
        | some m => exact .throw ⟨rfl, rfl⟩
        | none => exact moveMatchingLoop_psim own data' data _ 0

theorem clearObject_psim (o : Nat) : PSim (RU σ L) σ ρ n L (clearObject D E o) (clearObject D E (σ o)) := by
  unfold clearObject
  by_cases hL : o < L
  · refine .getObj hL rfl (fun x hx => ?_)
    cases x with
    | none => exact .ub
    | some ob =>
      obtain ⟨ty, data, isSealed, alloc⟩ := ob
      simp only [Option.map_some, renObj]
      by_cases h1 : isSealed = true
      · rw [if_pos h1, if_pos h1]; exact .throw ⟨rfl, rfl⟩
      · rw [if_neg h1, if_neg h1]
        cases ty with
        | none => exact .ub
        | some t =>
          exact (clearMixinData_psim o).nextU (fun ρ' n' he => setType_psim o (fun ob hob => ⟨fun ob' a k1 k2 => by simp at k1; subst k1; exact hob ob a rfl k2, rfl⟩))
  · exact .noObj (Nat.le_of_not_lt hL) (fun _ _ _ => rfl)

theorem sealObject_psim (o : Nat) : PSim (RU σ L) σ ρ n L (sealObject o) (sealObject (σ o)) :=
  setType_psim o (fun ob hob => ⟨fun ob' a k1 k2 => by simp at k1; subst k1; exact hob ob a rfl k2, rfl⟩)

theorem mutateToSteps_same (l : List (Nat × Nat)) : (mutateToSteps l).map (fun x => (renStep σ x.1, x.2)) = mutateToSteps l := by
  induction l with
  | nil => rfl
  | cons x l ih =>
    obtain ⟨i, k⟩ := x
    simp only [mutateToSteps, List.flatMap_cons, List.map_append] at ih ⊢
    rw [ih]
    rfl

theorem mutateTo_psim (u : Bool) (o : Nat) (t : TypeId) (ops : List InitOp) : PSim (RU σ L) σ ρ n L (mutateTo D E u o t ops) (mutateTo D E u (σ o) t ops) := by
  unfold mutateTo
  by_cases hL : o < L
  · refine .getObj hL rfl (fun x hx => ?_)
    cases x with
    | none => exact .ub
    | some ob =>
      simp only [Option.map_some]
      by_cases h1 : ob.ty = some t
      · rw [if_pos h1, if_pos h1]; exact .ok ⟨rfl, rfl⟩
      · rw [if_neg h1, if_neg h1]
        have := withMutation_psim (D := D) (E := E) (σ := σ) (ρ := ρ) (n := n) (L := L) u o t (mutateToSteps (sortedOps E t ops))
        rw [mutateToSteps_same] at this
        exact this
  · exact .noObj (Nat.le_of_not_lt hL) (fun _ _ _ => rfl)

theorem program_psim (hinj : ∀ o p, o < L → p < L → σ o = σ p → o = p) (u : Bool) (op : OOp) :
    PSim RT σ ρ n L (program D E u op) (program D E u (renOp σ op)) := by
  cases op with
  | newEmpty t al => exact .addObj rfl (fun m => .ok trivial)
  | newOfType t al sd => exact newOfType_psim u t al sd
  | moveNew src => exact moveConstruct_psim src
  | destroy o =>
    by_cases hL : o < L
    · exact (destroyObject_psim hL).any
    · refine .dead (fun D' orc h hl => ?_)
      have : h.obj? o = none := by unfold Heap.obj?; rw [List.getElem?_eq_none (by omega)]; rfl
      simp only [program, destroyObject, Prog.next]
      rw [run_bind]
      simp only [clearMixinData, Prog.run]
      rw [this]
      rfl
  | moveAssign o src => exact (moveAssign_psim hinj o src).any
  | copy src al => exact copyObject_psim u src al
  | copyFrom o src => exact (copyFrom_psim u o src).any
  | copyMatching o src => exact (copyMatchingFrom_psim o src).any
  | moveMatching o src fb => exact (moveMatchingFrom_psim o src fb).any
  | clear o => exact (clearObject_psim o).any
  | reset o t => exact (resetType_psim u o t).any
  | «seal» o => exact (sealObject_psim o).any
  | mutation o t steps => exact (withMutation_psim u o t steps).any
  | mutateTo o t ops => exact (mutateTo_psim u o t ops).any

end

end Dnmx.Steps
