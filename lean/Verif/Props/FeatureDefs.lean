import Verif.Proofs.FeatureDefLemmas

/-!
# C95: the memory of feature definitions
-/

namespace Dnmx.Props
open Spec

/-- C95: every proper program that defines features is defined, also where allocations fail and it goes on after `std::bad_alloc`; the name that is found by following
the view in a feature info and the default payload are those of the last calls that succeeded. -/
theorem C95_definitions (es : List FEvent) (hl : LegalFRun fStart es) :
    ∃ W, fRun fStart es = some W ∧ ∀ i, (W.def? i).bind (readF W.mem) = fValueAfter i fStart none es := by
  obtain ⟨W, h1, h2⟩ := FOk.start.run es hl
  exact ⟨W, h1, h2.reads⟩

/-- C95: what a definition owns: its string and what its shared pointer owns; all other memory in use belongs to the user. -/
theorem C95_no_leak (es : List FEvent) (hl : LegalFRun fStart es) :
    ∃ W, fRun fStart es = some W ∧ ∀ a x, W.mem.cells a = some x →
      a ∈ W.strings ∨ a ∈ W.held ∨ ∃ i d, W.def? i = some d ∧ (a = d.storedName ∨ d.storage.bind AnyPtr.owner = some a) := by
  obtain ⟨W, h1, h2⟩ := FOk.start.run es hl
  refine ⟨W, h1, fun a x hx => ?_⟩
  obtain ⟨mval, h3, -⟩ := h2.world
  rcases h3.owned (a := a) (x := x) hx with h | ⟨i, d, h, h'⟩ | h | ⟨i, d, h, h'⟩
  · exact .inl h
  · rw [asWorld_def?] at h
    obtain ⟨y, hy, rfl⟩ := Option.map_eq_some_iff.1 h
    refine .inr (.inr ⟨i, y, hy, .inl ?_⟩)
    simpa [ownCells, asDef] using h'
  · exact .inr (.inl h)
  · rw [asWorld_def?] at h
    obtain ⟨y, hy, rfl⟩ := Option.map_eq_some_iff.1 h
    refine .inr (.inr ⟨i, y, hy, .inr ?_⟩)
    simpa [ownShares, asDef, eq_comm] using h'

/-- C95: when all definitions are destroyed and the user gave back what is theirs, no memory is in use, whatever failed before. -/
theorem C95_all_freed (es : List FEvent) (hl : LegalFRun fStart es) (W : FWorld) (hW : fRun fStart es = some W) (hd : ∀ i, W.def? i = none) (hs : W.strings = [])
    (hh : W.held = []) (a : Nat) : W.mem.cells a = none := by
  obtain ⟨W', h1, h2⟩ := C95_no_leak es hl
  rw [hW] at h1; cases h1
  cases hx : W.mem.cells a with
  | none => rfl
  | some x =>
    rcases h2 a x hx with h | h | ⟨i, d, h, -⟩
    · rw [hs] at h; simp at h
    · rw [hh] at h; simp at h
    · rw [hd i] at h; simp at h

/-- C95: the default payload in the info is the one that the definition keeps, and what owns it exists as long as the definition has it, also if the user drops all
shared pointers. -/
theorem C95_payload_kept (es : List FEvent) (hl : LegalFRun fStart es) (W : FWorld) (hW : fRun fStart es = some W) (i : Nat) (d : FDef) (hd : W.def? i = some d) :
    d.payload = d.storage.map AnyPtr.ptr ∧ ∀ c, d.storage.bind AnyPtr.owner = some c → IsShared W.mem c := by
  obtain ⟨W', h1, h2⟩ := FOk.start.run es hl
  rw [hW] at h1; cases h1
  obtain ⟨v, -, -, h3⟩ := h2.payload i d hd
  refine ⟨h3, fun c hc => ?_⟩
  obtain ⟨mval, h4, -⟩ := h2.world
  have hx := def?_eq.1 (asDef_of hd)
  have h5 := sum_get (fun x => (sharesOf x).count (some c)) hx
  have h6 : 0 < (sharesOf (some (asDef d))).count (some c) := by
    apply List.count_pos_iff.2
    show some c ∈ ownShares (asDef d)
    simp [ownShares, asDef, hc]
  have h7 := h4.ref c
  exact ⟨_, shared_of_refAt (M := W.mem) (by
    have h8 : refAt (asWorld W).mem c = refAt W.mem c := rfl
    omega)⟩

/-- C95: a call that throws leaves name and default payload of the definition as they were. -/
theorem C95_failed (es : List FEvent) (hl : LegalFRun fStart es) (W : FWorld) (hW : fRun fStart es = some W) (i : Nat) (d : FDef) (hd : W.def? i = some d) (c : FCall)
    (hc : LegalFCall W d c) (g : Growths) (W' : FWorld) (ht : fStep W (.call i c g) = .threw W') :
    W'.def? i = some d ∧ readF W'.mem d = readF W.mem d ∧ ∀ j, (W'.def? j).bind (readF W'.mem) = (W.def? j).bind (readF W.mem) := by
  obtain ⟨W1, h1, h2⟩ := FOk.start.run es hl
  rw [hW] at h1; cases h1
  rcases h2.call hd c g hc with ⟨M, d', h3, -⟩ | ⟨M, h3, h4⟩
  · simp only [fStep, hd, h3] at ht
    cases ht
  · simp only [fStep, hd, h3] at ht
    cases ht
    have e := fDef?_set hd (some d) M i
    rw [if_pos rfl] at e
    have hall := fun j => (h4.reads j).trans (h2.reads j).symm
    refine ⟨e, ?_, hall⟩
    have := hall i
    rw [e, hd] at this
    exact this

/-- A program: a name of the user, a stored name, a default payload of the user, one that is shared, and calls that fail. -/
def fProgram : List FEvent :=
  [.newString [70], .construct 0, .newShared, .call 0 (.payload ⟨200, none⟩) {}, .call 0 (.payload ⟨300, some 2⟩) {}, .dropShared 2,
    .call 0 (.storeName 0) { second := .moved }, .freeString 0, .newString [71, 72], .call 0 (.storeName 5) { first := .fails }, .call 0 (.storeName 5) { second := .fails },
    .call 0 .payloadWith { first := .fails }]

/-- proper programs, decided -/
def legalFCallB (W : FWorld) (d : FDef) : FCall → Bool
  | .name a => decide (a ∈ W.strings) || decide (a = d.storedName)
  | .storeName a => (W.mem.chars? a).isSome
  | .payload p => p.owner.all (isSharedB W.mem)
  | .payloadWith => true

def legalFB (W : FWorld) : FEvent → Bool
  | .freeString a => decide (a ∈ W.strings) && W.defs.all (fun x => x.all (fun d => d.name != a))
  | .copyShared c => isSharedB W.mem c
  | .dropShared c => decide (c ∈ W.held)
  | .construct a => decide (a ∈ W.strings)
  | .call i c _ => match W.def? i with
    | none => false
    | some d => legalFCallB W d c
  | .destroy i => (W.def? i).isSome
  | _ => true

def legalFRunB : FWorld → List FEvent → Bool
  | _, [] => true
  | W, e :: es => legalFB W e && match (fStep W e).world with
    | none => true
    | some W' => legalFRunB W' es

theorem legalFB_sound {W : FWorld} {e : FEvent} (h : legalFB W e = true) : LegalF W e := by
  cases e with
  | newString | newShared => trivial
  | freeString a =>
    simp only [legalFB, Bool.and_eq_true, decide_eq_true_eq, List.all_eq_true] at h
    refine ⟨h.1, fun i d hd => ?_⟩
    unfold FWorld.def? at hd
    cases hx : W.defs[i]? with
    | none => rw [hx] at hd; simp at hd
    | some y =>
      rw [hx] at hd; simp at hd; subst hd
      have := h.2 _ (List.mem_of_getElem? hx)
      simpa using this
  | copyShared c => exact isSharedB_sound h
  | dropShared c => simpa [legalFB, LegalF] using h
  | construct a => simpa [legalFB, LegalF] using h
  | destroy i =>
    simp only [legalFB] at h
    obtain ⟨d, hd⟩ := Option.isSome_iff_exists.1 h
    exact ⟨d, hd⟩
  | call i c g =>
    simp only [legalFB] at h
    cases hd : W.def? i with
    | none => rw [hd] at h; simp at h
    | some d =>
      rw [hd] at h
      refine ⟨d, hd, ?_⟩
      cases c with
      | name a => simpa [legalFCallB, LegalFCall] using h
      | storeName a => exact Option.isSome_iff_exists.1 h
      | payload p =>
        intro c' hc
        simp only [legalFCallB, hc, Option.all_some] at h
        exact isSharedB_sound h
      | payloadWith => trivial

theorem legalFRunB_sound : ∀ {es : List FEvent} {W : FWorld}, legalFRunB W es = true → LegalFRun W es
  | [], _, _ => trivial
  | e :: es, W, h => by
    simp only [legalFRunB, Bool.and_eq_true] at h
    refine ⟨legalFB_sound h.1, fun W' hW => legalFRunB_sound ?_⟩
    have := h.2
    rw [hW] at this
    exact this

-- the program is proper and three of its calls fail; the string of the user is gone, the shared payload outlives the pointer of the user
example : LegalFRun fStart fProgram ∧ fValueAfter 0 fStart none fProgram = some ⟨[70], some 300⟩ ∧
    (fRun fStart fProgram).map (fun W => (W.strings, W.held, W.def? 0, W.mem.next)) = some ([5], [], some ⟨4, 4, some 300, some ⟨300, some 2⟩⟩, 7) :=
  ⟨legalFRunB_sound (by decide +kernel), by decide +kernel, by decide +kernel⟩

example : LegalFRun fStart (fProgram ++ [.destroy 0, .freeString 5]) ∧
    (fRun fStart (fProgram ++ [.destroy 0, .freeString 5])).map (fun W => (W.defs, W.strings, W.held)) = some ([none], [], []) :=
  ⟨legalFRunB_sound (by decide +kernel), by decide +kernel⟩

/-- C95: the user has to keep the string that names a definition: otherwise the view in the feature info leads to freed memory. `store_name` makes this needless. -/
theorem C95_string_needed : (fRun fStart [.newString [70], .construct 0, .freeString 0]).map (fun W => (W.def? 0).map (readF W.mem)) = some (some none) ∧
    LegalFRun fStart [.newString [70], .construct 0, .call 0 (.storeName 0) {}, .freeString 0] :=
  ⟨by decide +kernel, legalFRunB_sound (by decide +kernel)⟩

/-- C95: `store_name` may be given a part of the stored name itself (here: all of it), because the characters are copied to a temporary first. -/
theorem C95_store_own (es : List FEvent) (hl : LegalFRun fStart es) (W : FWorld) (hW : fRun fStart es = some W) (i : Nat) (d : FDef) (hd : W.def? i = some d) (g : Growths) (W' : FWorld)
    (hs : fStep W (.call i (.storeName d.storedName) g) = .ok W') :
    ∃ d' v, W'.def? i = some d' ∧ readF W'.mem d' = some v ∧ W.mem.chars? d.storedName = some v.name ∧ v.payload = d.payload := by
  obtain ⟨W1, h1, h2⟩ := FOk.start.run es hl
  rw [hW] at h1; cases h1
  obtain ⟨mval, h3, -⟩ := h2.world
  obtain ⟨s, hst⟩ := (h3.each i _ (asDef_of hd)).stored
  have hch : W.mem.chars? d.storedName = some s := chars?_eq.2 hst
  rcases h2.call hd (.storeName d.storedName) g ⟨s, hch⟩ with ⟨M, d', h4, h5⟩ | ⟨M, h4, -⟩
  · simp only [fStep, hd, h4] at hs
    cases hs
    have e := fDef?_set hd (some d') M i
    rw [if_pos rfl] at e
    have hr := h5.reads i
    rw [e] at hr
    obtain ⟨v, v1, v2, -⟩ := h2.payload i d hd
    simp only [if_true, v1, Option.map_some, fDone, hch, Option.getD_some] at hr
    exact ⟨d', _, e, hr, hch, v2⟩
  · simp only [fStep, hd, h4] at hs
    cases hs

-- such a call succeeds
example : ((fRun fStart fProgram).map (fun W => match fStep W (.call 0 (.storeName 4) { second := .moved }) with
    | .ok W' => (W'.def? 0).map (readF W'.mem)
    | _ => none)) = some (some (some ⟨[70], some 300⟩)) := by decide +kernel

end Dnmx.Props
