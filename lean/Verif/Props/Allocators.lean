import Verif.Proofs.AllocatorAgain
import Verif.Proofs.AllocatorUnseen
import Verif.Props.Registry

/-!
# C96: domains keep only memory of their own allocator

Mutations of types may be made with any allocator. What a domain stores is in memory of the domain's allocator, so the resource
that a mutation used may be destroyed when the mutation is gone.
-/

namespace Dnmx.Props
open Spec

/-- The declarations of `regDecls` with a rule: mixin 1 brings mixin 2. -/
def allocDecls : Decls := { regDecls with userRule := fun _ => { name := ⟨30, 31⟩, apply := some fun _ => basicDepRule 1 2 } }

/-- Domains have resource 7. A mutation with resource 5 asks for a type, to which a rule adds a mixin, and is destroyed, and so is resource 5;
a copy of it is in the default resource. The stored query is used, and erased when mixin 1 is unregistered. -/
def allocProg : List AOp :=
  [.other (.regMixin 0 1), .other (.regMixin 0 2), .other (.addRule 0 1), .new 1 0 5, .edit 1 [1], .copy 1 2, .getMut 0 1, .move 1 3, .drop 1, .drop 3, .dropRes 5,
   .getMut 0 2, .get 0 [2], .get 0 [2, 1], .other (.unregMixin 0 1)]

/-- New domains with resource 7. -/
def allocInit : AWorld := initA (fun _ => {}) (fun _ => 7) (fun a => a % 2) fun _ => false

/-- Can `CarefulA` be told by looking, if all domains have resource `r0`? -/
def carefulB (r0 : MemRes) (A : AWorld) : AOp → Bool
  | .new _ _ r => !A.H.dead.contains r
  | .dropRes r => r != defaultRes && r0 != r && A.muts.all (fun m => m.vec.res != r)
  | .other (.getTypeMut _ _ _) => false
  | .other (.getType _ _) => false
  | _ => true

/-- `CarefulRun`, likewise. -/
def carefulRunB (D : Decls) (r0 : MemRes) : AWorld → List AOp → Bool
  | _, [] => true
  | A, op :: ops =>
    carefulB r0 A op && match stepA D A op with
      | none => true
      | some A1 => carefulRunB D r0 A1 ops

theorem carefulB_sound {r0 : MemRes} {A : AWorld} {op : AOp} (ho : A.own = fun _ => r0) (h : carefulB r0 A op = true) : CarefulA A op := by
  cases op with
  | new v d r => simpa [carefulB, CarefulA] using h
  | dropRes r =>
    simp only [carefulB, Bool.and_eq_true, bne_iff_ne, ne_eq, List.all_eq_true] at h
    exact ⟨h.1.1, fun d => by rw [ho]; exact h.1.2, h.2⟩
  | other op => cases op <;> simp_all [carefulB, CarefulA, notGetType]
  | _ => trivial

theorem carefulRunB_sound {D : Decls} {r0 : MemRes} : ∀ (ops : List AOp) {A : AWorld}, AInv A [] → (A.own = fun _ => r0) → carefulRunB D r0 A ops = true →
    CarefulRun D A ops
  | [], _, _, _, _ => trivial
  | op :: ops, A, hi, ho, h => by
    simp only [carefulRunB, Bool.and_eq_true] at h
    have hc := carefulB_sound ho h.1
    refine ⟨hc, fun A1 e => ?_⟩
    obtain ⟨A2, e2, i2, o2, -⟩ := stepA_inv (D := D) hi hc
    obtain rfl := Option.some.inj (e.symm.trans e2)
    have h2 := h.2
    rw [e] at h2
    exact carefulRunB_sound ops i2 (o2.trans ho) h2

/-- The example is a careful program. -/
theorem allocProg_careful : CarefulRun allocDecls allocInit allocProg :=
  carefulRunB_sound (r0 := 7) allocProg (initA_inv _ _ _ _) rfl (by decide +kernel)

-- what happens in it: the blocks in use after 6, 7, 11 and all steps, and the types of the stored queries
example : ((runA allocDecls allocInit (allocProg.take 6)).map fun A => A.H.live.map (·.2)) = some [0, 5] ∧
    ((runA allocDecls allocInit (allocProg.take 7)).map fun A => (A.H.live.map (·.2), A.keys.map fun k => (k.vec.elems, k.tid))) = some ([5, 7, 0], [([1], 1)]) ∧
    ((runA allocDecls allocInit (allocProg.take 11)).map fun A => (A.H.live.map (·.2), A.H.dead)) = some ([7, 0], [5]) ∧
    ((runA allocDecls allocInit (allocProg.take 14)).map fun A => A.keys.map fun k => (k.vec.elems, k.tid, k.vec.res)) = some [([1], 1, 7), ([2], 2, 7), ([2, 1], 3, 7)] ∧
    ((runA allocDecls allocInit allocProg).map fun A => (A.H.live.map (·.2), A.keys.map fun k => (k.vec.elems, k.tid))) = some ([7, 0], [([2], 2)]) := by
  decide +kernel

/-! ## careful programs -/

/-- C96: nothing undefined happens in a careful program. No vector is swapped with one of another resource, no block goes to a resource that it
is not from, and no resource is used that was destroyed. Any allocations may fail (`fails`). -/
theorem C96_defined (D : Decls) (s : DomId → Settings) (own : DomId → MemRes) (extra : Nat → Nat) (fails : Nat → Bool) (ops : List AOp)
    (h : CarefulRun D (initA s own extra fails) ops) : ∃ A, runA D (initA s own extra fails) ops = some A :=
  let ⟨A, e, _⟩ := runA_inv ops (initA_inv s own extra fails) h
  ⟨A, e⟩

example : ∃ A, runA allocDecls allocInit allocProg = some A := C96_defined _ _ _ _ _ _ allocProg_careful

/-- The state that a careful program reaches, and what holds there. -/
theorem carefulState {D : Decls} {s : DomId → Settings} {own : DomId → MemRes} {extra : Nat → Nat} {fails : Nat → Bool} {ops : List AOp} {A : AWorld}
    (h : CarefulRun D (initA s own extra fails) ops) (hr : runA D (initA s own extra fails) ops = some A) : AInv A [] ∧ A.own = own := by
  obtain ⟨A', e, i, o, -⟩ := runA_inv ops (initA_inv s own extra fails) h
  obtain rfl := Option.some.inj (hr.symm.trans e)
  exact ⟨i, o⟩

/-- C96: at any time, each query that a domain stores is in memory of the domain's allocator, whatever allocators the mutations had. -/
theorem C96_own_memory (D : Decls) (s : DomId → Settings) (own : DomId → MemRes) (extra : Nat → Nat) (fails : Nat → Bool) (ops : List AOp) (A : AWorld)
    (h : CarefulRun D (initA s own extra fails) ops) (hr : runA D (initA s own extra fails) ops = some A) (k : Key) (hk : k ∈ A.keys) (b : Nat × MemRes) (hb : b ∈ blockOf k.vec) :
    b ∈ A.H.live ∧ b.2 = own k.dom := by
  obtain ⟨i, o⟩ := carefulState h hr
  refine ⟨i.owns.1.mem_iff.mpr (List.mem_append_left _ (List.mem_flatMap.mpr ⟨k, hk, hb⟩)), ?_⟩
  rw [← o, ← i.keysOwn k hk]
  unfold blockOf at hb
  split at hb
  · cases hb
  · rw [List.mem_singleton.mp hb]

/-- C96: at any time, the blocks in use are those of the stored queries and of the mutations that exist, each once: nothing leaks, nothing is shared. -/
theorem C96_no_leak (D : Decls) (s : DomId → Settings) (own : DomId → MemRes) (extra : Nat → Nat) (fails : Nat → Bool) (ops : List AOp) (A : AWorld)
    (h : CarefulRun D (initA s own extra fails) ops) (hr : runA D (initA s own extra fails) ops = some A) :
    A.H.live.Perm (blocksOfKeys A.keys ++ blocksOfMuts A.muts) := by
  have := (carefulState h hr).1.owns.1
  simpa using this

/-- C96: no block is in use of a resource that no domain and no existing mutation has. It may be destroyed. -/
theorem C96_resource_free (D : Decls) (s : DomId → Settings) (own : DomId → MemRes) (extra : Nat → Nat) (fails : Nat → Bool) (ops : List AOp) (A : AWorld)
    (h : CarefulRun D (initA s own extra fails) ops) (hr : runA D (initA s own extra fails) ops = some A) (r : MemRes) (h1 : ∀ d, own d ≠ r) (h2 : ∀ m ∈ A.muts, m.vec.res ≠ r)
    (a : Nat) : (a, r) ∉ A.H.live := by
  intro hb
  rcases List.mem_append.mp ((C96_no_leak D s own extra fails ops A h hr).mem_iff.mp hb) with hb | hb
  · obtain ⟨k, hk, hb⟩ := List.mem_flatMap.mp hb
    exact h1 k.dom (C96_own_memory D s own extra fails ops A h hr k hk _ hb).2.symm
  · obtain ⟨m, hm, hb⟩ := List.mem_flatMap.mp hb
    refine h2 m hm ?_
    unfold blockOf at hb
    split at hb
    · cases hb
    · exact (Prod.mk.inj (List.mem_singleton.mp hb)).2.symm

example : ∀ A, runA allocDecls allocInit (allocProg.take 10) = some A → (∀ m ∈ A.muts, m.vec.res ≠ 5) → ∀ a, (a, 5) ∉ A.H.live := fun A e h2 =>
  C96_resource_free allocDecls (fun _ => {}) (fun _ => 7) (fun a => a % 2) (fun _ => false) (allocProg.take 10) A
    (carefulRunB_sound (r0 := 7) _ (initA_inv _ _ _ _) rfl (by decide +kernel)) e 5 (by simp) h2

/-- C96: when all domains and mutations are destroyed, all memory was given back. -/
theorem C96_all_freed (D : Decls) (s : DomId → Settings) (own : DomId → MemRes) (extra : Nat → Nat) (fails : Nat → Bool) (ops : List AOp) (A : AWorld)
    (h : CarefulRun D (initA s own extra fails) ops) (hr : runA D (initA s own extra fails) ops = some A) : ∃ H, endA A = some H ∧ H.live = [] := by
  obtain ⟨i, -⟩ := carefulState h hr
  obtain ⟨H1, e1, o1, d1⟩ := destroyKeys_owns A.keys i.owns
  obtain ⟨H2, e2, o2, d2⟩ := destroyMuts_owns A.muts o1
  exact ⟨H2, by simp [endA, e1, e2], o2.1.eq_nil⟩

/-! ## allocators have no influence -/

/-- C96: unless there is no memory, `get_type` for a mutation with any allocator that exists gives the answer, and changes the domains, as the calls of
`Verif.Model.Domain`, which know no allocators. The mutation keeps its allocator. -/
theorem C96_same_answers (D : Decls) (s : DomId → Settings) (own : DomId → MemRes) (extra : Nat → Nat) (fails : Nat → Bool) (ops : List AOp) (A : AWorld)
    (h : CarefulRun D (initA s own extra fails) ops) (hr : runA D (initA s own extra fails) ops = some A) (d : DomId) (m : Mut) (hm : m ∈ A.muts) :
    ∃ A1 x r, getTypeMutA D { A with muts := A.muts.erase m } d m.dom m.vec = some (A1, x, r) ∧ x.res = m.vec.res ∧
      (r ≠ .error .badAlloc → r = asFail (getTypeMut D A.W d m.dom m.vec.elems).1 ∧ A1.W = (getTypeMut D A.W d m.dom m.vec.elems).2) ∧ (Enough A.H → r ≠ .error .badAlloc) := by
  obtain ⟨i, -⟩ := carefulState h hr
  obtain ⟨A1, x, r, e, _, w, _, _, _, _, s, y⟩ := getTypeMutA_inv (D := D) (d := d) (md := m.dom) (i.take hm) (i.mutsAlive m hm)
  exact ⟨A1, x, r, e, s, fun hne => ⟨(w hne).1, (w hne).2.1⟩, y⟩

/-- C96: the same for `get_type` of a list of mixins, which makes its mutation with the allocator of the domain. -/
theorem C96_same_answers_span (D : Decls) (s : DomId → Settings) (own : DomId → MemRes) (extra : Nat → Nat) (fails : Nat → Bool) (ops : List AOp) (A : AWorld)
    (h : CarefulRun D (initA s own extra fails) ops) (hr : runA D (initA s own extra fails) ops = some A) (d : DomId) (q : List Mix) :
    ∃ A1 r, getTypeA D A d q = some (A1, r) ∧ (r ≠ .error .badAlloc → r = asFail (getType D A.W d q).1 ∧ A1.W = (getType D A.W d q).2) ∧ (Enough A.H → r ≠ .error .badAlloc) := by
  obtain ⟨i, -⟩ := carefulState h hr
  obtain ⟨A1, r, e, _, w, _, _, _, _, y⟩ := getTypeA_inv (D := D) (d := d) (q := q) i
  exact ⟨A1, r, e, w, y⟩

/-- C96: two careful programs that differ only in the allocators of domains and mutations, in which resources are destroyed and in what the standard library allocates: if there is memory, the domains are the same
after them, and so are all answers, and the mutations have the same mixins. -/
theorem C96_allocators_unseen (D : Decls) (s : DomId → Settings) (own own' : DomId → MemRes) (extra extra' : Nat → Nat) (ops ops' : List AOp) (A A' : AWorld)
    (h : CarefulRun D (initA s own extra fun _ => false) ops) (h' : CarefulRun D (initA s own' extra' fun _ => false) ops') (hs : SameCalls ops ops')
    (hr : runA D (initA s own extra fun _ => false) ops = some A) (hr' : runA D (initA s own' extra' fun _ => false) ops' = some A') : A.W = A'.W ∧ seenMuts A = seenMuts A' :=
  runA_unseen hs (initA_inv s own extra _) (initA_inv s own' extra' _) h h' (fun _ => rfl) (fun _ => rfl) rfl rfl hr hr'

-- the example with the default resource for everything, and resource 5 not destroyed
example : SameCalls allocProg [.other (.regMixin 0 1), .other (.regMixin 0 2), .other (.addRule 0 1), .new 1 0 0, .edit 1 [1], .copy 1 2, .getMut 0 1, .move 1 3, .drop 1, .drop 3,
    .getMut 0 2, .get 0 [2], .get 0 [2, 1], .other (.unregMixin 0 1)] := rfl

/-! ## no memory -/

/-- C96: if there is no memory for `get_type`, whichever allocation fails, nothing leaks, all queries that were stored still are and no others, and the domain is as before, or has the new type, as after the call, but not the query. -/
theorem C96_no_memory (D : Decls) (s : DomId → Settings) (own : DomId → MemRes) (extra : Nat → Nat) (fails : Nat → Bool) (ops : List AOp) (A A1 : AWorld)
    (h : CarefulRun D (initA s own extra fails) ops) (hr : runA D (initA s own extra fails) ops = some A) (d : DomId) (q : List Mix) (hb : getTypeA D A d q = some (A1, .error .badAlloc)) :
    A1.H.live.Perm (blocksOfKeys A.keys ++ blocksOfMuts A.muts) ∧ A1.keys = A.keys ∧ (∀ d', (A1.W.doms d').queries = (A.W.doms d').queries) ∧
      (A1.W = A.W ∨ A1.W = unstored A.W (getType D A.W d q).2 d) := by
  obtain ⟨i, -⟩ := carefulState h hr
  obtain ⟨A2, r, e, i2, _, b, _, m2, _, _⟩ := getTypeA_inv (D := D) (d := d) (q := q) i
  obtain ⟨rfl, rfl⟩ := Prod.mk.inj (Option.some.inj (hb.symm.trans e))
  obtain ⟨hk, hw⟩ := b rfl
  refine ⟨?_, hk, fun d' => ?_, hw⟩
  · have := i2.owns.1
    rw [hk, m2] at this
    simpa using this
  · rw [← i2.queries d', hk, i.queries d']

/-- C96: after that, the domain answers the call as if it had never been made; and if it is made again and there is memory, the domains are then as if there always had been. -/
theorem C96_try_again (D : Decls) (s : DomId → Settings) (own : DomId → MemRes) (extra : Nat → Nat) (fails : Nat → Bool) (ops : List AOp) (A A1 : AWorld)
    (h : CarefulRun D (initA s own extra fails) ops) (hr : runA D (initA s own extra fails) ops = some A) (d : DomId) (q : List Mix) (hb : getTypeA D A d q = some (A1, .error .badAlloc)) :
    ∃ A2 r, getTypeA D A1 d q = some (A2, r) ∧ (r ≠ .error .badAlloc → r = asFail (getType D A.W d q).1 ∧ A2.W = (getType D A.W d q).2) := by
  obtain ⟨i, -⟩ := carefulState h hr
  obtain ⟨A1', r1, e, i1, _, b, _⟩ := getTypeA_inv (D := D) (d := d) (q := q) i
  obtain ⟨rfl, rfl⟩ := Prod.mk.inj (Option.some.inj (hb.symm.trans e))
  have hw : getType D A1.W d q = getType D A.W d q := by
    rcases (b rfl).2 with hw | hw
    · rw [hw]
    · rw [hw, getType_again]
  obtain ⟨A2, r, e2, _, w2, _⟩ := getTypeA_inv (D := D) (d := d) (q := q) i1
  rw [hw] at w2
  exact ⟨A2, r, e2, w2⟩

/-- C96: the same for a mutation of the user: it keeps its allocator, and its list has one block at most, as before. -/
theorem C96_no_memory_mutation (D : Decls) (s : DomId → Settings) (own : DomId → MemRes) (extra : Nat → Nat) (fails : Nat → Bool) (ops : List AOp) (A A1 : AWorld)
    (h : CarefulRun D (initA s own extra fails) ops) (hr : runA D (initA s own extra fails) ops = some A) (d : DomId) (m : Mut) (hm : m ∈ A.muts) (x : Vec)
    (hb : getTypeMutA D { A with muts := A.muts.erase m } d m.dom m.vec = some (A1, x, .error .badAlloc)) :
    A1.H.live.Perm (blocksOfKeys A.keys ++ (blocksOfMuts (A.muts.erase m) ++ blockOf x)) ∧ A1.keys = A.keys ∧ x.res = m.vec.res ∧
      (A1.W = A.W ∨ A1.W = unstored A.W (getTypeMut D A.W d m.dom m.vec.elems).2 d) := by
  obtain ⟨i, -⟩ := carefulState h hr
  obtain ⟨A2, x2, r, e, i2, _, b, _, m2, _, s2, _⟩ := getTypeMutA_inv (D := D) (d := d) (md := m.dom) (i.take hm) (i.mutsAlive m hm)
  obtain ⟨rfl, e'⟩ := Prod.mk.inj (Option.some.inj (hb.symm.trans e))
  obtain ⟨rfl, rfl⟩ := Prod.mk.inj e'
  obtain ⟨hk, hw⟩ := b rfl
  refine ⟨?_, hk, s2, hw⟩
  have := i2.owns.1
  rw [hk, m2] at this
  simpa using this

/-- C96: after that, a mutation with the mixins that this one had before the call is answered as if the call had never been made. -/
theorem C96_try_again_mutation (D : Decls) (s : DomId → Settings) (own : DomId → MemRes) (extra : Nat → Nat) (fails : Nat → Bool) (ops : List AOp) (A A1 : AWorld)
    (h : CarefulRun D (initA s own extra fails) ops) (hr : runA D (initA s own extra fails) ops = some A) (d : DomId) (m : Mut) (hm : m ∈ A.muts) (x : Vec)
    (hb : getTypeMutA D { A with muts := A.muts.erase m } d m.dom m.vec = some (A1, x, .error .badAlloc)) :
    getTypeMut D A1.W d m.dom m.vec.elems = getTypeMut D A.W d m.dom m.vec.elems := by
  rcases (C96_no_memory_mutation D s own extra fails ops A A1 h hr d m hm x hb).2.2.2 with hw | hw
  · rw [hw]
  · rw [hw, getTypeMut_again]

/-- C96: the mixins must be those before the call: a mutation for which there was no memory may have been changed by the rules. Here the rule has added mixin 2. -/
theorem C96_mutation_changed :
    ((runA allocDecls (initA (fun _ => {}) (fun _ => 7) (fun a => a % 2) (· == 3)) (allocProg.take 5)).bind fun A => getTypeMutA allocDecls { A with muts := [] } 0 0 ⟨5, some 0, 1, [1]⟩).map
      (fun r => (r.2.1.elems, (match r.2.2 with | .error .badAlloc => true | _ => false), r.1.keys.length)) = some ([1, 2], true, 0) ∧
    (runA allocDecls (initA (fun _ => {}) (fun _ => 7) (fun a => a % 2) (· == 3)) (allocProg.take 5)).map (fun A => A.muts) = some [⟨1, 0, ⟨5, some 0, 1, [1]⟩⟩] := by
  decide +kernel

/-- The beginning of the example, with an allocation that fails: what comes of `get_type` of mixin 1, the resources of the blocks in use, the types and the stored queries. -/
def allocFail (n : Nat) : Option (Except AFail TypeId × List MemRes × List TypeId × List (List Mix × TypeId)) :=
  ((runA allocDecls (initA (fun _ => {}) (fun _ => 7) (fun a => a % 2) (· == n)) (allocProg.take 3)).bind fun A => getTypeA allocDecls A 0 [1]).map fun r =>
    (r.2, r.1.H.live.map (·.2), (r.1.W.doms 0).types.map (·.tid), r.1.keys.map fun k => (k.vec.elems, k.tid))

-- there is no memory for the list of the mutation, for that of the rules, for the mixin that the rule adds, for the second list of the rules, for the type: nothing is left of the call.
-- There is none for the stored query: the type stays. Otherwise the call succeeds.
example : (allocFail 0 matches some (.error .badAlloc, [], [], [])) ∧ (allocFail 1 matches some (.error .badAlloc, [], [], [])) ∧ (allocFail 2 matches some (.error .badAlloc, [], [], [])) ∧
    (allocFail 3 matches some (.error .badAlloc, [], [], [])) ∧ (allocFail 4 matches some (.error .badAlloc, [], [], [])) ∧ (allocFail 5 matches some (.error .badAlloc, [], [1], [])) ∧
    (allocFail 6 matches some (.ok 1, [7], [1], [([1], 1)])) := by
  decide +kernel

/-- C96: the stored queries in memory are those of the domain. -/
theorem C96_stored (D : Decls) (s : DomId → Settings) (own : DomId → MemRes) (extra : Nat → Nat) (fails : Nat → Bool) (ops : List AOp) (A : AWorld)
    (h : CarefulRun D (initA s own extra fails) ops) (hr : runA D (initA s own extra fails) ops = some A) (d : DomId) : plainKeys d A.keys = (A.W.doms d).queries :=
  (carefulState h hr).1.queries d

/-! ## copies -/

/-- C96: a copy of a mutation, if there is memory for one, has the default resource, not that of the original, and the same mixins; a mutation that is moved keeps its block. -/
theorem C96_copy (D : Decls) (s : DomId → Settings) (own : DomId → MemRes) (extra : Nat → Nat) (fails : Nat → Bool) (ops : List AOp) (A : AWorld)
    (h : CarefulRun D (initA s own extra fails) ops) (hr : runA D (initA s own extra fails) ops = some A) (v w : Nat) (m : Mut) (hm : A.mutOf v = some m) :
    (∃ A1, stepA D A (.copy v w) = some A1 ∧ ((∃ x, A1.muts = ⟨w, m.dom, x⟩ :: A.muts ∧ x.res = defaultRes ∧ x.elems = m.vec.elems) ∨ (A1.muts = A.muts ∧ ¬ Enough A.H))) ∧
    ∃ A1, stepA D A (.move v w) = some A1 ∧ A1.H = A.H ∧ A1.muts = ⟨w, m.dom, m.vec⟩ :: { m with vec := { res := m.vec.res } } :: A.muts.erase m := by
  obtain ⟨i, -⟩ := carefulState h hr
  refine ⟨?_, { A with muts := ⟨w, m.dom, m.vec⟩ :: { m with vec := { res := m.vec.res } } :: A.muts.erase m }, by simp only [stepA, hm]; rfl, rfl, rfl⟩
  obtain ⟨H1, x, b, e1, o1, r1, l1, -, d1, y1⟩ := vAssign_owns (v := { res := defaultRes }) m.vec.elems (L := blocksOfKeys A.keys ++ blocksOfMuts A.muts)
    (by simpa [blockOf] using i.front) i.defAlive
  cases b with
  | true =>
    obtain ⟨H2, e2, o2, d2⟩ := vDestroy_owns o1
    exact ⟨{ A with H := H2 }, by simp only [stepA, hm, vCopy, e1, e2], .inr ⟨rfl, fun he => by simpa using y1 he⟩⟩
  | false => exact ⟨{ A with H := H1, muts := ⟨w, m.dom, x⟩ :: A.muts }, by simp only [stepA, hm, vCopy, e1], .inl ⟨x, rfl, r1, l1 rfl⟩⟩

/-- C96: the list of a mutation may be moved to another mutation (`a.mixins = std::move(b.mixins)`) whatever allocators they have: the target keeps its allocator and gets the mixins, unless there is no memory, and
whatever is left of the source, all blocks still have one owner each. -/
theorem C96_move_assign (H : VHeap) (dst src : Vec) (L : List (Nat × MemRes)) (h : Owns H (blockOf dst ++ (blockOf src ++ L))) (hd : dst.res ∉ H.dead) :
    ∃ H1 d s b, vMoveAssign H dst src = some (H1, d, s, b) ∧ Owns H1 (blockOf d ++ (blockOf s ++ L)) ∧ d.res = dst.res ∧ s.res = src.res ∧
      (b = false → d.elems = src.elems) ∧ (b = true → d = dst ∧ s = src ∧ dst.res ≠ src.res ∧ ¬ Enough H) := by
  unfold vMoveAssign
  by_cases hr : dst.res = src.res
  · obtain ⟨H1, e1, o1, d1⟩ := vDestroy_owns h
    exact ⟨H1, src, { res := src.res }, false, by simp [hr, e1, vMoved], by simpa [blockOf] using o1, hr.symm, rfl, fun _ => rfl, by simp⟩
  · obtain ⟨H1, d, b, e1, o1, r1, l1, f1, d1, y1⟩ := vAssign_owns src.elems h hd
    exact ⟨H1, d, src, b, by simp [hr, e1], o1, r1, rfl, l1, fun hb => ⟨f1 hb, rfl, hr, fun he => by rw [y1 he] at hb; cases hb⟩⟩

-- with different allocators the elements are copied to a new block, with equal ones the block is taken over
example : ((vMoveAssign { live := [(0, 5), (1, 7)], next := 2 } ⟨7, some 1, 1, [4]⟩ ⟨5, some 0, 2, [1, 2]⟩).map fun r => (r.1.live, r.2)) = some ([(2, 7), (0, 5)], ⟨7, some 2, 2, [1, 2]⟩, ⟨5, some 0, 2, [1, 2]⟩, false) ∧
    ((vMoveAssign { live := [(0, 7), (1, 7)], next := 2 } ⟨7, some 1, 1, [4]⟩ ⟨7, some 0, 2, [1, 2]⟩).map fun r => (r.1.live, r.2)) = some ([(0, 7)], ⟨7, some 0, 2, [1, 2]⟩, { res := 7 }, false) := by
  decide +kernel

/-! ## what the user must do -/

/-- C96: the user must keep a resource as long as a mutation has memory of it, and the one of a domain as long as the domain stores queries. -/
theorem C96_careful_needed :
    runA allocDecls allocInit [.new 1 0 5, .edit 1 [1], .dropRes 5, .drop 1] = none ∧
    (runA allocDecls allocInit [.new 1 0 5, .edit 1 [1], .drop 1, .dropRes 5]).isSome = true ∧
    runA allocDecls allocInit [.other (.regMixin 0 1), .get 0 [1], .dropRes 7, .other (.unregMixin 0 1)] = none := by
  refine ⟨?_, ?_, ?_⟩
  · have : (runA allocDecls allocInit [.new 1 0 5, .edit 1 [1], .dropRes 5, .drop 1]).isNone = true := by decide +kernel
    simpa using this
  · decide +kernel
  · have : (runA allocDecls allocInit [.other (.regMixin 0 1), .get 0 [1], .dropRes 7, .other (.unregMixin 0 1)]).isNone = true := by decide +kernel
    simpa using this

end Dnmx.Props
