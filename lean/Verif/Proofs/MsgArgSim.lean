import Verif.Proofs.MsgArgLemmas
import Verif.Proofs.DispatchLemmas

/-!
# Calls with arguments do what calls on values do
-/

set_option linter.unusedSimpArgs false
set_option linter.unusedVariables false

namespace Dnmx
open Spec

variable {σ R : Type}

theorem takenBy_self : ∀ (ks : List Pass) (as : List Arg) (m : Nat → Val), takenBy ks ks as m = m := by
  intro ks
  induction ks with
  | nil => intro as m; simp [takenBy]
  | cons k ks ih =>
    intro as m
    cases as with
    | nil => cases k <;> simp [takenBy]
    | cons a as => cases k <;> simp [takenBy, ih]

theorem left_congr (n : Nat) (x : Nat) (hx : x < n) : ∀ (ks own : List Pass) (as : List Arg) (vs : List Val) (m m' : Nat → Val),
    (∀ y, y < n → m y = m' y) → left ks own as vs m x = left ks own as vs m' x := by
  intro ks
  induction ks with
  | nil => intro own as vs m m' h; simp [left, h x hx]
  | cons k ks ih =>
    intro own as vs m m' h
    cases own with
    | nil => cases k <;> simp [left, h x hx]
    | cons o own =>
      cases as with
      | nil => cases k <;> cases o <;> simp [left, h x hx]
      | cons a as =>
        cases vs with
        | nil => cases k <;> cases o <;> simp [left, h x hx]
        | cons v vs =>
          cases k <;> cases o <;> simp only [left] <;>
            first
            | exact ih _ _ _ _ _ h
            | exact ih _ _ _ _ _ (fun y hy => by split <;> simp_all)

/-- What holds of the parameters `cs` of a message call between calls of implementations. -/
structure Ready (sig : List Pass) (as : List Arg) (vs : List Val) (n hi : Nat) (cs : List Nat) (st : Store) (mem : Nat → Val) : Prop where
  cells : CRel hi n sig (as.map Arg.cell) cs
  hi_le : hi ≤ st.next
  n_le : n ≤ st.next
  vlen : vs.length = sig.length
  vals : cs.map st.val = seen sig as vs st.val
  mem : ∀ y, y < n → st.val y = mem y

/-- The first initialization (in `func(mixin_data, …)`). -/
theorem Ready.bind {sig as vs n hi cs st mem} (h : Ready sig as vs n hi cs st mem) (hg : GoodArgs sig as n) {args : List Arg}
    (ha : args = lvArgs cs ∨ args = fwdArgs sig cs) :
    Ready sig as vs n (bindParams sig args st).2.next (bindParams sig args st).1 (bindParams sig args st).2 mem ∧
    CRel (bindParams sig args st).2.next st.next sig (as.map Arg.cell) (bindParams sig args st).1 ∧
    st.next ≤ (bindParams sig args st).2.next ∧
    (args = lvArgs cs → ∀ y, y < st.next → (bindParams sig args st).2.val y = st.val y) ∧
    (bindParams sig args st).2.copies = st.copies + made false sig args ∧ (bindParams sig args st).2.moves = st.moves + made true sig args := by
  have hlen := h.cells.len
  have hbel : ∀ c ∈ cs, c < st.next := by
    have h1 := (h.cells.mono h.hi_le)
    exact h1.below h.n_le (by intro a ha; obtain ⟨b, hb, rfl⟩ := List.mem_map.1 ha; exact hg.known b hb)
  have hcell : args.map Arg.cell = cs := by
    rcases ha with rfl | rfl
    · exact (lvArgs_facts cs).2.2.1
    · exact (fwdArgs_cells sig cs hlen.2).1
  have hl : args.length = sig.length := by
    rw [← hlen.2, ← hcell, List.length_map]
  have hk : ∀ a ∈ args, a.cell < st.next := fun a ha => hbel _ (hcell ▸ List.mem_map_of_mem ha)
  have hp : args.Pairwise (fun a b => a.rv = true ∨ b.rv = true → a.cell ≠ b.cell) := by
    rcases ha with rfl | rfl
    · exact (lvArgs_facts cs).2.1
    · exact fwdArgs_once h.cells hg.fits hg.known (Nat.le_refl _) hg.once
  obtain ⟨i1, i2, i3, i4, i5, i6, i7⟩ := bindParams_ok sig args st hl hk hp
  have huser : ∀ y, y < n → (bindParams sig args st).2.val y = st.val y := by
    intro y hy
    rw [i2 y (by have := h.n_le; omega)]
    rcases ha with rfl | rfl
    · rw [taken_lv]
    · exact taken_fwd _ _ h.cells hy rfl
  have hC : CRel (bindParams sig args st).2.next st.next sig (as.map Arg.cell) (bindParams sig args st).1 := by
    have hgen : ∀ {ks : List Pass} {as : List Nat} {cs ds lo lo' hi hi'}, CRel hi lo ks as cs → CRel hi' lo' ks cs ds → CRel hi' lo' ks as ds := by
      intro ks
      induction ks with
      | nil => intro as cs ds lo lo' hi hi' h h'; cases as <;> cases cs <;> cases ds <;> simp [CRel] at *
      | cons k ks ih =>
        intro as cs ds lo lo' hi hi' h h'
        cases as <;> cases cs <;> cases ds <;> simp only [CRel] at h h' ⊢
        by_cases hv : k = .value
        · rw [if_pos hv] at h h' ⊢; exact ⟨h'.1, h'.2.1, ih h.2.2 h'.2.2⟩
        · rw [if_neg hv] at h h' ⊢; exact ⟨h'.1.trans h.1, ih h.2 h'.2⟩
    rw [hcell] at i4
    exact hgen h.cells i4
  refine ⟨⟨hC.lower h.n_le, Nat.le_refl _, by have := h.n_le; omega, h.vlen, ?_, ?_⟩, hC, i3, ?_, i5, i6⟩
  · rw [i1]
    have : args.map (fun a => st.val a.cell) = cs.map st.val := by rw [← hcell, List.map_map]; rfl
    rw [this, h.vals]
    exact seen_congr _ _ _ _ _ (fun a ha => (huser _ (hg.known a ha)).symm)
  · intro y hy; rw [huser y hy]; exact h.mem y hy
  · rintro rfl y hy
    rw [i2 y hy, taken_lv]

/-- A call of a payload. -/
theorem callPayloadArgs_sim {I : ArgFns σ R} {sig as vs n hi cs st mem} (h : Ready sig as vs n hi cs st mem) (hg : GoodArgs sig as n)
    (hm : GoodMethods I sig) (p : Payload) {args : List Arg} (ha : args = lvArgs cs ∨ args = fwdArgs sig cs) (s : σ) :
    (callPayloadArgs I sig p args st s).1 = (callPayload (directly I sig as vs) p (mem, s)).1 ∧
    (callPayloadArgs I sig p args st s).2.2 = (callPayload (directly I sig as vs) p (mem, s)).2.2 ∧
    (∀ y, y < n → (callPayloadArgs I sig p args st s).2.1.val y = (callPayload (directly I sig as vs) p (mem, s)).2.1 y) ∧
    st.next ≤ (callPayloadArgs I sig p args st s).2.1.next ∧
    (args = lvArgs cs → ∀ y, n ≤ y → y < st.next → (callPayloadArgs I sig p args st s).2.1.val y = st.val y) ∧
    (callPayloadArgs I sig p args st s).2.1.copies = st.copies + made false sig args + payloadCopies I sig p.data.payload ∧
    (callPayloadArgs I sig p args st s).2.1.moves = st.moves + made true sig args + payloadMoves I sig p.data.payload := by
  obtain ⟨hb, hC, hnx, hkeep, hc, hmv⟩ := h.bind hg ha
  generalize hst1 : (bindParams sig args st).2 = st1 at *
  generalize hls : (bindParams sig args st).1 = ls at *
  have hseen : seen sig as vs st1.val = seen sig as vs mem := seen_congr _ _ _ _ _ (fun a ha => hb.mem _ (hg.known a ha))
  cases ho : I.own p.data.payload with
  | none =>
    have hcall : callPayloadArgs I sig p args st s = runBody (I.fn p.data.payload (I.dataAt s p.mixinIndex)) sig ls st1 s := by
      simp only [callPayloadArgs, ho, hls, hst1]
    have hd : callPayload (directly I sig as vs) p (mem, s) =
        ((I.fn p.data.payload (I.dataAt s p.mixinIndex) (seen sig as vs mem) s).1,
          (left sig sig as (I.fn p.data.payload (I.dataAt s p.mixinIndex) (seen sig as vs mem) s).2.1 mem,
            (I.fn p.data.payload (I.dataAt s p.mixinIndex) (seen sig as vs mem) s).2.2)) := by
      simp only [callPayload, directly, ho, Option.getD_none, takenBy_self]
    rw [hcall, hd]
    simp only [runBody, hb.vals, hseen]
    obtain ⟨w1, w2, w3, w4, w5⟩ := writeBack_ok h.n_le
      (I.fn p.data.payload (I.dataAt s p.mixinIndex) (seen sig as vs mem) s).2.1 st1 mem (ERel_plain hC) hg.known hb.mem
    refine ⟨trivial, trivial, w1, by rw [w3]; exact hnx, ?_, ?_, ?_⟩
    · intro hlv y h1 h2; rw [w2 y h1 h2]; exact hkeep hlv y h2
    · simp only [w4, hc, payloadCopies, ho, Option.map_none, Option.getD_none, Nat.add_zero]
    · simp only [w5, hmv, payloadMoves, ho, Option.map_none, Option.getD_none, Nat.add_zero]
  | some own =>
    obtain ⟨hol, hof⟩ := hm _ _ ho
    have hlen := hC.len
    have hbel : ∀ c ∈ ls, c < st1.next :=
      hC.below (n := n) hb.n_le (by intro a ha; obtain ⟨b, hb, rfl⟩ := List.mem_map.1 ha; exact hg.known b hb)
    obtain ⟨f1, f2⟩ := fwdArgs_cells sig ls hlen.2
    obtain ⟨i1, i2, i3, i4, i5, i6, i7⟩ := bindParams_ok own (fwdArgs sig ls) st1 (by rw [f2, hol])
      (fun a ha => hbel _ (f1 ▸ List.mem_map_of_mem ha)) (fwdArgs_once hC hg.fits hg.known h.n_le hg.once)
    rw [f1] at i4
    have hvals : (bindParams own (fwdArgs sig ls) st1).1.map (bindParams own (fwdArgs sig ls) st1).2.val = seen sig as vs mem := by
      rw [i1, ← hseen, ← hb.vals]
      have h9 := congrArg (List.map st1.val) f1
      rw [List.map_map] at h9
      exact h9
    have hmem : ∀ y, y < n → (bindParams own (fwdArgs sig ls) st1).2.val y = takenBy sig own as mem y := by
      intro y hy
      rw [i2 y (by have := hb.n_le; omega)]
      exact taken_own hy _ _ hC h.n_le hb.mem hol
    have hkeep2 : ∀ y, n ≤ y → y < st.next → (bindParams own (fwdArgs sig ls) st1).2.val y = st1.val y := by
      intro y h1 h2
      refine i7 y (fun a ha _ => ?_) (by omega)
      rcases fwdArgs_mem hC hg.fits a ha with h3 | ⟨x, h3, h4, -⟩
      · omega
      · have := hg.known x h3; omega
    have hcall : callPayloadArgs I sig p args st s = runBody (I.fn p.data.payload (I.dataAt s p.mixinIndex)) own
        (bindParams own (fwdArgs sig ls) st1).1 (bindParams own (fwdArgs sig ls) st1).2 s := by
      simp only [callPayloadArgs, ho, hls, hst1]
    have hd : callPayload (directly I sig as vs) p (mem, s) =
        ((I.fn p.data.payload (I.dataAt s p.mixinIndex) (seen sig as vs mem) s).1,
          (left sig own as (I.fn p.data.payload (I.dataAt s p.mixinIndex) (seen sig as vs mem) s).2.1 (takenBy sig own as mem),
            (I.fn p.data.payload (I.dataAt s p.mixinIndex) (seen sig as vs mem) s).2.2)) := by
      simp only [callPayload, directly, ho, Option.getD_some]
    rw [hcall, hd]
    simp only [runBody, hvals]
    obtain ⟨w1, w2, w3, w4, w5⟩ := writeBack_ok h.n_le
      (I.fn p.data.payload (I.dataAt s p.mixinIndex) (seen sig as vs mem) s).2.1 (bindParams own (fwdArgs sig ls) st1).2 (takenBy sig own as mem)
      (ERel_own hC i4 hof st.next (Nat.le_refl _) hnx) hg.known hmem
    obtain ⟨m1, m2⟩ := made_own sig own ls hlen.2 hol
    refine ⟨trivial, trivial, w1, by rw [w3]; omega, ?_, ?_, ?_⟩
    · intro hlv y h1 h2; rw [w2 y h1 h2, hkeep2 y h1 h2]; exact hkeep hlv y h2
    · simp only [w4, i5, hc, m1, payloadCopies, ho, Option.map_some, Option.getD_some]
    · simp only [w5, i6, hmv, m2, payloadMoves, ho, Option.map_some, Option.getD_some]

/-- A call of the default implementation. -/
theorem tryDefaultArgs_sim {D : Decls} {I : ArgFns σ R} {sig as vs n hi cs st mem} (h : Ready sig as vs n hi cs st mem) (hg : GoodArgs sig as n)
    (f : Feat) (s : σ) :
    (tryDefaultArgs D I sig f (fwdArgs sig cs) st s).1 = (tryDefault D (directly I sig as vs) f (mem, s)).1 ∧
    (tryDefaultArgs D I sig f (fwdArgs sig cs) st s).2.2 = (tryDefault D (directly I sig as vs) f (mem, s)).2.2 ∧
    (∀ y, y < n → (tryDefaultArgs D I sig f (fwdArgs sig cs) st s).2.1.val y = (tryDefault D (directly I sig as vs) f (mem, s)).2.1 y) := by
  cases hd : (D.feat f).defaultPayload with
  | none =>
    simp only [tryDefaultArgs, tryDefault, hd]
    exact ⟨trivial, trivial, h.mem⟩
  | some p =>
    obtain ⟨hb, hC, hnx, hkeep, hc, hmv⟩ := h.bind hg (.inr rfl)
    have hseen : seen sig as vs (bindParams sig (fwdArgs sig cs) st).2.val = seen sig as vs mem :=
      seen_congr _ _ _ _ _ (fun a ha => hb.mem _ (hg.known a ha))
    simp only [tryDefaultArgs, tryDefault, hd, runBody, hb.vals, hseen, directly]
    obtain ⟨w1, w2, w3, w4, w5⟩ := writeBack_ok h.n_le (I.dflt p (seen sig as vs mem) s).2.1 _ mem (ERel_plain hC) hg.known hb.mem
    exact ⟨trivial, trivial, w1⟩

/-- The start of a message call. -/
theorem ready_start {sig as} {st : Store} (hg : GoodArgs sig as st.next) :
    Ready sig as (as.map (fun a => st.val a.cell)) st.next (bindParams sig as st).2.next (bindParams sig as st).1 (bindParams sig as st).2
      (argsTaken sig as st.val) := by
  obtain ⟨i1, i2, i3, i4, i5, i6, i7⟩ := bindParams_ok sig as st hg.count hg.known hg.once
  refine ⟨i4, Nat.le_refl _, i3, by rw [List.length_map]; exact hg.count, ?_, i2⟩
  rw [i1]
  -- references are not moved from
  have hgen : ∀ (ks : List Pass) (as : List Arg) (m m' : Nat → Val), as.length = ks.length →
      (∀ (i : Nat) k a, ks[i]? = some k → as[i]? = some a → k ≠ .value → m' a.cell = m a.cell) →
      as.map (fun a => m a.cell) = seen ks as (as.map (fun a => m a.cell)) m' := by
    intro ks
    induction ks with
    | nil => intro as m m' h _; cases as <;> simp [seen] at *
    | cons k ks ih =>
      intro as m m' h hk
      cases as with
      | nil => simp at h
      | cons a as =>
        simp only [List.length_cons, Nat.add_right_cancel_iff] at h
        have h1 := ih as m m' h (fun i k' a' e1 e2 => hk (i + 1) k' a' (by simpa using e1) (by simpa using e2))
        have h0 := hk 0 k a (by simp) (by simp)
        cases k <;> simp only [List.map_cons, seen, List.cons.injEq] <;> first | exact ⟨trivial, h1⟩ | exact ⟨(h0 (by decide)).symm, h1⟩
  refine hgen sig as _ _ hg.count (fun i k a e1 e2 hv => ?_)
  have hC := i4
  -- the parameter is the variable itself, and it has the value of the argument
  have hpos : ∀ (ks : List Pass) (as : List Nat) (cs : List Nat) (hi lo i : Nat) (k : Pass) (a : Nat), CRel hi lo ks as cs → ks[i]? = some k →
      as[i]? = some a → k ≠ .value → cs[i]? = some a := by
    intro ks
    induction ks with
    | nil => intro as cs hi lo i k a h e; simp at e
    | cons k' ks ih =>
      intro as cs hi lo i k a h e1 e2 hv
      cases as <;> cases cs <;> simp only [CRel] at h
      rename_i a' as c cs
      cases i with
      | zero =>
        simp at e1 e2 ⊢; subst e1; subst e2
        rw [if_neg hv] at h; exact h.1
      | succ i =>
        simp only [List.getElem?_cons_succ] at e1 e2 ⊢
        split at h
        · exact ih _ _ _ _ i k a h.2.2 e1 e2 hv
        · exact ih _ _ _ _ i k a h.2 e1 e2 hv
  have hci := hpos _ _ _ _ _ i k a.cell hC e1 (by simp [e2]) hv
  have := congrArg (fun l => l[i]?) i1
  simp only [List.getElem?_map, hci, e2, Option.map_some, Option.some.injEq] at this
  exact this

/-- Unicast calls. -/
theorem unicastArgs_sim (D : Decls) (I : ArgFns σ R) (sig : List Pass) (as : List Arg) (st : Store) (hg : GoodArgs sig as st.next)
    (hm : GoodMethods I sig) (t : TypeRec) (f : Feat) (fid : Option Nat) (s : σ) :
    (unicastArgs D I sig t f fid as st s).1 =
      (callUnicast D (directly I sig as (as.map (fun a => st.val a.cell))) t f fid (argsTaken sig as st.val, s)).1 ∧
    (unicastArgs D I sig t f fid as st s).2.2 =
      (callUnicast D (directly I sig as (as.map (fun a => st.val a.cell))) t f fid (argsTaken sig as st.val, s)).2.2 ∧
    (∀ y, y < st.next → (unicastArgs D I sig t f fid as st s).2.1.val y =
      (callUnicast D (directly I sig as (as.map (fun a => st.val a.cell))) t f fid (argsTaken sig as st.val, s)).2.1 y) := by
  have hr := ready_start hg
  unfold unicastArgs callUnicast
  cases t.ftableAt fid with
  | none => exact tryDefaultArgs_sim hr hg f s
  | some e =>
    cases he : e.pls with
    | nil => simp only [he]; exact tryDefaultArgs_sim hr hg f s
    | cons p ps =>
      simp only [he]
      obtain ⟨h1, h2, h3, -⟩ := callPayloadArgs_sim hr hg hm p (.inr rfl) s
      exact ⟨h1, h2, h3⟩

/-- The loop of multicast calls. -/
theorem multicastLoopArgs_sim {I : ArgFns σ R} {sig as vs n hi cs} (hg : GoodArgs sig as n) (hm : GoodMethods I sig) :
    ∀ (ps : List Payload) (st : Store) (mem : Nat → Val) (s : σ), Ready sig as vs n hi cs st mem →
    (multicastLoopArgs I sig cs ps st s).1 = (multicastLoop (directly I sig as vs) ps (mem, s)).1 ∧
    (multicastLoopArgs I sig cs ps st s).2.2 = (multicastLoop (directly I sig as vs) ps (mem, s)).2.2 ∧
    Ready sig as vs n hi cs (multicastLoopArgs I sig cs ps st s).2.1 (multicastLoop (directly I sig as vs) ps (mem, s)).2.1 ∧
    ((multicastLoopArgs I sig cs ps st s).1 = .ok () →
      (multicastLoopArgs I sig cs ps st s).2.1.copies =
        st.copies + ps.length * byValue sig + (ps.map (fun p => payloadCopies I sig p.data.payload)).sum ∧
      (multicastLoopArgs I sig cs ps st s).2.1.moves = st.moves + (ps.map (fun p => payloadMoves I sig p.data.payload)).sum) := by
  intro ps
  induction ps with
  | nil => intro st mem s h; simp [multicastLoopArgs, multicastLoop]; exact h
  | cons p ps ih =>
    intro st mem s h
    obtain ⟨h1, h2, h3, h4, h5, h6, h7⟩ := callPayloadArgs_sim h hg hm p (.inl rfl) s
    have h5 := h5 rfl
    rw [(made_lv sig cs h.cells.len.2).1] at h6
    rw [(made_lv sig cs h.cells.len.2).2] at h7
    have hr : Ready sig as vs n hi cs (callPayloadArgs I sig p (lvArgs cs) st s).2.1 (callPayload (directly I sig as vs) p (mem, s)).2.1 := by
      refine ⟨h.cells, by have := h.hi_le; omega, by have := h.n_le; omega, h.vlen, ?_, h3⟩
      exact seen_keep _ _ h.cells h.vlen h.vals (fun y a b => h5 y a (by have := h.hi_le; omega))
    simp only [multicastLoopArgs, multicastLoop]
    rcases hc : callPayloadArgs I sig p (lvArgs cs) st s with ⟨r, st', s'⟩
    rcases hd : callPayload (directly I sig as vs) p (mem, s) with ⟨r', mem', s''⟩
    rw [hc, hd] at h1 h2 hr
    rw [hc] at h6 h7
    simp only at h1 h2 hr h6 h7
    subst h1; subst h2
    cases r with
    | error e => exact ⟨rfl, rfl, hr, fun h => by simp at h⟩
    | ok r =>
      obtain ⟨i1, i2, i3, i4⟩ := ih st' mem' s' hr
      refine ⟨i1, i2, i3, fun hok => ?_⟩
      obtain ⟨j1, j2⟩ := i4 hok
      simp only [j1, j2, h6, h7, List.length_cons, List.map_cons, List.sum_cons, Nat.succ_mul]
      omega

/-- Multicast calls. -/
theorem multicastArgs_sim (D : Decls) (I : ArgFns σ R) (sig : List Pass) (as : List Arg) (st : Store) (hg : GoodArgs sig as st.next)
    (hm : GoodMethods I sig) (t : TypeRec) (f : Feat) (fid : Option Nat) (s : σ) (hs : lvaluesFit sig = true) :
    ∃ r st' s', multicastArgs D I sig t f fid as st s = some (r, st', s') ∧
    r = (callMulticast D (directly I sig as (as.map (fun a => st.val a.cell))) t f fid (argsTaken sig as st.val, s)).1 ∧
    s' = (callMulticast D (directly I sig as (as.map (fun a => st.val a.cell))) t f fid (argsTaken sig as st.val, s)).2.2 ∧
    (∀ y, y < st.next → st'.val y =
      (callMulticast D (directly I sig as (as.map (fun a => st.val a.cell))) t f fid (argsTaken sig as st.val, s)).2.1 y) ∧
    (∀ e p ps, t.ftableAt fid = some e → e.pls = p :: ps → ∀ x, r = .ok x →
      st'.copies = st.copies + made false sig as + (ps.take e.topBack).length * byValue sig +
        ((p :: ps.take e.topBack).map (fun p => payloadCopies I sig p.data.payload)).sum ∧
      st'.moves = st.moves + made true sig as + byValue sig +
        ((p :: ps.take e.topBack).map (fun p => payloadMoves I sig p.data.payload)).sum) := by
  have hr := ready_start hg
  obtain ⟨-, -, -, -, b5, b6, -⟩ := bindParams_ok sig as st hg.count hg.known hg.once
  unfold multicastArgs callMulticast
  rw [if_pos hs]
  cases ht : t.ftableAt fid with
  | none =>
    obtain ⟨h1, h2, h3⟩ := tryDefaultArgs_sim (D := D) (I := I) hr hg f s
    exact ⟨_, _, _, rfl, h1, h2, h3, fun e p ps h => by simp at h⟩
  | some e =>
    cases he : e.pls with
    | nil =>
      simp only [he]
      obtain ⟨h1, h2, h3⟩ := tryDefaultArgs_sim (D := D) (I := I) hr hg f s
      exact ⟨_, _, _, rfl, h1, h2, h3, fun e' p ps h h' => by simp at h; subst h; rw [he] at h'; simp at h'⟩
    | cons p ps =>
      simp only [he]
      obtain ⟨l1, l2, l3, l4⟩ := multicastLoopArgs_sim hg hm (ps.take e.topBack).reverse _ _ s hr
      rcases hc : multicastLoopArgs I sig (bindParams sig as st).1 (ps.take e.topBack).reverse (bindParams sig as st).2 s with ⟨r, st', s'⟩
      rcases hd : multicastLoop (directly I sig as (as.map (fun a => st.val a.cell))) (ps.take e.topBack).reverse (argsTaken sig as st.val, s)
        with ⟨r', mem', s''⟩
      rw [hc, hd] at l1 l2 l3
      rw [hc] at l4
      simp only at l1 l2 l3 l4
      subst l1; subst l2
      simp only [hc, hd]
      cases r with
      | error err => exact ⟨_, _, _, rfl, rfl, rfl, l3.mem, fun _ _ _ _ _ x hx => by simp at hx⟩
      | ok u =>
        obtain ⟨h1, h2, h3, -, -, h6, h7⟩ := callPayloadArgs_sim l3 hg hm p (.inr rfl) s'
        refine ⟨(callPayloadArgs I sig p (fwdArgs sig (bindParams sig as st).1) st' s').1, (callPayloadArgs I sig p (fwdArgs sig (bindParams sig as st).1) st' s').2.1,
          (callPayloadArgs I sig p (fwdArgs sig (bindParams sig as st).1) st' s').2.2, rfl, h1, h2, h3, fun e' p' ps' h h' x hx => ?_⟩
        simp at h; subst h
        rw [he] at h'; simp at h'
        obtain ⟨rfl, rfl⟩ := h'
        obtain ⟨j1, j2⟩ := l4 rfl
        rw [(made_fwd sig _ hr.cells.len.2).1] at h6
        rw [(made_fwd sig _ hr.cells.len.2).2] at h7
        rw [h6, h7, j1, j2, b5, b6]
        simp only [List.length_reverse, List.map_reverse, List.sum_reverse, List.map_cons, List.sum_cons]
        omega

/-- Numbers of copies and moves of a unicast call. -/
theorem unicastArgs_counts (D : Decls) (I : ArgFns σ R) (sig : List Pass) (as : List Arg) (st : Store) (hg : GoodArgs sig as st.next)
    (hm : GoodMethods I sig) (t : TypeRec) (f : Feat) (fid : Option Nat) (s : σ) (e : FEntry) (p : Payload) (ps : List Payload)
    (he : t.ftableAt fid = some e) (hp : e.pls = p :: ps) :
    (unicastArgs D I sig t f fid as st s).2.1.copies = st.copies + made false sig as + payloadCopies I sig p.data.payload ∧
    (unicastArgs D I sig t f fid as st s).2.1.moves = st.moves + made true sig as + byValue sig + payloadMoves I sig p.data.payload := by
  have hr := ready_start hg
  obtain ⟨-, -, -, -, b5, b6, -⟩ := bindParams_ok sig as st hg.count hg.known hg.once
  simp only [unicastArgs, he, hp]
  obtain ⟨-, -, -, -, -, h6, h7⟩ := callPayloadArgs_sim hr hg hm p (.inr rfl) s
  rw [(made_fwd sig _ hr.cells.len.2).1] at h6
  rw [(made_fwd sig _ hr.cells.len.2).2] at h7
  rw [h6, h7, b5, b6]
  omega

end Dnmx
