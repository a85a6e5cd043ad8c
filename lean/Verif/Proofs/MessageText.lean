import Verif.Proofs.MessageTrue
import Verif.Proofs.RegisteredLemmas

/-! # Texts of exceptions as characters -/

set_option linter.unusedSimpArgs false
set_option linter.unusedVariables false

namespace Dnmx
open Spec

variable {D : Decls} {X : RuleFails} {W : World} {N : DomId → Option (List UInt8)}

theorem textChars_defined : ∀ ps : List Piece, textChars D N ps ≠ none ↔ ∀ p ∈ ps, p.chars D N ≠ none
  | [] => by simp [textChars]
  | p :: ps => by
    have ih := textChars_defined ps
    unfold textChars
    simp only [List.mem_cons, forall_eq_or_imp]
    rw [← ih]
    cases p.chars D N <;> cases textChars D N ps <;> simp

theorem chars_defined (p : Piece) : p.chars D N ≠ none ↔ (∀ d, p = .dom d → N d ≠ none) ∧ (∀ ms i, p = .mixAt ms i → i < ms.length) := by
  cases p <;> simp [Piece.chars]

theorem textChars_iff (ps : List Piece) : textChars D N ps ≠ none ↔ (∀ d ∈ namedDomains ps, N d ≠ none) ∧ PlacesOk ps := by
  rw [textChars_defined]
  constructor
  · intro h
    refine ⟨?_, ?_⟩
    · intro d hd
      unfold namedDomains at hd
      obtain ⟨p, hp, he⟩ := List.mem_filterMap.1 hd
      have h1 := (chars_defined p).1 (h p hp)
      cases p <;> simp at he
      subst he
      exact h1.1 _ rfl
    · intro ms i hp
      exact ((chars_defined _).1 (h _ hp)).2 ms i rfl
  · rintro ⟨h1, h2⟩ p hp
    rw [chars_defined]
    refine ⟨?_, ?_⟩
    · rintro d rfl
      exact h1 d (List.mem_filterMap.2 ⟨_, hp, rfl⟩)
    · rintro ms i rfl
      exact h2 ms i hp

theorem saysFeature_places {d : DomId} {f : Feat} {t : Thrown} (h : SaysFeature D W d f t) : PlacesOk t.text := by
  intro ms i hp; cases h <;> simp [from_] at hp

theorem provided_lt {ms : List Mix} {k : Nat} {a : Nat × FeatFor} (h : (provided D ms)[k]? = some a) : a.1 < ms.length := by
  have hm := List.mem_of_getElem? h
  unfold provided at hm
  obtain ⟨x, hx, hb⟩ := List.mem_flatMap.1 hm
  rcases x with ⟨m, i⟩
  have h1 := List.mem_zipIdx' hx
  obtain ⟨ff, -, e⟩ := List.mem_map.1 hb
  rw [← e]; exact h1.1

theorem saysType_places {d : DomId} {q : List Mix} {t : Thrown} (hX : ∀ r ms, PlacesOk (X.own r ms)) (h : SaysType D X W d q t) : PlacesOk t.text := by
  intro ms i hp
  cases h with
  | clash n ms' k l a b g h1 h2 h3 h4 h5 =>
    simp [from_] at hp
    rcases hp with ⟨rfl, rfl⟩ | ⟨rfl, rfl⟩
    · exact provided_lt h4
    · exact provided_lt h5
  | ruleThrows n ms₀ ms' pre post r f e => exact hX r ms' ms i hp
  | _ => simp [from_] at hp

theorem says_places {op : Op} {t : Thrown} (hX : ∀ r ms, PlacesOk (X.own r ms)) (h : Says D X W op t) : PlacesOk t.text := by
  cases h with
  | regFeature d f _ h => exact saysFeature_places h
  | regMixin d m _ h =>
    cases h with
    | feature pre post ff _ h1 h2 h3 => exact saysFeature_places h3
    | _ => intro ms i hp; simp [from_] at hp
  | foreign d _ _ h => intro ms i hp; cases h <;> simp [from_] at hp
  | other d _ _ h => intro ms i hp; cases h <;> simp [from_] at hp
  | foreignMutation d md q h => intro ms i hp; simp [from_] at hp
  | getTypeMut d q _ h => exact saysType_places hX h
  | getType d q _ h => exact saysType_places hX h

/-- The domains named are those of the call or domains which mixins belong to. -/
theorem says_named {op : Op} {t : Thrown} (hX : ∀ r ms, namedDomains (X.own r ms) = []) (h : Says D X W op t) :
    ∀ x ∈ namedDomains t.text, x ∈ domainsOf op ∨ ∃ m, W.mixDom m = some x := by
  intro x hx
  cases h with
  | regFeature d f _ h => cases h <;> simp [namedDomains, from_, domainsOf] at hx ⊢ <;> exact .inl hx
  | regMixin d m _ h =>
    cases h with
    | hasDomain y h1 h2 =>
      simp [namedDomains, from_, domainsOf] at hx ⊢
      rcases hx with rfl | rfl
      · exact .inl rfl
      · exact .inr ⟨m, h1⟩
    | feature pre post ff _ h1 h2 h3 => cases h3 <;> simp [namedDomains, from_, domainsOf] at hx ⊢ <;> exact .inl hx
    | _ => simp [namedDomains, from_, domainsOf] at hx ⊢; exact .inl hx
  | foreign d _ _ h =>
    cases h with
    | elsewhere m y h1 h2 =>
      simp [namedDomains, from_, domainsOf] at hx ⊢
      rcases hx with rfl | rfl
      · exact .inl rfl
      · exact .inr ⟨m, h1⟩
    | _ => simp [namedDomains, from_, domainsOf] at hx ⊢; exact .inl hx
  | other d _ _ h => cases h <;> simp [namedDomains, from_, domainsOf] at hx ⊢ <;> exact .inl hx
  | foreignMutation d md q h =>
    simp [namedDomains, from_, domainsOf] at hx ⊢
    exact .inl hx
  | getTypeMut d q _ h =>
    cases h with
    | foreignMixin n ms m y h1 h2 h3 h4 =>
      simp [namedDomains, from_, domainsOf] at hx ⊢
      rcases hx with rfl | rfl
      · exact .inl rfl
      · exact .inr ⟨m, h3⟩
    | ruleThrows n ms₀ ms' pre post r f e => rw [hX] at hx; simp at hx
    | _ => simp [namedDomains, from_, domainsOf] at hx ⊢; exact .inl hx
  | getType d q _ h =>
    cases h with
    | foreignMixin n ms m y h1 h2 h3 h4 =>
      simp [namedDomains, from_, domainsOf] at hx ⊢
      rcases hx with rfl | rfl
      · exact .inl rfl
      · exact .inr ⟨m, h3⟩
    | ruleThrows n ms₀ ms' pre post r f e => rw [hX] at hx; simp at hx
    | _ => simp [namedDomains, from_, domainsOf] at hx ⊢; exact .inl hx

/-! ## What is provided -/

theorem provided_at {ms : List Mix} {k i : Nat} {a : FeatFor} (h : (provided D ms)[k]? = some (i, a)) : ∃ m, ms[i]? = some m ∧ a ∈ (D.mix m).feats := by
  have hm := List.mem_of_getElem? h
  unfold provided at hm
  obtain ⟨x, hx, hb⟩ := List.mem_flatMap.1 hm
  rcases x with ⟨m, j⟩
  obtain ⟨ff, hf, e⟩ := List.mem_map.1 hb
  simp at e
  obtain ⟨rfl, rfl⟩ := e
  have := List.mem_zipIdx' hx
  exact ⟨m, by rw [List.getElem?_eq_getElem this.1]; exact congrArg some this.2.symm, hf⟩

theorem allImpls_provided (f : Feat) (ms : List Mix) : allImpls D ms f = (provided D ms).filter (fun x => decide (x.2.feat = f)) := by
  unfold allImpls provided
  rw [List.filter_flatMap]
  congr 1
  funext x
  rcases x with ⟨m, i⟩
  simp only [List.filter_map]
  rfl

theorem provided_pair {ms : List Mix} {f : Feat} {k l : Nat} {a b : Nat × FeatFor} (hkl : k ≠ l) (ha : (provided D ms)[k]? = some a) (hb : (provided D ms)[l]? = some b)
    (fa : a.2.feat = f) (fb : b.2.feat = f) : ∃ k' l' : Nat, k' ≠ l' ∧ (allImpls D ms f)[k']? = some a ∧ (allImpls D ms f)[l']? = some b := by
  rw [allImpls_provided]
  have key : ∀ (L : List (Nat × FeatFor)) (k l : Nat) (a b : Nat × FeatFor), k < l → L[k]? = some a → L[l]? = some b → List.Sublist [a, b] L := by
    intro L
    induction L with
    | nil => intro k l a b h1 h2; simp at h2
    | cons x xs ih =>
      intro k l a b h1 h2 h3
      cases l with
      | zero => omega
      | succ l =>
        cases k with
        | zero =>
          simp at h2 h3
          subst h2
          exact .cons_cons _ (by simpa using List.mem_of_getElem? h3)
        | succ k => exact .cons _ (ih k l a b (by omega) (by simpa using h2) (by simpa using h3))
  rcases Nat.lt_or_gt_of_ne hkl with h | h
  · have := (key _ _ _ _ _ h ha hb).filter (fun x => decide (x.2.feat = f))
    simp only [List.filter_cons, fa, fb, decide_true, if_true, List.filter_nil] at this
    obtain ⟨k', l', h1, h2, h3⟩ := pair_sublist this
    exact ⟨k', l', by omega, h2, h3⟩
  · have := (key _ _ _ _ _ h hb ha).filter (fun x => decide (x.2.feat = f))
    simp only [List.filter_cons, fa, fb, decide_true, if_true, List.filter_nil] at this
    obtain ⟨k', l', h1, h2, h3⟩ := pair_sublist this
    exact ⟨l', k', by omega, h3, h2⟩

/-! ## Names -/

theorem getByName_absent (nameOf : Nat → List UInt8) (name : List UInt8) : ∀ l : List (Option Nat), getByName nameOf name l = none ↔ ∀ x ∈ l.filterMap id, nameOf x ≠ name
  | [] => by simp [getByName]
  | none :: xs => by simpa [getByName] using getByName_absent nameOf name xs
  | some x :: xs => by
    have ih := getByName_absent nameOf name xs
    unfold getByName
    by_cases h : nameOf x = name
    · simp [h]
    · rw [if_neg h, ih]; simp [h]

theorem tmFindName_absent (D : Decls) (name : List UInt8) : ∀ l : List Mix, tmFindName D name l = none ↔ ∀ x ∈ l, D.mixName x ≠ name
  | [] => by simp [tmFindName]
  | x :: xs => by
    have ih := tmFindName_absent D name xs
    unfold tmFindName
    by_cases h : D.mixName x = name
    · simp [h]
    · rw [if_neg h, ih]; simp [h]

/-- Quoted names without quotes can be read back. -/
theorem quoted_split {n n' r r' : List UInt8} (h : (39 : UInt8) ∉ n) (h' : (39 : UInt8) ∉ n') (he : quoted n ++ r = quoted n' ++ r') : n = n' ∧ r = r' := by
  have go : ∀ {n n' : List UInt8}, (39 : UInt8) ∉ n → (39 : UInt8) ∉ n' → n ++ 39 :: r = n' ++ 39 :: r' → n = n' ∧ r = r' := by
    intro n
    induction n with
    | nil =>
      intro n' _ h' he
      cases n' with
      | nil => simp at he; exact ⟨rfl, he⟩
      | cons x xs =>
        simp only [List.nil_append, List.cons_append, List.cons.injEq] at he
        exact absurd (by rw [he.1]; exact List.mem_cons_self) h'
    | cons y ys ih =>
      intro n' h h' he
      cases n' with
      | nil =>
        simp only [List.nil_append, List.cons_append, List.cons.injEq] at he
        exact absurd (by rw [← he.1]; exact List.mem_cons_self) h
      | cons x xs =>
        simp only [List.cons_append, List.cons.injEq] at he
        obtain ⟨h1, h2⟩ := ih (fun hh => h (List.mem_cons_of_mem _ hh)) (fun hh => h' (List.mem_cons_of_mem _ hh)) he.2
        exact ⟨by rw [he.1, h1], h2⟩
  have q : ∀ (k : List UInt8) (t : List UInt8), quoted k ++ t = 39 :: (k ++ 39 :: t) := by
    intro k t; simp [quoted, ascii]
  rw [q, q] at he
  simp only [List.cons.injEq, true_and] at he
  exact go h h' he

theorem mixinsTail_read (D : Decls) : ∀ (ms ms' : List Mix), (∀ m, m ∈ ms ++ ms' → (39 : UInt8) ∉ D.mixName m) → mixinsTail D ms = mixinsTail D ms' → ms.map D.mixName = ms'.map D.mixName
  | [], [], _, _ => rfl
  | [], m :: ms, _, he => by
    have : ascii "}" = [125] := by decide +kernel
    have h2 : ascii ", " = [44, 32] := by decide +kernel
    simp [mixinsTail, this, h2] at he
  | m :: ms, [], _, he => by
    have : ascii "}" = [125] := by decide +kernel
    have h2 : ascii ", " = [44, 32] := by decide +kernel
    simp [mixinsTail, this, h2] at he
  | m :: ms, m' :: ms', hq, he => by
    simp only [mixinsTail, List.append_assoc, List.append_cancel_left_eq] at he
    obtain ⟨h1, h2⟩ := quoted_split (hq m (by simp)) (hq m' (by simp)) he
    simp only [List.map_cons, h1]
    rw [mixinsTail_read D ms ms' (fun x hx => hq x (by simp only [List.mem_append, List.mem_cons] at hx ⊢; rcases hx with h | h; exact .inl (.inr h); exact .inr (.inr h))) h2]

theorem outputMixins_read (D : Decls) (ms ms' : List Mix) (hq : ∀ m, m ∈ ms ++ ms' → (39 : UInt8) ∉ D.mixName m) (he : outputMixins D ms = outputMixins D ms') :
    ms.map D.mixName = ms'.map D.mixName := by
  have h1 : ascii "{}" = [123, 125] := by decide +kernel
  have h2 : ascii "{" = [123] := by decide +kernel
  have q : ∀ (k : List UInt8) (t : List UInt8), quoted k ++ t = 39 :: (k ++ 39 :: t) := by
    intro k t; simp [quoted, ascii]
  cases ms with
  | nil =>
    cases ms' with
    | nil => rfl
    | cons m' ms' => simp only [outputMixins, List.append_assoc, h1, h2, q] at he; simp at he
  | cons m ms =>
    cases ms' with
    | nil => simp only [outputMixins, List.append_assoc, h1, h2, q] at he; simp at he
    | cons m' ms' =>
      simp only [outputMixins, List.append_assoc, List.append_cancel_left_eq] at he
      obtain ⟨h3, h4⟩ := quoted_split (hq m (by simp)) (hq m' (by simp)) he
      simp only [List.map_cons, h3]
      rw [mixinsTail_read D ms ms' (fun x hx => hq x (by simp only [List.mem_append, List.mem_cons] at hx ⊢; rcases hx with h | h; exact .inl (.inr h); exact .inr (.inr h))) h4]

theorem mixinsTail_exact (D : Decls) (ms : List Mix) : mixinsTail D ms = (ms.flatMap (fun m => ascii ", " ++ quoted (D.mixName m))) ++ ascii "}" := by
  induction ms with
  | nil => rfl
  | cons m ms ih => simp [mixinsTail, ih, List.flatMap_cons]

end Dnmx
