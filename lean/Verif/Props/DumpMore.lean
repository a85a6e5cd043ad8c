import Verif.Props.DumpItems

/-!
# C85: settings of domains and features of mixins
-/

set_option linter.unusedVariables false

namespace Dnmx.Props
open Spec

variable (D : Decls) (N : DomId → Option (List UInt8)) (num : TypeId → Nat)

/-- C85: with `dnmx_domain_dmp_settings` the text gives the settings of the domain. -/
theorem C85_settings (fl : DmpFlags) (W : World) (d : DomId) (doc : List Line) (h : dmpDomain D N num fl W d = some doc) (hf : fl.settings = true) :
    readField "canonicalize_types: " doc = some (.flag (W.doms d).settings.canonicalize) ∧ readField "allow_duplicate_feature_names: " doc = some (.flag (W.doms d).settings.allowDupFeat) ∧
    readField "allow_duplicate_mixin_names: " doc = some (.flag (W.doms d).settings.allowDupMix) := by
  simp only [dmpDomain, Option.bind_eq_bind, Option.bind_eq_some_iff, Option.some.injEq] at h
  obtain ⟨dn, -, mixins, hm, types, ht, classes, hc, queries, hq, rfl⟩ := h
  have h1 : ∀ (t : String) (rest : List Line), readField t ([Tok.lit "domain: '", .name dn, .lit "' (", .addr d, .lit "), ud: ", .opaque "user_data", .lit ", ctx : ", .opaque "context",
      .lit ", alloc: ", .opaque "allocator"] :: [Tok.lit "## Settings"] :: rest) = readField t rest := fun t rest => by simp [readField]
  simp only [dmpSettings, if_pos hf, nind, List.cons_append, h1, readField_item, String.reduceEq, reduceIte, and_self]

example : (dmpDomain dmpDecls dmpNames (fun _ => 0) { settings := true } dmpWorld 0).bind (readField "canonicalize_types: ") = some (.flag (dmpWorld.doms 0).settings.canonicalize) := by decide +kernel

/-- C85: with `dnmx_mixin_dmp_features` the last lines about a mixin give its features in their order, each with payload, bid and priority, after their number. -/
theorem C85_mixin_features (fl : DmpFlags) (W : World) (m : Mix) (ls : List Line) (h : dmpMixin D N fl W m = some ls) (hf : fl.mixinFeats = true) :
    ∃ pre title fs, ls = pre ++ title :: fs ∧ Tok.num (D.mix m).feats.length ∈ title ∧ Tok.lit " features:" ∈ title ∧ fs.length = (D.mix m).feats.length ∧
      ∀ (k : Nat) f, (D.mix m).feats[k]? = some f → ∃ l, fs[k]? = some l ∧ after "  '" l = some (.name (D.featName f.feat)) ∧ after "': " l = some (.addr f.payload) ∧ after " " l = some (.num f.bid) ∧
        after "_bid " l = some (.num f.priority) := by
  unfold dmpMixin at h
  cases hr : dmpMixinReg N W m with
  | none => rw [hr] at h; simp at h
  | some reg =>
    rw [hr] at h
    simp only [Option.bind_eq_bind, Option.bind_some, Option.some.injEq] at h
    subst h
    rw [← List.cons_append]
    simp only [dmpMixinFeatures, if_pos hf]
    refine ⟨_, _, _, rfl, by simp [nind], by simp [nind], by simp, ?_⟩
    intro k f hk
    refine ⟨_, by rw [List.getElem?_map, hk]; rfl, ?_⟩
    simp [after, nind]

example : ((dmpMixin dmpDecls dmpNames { mixinEx := false } dmpWorld 1).map List.length) = some (2 + (dmpDecls.mix 1).feats.length) ∧ (dmpDecls.mix 1).feats.length ≠ 0 := by decide +kernel

end Dnmx.Props
