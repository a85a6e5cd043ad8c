import Verif.Props.TypeMemory

/-!
# C79, exactly: types that cannot be built, of any size

`C79_memory_exact` says what happens for types that can be built. For those that cannot (features clash), the 4 GiB are not the limit: what counts is whether
the table of features is within the block, whose size was truncated.
-/

namespace Dnmx.Props
open Spec

/-- The bytes up to the end of the table of features. -/
abbrev ftableEnd (D : Decls) (W : World) (ms : List Mix) : Nat :=
  96 + ftableSize W.featId (featStream D 0 ms) * 24 + (featStream D 0 ms).length * 24

/-- C79: if a type cannot be built because features clash (or a feature has no id), the code in the block ends in the same way exactly if the table of features is within the block, which has the
needed bytes modulo 4 GiB; otherwise something is written outside of the block before. -/
theorem C79_failure_exactly (D : Decls) (W : World) (d : DomId) (tid : TypeId) (ms : List Mix) (x : Err)
    (hc : checkMixins W.mixId W.mixDom d ms = .ok ()) (h : buildType D W d tid ms = .error x) :
    typeBlock D W d ms = if ftableEnd D W ms ≤ needOf D W ms % 2 ^ 32 then .error x else .error .ub := by
  have hft : Dnmx.buildFtable D W.featId ms = .error x := by
    simp only [buildType, hc] at h
    cases hb : Dnmx.buildFtable D W.featId ms with
    | error y => rw [hb] at h; rw [Except.error.inj h]
    | ok ft => rw [hb] at h; cases h
  simp only [typeBlock, bind]
  have hmod := (typeSizes_mod (ftableSize W.featId (featStream D 0 ms)) (featStream D 0 ms).length ms.length (numSparse (ms.filterMap W.mixId)))
  have hneed : needOf D W ms % 2 ^ 32 = (typeSizes (ftableSize W.featId (featStream D 0 ms)) (featStream D 0 ms).length ms.length (numSparse (ms.filterMap W.mixId))).total := hmod.2.symm
  rw [hneed]
  replace hmod := hmod.1
  clear hneed
  have g0 : (typeSizes (ftableSize W.featId (featStream D 0 ms)) (featStream D 0 ms).length ms.length (numSparse (ms.filterMap W.mixId))).ftable =
      (ftableSize W.featId (featStream D 0 ms) * 24 + (featStream D 0 ms).length * 24) % 2 ^ 32 := by
    simp only [typeSizes, u32, sizeofEntry, sizeofPayload]
  generalize typeSizes (ftableSize W.featId (featStream D 0 ms)) (featStream D 0 ms).length ms.length (numSparse (ms.filterMap W.mixId)) = s at *
  by_cases hr : ftableEnd D W ms ≤ s.total
  · rw [if_pos hr]
    have hr' : 96 + ftableSize W.featId (featStream D 0 ms) * 24 + (featStream D 0 ms).length * 24 ≤ s.total := hr
    obtain ⟨b1, e1, -, -, -, o1⟩ := blockConstruct_ok (Block.fresh s.total) d s.total (by simp only [Block.fresh]; omega)
    have z1 : b1.size = s.total := o1.size
    have hsim := buildFtable_sim D W.featId ms b1 96 (by decide) (by omega)
    rw [hft] at hsim
    simp only at hsim
    have g1 : s.ftable = ftableSize W.featId (featStream D 0 ms) * 24 + (featStream D 0 ms).length * 24 := by rw [g0]; exact Nat.mod_eq_of_lt (by omega)
    rw [e1]
    simp only [orUb, Except.bind, sizeofType]
    rw [g1, hsim]
  · rw [if_neg hr]
    have hr' : s.total < 96 + ftableSize W.featId (featStream D 0 ms) * 24 + (featStream D 0 ms).length * 24 := Nat.lt_of_not_le hr
    rcases orUb_cases ((Block.fresh s.total).construct d s.total) with h | ⟨b1, e1, h⟩
    · rw [h]; rfl
    rw [h]
    simp only [Except.bind]
    obtain ⟨s1, o1⟩ := construct_size _ _ _ _ e1
    have s1 : b1.size = s.total := s1
    have hraw : ∀ a, 96 ≤ a → b1.byte a = .raw := fun a ha => by
      rw [o1.same a (by unfold Span; omega)]; rfl
    have h96 : 96 ≤ s.total := by
      simp only [Block.construct, Option.bind_eq_bind, Option.bind_eq_some_iff] at e1
      obtain ⟨c1, _, c2, _, c3, _, c4, _, c5, _, c6, _, c7, _, c8, _, c9, _, c10, _, c11, _, c12, _, k⟩ := e1
      have k1 := (store_size k).1
      have k2 := (store_size k).2
      simp only [atNumObjects] at k2
      omega
    have hne : featStream D 0 ms ≠ [] := by
      intro he
      rw [he] at hr'
      simp only [ftableSize, List.length_nil] at hr'
      omega
    rw [sizeofType, buildFtable_end D W.featId ms b1 96 _ (by decide) hraw (by rw [g0]; exact Nat.mod_le _ _) hne (by rw [s1]; exact hr')]

/-- C79: so a clash is reported in all types that need less than 4 GiB, and in some that need more. -/
theorem C79_failure_small (D : Decls) (W : World) (ms : List Mix) (hn : needOf D W ms < 2 ^ 32) : ftableEnd D W ms ≤ needOf D W ms % 2 ^ 32 := by
  rw [Nat.mod_eq_of_lt hn]
  show 96 + _ + _ ≤ typeNeed _ _ _ _
  unfold typeNeed
  omega

-- a clash
example : typeBlock (featDecls 1) memWorld 0 [1, 3, 2] = .error .featureClash := by
  rw [C79_failure_exactly (featDecls 1) memWorld 0 1 [1, 3, 2] .featureClash (by decide +kernel) (by decide +kernel), if_pos (by decide +kernel)]

end Dnmx.Props
