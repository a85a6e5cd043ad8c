import Verif.Model.Compare
import Verif.Spec.Heap
import Verif.Spec.Types

/-!
# Specification: comparison
-/

namespace Spec
open Dnmx

/-- Two values of mixin `m` are the same by the functions of the mixin: by `equals` if there is one, otherwise by `compare`. -/
def SameBy (D : Decls) (F : CmpFns) (m : Mix) (v w : Nat) : Prop :=
  if (D.mix m).hasEquals then F.eq m v w = true else (D.mix m).hasCompare = true ∧ F.cmp m v w = 0

/-- What is expected of the functions of mixins: `equals` is symmetric and transitive, `compare` is an order (up to ties), and they agree. -/
structure Lawful (D : Decls) (F : CmpFns) : Prop where
  eqSymm : ∀ m v w, (D.mix m).hasEquals = true → F.eq m v w = true → F.eq m w v = true
  eqTrans : ∀ m u v w, (D.mix m).hasEquals = true → F.eq m u v = true → F.eq m v w = true → F.eq m u w = true
  cmpAnti : ∀ m v w, (D.mix m).hasCompare = true → (F.cmp m v w < 0 ↔ 0 < F.cmp m w v)
  cmpTrans : ∀ m u v w, (D.mix m).hasCompare = true → F.cmp m u v ≤ 0 → F.cmp m v w ≤ 0 → F.cmp m u w ≤ 0
  agree : ∀ m v w, (D.mix m).hasEquals = true → (D.mix m).hasCompare = true → (F.eq m v w = true ↔ F.cmp m v w = 0)

/-- Objects are equal: the same object, or two of the same type with the same values. -/
def ObjectsEqual (D : Decls) (E : TyEnv) (F : CmpFns) (h : Heap) (o o' : Nat) : Prop :=
  o = o' ∨ (h.obj? o).bind (·.ty) = (h.obj? o').bind (·.ty) ∧
    ∀ m l v l' w, Holds E h o m l v → Holds E h o' m l' w → SameBy D F m v w

/-- The first `k` mixins of objects `o` and `o'` of type `t` have `compare` functions by which they are the same. -/
def TieUpto (D : Decls) (E : TyEnv) (F : CmpFns) (h : Heap) (o o' : Nat) (t : TypeId) (k : Nat) : Prop :=
  ∀ (j : Nat) (m : Mix), j < k → (E.mixins t)[j]? = some m → (D.mix m).hasCompare = true ∧ ∀ l v l' w, Holds E h o m l v → Holds E h o' m l' w → F.cmp m v w = 0

/-- The order of lists by their first difference; a list comes before those that it begins. -/
def ListLess (lt : Mix → Mix → Bool) (as bs : List Mix) : Prop :=
  (∃ b bs', bs = as ++ b :: bs') ∨ ∃ p a b as' bs', as = p ++ a :: as' ∧ bs = p ++ b :: bs' ∧ a ≠ b ∧ lt a b = true

/-- The results that comparing object `o` (which is `ob`) with `o'` (which is `ob'`) can have. -/
inductive Comparison (D : Decls) (F : CmpFns) (d : DomId) (S : Sys) (o o' : Nat) (ob ob' : Obj) : Except XErr Int → Prop
  /-- An object is equal to itself. -/
  | same : o = o' → Comparison D F d S o o' ob ob' (.ok 0)
  /-- Objects of different types are ordered by the mixins of their types. -/
  | types (t t' : TypeId) (ms ms' : List Mix) (c : Int) : o ≠ o' → ob.ty = some t → ob'.ty = some t' → t ≠ t' → compositionOf S.W d t = some ms → compositionOf S.W d t' = some ms' →
      (c = -1 ∧ ListLess (canonicalOrder D S.W.mixId) ms ms' ∨ c = 1 ∧ ¬ ListLess (canonicalOrder D S.W.mixId) ms ms') → Comparison D F d S o o' ob ob' (.ok c)
  /-- Objects of the same type: the first mixin that differs decides. -/
  | differ (t : TypeId) (k : Nat) (m : Mix) (l l' : Loc) (v w : Nat) : o ≠ o' → ob.ty = some t → ob'.ty = some t → ((TyEnv.ofWorld S.W d).mixins t)[k]? = some m → (D.mix m).hasCompare = true →
      Holds (TyEnv.ofWorld S.W d) S.h o m l v → Holds (TyEnv.ofWorld S.W d) S.h o' m l' w → F.cmp m v w ≠ 0 → TieUpto D (TyEnv.ofWorld S.W d) F S.h o o' t k → Comparison D F d S o o' ob ob' (.ok (F.cmp m v w))
  /-- No mixin differs. -/
  | tie (t : TypeId) : o ≠ o' → ob.ty = some t → ob'.ty = some t → TieUpto D (TyEnv.ofWorld S.W d) F S.h o o' t ((TyEnv.ofWorld S.W d).mixins t).length → Comparison D F d S o o' ob ob' (.ok 0)
  /-- A mixin without `compare`, and none differs before it. -/
  | missing (t : TypeId) (k : Nat) (m : Mix) : o ≠ o' → ob.ty = some t → ob'.ty = some t → ((TyEnv.ofWorld S.W d).mixins t)[k]? = some m → (D.mix m).hasCompare = false →
      TieUpto D (TyEnv.ofWorld S.W d) F S.h o o' t k → Comparison D F d S o o' ob ob' (.error (.missingFunc m))

/-- Mixin `m` is asked for by id, by its info or by name. -/
def Asked (D : Decls) (W : World) (m : Mix) : MixKey → Prop
  | .id i => i ≠ none ∧ W.mixId m = i
  | .info m' => m' = m
  | .name n => D.mixName m = n

/-- The mixins of a domain's types have names that are proper views, no two with the same begin and different ends (see `C23_sv_eq_refuted`). -/
structure NamesProper (D : Decls) (W : World) (d : DomId) : Prop where
  valid : ∀ r ∈ typesOf W d, ∀ m ∈ r.mixins, (D.mix m).name.Valid
  noAlias : ∀ r ∈ typesOf W d, ∀ m ∈ r.mixins, ∀ r' ∈ typesOf W d, ∀ m' ∈ r'.mixins, (D.mix m).name.first = (D.mix m').name.first → (D.mix m).name.len = (D.mix m').name.len

end Spec
