import Verif.Model.Plugin

/-!
# Specification: plugins
-/

namespace Spec
open Dnmx

/-- The mixins of a plugin. -/
def pluginMixins (p : List StaticItem) : List Mix :=
  p.filterMap (fun | .mixin m _ => some m | .cls _ => none)

/-- The type classes of a plugin. -/
def pluginClasses (p : List StaticItem) : List Cls :=
  p.filterMap (fun | .mixin _ _ => none | .cls c => some c)

/-- The rules of a plugin's mixins. -/
def pluginRules (p : List StaticItem) : List Rule :=
  p.flatMap (fun | .mixin _ rs => rs | .cls _ => [])

/-- A call that does not unregister elements of the plugin from domain `d`, nor register its type classes again. -/
def Op.sparesPlugin (d : DomId) (p : List StaticItem) : Op → Prop
  | .unregMixin d' m => d' = d → m ∉ pluginMixins p
  | .unregClass d' c => d' = d → c ∉ pluginClasses p
  | _ => True

/-- A call that does not add or remove rule `r` in domain `d`. -/
def Op.sparesRule (d : DomId) (r : Rule) : Op → Prop
  | .addRule d' r' => ¬ (d' = d ∧ r' = r)
  | .removeRule d' r' => ¬ (d' = d ∧ r' = r)
  | _ => True

end Spec
