import Verif.Model.MixinData

/-!
# Plugins

A plugin is a shared library with static objects that register mixins and type classes in their constructors and
unregister them in their destructors (`DYNAMIX_DEFINE_MIXIN`, `DYNAMIX_DEFINE_TYPE_CLASS`). When the library is loaded,
the constructors are run in the order of definition; when it is unloaded, the destructors are run in the opposite order.
An exception in a constructor ends the program.
-/

namespace Dnmx

/-- Static objects of a library. -/
inductive StaticItem
  /-- `mixin_info_data_instance` (code/dynamix/define_mixin.hpp 17-33) of a mixin with mutation rules -/
  | mixin (m : Mix) (rules : List Rule)
  /-- `registered_type_class_instance` (code/dynamix/define_type_class.hpp 11-20) -/
  | cls (c : Cls)
deriving DecidableEq, Repr

/-- Constructor (define_mixin.hpp 24-26, define_type_class.hpp 14-16). `none`: the program ends. -/
def StaticItem.construct (D : Decls) (W : World) (d : DomId) : StaticItem → Option World
  | .mixin m rules =>
    match registerIn D W d m rules with
    | (.ok (), W') => some W'
    | (.error _, _) => none
  | .cls c =>
    match registerTypeClass D W d c with
    | (.ok (), W') => some W'
    | (.error _, _) => none

/-- Destructor (define_mixin.hpp 27-32, define_type_class.hpp 17-19). A mixin that is not registered any more is left
alone, with its rules. `none`: the program ends. -/
def StaticItem.destroy (D : Decls) (W : World) (d : DomId) : StaticItem → Option World
  | .mixin m rules =>
    match W.mixDom m with
    | none => some W
    | some d' => unregisterFrom D W d' m rules
  | .cls c => some (unregisterTypeClass W d c).2

/-- Constructors, in order. -/
def constructAll (D : Decls) (d : DomId) : World → List StaticItem → Option World
  | W, [] => some W
  | W, i :: is =>
    match i.construct D W d with
    | none => none
    | some W' => constructAll D d W' is

/-- Destructors, in the order of the list. -/
def destroyAll (D : Decls) (d : DomId) : World → List StaticItem → Option World
  | W, [] => some W
  | W, i :: is =>
    match i.destroy D W d with
    | none => none
    | some W' => destroyAll D d W' is

/-- A plugin for domain `d` is loaded. -/
def load (D : Decls) (d : DomId) (W : World) (p : List StaticItem) : Option World := constructAll D d W p

/-- It is unloaded. -/
def unload (D : Decls) (d : DomId) (W : World) (p : List StaticItem) : Option World := destroyAll D d W p.reverse

end Dnmx
