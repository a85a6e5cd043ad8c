import Verif.Model.Dump

/-!
# Specification: reading debug output

What a reader of the text learns, by the words in it only.
-/

namespace Spec
open Dnmx

/-- The line begins a section. -/
def isTitle : Line → Bool
  | .lit s :: _ => s == "## " || s == "## Settings"
  | _ => false

/-- The line is indented. -/
def isIndented : Line → Bool
  | .lit s :: _ => s == "  "
  | _ => false

/-- The section with the title: the number in the title and the lines up to the next title. -/
def readSection (title : String) : List Line → Option (Int × List Line)
  | [] => none
  | l :: ls =>
    match l with
    | [.lit "## ", .num n, .lit t] => if t = title then some (n, ls.takeWhile (fun x => !isTitle x)) else readSection title ls
    | _ => readSection title ls

/-- The name of the thing that the line is about. -/
def itemName (kind : String) : Line → Option (List UInt8)
  | .lit "dep-" :: .lit k :: .name s :: _ => if k = kind then some s else none
  | .lit k :: .name s :: _ => if k = kind then some s else none
  | _ => none

/-- The number of empty slots that the line is about. -/
def emptySlots : Line → Option Int
  | [.num n, .lit t] => if t = " empty slots" then some n else none
  | _ => none

/-- Slots with the names of what is in them, by counting items and empty slots. -/
def readSlots (kind : String) : Nat → List Line → List (Nat × List UInt8)
  | _, [] => []
  | i, l :: ls =>
    match emptySlots l, itemName kind l with
    | some n, _ => readSlots kind (i + n.toNat) ls
    | none, some s => (i, s) :: readSlots kind (i + 1) ls
    | none, none => readSlots kind i ls

/-- Lines that are not indented with the indented lines after them. -/
def readBlocks : List Line → List (List Line)
  | [] => []
  | l :: ls => if isIndented l then readBlocks ls else (l :: ls.takeWhile isIndented) :: readBlocks ls

/-- The value of a field. -/
def readField (title : String) : List Line → Option Tok
  | [] => none
  | l :: ls =>
    match l with
    | [.lit i, .lit t, x] => if i = "  " ∧ t = title then some x else readField title ls
    | _ => readField title ls

/-- The number before a title within a block. -/
def readCount (title : String) : List Line → Option Int
  | [] => none
  | l :: ls =>
    match l with
    | [.lit i, .num n, .lit t] => if i = "  " ∧ t = title then some n else readCount title ls
    | _ => readCount title ls

/-- The composition of the type that a line is about. -/
def typeComp : Line → Option (List (List UInt8))
  | .lit k :: .comp c :: _ => if k = "type: " then some c else none
  | _ => none

/-- A line about one payload: name of the mixin, payload, bid, priority. -/
def payloadLine : Line → Option (List UInt8 × Nat × Int × Int)
  | [.lit i, .lit j, .name m, .lit _, .addr p, .lit _, .num b, .lit _, .num r, .lit _] => if i = "  " ∧ j = "    '" then some (m, p, b, r) else none
  | _ => none

/-- The payload lines at the beginning. -/
def readPayloads : List Line → List (List UInt8 × Nat × Int × Int)
  | [] => []
  | l :: ls => match payloadLine l with
    | some x => x :: readPayloads ls
    | none => []

/-- A line about a feature in a table: name of the feature, number of top bidders and of all. -/
def implLine : Line → Option (List UInt8 × Int × Int)
  | [.lit i, .lit j, .name s, .lit _, .num a, .lit _, .num b] => if i = "  " ∧ j = "  impl: '" then some (s, a, b) else none
  | _ => none

/-- The features in a table, with their payloads. -/
def readImpls : List Line → List ((List UInt8 × Int × Int) × List (List UInt8 × Nat × Int × Int))
  | [] => []
  | l :: ls => match implLine l with
    | some x => (x, readPayloads ls) :: readImpls ls
    | none => readImpls ls

/-- Matching queries. -/
def queryLine : Line → Option (List (List UInt8))
  | [.lit i, .lit j, .comp c] => if i = "  " ∧ j = "  " then some c else none
  | _ => none

/-- Matching type classes. -/
def classLine : Line → Option (List UInt8)
  | [.lit i, .lit j, .name s] => if i = "  " ∧ j = "  " then some s else none
  | _ => none

/-- A stored query and its type. -/
def storedQueryLine : Line → Option (List (List UInt8) × List (List UInt8))
  | [.lit i, .comp q, .lit j, .comp c] => if i = "tq: " ∧ j = " -> type: " then some (q, c) else none
  | _ => none

/-- A rule with the number of references. -/
def ruleLine : Line → Option (List UInt8 × Int)
  | [.lit i, .name s, .lit _, .num _, .lit _, .opaque _, .lit _, .fn _, .lit _, .num n, .lit j] => if i = "rule: '" ∧ j = " refs" then some (s, n) else none
  | _ => none

end Spec
