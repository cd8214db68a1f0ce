import Verif.Check.Model

/-!
# Model: writing the attributes of an object to an XML node and reading them back

The functions `OnPrintToFile`, `OnReadFromNode` and `OnErrorCheck` of the GDTF objects are lists of statements of the same few
forms. They are modelled by data (`Kind`, with one value per class in `Verif.Node.Table`) and the functions of this file that
execute the data. Simplification: the converters are arbitrary functions here; those with properties of their own are modelled in
`Verif.Dmx`, `Verif.Enum`, `Verif.Real`, `Verif.Color`, `Verif.Mtx` and `Verif.Uuid`. A converter that fills several members (for
example `ConvertDmxOffset`) is treated as one on a combined member, whose name is the names joined with `+`.
-/

namespace Verif.Node

open Verif.Lookup

/-- The condition around a statement, in the words of the code: `if (c) { … }` or the `else` branch of it. -/
inductive Guard where
  | always
  | on (c : String)
  | off (c : String)
deriving DecidableEq, Repr

/-- Whether the statement is executed if the conditions have the given values. -/
def Guard.holds (flags : String → Bool) : Guard → Bool
  | .always => true
  | .on c => flags c
  | .off c => !flags c

/-- How a member becomes a text: by a converter of `GdtfConverter`, as it is, as the reference of the object it points to
(`GetNodeReference`), or not at all (the empty text). -/
inductive Codec where
  | val (converter : String)
  | text
  | ref
  | blank
deriving DecidableEq, Repr

/-- One statement `pNode->SetNodeAttributeValue(attr, convert(field))`, or `pNode->GetNodeAttributeValue(attr, text)` followed by
`convert(text, field)`. -/
structure Item where
  attr : String
  field : String
  codec : Codec
  guard : Guard
deriving DecidableEq, Repr

/-- One statement `needed.push_back(attr)` or `optional.push_back(attr)`. -/
structure Entry where
  attr : String
  guard : Guard
deriving DecidableEq, Repr

/-- One class. -/
structure Kind where
  name : String
  writes : List Item
  reads : List Item
  checked : Bool
  needed : List Entry
  optional : List Entry
deriving DecidableEq, Repr

/-- The converters, on values of any type: `dec codec text old` is the member after reading, `none` if the attribute is not
there. -/
structure Conv (V : Type) where
  enc : Codec → V → Txt
  dec : Codec → Option Txt → V → V

variable {V : Type}

/-- The text of a statement. -/
def Conv.text (C : Conv V) (i : Item) (o : String → V) : Txt :=
  if i.codec = .blank then [] else C.enc i.codec (o i.field)

/-- `SetNodeAttributeValue` (IXMLFileNode): replaces the value of an attribute or adds it at the end. -/
def setAttr : List (String × Txt) → String → Txt → List (String × Txt)
  | [], a, t => [(a, t)]
  | e :: rest, a, t => if e.1 = a then (a, t) :: rest else e :: setAttr rest a t

/-- `GetNodeAttributeValue` (IXMLFileNode). -/
def getAttr (node : List (String × Txt)) (a : String) : Option Txt := (node.find? (fun e => e.1 == a)).map (·.2)

/-- `OnPrintToFile`: the attributes of the node. -/
def Kind.write (k : Kind) (C : Conv V) (flags : String → Bool) (o : String → V) : List (String × Txt) :=
  (k.writes.filter (fun i => i.guard.holds flags)).foldl (fun n i => setAttr n i.attr (C.text i o)) []

/-- `OnReadFromNode`: the object after reading. -/
def Kind.read (k : Kind) (C : Conv V) (flags : String → Bool) (o : String → V) (node : List (String × Txt)) : String → V :=
  (k.reads.filter (fun i => i.guard.holds flags)).foldl
    (fun o i f => if f = i.field then C.dec i.codec (getAttr node i.attr) (o f) else o f) o

/-- The names pushed to `needed` or `optional` in `OnErrorCheck`. -/
def names (flags : String → Bool) (l : List Entry) : List Txt :=
  (l.filter (fun e => e.guard.holds flags)).map (fun e => lit e.attr)

/-- `OnErrorCheck`: the errors reported for a node. -/
def Kind.check (k : Kind) (T : Table Unit) (flags : String → Bool) (node : List (String × Txt)) : List Check.NodeError :=
  if k.checked then
    Check.checkNodeAttributes T (node.map (fun e => lit e.1)) (names flags k.needed) (names flags k.optional)
  else []

end Verif.Node
