import Verif.Node.Model
import Verif.Str.Model

/-!
# Model: a GDTF description as a tree of objects, written to and read from an XML tree

`OnPrintToFile` and `OnReadFromNode` of every GDTF class write and read the attributes of the node and its child objects.
The attributes are modelled in `Verif.Node`; here are the children.  Which children a class has is data (`Verif.Gdtf.Table`),
the functions of this file execute it.

Simplifications.  `CheckAbort` is never true.  What reading a child does to its siblings (ends of channel functions and
channel sets) and the filling of gaps between channel sets are modelled in `Verif.Chan`; here a channel function has the
channel sets that were written, which the code assigns to it in GDTFManager.cpp:6250.  References between objects are
attributes, resolved after reading (`Verif.Lookup`).
-/

namespace Verif.Gdtf

open Verif.Lookup

/-- The attributes of a node. -/
abbrev Attrs := List (String × Txt)

/-- An XML element without text. -/
inductive Elem where
  | mk (name : String) (attrs : Attrs) (kids : List Elem)

/-- `GetNodeName`. -/
def Elem.name : Elem → String
  | .mk n _ _ => n

/-- The attributes. -/
def Elem.attrs : Elem → Attrs
  | .mk _ a _ => a

/-- `GetFirstChildNode`, `GetNextSiblingNode`. -/
def Elem.kids : Elem → List Elem
  | .mk _ _ k => k

/-- An object: its class, its own values, and for each of the child slots of the class the objects in it. -/
inductive Obj (D : Type) where
  | mk (cls : String) (data : D) (kids : List (List (Obj D)))

variable {D : Type}

/-- The class of an object. -/
def Obj.cls : Obj D → String
  | .mk c _ _ => c

/-- How many objects a slot has: an array; a pointer that may be null; an object that is always there. -/
inductive How where
  | many
  | first
  | embedded
deriving DecidableEq, Repr

/-- A member with child objects. -/
structure Slot where
  member : String
  /-- The node around the children that writing creates by `CreateChildNode`. -/
  wbox : Option String
  /-- The node in which reading looks for them, by `GetChildNode`. -/
  rbox : Option String
  how : How
  /-- The classes of the objects in the member. -/
  holds : List String
  /-- The node names that are read into the member, and the class created for each. -/
  accepts : List (String × String)
deriving DecidableEq, Repr

/-- A class. -/
structure Class where
  name : String
  node : String
  slots : List Slot
deriving DecidableEq, Repr

/-- The classes, and the attributes of each: `enc` is `OnPrintToFile`, `dec` the constructor followed by `OnReadFromNode`, `fresh`
the object behind the constructor. -/
structure Schema (D : Type) where
  classes : List Class
  enc : String → D → Attrs
  dec : String → Attrs → D
  fresh : String → Obj D

/-- The row of a class. -/
def Schema.row (S : Schema D) (cls : String) : Option Class := S.classes.find? (fun c => c.name == cls)

/-- `GetNodeName` of the object. -/
def Schema.node (S : Schema D) (cls : String) : String := ((S.row cls).map (·.node)).getD ""

/-- The child slots. -/
def Schema.slots (S : Schema D) (cls : String) : List Slot := ((S.row cls).map (·.slots)).getD []

/-- The nodes of the children of a member: behind each other, or inside of a node of their own, e.g. GDTFManager.cpp:348-353 and
4886-4894. -/
def Slot.wrap (s : Slot) (es : List Elem) : List Elem :=
  match s.wbox with
  | none => es
  | some b => [.mk b [] es]

mutual
/-- GDTFManager.cpp:29-41 `GdtfObject::WriteToNode` with `OnPrintToFile`. -/
def write (S : Schema D) : Obj D → Elem
  | .mk cls d ks => .mk (S.node cls) (S.enc cls d) (writeSlots S (S.slots cls) ks)

/-- The children of all members. -/
def writeSlots (S : Schema D) (ss : List Slot) : List (List (Obj D)) → List Elem
  | [] => []
  | k :: ks =>
    match ss with
    | [] => []
    | s :: ss => s.wrap (writeList S k) ++ writeSlots S ss ks

/-- The children of one member. -/
def writeList (S : Schema D) : List (Obj D) → List Elem
  | [] => []
  | o :: os => write S o :: writeList S os
end

/-- rapidxmlsupport/XMLFileNodeImpl.cpp:151-164 `GetChildNode`: the first child of that name. -/
def Elem.child (e : Elem) (name : String) : Option Elem := e.kids.find? (fun c => c.name == name)

/-- XmlFileHelper.cpp:2420-2449, 2451-2480 `TraverseNodes`, `TraverseMultiNodes`: the nodes among which the children are. -/
def Slot.place (s : Slot) (e : Elem) : List Elem :=
  match s.rbox with
  | none => e.kids
  | some b => ((e.child b).map (·.kids)).getD []

/-- Whether a node has a name: `TraverseNodes` (XmlFileHelper.cpp:2437) and the comparisons in the functions given to
`TraverseMultiNodes` use `TXString::operator==` (GSString.cpp:2203, no difference between upper and lower case), `GetChildNode` compares
exactly (rapidxmlsupport/XMLFileNodeImpl.cpp:151-164). -/
def Slot.same (s : Slot) (n m : String) : Bool := if s.how = .many then Str.eqNoCase n.toList m.toList else n == m

/-- The class created for a node, `none` if it is not one of the member. -/
def Slot.created (s : Slot) (e : Elem) : Option String := (s.accepts.find? (fun p => s.same e.name p.1)).map (·.2)

/-- The objects of a member after reading; `rd` reads one object of a class. -/
def Slot.read (s : Slot) (fresh : String → Obj D) (rd : String → Elem → Obj D) (e : Elem) : List (Obj D) :=
  let found := (s.place e).filterMap (fun c => (s.created c).map (fun cls => rd cls c))
  match s.how with
  | .many => found
  | .first => found.take 1
  | .embedded =>
    match found with
    | o :: _ => [o]
    | [] => s.holds.map fresh

/-- GDTFManager.cpp:43-54 `GdtfObject::ReadFromNode` with `OnReadFromNode`, down to a depth. -/
def readTo (S : Schema D) : Nat → String → Elem → Obj D
  | 0, cls, _ => S.fresh cls
  | n + 1, cls, e => .mk cls (S.dec cls e.attrs) ((S.slots cls).map fun s => s.read S.fresh (readTo S n) e)

mutual
/-- The number of levels of an element. -/
def Elem.depth : Elem → Nat
  | .mk _ _ k => 1 + depths k

/-- The largest one. -/
def depths : List Elem → Nat
  | [] => 0
  | e :: es => max e.depth (depths es)
end

/-- Reading an object from a node, whatever its depth. -/
def read (S : Schema D) (cls : String) (e : Elem) : Obj D := readTo S e.depth cls e

end Verif.Gdtf
