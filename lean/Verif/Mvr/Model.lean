import Verif.Scene.Model
import Verif.Real.Model
import Verif.Enum.Props

/-!
# Model: the fields of the objects of an MVR scene, written to and read from the XML tree

`OnPrintToFile` and `OnReadFromNode` of the classes of `/repo/src/SceneDataExchange.cpp`.  Which attributes, texts and children a
class has is data (`Verif.Mvr.Table`); the functions of this file execute it.  A member that is written as a child node with a
text (`<UnitNumber>5</UnitNumber>`) is an object of a small class of its own that has one field.

Simplifications.  `CheckAbort` is never true.  References to other objects (focus, position, class, symbol definition) are the texts
that are written; finding the objects for them, `multipatch` and the pointers between siblings are modelled in `Verif.Scene`.
-/

namespace Verif.Mvr

open Verif.Str Verif.Text Verif.Real Verif.Dmx Verif.Enum

abbrev Text := Scene.Text
abbrev Xml := Scene.Xml

/-- The value of a member.  `undef` is the value of a variable that was never assigned, or the result of undefined behaviour. -/
inductive Val where
  | text (t : Text)
  | uuid (u : Scene.Uuid)
  | int (i : Int)
  | flag (b : Bool)
  | real (x : Dbl)
  | vec (v : V3)
  | color (v : V3)
  | matrix (m : Mat)
  | source (s : SourceType)
  | scale (s : ScaleHandlingType)
  | transmission (t : TransmissionType)
  | command (fn : Text) (percent : Bool) (value : Dbl)
  | undef
  deriving DecidableEq

/-- How a member is written and read. -/
inductive Codec where
  /-- `TXString`, written only if it is not empty. -/
  | optText
  /-- `TXString`. -/
  | text
  /-- `SceneDataGUID`. -/
  | uuid
  /-- `Sint8`, `Sint32`: `ConvertInteger`. -/
  | sint (w : Nat)
  /-- `Uint32`: `ConvertInteger`. -/
  | uint32
  /-- `size_t`: `ConvertInteger`, i.e. `itoa(Sint64)` and `atoi`. -/
  | size
  /-- `size_t` written as `(Sint32)`, SceneDataExchange.cpp:2219. -/
  | sizeAs32
  /-- `size_t` written by `itoa`, read into a `Sint32`, SceneDataExchange.cpp:2172-2173, 2353-2360. -/
  | sizeFrom32
  | flag
  | real
  | vec
  | color
  | matrix
  | source
  | scale
  | transmission
  | command
  deriving DecidableEq, Repr

/-- SceneDataExchange.cpp:1192-1197: the text of a custom command. -/
def writeCommand (fn : Text) (percent : Bool) (value : Dbl) : Text :=
  fn ++ (if percent then "/percent,f ".toList else ",f ".toList) ++ printReal value

/-- `Left` with the result of `Find` (-1, i.e. everything, if not found). -/
def leftFound (s : Text) : Option Nat → Text
  | some p => leftC s p
  | none => s

/-- SceneDataExchange.cpp:1218-1223: the text of the number. -/
def valueText (s : Text) : Text :=
  let s := trimRight (fun c => c == ' ' || c == '\t') s
  match reverseFind s " ".toList with
  | some p => rightC s (s.length - p - 1)
  | none => s

/-- SceneDataExchange.cpp:1205-1224: the three parts of the text of a custom command. -/
def readCommand (F : Fl) (s : Text) : Val :=
  let percentP := find s "/percent".toList
  let fn := leftFound s (match percentP with
    | some p => some p
    | none => find s ",".toList)
  .command fn percentP.isSome (atof F (valueText s))

/-- The text written for a value; `none` if nothing is written. -/
def enc : Codec → Val → Option Text
  | .optText, .text t => if t = [] then none else some t
  | .text, .text t => some t
  | .uuid, .uuid u => some (Uuid.convertToText u)
  | .sint _, .int i => some (writeInteger i)
  | .uint32, .int i => some (writeInteger i)
  | .size, .int i => some (writeInteger (toSint 64 i))
  | .sizeAs32, .int i => some (writeInteger (toSint 32 i))
  | .sizeFrom32, .int i => some (writeInteger (toSint 64 i))
  | .flag, .flag b => some (writeBool b)
  | .real, .real x => some (printReal x)
  | .vec, .vec v => some (writeVector v)
  | .color, .color v => some (writeColor v)
  | .matrix, .matrix m => some (writeMatrixMvr m)
  | .source, .source s => some (writeSourceType s)
  | .scale, .scale s => some (writeScaleHandlingType s)
  | .transmission, .transmission t => some (writeTransmissionType t)
  | .command, .command fn p x => some (writeCommand fn p x)
  | _, _ => none

/-- The result of a converter as a value. -/
def result {α : Type} (f : α → Val) (old : Val) : Option (Conv α) → Val
  | none => .undef
  | some c => if c.ok then f c.val else old

/-- The value read from a text into a member with the value `old`.  An attribute that is missing is an empty text. -/
def dec (F : Fl) : Codec → Val → Text → Val
  | .optText, _, t => .text t
  | .text, _, t => .text t
  | .uuid, _, t => .uuid (Scene.guid t)
  | .sint w, old, t => result .int old (readSigned w t 0)
  | .uint32, old, t => result (fun n : Nat => .int n) old (readUnsigned 32 t 0)
  | .size, old, t => result (fun n : Nat => .int n) old (readUnsigned 64 t 0)
  | .sizeAs32, old, t => result (fun n : Nat => .int n) old (readUnsigned 64 t 0)
  | .sizeFrom32, old, t => result (fun i => .int (toUint 64 i)) old (readSigned 32 t 0)
  | .flag, _, t => .flag (readBool t).2
  | .real, old, t => if t = [] then old else .real (atof F t)
  | .vec, old, t => result .vec old (readVector F t ⟨zero, zero, zero⟩)
  | .color, old, t => result .color old (readColor F white t)
  | .matrix, old, t => result .matrix old (readMatrix F t .identity)
  | .source, _, t => .source (readSourceType.run t .cNDI).val
  | .scale, _, t => .scale (readScaleHandlingType.run t .cScaleKeepRatio).val
  | .transmission, _, t => .transmission (readTransmissionType.run t .cAnycast).val
  | .command, _, t => readCommand F t

/-- Where a field is written. -/
inductive Place where
  | attr (name : String)
  | own
  deriving DecidableEq, Repr

/-- A member with a value: where and how it is written by `OnPrintToFile`, from where and how it is read by `OnReadFromNode`, and what
the constructor leaves in it. -/
structure Field where
  member : String
  place : Place
  codec : Codec
  rplace : Place
  rcodec : Codec
  init : Val
  deriving DecidableEq

/-- How many objects a slot has: an array; a pointer that may be null; a pointer that is dereferenced without a check when
writing; an object that is always there. -/
inductive How where
  | many
  | first
  | needed
  | embedded
  deriving DecidableEq, Repr

/-- A member with child nodes. -/
structure Slot where
  member : String
  /-- The node around the children that writing creates. -/
  wbox : Option String
  /-- The node around the children is created only if there are any. -/
  onlyIfAny : Bool
  /-- The node in which reading looks for them. -/
  rbox : Option String
  how : How
  /-- The classes of the objects in the member. -/
  holds : List String
  /-- The node names that are read into the member, and the class for each. -/
  accepts : List (String × String)
  deriving DecidableEq, Repr

/-- Objects that are not written. -/
inductive Skip where
  | never
  /-- SceneDataExchange.cpp:2493-2501: groups without children. -/
  | noChildren
  /-- SceneDataExchange.cpp:1510-1516: a matrix that is the identity. -/
  | identity
  /-- SceneDataExchange.cpp:2190: the number 0. -/
  | zero
  /-- SceneDataExchange.cpp:2234, 2243: an empty text. -/
  | noText
  deriving DecidableEq, Repr

/-- A class. -/
structure Class where
  name : String
  node : String
  fields : List Field
  slots : List Slot
  skip : Skip
  deriving DecidableEq

/-- An object: its class, the values of its fields, and for each of its slots the objects in it. -/
inductive Obj where
  | mk (cls : String) (vals : List Val) (kids : List (List Obj))

/-- The class of an object. -/
def Obj.cls : Obj → String
  | .mk c _ _ => c

/-- The row of a class. -/
def row (cs : List Class) (cls : String) : Class := (cs.find? (fun c => c.name == cls)).getD ⟨cls, "", [], [], .never⟩

/-- The difference of two coordinates. -/
def signed (x : Dbl) : ℚ := if x.neg then -x.mag else x.mag

/-- VWPoint3D.cpp:88-91, 258-264 `operator==` with `sEpsilon` 1e-7 (exact arithmetic). -/
def pointEq (a b : V3) : Bool :=
  (signed a.x - signed b.x) ^ 2 + (signed a.y - signed b.y) ^ 2 + (signed a.z - signed b.z) ^ 2 < (1 / 10000000) ^ 2

/-- VWPoint3D.cpp:246-249 `Magnitude() == 0` (exact arithmetic). -/
def isOrigin (a : V3) : Bool := signed a.x ^ 2 + signed a.y ^ 2 + signed a.z ^ 2 = 0

/-- SceneDataExchange.cpp:1510-1516. -/
def isIdentity (m : Mat) : Bool :=
  isOrigin m.o && pointEq m.u ⟨one, zero, zero⟩ && pointEq m.v ⟨zero, one, zero⟩ && pointEq m.w ⟨zero, zero, one⟩

/-- Whether an object is left out. -/
def Skip.test : Skip → List Val → List (List Obj) → Bool
  | .never, _, _ => false
  | .noChildren, _, ks => ((ks.getLast?).getD []).isEmpty
  | .identity, vs, _ => match vs with | .matrix m :: _ => isIdentity m | _ => false
  | .zero, vs, _ => match vs with | .int i :: _ => i == 0 | _ => false
  | .noText, vs, _ => match vs with | .text t :: _ => t == [] | _ => false

/-- Whether an object is left out. -/
def skipped (cs : List Class) : Obj → Bool
  | .mk cls vs ks => (row cs cls).skip.test vs ks

/-- The attributes of a node. -/
def attrsOf : List Field → List Val → List (Text × Text)
  | f :: fs, v :: vs =>
    (match f.place, enc f.codec v with
    | .attr a, some t => [(a.toList, t)]
    | _, _ => []) ++ attrsOf fs vs
  | _, _ => []

/-- The text of a node: `SetNodeValue`. -/
def textOf : List Field → List Val → Text
  | f :: fs, v :: vs =>
    match f.place, enc f.codec v with
    | .own, some t => t
    | _, _ => textOf fs vs
  | _, _ => []

/-- The nodes of the children of a member, e.g. SceneDataExchange.cpp:1529-1537, 2164-2177. -/
def Slot.wrap (s : Slot) (es : List Xml) (any : Bool) : List Xml :=
  match s.wbox with
  | none => es
  | some b => if s.onlyIfAny && !any then [] else [.elem b.toList [] [] es]

mutual
/-- SceneDataExchange.cpp:249-260 `PrintToFile` with `OnPrintToFile`. -/
def write (cs : List Class) : Obj → Xml
  | .mk cls vs ks => .elem (row cs cls).node.toList (attrsOf (row cs cls).fields vs) (textOf (row cs cls).fields vs)
      (writeSlots cs (row cs cls).slots ks)

/-- The children of all members. -/
def writeSlots (cs : List Class) (ss : List Slot) : List (List Obj) → List Xml
  | [] => []
  | k :: ks =>
    match ss with
    | [] => []
    | s :: ss => s.wrap (writeList cs k) (!k.isEmpty) ++ writeSlots cs ss ks

/-- The children of one member. -/
def writeList (cs : List Class) : List Obj → List Xml
  | [] => []
  | o :: os => if skipped cs o then writeList cs os else write cs o :: writeList cs os
end

/-- `GetNodeAttributeValue`, `GetNodeValue`: the text for a field. -/
def Place.get (e : Xml) : Place → Text
  | .attr a => (e.attr? a.toList).getD []
  | .own => e.text

/-- The values of an object that was just constructed and then read. -/
def decAll (F : Fl) (fs : List Field) (e : Xml) : List Val := fs.map fun f => dec F f.rcodec f.init (f.rplace.get e)

/-- The nodes among which the children of a member are. -/
def Slot.place (s : Slot) (e : Xml) : List Xml :=
  match s.rbox with
  | none => e.kids
  | some b => ((e.child? b.toList).map (·.kids)).getD []

/-- Whether a node has a name: loops over the children compare by `TXString::operator==` (GSString.cpp:2203, no difference between upper
and lower case), `GetChildNode` compares exactly (rapidxmlsupport/XMLFileNodeImpl.cpp:151-164). -/
def Slot.same (s : Slot) (n : Text) (m : String) : Bool := if s.how = .many then eqNoCase n m.toList else n == m.toList

/-- SceneDataExchange.cpp:4033, 4066, 4119: nodes of `Layers` and `ChildList` that are read only if they have the attribute `uuid`. -/
def Slot.needsUuid (s : Slot) : Bool := s.member == "fChildObjs"

/-- The class of the object for a node, `none` if it is not one of the member. -/
def Slot.created (s : Slot) (e : Xml) : Option String :=
  if s.needsUuid && (e.attr? "uuid".toList).isNone then none else (s.accepts.find? (fun p => s.same e.name p.1)).map (·.2)

/-- The object behind a constructor, with the objects that are always in it down to a depth. -/
def freshTo (cs : List Class) : Nat → String → Obj
  | 0, cls => .mk cls ((row cs cls).fields.map (·.init)) []
  | n + 1, cls => .mk cls ((row cs cls).fields.map (·.init))
      ((row cs cls).slots.map fun s => if s.how = .embedded then s.holds.map (freshTo cs n) else [])

/-- The object behind a constructor (no class contains objects that are always there more than two levels deep). -/
def fresh (cs : List Class) (cls : String) : Obj := freshTo cs 3 cls

/-- The objects of a member after reading. -/
def Slot.read (cs : List Class) (s : Slot) (rd : String → Xml → Obj) (e : Xml) : List Obj :=
  let found := (s.place e).filterMap (fun c => (s.created c).map (fun cls => rd cls c))
  match s.how with
  | .many => found
  | .first => found.take 1
  | .needed => found.take 1
  | .embedded =>
    match found with
    | o :: _ => [o]
    | [] => s.holds.map (fresh cs)

/-- SceneDataExchange.cpp:287-298 `ReadFromNode` with `OnReadFromNode`, down to a depth. -/
def readTo (cs : List Class) (F : Fl) : Nat → String → Xml → Obj
  | 0, cls, _ => fresh cs cls
  | n + 1, cls, e => .mk cls (decAll F (row cs cls).fields e) ((row cs cls).slots.map fun s => s.read cs (readTo cs F n) e)

mutual
/-- The number of levels of an element. -/
def depth : Xml → Nat
  | .elem _ _ _ k => 1 + depths k

/-- The largest one. -/
def depths : List Xml → Nat
  | [] => 0
  | e :: es => max (depth e) (depths es)
end

/-- Reading an object from a node, whatever its depth. -/
def read (cs : List Class) (F : Fl) (cls : String) (e : Xml) : Obj := readTo cs F (depth e) cls e

end Verif.Mvr
