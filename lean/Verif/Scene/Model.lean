import Verif.Uuid.Model

/-!
Model of the scene tree of an MVR file: /repo/src/SceneDataExchange.cpp (writing `WriteXml`, reading
`ReadFromGeneralSceneDescription`) on the level of XML trees as seen through `IXMLFileNode`
(/repo/src/rapidxmlsupport/XMLFileNodeImpl.cpp).

Simplifications (all of this file):
* an object carries its kind, UUID, name, multipatch parent, class and, for fixtures, position and focus
  point; the other members are written to XML nodes with other names and read from these only;
* symbols and their definitions are in `Scene/Symbols.lean`, sibling pointers in `Scene/Links.lean`;
* every `SceneDataGUID` has the type `eNormal` (the public API always passes a UUID);
* `CheckAbort()` (the abort callback of the user) returns false;
* `TXString::operator==` on node names and UUID texts is compared with ASCII case folding.
-/

namespace Verif.Scene

open Verif.Uuid (convertToText convertFromText zero)

abbrev Text := List Char
abbrev Uuid := List Byte

/-- An XML element: name, attributes, text, child elements
(rapidxmlsupport/XMLFileNodeImpl.cpp:51-247, what the functions of `IXMLFileNode` show of it). -/
inductive Xml where
  | elem (name : Text) (attrs : List (Text × Text)) (text : Text) (kids : List Xml)

namespace Xml
/-- XMLFileNodeImpl.cpp:51-59 `GetNodeName`. -/
def name : Xml → Text | elem n _ _ _ => n
/-- XMLFileNodeImpl.cpp:61-69 `GetNodeValue`. -/
def text : Xml → Text | elem _ _ t _ => t
/-- XMLFileNodeImpl.cpp:185-192, 203-210 `GetFirstChildNode`, `GetNextSiblingNode`: the child elements in order. -/
def kids : Xml → List Xml | elem _ _ _ k => k
/-- XMLFileNodeImpl.cpp:87-100 `GetNodeAttributeValue`; `none` = the call fails. -/
def attr? : Xml → Text → Option Text | elem _ a _ _, n => (a.find? (fun p => p.1 == n)).map (·.2)
/-- XMLFileNodeImpl.cpp:151-164, 221-227 `GetChildNode`, `FindChildNode`: the first child with the name. -/
def child? (x : Xml) (n : Text) : Option Xml := x.kids.find? (fun k => k.name == n)
end Xml

/-- GSString.cpp `TXString::operator==` → `CompareNoCase`, ASCII only. -/
def eqText (a b : Text) : Bool := a.map Char.toLower == b.map Char.toLower

/-- SceneDataExchange.h:60-75 the kinds of objects that can be inside of a layer. -/
inductive Kind where
  | fixture | scenery | focusPoint | truss | videoScreen | support | projector | group
deriving DecidableEq, Repr

/-- SceneDataExchange.cpp the functions `GetNodeName` (Prefix/CommonPrefix.h:181-243). -/
def Kind.nodeName : Kind → Text
  | .fixture     => "Fixture".toList
  | .scenery     => "SceneObject".toList
  | .focusPoint  => "FocusPoint".toList
  | .truss       => "Truss".toList
  | .videoScreen => "VideoScreen".toList
  | .support     => "Support".toList
  | .projector   => "Projector".toList
  | .group       => "GroupObject".toList

/-- SceneDataExchange.cpp:4073-4080 the chain of comparisons in `ReadChildObjs`. -/
def kindOf (nodeName : Text) : Option Kind :=
  if eqText nodeName "Fixture".toList then some .fixture
  else if eqText nodeName "SceneObject".toList then some .scenery
  else if eqText nodeName "FocusPoint".toList then some .focusPoint
  else if eqText nodeName "Truss".toList then some .truss
  else if eqText nodeName "VideoScreen".toList then some .videoScreen
  else if eqText nodeName "Support".toList then some .support
  else if eqText nodeName "Projector".toList then some .projector
  else if eqText nodeName "GroupObject".toList then some .group
  else none

/-- A class or a position: an object of the auxiliary data with UUID and name
(SceneDataExchange.cpp:530-620). -/
structure Aux where
  uuid : Uuid
  name : Text
deriving DecidableEq, Repr

/-- What an object points to (SceneDataObjWithMatrix::fClass, SceneDataFixtureObj::fPosition,
fFocusPoint). A focus point is given by its UUID. -/
structure Links where
  cls : Option Aux := none
  position : Option Aux := none
  focus : Option Uuid := none
deriving DecidableEq, Repr

/-- The members `fUnresolvedClass`, `fUnresolvedPosition`, `fUnresolvedFocus` of an object that was read. -/
structure Raw where
  cls : Text := []
  position : Text := []
  focus : Text := []
deriving DecidableEq, Repr

/-- A scene object with the objects inside of it (SceneDataGroupObj, SceneDataExchange.h; all kinds are
derived from it). `α` is `Links` in the memory of the user and `Raw` while a file is read. -/
inductive Obj (α : Type) where
  | mk (kind : Kind) (uuid : Uuid) (name : Text) (multipatch : Option Uuid) (info : α) (kids : List (Obj α))

/-- A layer (SceneDataLayerObj). -/
structure Layer (α : Type) where
  uuid : Uuid
  name : Text
  multipatch : Option Uuid
  info : α
  kids : List (Obj α)

/-- The members `fChildObjs`, `fClasses`, `fPositions` of SceneDataExchange (SceneDataExchange.h:1000-1030). -/
structure Scene where
  layers : List (Layer Links)
  classes : List Aux
  positions : List Aux

/-! ### Writing -/

/-- SceneDataExchange.cpp:262-284 `SceneDataObj::OnPrintToFile`: uuid, name, multipatch. -/
def attrsOf (uuid : Uuid) (name : Text) (multipatch : Option Uuid) : List (Text × Text) :=
  [("uuid".toList, convertToText uuid)] ++
  (if name = [] then [] else [("name".toList, name)]) ++
  (match multipatch with
   | none => []
   | some m => [("multipatch".toList, convertToText m)])

/-- A node that has only a text: `CreateChildNode` followed by `SetNodeValue`
(XMLFileNodeImpl.cpp:142-149, 71-79). -/
def textNode (name : Text) (value : Text) : Xml := .elem name [] value []

/-- SceneDataExchange.cpp:1577-1585 the class in `SceneDataObjWithMatrix::OnPrintToFile`. -/
def classNodes (l : Links) : List Xml :=
  match l.cls with
  | none => []
  | some c => [textNode "Classing".toList (convertToText c.uuid)]

/-- SceneDataExchange.cpp:2137-2159 focus and position in `SceneDataFixtureObj::OnPrintToFile`. -/
def fixtureNodes (k : Kind) (l : Links) : List Xml :=
  if k = .fixture then
    (match l.focus with
     | none => []
     | some f => [textNode "Focus".toList (convertToText f)]) ++
    (match l.position with
     | none => []
     | some p => [textNode "Position".toList (convertToText p.uuid)])
  else []

/-- SceneDataExchange.cpp:2512-2524 the node `ChildList`, created if there are children. -/
def childListNode (hasKids : Bool) (kidNodes : List Xml) : List Xml :=
  if hasKids then [.elem "ChildList".toList [] [] kidNodes] else []

mutual
/-- SceneDataExchange.cpp:2493-2501 `SceneDataGroupObj::PrintToFile` (an empty group is not written) with
249-284 `SceneDataObj::PrintToFile`, 1506-1594 and 2508-2526 `OnPrintToFile`: the nodes added to the
container node. -/
def printObj : Obj Links → List Xml
  | .mk k u n m l kids =>
    if k = .group ∧ kids.isEmpty then []
    else [.elem k.nodeName (attrsOf u n m) []
      (classNodes l ++ childListNode (!kids.isEmpty) (printObjs kids) ++ fixtureNodes k l)]
/-- SceneDataExchange.cpp:2519-2522 the loop over the children. -/
def printObjs : List (Obj Links) → List Xml
  | [] => []
  | o :: os => printObj o ++ printObjs os
end

/-- SceneDataExchange.cpp:2493-2501 for a layer, whose node name is not the one of a group. -/
def printLayer (l : Layer Links) : Xml :=
  .elem "Layer".toList (attrsOf l.uuid l.name l.multipatch) []
    (classNodes l.info ++ childListNode (!l.kids.isEmpty) (printObjs l.kids))

/-- SceneDataExchange.cpp:530-620 with 249-284: the node of a position or class. -/
def printAux (nodeName : Text) (a : Aux) : Xml := .elem nodeName (attrsOf a.uuid a.name none) [] []

/-- SceneDataExchange.cpp:3592-3690 `WriteXml`; simplified: the version attributes, user data, mapping
definitions and symbol definitions are left out. `fClasses` is not written by the code. -/
def writeXml (s : Scene) : Xml :=
  .elem "GeneralSceneDescription".toList [] []
    [ .elem "UserData".toList [] [] [],
      .elem "Scene".toList [] []
        [ .elem "Layers".toList [] [] (s.layers.map printLayer),
          .elem "AUXData".toList [] [] (s.positions.map (printAux "Position".toList)) ] ]

/-! ### Reading -/

/-- SceneDataExchange.cpp:15-22 `SceneDataGUID(const TXString&)`: a text that is refused leaves the
UUID of the default constructor. -/
def guid (t : Text) : Uuid := (convertFromText t zero).value

/-- The members of the exchange that change while the objects are read: the UUIDs of `fSceneObjects` and of
`fFocusPoints`, in order, and `fDuplicatedUuids`. -/
structure St where
  objs : List Uuid := []
  focus : List Uuid := []
  dup : Bool := false
deriving DecidableEq, Repr

/-- SceneDataExchange.cpp:298-303 the name; a missing attribute leaves the text empty. -/
def readName (x : Xml) : Text := (x.attr? "name".toList).getD []

/-- SceneDataExchange.cpp:305-315 with 2948-2961 `GetSceneObjByUUID`: the first object read so far that has
the UUID; of this object the model keeps the UUID. -/
def readMultipatch (st : St) (x : Xml) : Option Uuid :=
  let t := (x.attr? "multipatch".toList).getD []
  if t = [] then none else st.objs.find? (· == guid t)

/-- The text of the first child node with a name, empty if there is none. -/
def childText (x : Xml) (n : Text) : Text :=
  match x.child? n with
  | none => []
  | some c => c.text

/-- SceneDataExchange.cpp:1714-1720 `fUnresolvedClass`, 2304-2310 `fUnresolvedFocus`,
`fUnresolvedPosition` (fixtures). -/
def readRaw (k : Option Kind) (x : Xml) : Raw :=
  { cls := childText x "Classing".toList
    focus := if k = some .fixture then childText x "Focus".toList else []
    position := if k = some .fixture then childText x "Position".toList else [] }

/-- SceneDataExchange.cpp:3338 `fFocusPoints.push_back` in `ReadFocusPoint`. -/
def pushFocus (st : St) (k : Kind) (u : Uuid) : St :=
  if k = .focusPoint then { st with focus := st.focus ++ [u] } else st

/-- SceneDataExchange.cpp:4089-4104: the object is compared with all objects read so far and added, if it
is not a group. -/
def pushObj (st : St) (k : Kind) (u : Uuid) : St :=
  if k = .group then st
  else { st with objs := st.objs ++ [u], dup := st.dup || st.objs.any (· == u) }

mutual
/-- SceneDataExchange.cpp:4058-4105 the body of the loop of `ReadChildObjs` for one node. -/
def readNode (st : St) : Xml → St × List (Obj Raw)
  | .elem n as tx kids =>
    match (Xml.elem n as tx kids).attr? "uuid".toList with
    | none => (st, [])
    | some t =>
      match kindOf n with
      | none => (st, [])
      | some k =>
        let x := Xml.elem n as tx kids
        let r := readChildList (pushFocus st k (guid t)) kids
        (pushObj r.1 k (guid t),
         [.mk k (guid t) (readName x) (readMultipatch st x) (readRaw (some k) x) r.2])
/-- SceneDataExchange.cpp:4049-4055 `GetChildNode(ChildList)`: the first child with this name is read. -/
def readChildList (st : St) : List Xml → St × List (Obj Raw)
  | [] => (st, [])
  | .elem n _ _ kids :: rest =>
    if n = "ChildList".toList then readNodes st kids else readChildList st rest
/-- SceneDataExchange.cpp:4056-4110 the loop of `ReadChildObjs`. -/
def readNodes (st : St) : List Xml → St × List (Obj Raw)
  | [] => (st, [])
  | x :: xs =>
    let r := readNode st x
    let r' := readNodes r.1 xs
    (r'.1, r.2 ++ r'.2)
end

/-- SceneDataExchange.cpp:3024-3050 `ReadLayerObject`, 4029-4043 `ProcessLayer` and the comparison of the
node name in 3908. -/
def readLayer (st : St) (x : Xml) : St × List (Layer Raw) :=
  if eqText x.name "Layer".toList then
    match x.attr? "uuid".toList with
    | none => (st, [])
    | some t =>
      let r := readChildList st x.kids
      (r.1, [{ uuid := guid t, name := readName x, multipatch := readMultipatch st x,
               info := readRaw none x, kids := r.2 }])
  else (st, [])

/-- SceneDataExchange.cpp:3902-3920 the loop over the layers. -/
def readLayers (st : St) : List Xml → St × List (Layer Raw)
  | [] => (st, [])
  | x :: xs =>
    let r := readLayer st x
    let r' := readLayers r.1 xs
    (r'.1, r.2 ++ r'.2)

/-- SceneDataExchange.cpp:3083-3101 `ReadPositionObject`, 3132-3150 `ReadClassObject`. -/
def readAux (x : Xml) : Aux := { uuid := guid ((x.attr? "uuid".toList).getD []), name := readName x }

/-- SceneDataExchange.cpp:3866-3888 the loop over the auxiliary data, for the nodes of one name. -/
def readAuxList (nodeName : Text) (xs : List Xml) : List Aux :=
  (xs.filter (fun x => eqText x.name nodeName)).map readAux

/-- SceneDataExchange.cpp:3928-3964 focus point or position: the first one whose UUID text is equal. -/
def resolveNoCase {β : Type} (uuidOf : β → Uuid) (t : Text) (l : List β) : Option β :=
  if t = [] then none else l.find? (fun a => eqText t (convertToText (uuidOf a)))

/-- SceneDataExchange.cpp:3968-3988 the class, compared with `TXString::Equal`. -/
def resolveClass (t : Text) (l : List Aux) : Option Aux :=
  if t = [] then none else l.find? (fun a => t == convertToText a.uuid)

/-- SceneDataExchange.cpp:3926-3988 both loops for one object: the first one runs over `fFixtures`, the
second one over `fSceneObjects`, in which groups (and layers) are not. -/
def resolve (classes positions : List Aux) (focus : List Uuid) (k : Option Kind) (r : Raw) : Links :=
  { cls := if k = none ∨ k = some .group then none else resolveClass r.cls classes
    position := if k = some .fixture then resolveNoCase Aux.uuid r.position positions else none
    focus := if k = some .fixture then resolveNoCase id r.focus focus else none }

mutual
/-- The objects after the references are resolved. -/
def mapObj {α β : Type} (f : Kind → α → β) : Obj α → Obj β
  | .mk k u n m a kids => .mk k u n m (f k a) (mapObjs f kids)
/-- The same for a list. -/
def mapObjs {α β : Type} (f : Kind → α → β) : List (Obj α) → List (Obj β)
  | [] => []
  | o :: os => mapObj f o :: mapObjs f os
end

/-- A layer after the references are resolved. -/
def mapLayer {α β : Type} (f : Option Kind → α → β) (l : Layer α) : Layer β :=
  { uuid := l.uuid, name := l.name, multipatch := l.multipatch, info := f none l.info
    kids := mapObjs (fun k => f (some k)) l.kids }

/-- What a user sees after reading: the scene and `GetDuplicatedUuids`. -/
structure Read where
  scene : Scene
  dup : Bool

/-- SceneDataExchange.cpp:3792-4027 `ReadFromGeneralSceneDescription`; the auxiliary data are read first. -/
def readXml (root : Xml) : Read :=
  match root.child? "Scene".toList with
  | none => { scene := { layers := [], classes := [], positions := [] }, dup := false }
  | some sc =>
    let aux := ((sc.child? "AUXData".toList).map Xml.kids).getD []
    let classes := readAuxList "Class".toList aux
    let positions := readAuxList "Position".toList aux
    let r := readLayers {} (((sc.child? "Layers".toList).map Xml.kids).getD [])
    { scene :=
        { layers := r.2.map (mapLayer (resolve classes positions r.1.focus))
          classes := classes
          positions := positions }
      dup := r.1.dup }

end Verif.Scene
