import Verif.Mvr.Spec
import Verif.Gdtf.FormatSpec

/-!
# Specification: how a scene is written in the file

The nodes, attributes and notations that the MVR standard (DIN SPEC 15801) has for the objects of a scene, and what a text says.  The
relations between a number or UUID and its text are the ones of `Verif.Gdtf.FormatSpec`.
-/

namespace Verif.Mvr.Spec

open Verif.Real
open Verif.Gdtf.Spec (NatText IntText RealText Listed Row Rows GuidText Word)

/-- The notations. -/
inductive Form where
  | text
  | guid
  | int
  | bool
  | float
  /-- Three numbers in brackets. -/
  | vector
  /-- CIE xyY: three numbers. -/
  | color
  /-- Four rows of three numbers; the position is the last row. -/
  | matrix
  /-- One of a number of words. -/
  | oneOf (words : List String)
  /-- Channel function, type and value. -/
  | command
  deriving DecidableEq

/-- The words. -/
def sourceWords : List String := ["NDI", "File", "CITP", "CaptureDevice"]

def scaleWords : List String := ["ScaleKeepRatio", "ScaleIgnoreRatio", "KeepSizeCenter"]

def transmissionWords : List String := ["Unicast", "Multicast", "Broadcast", "Anycast"]

/-- A text in the notation says the value. -/
def Says : Form → Val → Text → Prop
  | .text, .text u, s => s = u
  | .guid, .uuid u, s => GuidText u s
  | .int, .int i, s => IntText i s
  | .bool, .flag b, s => s = (if b then "true" else "false").toList
  | .float, .real x, s => RealText x s
  | .vector, .vec v, s => Row [RealText v.x, RealText v.y, RealText v.z] s
  | .color, .color c, s => Listed [RealText c.x, RealText c.y, RealText c.z] s
  | .matrix, .matrix m, s => Rows [[RealText m.u.x, RealText m.u.y, RealText m.u.z], [RealText m.v.x, RealText m.v.y, RealText m.v.z],
      [RealText m.w.x, RealText m.w.y, RealText m.w.z], [RealText m.o.x, RealText m.o.y, RealText m.o.z]] s
  | .oneOf w, .source v, s => w = sourceWords ∧ Word w v.ctorIdx s
  | .oneOf w, .scale v, s => w = scaleWords ∧ Word w v.ctorIdx s
  | .oneOf w, .transmission v, s => w = transmissionWords ∧ Word w v.ctorIdx s
  | .command, .command fn percent x, s => ∃ t, RealText x t ∧ s = fn ++ (if percent then "/percent" else "").toList ++ ",f ".toList ++ t
  | _, _, _ => False

/-- Where the file has a value. -/
inductive Spot where
  | attr (name : String) (form : Form)
  /-- An attribute that is missing if the text is empty. -/
  | optional (name : String)
  /-- The same, but not in the standard: names of objects that have none there, and to which a program cannot give one. -/
  | extra (name : String)
  /-- Between the tags of the node. -/
  | between (form : Form)
  deriving DecidableEq

/-- The attribute. -/
def Spot.name? : Spot → Option String
  | .attr n _ => some n
  | .optional n => some n
  | .extra n => some n
  | .between _ => none

/-- Objects of a class (or a value with a node of its own) in the file. -/
structure Entry where
  cls : String
  node : String
  /-- For each value of the object. -/
  spots : List Spot
  deriving DecidableEq

/-- A UUID and a name. -/
def uuidName : List Spot := [.attr "uuid" .guid, .optional "name"]

/-- The nodes of the standard. -/
def entries : List Entry :=
  [⟨"fMatrix", "Matrix", [.between .matrix]⟩,
   ⟨"fClass", "Classing", [.between .text]⟩,
   ⟨"fGdtfFile", "GDTFSpec", [.between .text]⟩,
   ⟨"fGdtfDmxMode", "GDTFMode", [.between .text]⟩,
   ⟨"fFocusPoint", "Focus", [.between .text]⟩,
   ⟨"fPosition", "Position", [.between .text]⟩,
   ⟨"fFixtureId", "FixtureID", [.between .text]⟩,
   ⟨"fFixtureIdNumeric", "FixtureIDNumeric", [.between .int]⟩,
   ⟨"fUnitNumber", "UnitNumber", [.between .int]⟩,
   ⟨"fFixtureTypeId", "FixtureTypeId", [.between .int]⟩,
   ⟨"fCustomId", "CustomId", [.between .int]⟩,
   ⟨"fColor", "Color", [.between .color]⟩,
   ⟨"fGobo", "Gobo", [.between .text, .attr "rotation" .float]⟩,
   ⟨"fFunction", "Function", [.between .text]⟩,
   ⟨"fCastShadow", "CastShadow", [.between .bool]⟩,
   ⟨"fDMXInvertPan", "DMXInvertPan", [.between .bool]⟩,
   ⟨"fDMXInvertTilt", "DMXInvertTilt", [.between .bool]⟩,
   ⟨"SceneDataDmxAdress", "Address", [.attr "break" .int, .between .int]⟩,
   ⟨"SceneDataProtocols", "Protocol", [.attr "geometry" .text, .attr "name" .text, .attr "type" .text, .attr "version" .text,
     .attr "transmission" (.oneOf transmissionWords)]⟩,
   ⟨"SceneDataSourceObj", "Source", [.extra "name", .optional "linkedGeometry", .attr "type" (.oneOf sourceWords), .between .text]⟩,
   ⟨"fUx", "ux", [.between .int]⟩,
   ⟨"fUy", "uy", [.between .int]⟩,
   ⟨"fOx", "ox", [.between .int]⟩,
   ⟨"fOy", "oy", [.between .int]⟩,
   ⟨"fRz", "rz", [.between .float]⟩,
   ⟨"SceneDataMappingObj", "Mapping", [.extra "name", .attr "linkedDef" .guid]⟩,
   ⟨"fSizeX", "SizeX", [.between .int]⟩,
   ⟨"fSizeY", "SizeY", [.between .int]⟩,
   ⟨"fScaleHandling", "ScaleHandling", [.between (.oneOf scaleWords)]⟩,
   ⟨"SceneDataMappingDefinitionObj", "MappingDefinition", uuidName⟩,
   ⟨"SceneDataConnectionObj", "Connection", [.extra "name", .attr "own" .text, .attr "other" .text, .attr "toObject" .guid]⟩,
   ⟨"SceneDataCustomCommand", "CustomCommand", [.extra "name", .between .command]⟩,
   ⟨"SceneDataAlignment", "Alignment", [.extra "name", .attr "geometry" .text, .attr "up" .vector, .attr "direction" .vector]⟩,
   ⟨"SceneDataOverwrite", "Overwrite", [.extra "name", .attr "universal" .text, .attr "target" .text]⟩,
   ⟨"SceneDataGeometryObj", "Geometry3D", [.extra "name", .attr "fileName" .text]⟩,
   ⟨"SceneDataSymbolObj", "Symbol", [.attr "uuid" .guid, .extra "name", .optional "symdef"]⟩,
   ⟨"SceneDataSymDefObj", "Symdef", uuidName⟩,
   ⟨"SceneDataPositionObj", "Position", uuidName⟩,
   ⟨"SceneDataGroupObj", "GroupObject", uuidName⟩,
   ⟨"SceneDataLayerObj", "Layer", uuidName⟩,
   ⟨"SceneDataFocusPointObj", "FocusPoint", uuidName⟩,
   ⟨"SceneDataSceneryObj", "SceneObject", uuidName⟩,
   ⟨"SceneDataTrussObj", "Truss", uuidName⟩,
   ⟨"SceneDataSupportObj", "Support", uuidName⟩,
   ⟨"SceneDataFixtureObj", "Fixture", uuidName⟩,
   ⟨"SceneDataVideoScreenObj", "VideoScreen", uuidName⟩,
   ⟨"Projector.fScaleHandling", "ScaleHandling", [.between (.oneOf scaleWords)]⟩,
   ⟨"Projector.Projection", "Projection", []⟩,
   ⟨"SceneDataProjectorObj", "Projector", uuidName⟩,
   ⟨"Provider.Entry", "VWEntry", [.attr "key" .text, .between .text]⟩,
   ⟨"SceneDataProviderObj", "Data", [.attr "provider" .text, .attr "ver" .text]⟩,
   ⟨"Exchange.AUXData", "AUXData", []⟩,
   ⟨"Exchange.Scene", "Scene", []⟩,
   ⟨"SceneDataExchange", "GeneralSceneDescription", []⟩]

/-- The nodes that only collect others. -/
def boxes : List String := ["UserData", "Layers", "ChildList", "Geometries", "CustomCommands", "Alignments", "Overwrites", "Connections",
  "Addresses", "Mappings", "Protocols", "Sources", "Projections"]

/-- What the scene has in a node: a node, the node that collects (if there is one), and the nodes in it.  What is in `Data` is free. -/
def places : List (String × Option String × List String) :=
  let objects := ["Fixture", "SceneObject", "FocusPoint", "Truss", "VideoScreen", "Support", "Projector", "GroupObject"]
  let geometries := ["Geometry3D", "Symbol"]
  let device (node : String) : List (String × Option String × List String) :=
    [(node, none, ["Matrix", "Classing", "GDTFSpec", "GDTFMode"]), (node, some "CustomCommands", ["CustomCommand"]),
     (node, some "Alignments", ["Alignment"]), (node, some "Overwrites", ["Overwrite"]), (node, some "Connections", ["Connection"]),
     (node, some "ChildList", objects)]
  let shaped (node : String) : List (String × Option String × List String) := device node ++ [(node, some "Geometries", geometries)]
  [("GeneralSceneDescription", some "UserData", ["Data"]), ("GeneralSceneDescription", none, ["Scene"]), ("Data", none, ["VWEntry"]),
   ("Scene", some "Layers", ["Layer"]), ("Scene", none, ["AUXData"]),
   ("AUXData", none, ["MappingDefinition", "Position", "Symdef"]),
   ("MappingDefinition", none, ["SizeX", "SizeY", "Source", "ScaleHandling"]),
   ("Symdef", some "ChildList", geometries), ("Geometry3D", none, ["Matrix"]), ("Symbol", none, ["Matrix"]),
   ("Layer", none, ["Matrix"]), ("Layer", some "ChildList", objects),
   ("GroupObject", none, ["Matrix", "Classing"]), ("GroupObject", some "ChildList", objects),
   ("FocusPoint", none, ["Matrix", "Classing"]), ("FocusPoint", some "Geometries", geometries),
   ("Fixture", none, ["Focus", "Position", "FixtureID", "FixtureIDNumeric", "UnitNumber", "FixtureTypeId", "CustomId", "Color", "Gobo",
     "Function", "CastShadow", "DMXInvertPan", "DMXInvertTilt"]),
   ("Fixture", some "Addresses", ["Address"]), ("Fixture", some "Mappings", ["Mapping"]), ("Fixture", some "Protocols", ["Protocol"]),
   ("Mapping", none, ["ux", "uy", "ox", "oy", "rz"]),
   ("VideoScreen", some "Sources", ["Source"]), ("Projector", some "Projections", ["Projection"]),
   ("Projection", none, ["Source", "ScaleHandling"])] ++
  device "Fixture" ++ shaped "SceneObject" ++ shaped "Truss" ++ shaped "Support" ++ shaped "VideoScreen" ++ shaped "Projector"

/-! ### Values -/

/-- The file has a value at its place: `a` are the attributes of the node, `t` the text between its tags. -/
def Present (s : Spot) (v : Val) (a : List (Text × Text)) (t : Text) : Prop :=
  match s, v with
  | .attr n f, v => ∃ u, (n.toList, u) ∈ a ∧ Says f v u
  | .optional n, .text u => if u = [] then n.toList ∉ a.map (·.1) else (n.toList, u) ∈ a
  | .extra n, .text u => if u = [] then n.toList ∉ a.map (·.1) else (n.toList, u) ∈ a
  | .between f, v => Says f v t
  | _, _ => False

/-- All values are at their places, and there is nothing else. -/
structure Values (spots : List Spot) (vs : List Val) (a : List (Text × Text)) (t : Text) : Prop where
  number : vs.length = spots.length
  each : ∀ (i : Nat) (s : Spot) (v : Val), spots[i]? = some s → vs[i]? = some v → Present s v a t
  only : ∀ p ∈ a, ∃ s ∈ spots, ∃ n, s.name? = some n ∧ p.1 = n.toList
  once : (a.map (·.1)).Nodup
  blank : (∀ s ∈ spots, s.name? ≠ none) → t = []

/-! ### Objects -/

/-- The nodes in a node, with those of the nodes that only collect. -/
def inner (k : List Xml) : List Xml := k.flatMap (fun e => if e.name ∈ boxes.map (·.toList) then e.kids else [e])

/-- The values that a reader has to assume if the file has none. -/
def assumed : List (String × List Val) :=
  [("fMatrix", [.matrix .identity]), ("fFixtureIdNumeric", [.int 0]), ("fGobo", [.text [], .real zero]), ("fFunction", [.text []])]

/-- What may be missing in the file: groups without objects, and values that a reader assumes. -/
def Missing : Obj → Prop
  | .mk c vs ks => EmptyGroup (.mk c vs ks) ∨ ∃ d, (c, d) ∈ assumed ∧ CloseAll vs d

mutual
/-- A node is the one for the object: the name and the values are right, and so is everything in it. -/
inductive Shown : Obj → Xml → Prop
  | mk (x : Entry) (vs : List Val) (ks : List (List Obj)) (a : List (Text × Text)) (t : Text) (k : List Xml) (hx : x ∈ entries)
      (hv : Values x.spots vs a t) (hk : ShownList ks.flatten (inner k)) : Shown (.mk x.cls vs ks) (.elem x.node.toList a t k)

/-- The nodes are, one by one in the order of the objects. -/
inductive ShownList : List Obj → List Xml → Prop
  | nil : ShownList [] []
  | node {o e os es} (h : Shown o e) (hs : ShownList os es) : ShownList (o :: os) (e :: es)
  | missing {o os es} (h : Missing o) (hs : ShownList os es) : ShownList (o :: os) es
end

/-! ### Places -/

/-- The node of a class. -/
def nodeOf (cls : String) : String := ((entries.find? (fun x => x.cls == cls)).map (·.node)).getD ""

/-- The standard has a place for every object of the tree in the object around it. -/
inductive Allowed : Obj → Prop
  | mk (c : String) (vs : List Val) (ks : List (List Obj))
      (h : ∀ k ∈ ks, ∀ o ∈ k, ∃ p ∈ places, p.1 = nodeOf c ∧ nodeOf o.cls ∈ p.2.2)
      (hk : ∀ k ∈ ks, ∀ o ∈ k, Allowed o) : Allowed (.mk c vs ks)

mutual
/-- All nodes in the node are at a place of the standard. -/
def Placed : Xml → Prop
  | .elem n _ _ k => PlacedAll n none k

/-- Nodes in a node `n`, or in the node `b` in it that collects them.  Such a node has no attributes and no text. -/
def PlacedAll (n : Text) (b : Option Text) : List Xml → Prop
  | [] => True
  | .elem m a t k :: es =>
    (if b = none ∧ m ∈ boxes.map (·.toList) then a = [] ∧ t = [] ∧ (∃ p ∈ places, p.1.toList = n ∧ p.2.1.map (·.toList) = some m) ∧ PlacedAll n (some m) k
      else (∃ p ∈ places, p.1.toList = n ∧ p.2.1.map (·.toList) = b ∧ m ∈ p.2.2.map (·.toList)) ∧ PlacedAll m none k) ∧ PlacedAll n b es
end

end Verif.Mvr.Spec
