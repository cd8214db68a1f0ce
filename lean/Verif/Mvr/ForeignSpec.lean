import Verif.Mvr.Model

/-!
# Specification: descriptions that differ only in what a reader of MVR 1.6 does not have to look at

Programs of other makers and later versions of the format write nodes and attributes this library does not know, and write the known ones in
any order.
-/

namespace Verif.Mvr.Spec

/-- The nodes of the format that are read. -/
def nodeNames : List String :=
  ["GeneralSceneDescription", "UserData", "Data", "VWEntry", "Scene", "Layers", "Layer", "AUXData", "Class", "Symdef", "Position",
   "MappingDefinition", "ChildList", "GroupObject", "SceneObject", "FocusPoint", "Fixture", "Truss", "Support", "VideoScreen", "Projector",
   "Matrix", "Geometries", "Geometry3D", "Symbol", "CustomCommands", "CustomCommand", "Alignments", "Alignment", "Overwrites", "Overwrite",
   "Classing", "Connections", "Connection", "GDTFSpec", "GDTFMode", "Focus", "Addresses", "Address", "FixtureID", "FixtureIDNumeric",
   "UnitNumber", "FixtureTypeId", "CustomId", "Color", "Gobo", "Function", "CastShadow", "Mappings", "Mapping", "ux", "uy", "ox", "oy", "rz",
   "DMXInvertPan", "DMXInvertTilt", "Protocols", "Protocol", "SizeX", "SizeY", "Source", "ScaleHandling", "Sources", "Projections",
   "Projection"]

/-- The attributes of the format that are read. -/
def attributeNames : List String :=
  ["verMajor", "verMinor", "provider", "providerVersion", "ver", "key", "uuid", "name", "multipatch", "fileName", "symdef", "break",
   "rotation", "geometry", "type", "version", "transmission", "linkedGeometry", "linkedDef", "own", "other", "toObject", "up", "direction",
   "universal", "target"]

/-- The nodes with a list of objects of different kinds, whose order counts. -/
def mixed : List String := ["ChildList", "Geometries"]

/-- A letter in upper case. -/
def upper (c : Char) : Char := if 'a' ≤ c ∧ c ≤ 'z' then Char.ofNat (c.toNat - 32) else c

/-- Two names differ in more than upper and lower case. -/
def Differ (a b : Text) : Prop := a.map upper ≠ b.map upper

instance (a b : Text) : Decidable (Differ a b) := by unfold Differ; infer_instance

/-- The two documents differ, anywhere in them, only in unknown nodes, in unknown attributes, in the order of attributes, and in the order of
nodes with different names (except in lists of objects of different kinds). -/
inductive Alike : Xml → Xml → Prop
  | refl (e : Xml) : Alike e e
  | symm {e f : Xml} : Alike e f → Alike f e
  | trans {e f g : Xml} : Alike e f → Alike f g → Alike e g
  | extraAttribute (n : Text) (a b : List (Text × Text)) (p : Text × Text) (t : Text) (k : List Xml) (h : ∀ m ∈ attributeNames, p.1 ≠ m.toList) :
      Alike (.elem n (a ++ p :: b) t k) (.elem n (a ++ b) t k)
  | attributeOrder (n : Text) (a b : List (Text × Text)) (p q : Text × Text) (t : Text) (k : List Xml) (h : p.1 ≠ q.1) :
      Alike (.elem n (a ++ p :: q :: b) t k) (.elem n (a ++ q :: p :: b) t k)
  | extraNode (n : Text) (a : List (Text × Text)) (t : Text) (k l : List Xml) (x : Xml) (h : ∀ m ∈ nodeNames, Differ x.name m.toList) :
      Alike (.elem n a t (k ++ x :: l)) (.elem n a t (k ++ l))
  | nodeOrder (n : Text) (a : List (Text × Text)) (t : Text) (k l : List Xml) (x y : Xml) (hn : ∀ m ∈ mixed, n ≠ m.toList)
      (h : Differ x.name y.name) : Alike (.elem n a t (k ++ x :: y :: l)) (.elem n a t (k ++ y :: x :: l))
  | inside (n : Text) (a : List (Text × Text)) (t : Text) (k l : List Xml) {x y : Xml} (h : Alike x y) :
      Alike (.elem n a t (k ++ x :: l)) (.elem n a t (k ++ y :: l))

end Verif.Mvr.Spec
