import Verif.Gdtf.ValueSpec

/-!
# Specification: how the values of a description are written in the file

The notation that the GDTF standard (DIN SPEC 15800) gives each type of attribute, and what a text of the notation says.
-/

namespace Verif.Gdtf.Spec

open Verif.Lookup (Txt)
open Verif.Real Verif.Text

/-- The notations. -/
inductive Form where
  /-- Any text. -/
  | text
  /-- The name of another node, with the names of the nodes around it. -/
  | ref
  | float
  | int
  /-- Four rows of four numbers. -/
  | matrix
  /-- Three rows of three numbers. -/
  | rotation
  /-- CIE xyY: three numbers. -/
  | color
  /-- Rows of three numbers. -/
  | colors
  | vec2
  | vec3
  /-- A value and the number of bytes, or "None". -/
  | dmx
  | hex
  | guid
  /-- The addresses of the bytes of a channel. -/
  | offset
  /-- A number, or "Overwrite". -/
  | brk
  | date
  | address
  | bool
  /-- One of a number of words. -/
  | oneOf (words : List String)
  deriving DecidableEq

/-! ### The words -/

def primitives : List String := ["Undefined", "Cube", "Cylinder", "Sphere", "Base", "Yoke", "Head", "Scanner", "Conventional", "Pigtail",
  "Base1_1", "Scanner1_1", "Conventional1_1"]

def units : List String := ["None", "Percent", "Length", "Mass", "Time", "Temperature", "LuminousIntensity", "Angle", "Force", "Frequency",
  "Current", "Voltage", "Power", "Energy", "Area", "Volume", "Speed", "Acceleration", "AngularSpeed", "AngularAccc", "WaveLength",
  "ColorComponent"]

def beams : List String := ["Wash", "Spot", "None", "Rectangle", "PC", "Fresnel", "Glow"]

def lamps : List String := ["Discharge", "Tungsten", "Halogen", "LED"]

def snaps : List String := ["Yes", "No", "On", "Off"]

def masters : List String := ["None", "Grand", "Group"]

def relations : List String := ["Multiply", "Override"]

def samples : List String := (List.range 99).map (fun n => "CES" ++ (if n + 1 < 10 then "0" else "") ++ toString (n + 1))

def spaces : List String := ["sRGB", "Custom", "ProPhoto", "ANSI"]

def interpolations : List String := ["Linear", "Step", "Log"]

def laserColors : List String := ["RGB", "SingleWaveLength"]

def components : List String := ["Input", "Output", "PowerSource", "Consumer", "Fuse", "NetworkProvider", "NetworkInput", "NetworkOutput",
  "NetworkInOut"]

def orientations : List String := ["Left", "Right", "Top", "Bottom"]

def fuses : List String := ["B", "C", "D", "K", "Z"]

def structures : List String := ["CenterLineBased", "Detail"]

def sections : List String := ["TrussFramework", "Tube"]

def supports : List String := ["Rope", "GroundSupport"]

def subUnits : List String := ["PlacementOffset", "Amplitude", "AmplitudeMin", "AmplitudeMax", "Duration", "DutyCycle", "TimeOffset",
  "MinimumOpening", "Value", "RatioHorizontal", "RatioVertical"]

/-- `No` is 0. -/
def answers : List String := ["No", "Yes"]

/-! ### The attributes -/

/-- The nodes with their attributes. -/
def forms : List (String × List (String × Form)) :=
  [("ActivationGroup", [("Name", .text)]),
   ("Feature", [("Name", .text)]),
   ("FeatureGroup", [("Name", .text), ("Pretty", .text)]),
   ("SubPhysicalUnit", [("Type", .oneOf subUnits), ("PhysicalUnit", .oneOf units), ("PhysicalFrom", .float), ("PhysicalTo", .float)]),
   ("Attribute", [("Name", .text), ("Pretty", .text), ("ActivationGroup", .ref), ("Feature", .ref), ("MainAttribute", .ref), ("Color",
      .color), ("PhysicalUnit", .oneOf units)]),
   ("Wheel", [("Name", .text)]),
   ("Facet", [("Color", .color), ("Rotation", .rotation)]),
   ("AnimationSystem", [("P1", .vec2), ("P2", .vec2), ("P3", .vec2), ("Radius", .float)]),
   ("Slot", [("Name", .text), ("Color", .color), ("MediaFileName", .text), ("Filter", .ref), ("Duration", .float), ("Width", .int),
      ("Height", .int), ("FPS", .int)]),
   ("Model", [("Name", .text), ("Length", .float), ("Width", .float), ("Height", .float), ("PrimitiveType", .oneOf primitives),
      ("File", .text), ("SVGOffsetX", .float), ("SVGOffsetY", .float), ("SVGSideOffsetX", .float), ("SVGSideOffsetY", .float),
      ("SVGFrontOffsetX", .float), ("SVGFrontOffsetY", .float)]),
   ("Geometry", [("Name", .text), ("Position", .matrix), ("Model", .ref)]),
   ("Axis", [("Name", .text), ("Position", .matrix), ("Model", .ref)]),
   ("FilterBeam", [("Name", .text), ("Position", .matrix), ("Model", .ref)]),
   ("FilterColor", [("Name", .text), ("Position", .matrix), ("Model", .ref)]),
   ("FilterShaper", [("Name", .text), ("Position", .matrix), ("Model", .ref)]),
   ("FilterGobo", [("Name", .text), ("Position", .matrix), ("Model", .ref)]),
   ("MediaServerCamera", [("Name", .text), ("Position", .matrix), ("Model", .ref)]),
   ("MediaServerLayer", [("Name", .text), ("Position", .matrix), ("Model", .ref)]),
   ("MediaServerMaster", [("Name", .text), ("Position", .matrix), ("Model", .ref)]),
   ("Display", [("Name", .text), ("Position", .matrix), ("Model", .ref), ("Texture", .text), ("Width", .int), ("Height", .int),
      ("IsCurved", .bool)]),
   ("Protocol", [("Name", .text)]),
   ("Laser", [("Name", .text), ("Position", .matrix), ("Model", .ref), ("ColorType", .oneOf laserColors), ("Color", .float),
      ("OutputStrength", .float), ("Emitter", .ref), ("BeamDiameter", .float), ("BeamDivergenceMin", .float), ("BeamDivergenceMax",
      .float), ("ScanAnglePan", .float), ("ScanAngleTilt", .float), ("ScanSpeed", .float)]),
   ("PinPatch", [("ToWiringObject", .ref), ("FromPin", .int), ("ToPin", .int)]),
   ("WiringObject", [("Name", .text), ("Position", .matrix), ("Model", .ref), ("ComponentType", .oneOf components), ("ConnectorType",
      .text), ("SignalType", .text), ("PinCount", .int), ("SignalLayer", .int), ("Orientation", .oneOf orientations), ("WireGroup",
      .text), ("ElectricalPayLoad", .float), ("VoltageRangeMin", .float), ("VoltageRangeMax", .float), ("FrequencyRangeMin", .float),
      ("FrequencyRangeMax", .float), ("CosPhi", .float), ("MaxPayLoad", .float), ("Voltage", .float), ("FuseCurrent", .float),
      ("FuseRating", .oneOf fuses)]),
   ("Inventory", [("Name", .text), ("Position", .matrix), ("Model", .ref), ("Count", .int)]),
   ("Structure", [("Name", .text), ("Position", .matrix), ("Model", .ref), ("LinkedGeometry", .ref), ("StructureType", .oneOf
      structures), ("CrossSectionType", .oneOf sections), ("CrossSectionHeight", .float), ("CrossSectionWallThickness", .float),
      ("TrussCrossSection", .text)]),
   ("Support", [("Name", .text), ("Position", .matrix), ("Model", .ref), ("SupportType", .oneOf supports), ("CapacityX", .float),
      ("CapacityY", .float), ("CapacityZ", .float), ("CapacityXX", .float), ("CapacityYY", .float), ("CapacityZZ", .float),
      ("RopeCrossSection", .text), ("RopeOffset", .vec3), ("ResistanceX", .float), ("ResistanceY", .float), ("ResistanceZ", .float),
      ("ResistanceXX", .float), ("ResistanceYY", .float), ("ResistanceZZ", .float)]),
   ("Magnet", [("Name", .text), ("Position", .matrix), ("Model", .ref)]),
   ("Beam", [("Name", .text), ("Position", .matrix), ("Model", .ref), ("LampType", .oneOf lamps), ("PowerConsumption", .float),
      ("LuminousFlux", .float), ("ColorTemperature", .float), ("BeamAngle", .float), ("BeamRadius", .float), ("FieldAngle", .float),
      ("ThrowRatio", .float), ("RectangleRatio", .float), ("BeamType", .oneOf beams), ("ColorRenderingIndex", .int),
      ("EmitterSpectrum", .ref)]),
   ("Break", [("DMXBreak", .int), ("DMXOffset", .address)]),
   ("GeometryReference", [("Name", .text), ("Position", .matrix), ("Model", .ref), ("Geometry", .ref)]),
   ("DMXMode", [("Name", .text), ("Description", .text), ("Geometry", .ref)]),
   ("DMXChannel", [("DMXBreak", .brk), ("Offset", .offset), ("Highlight", .dmx), ("Geometry", .ref), ("InitialFunction", .ref)]),
   ("LogicalChannel", [("Attribute", .ref), ("Snap", .oneOf snaps), ("Master", .oneOf masters), ("MibFade", .float),
      ("DMXChangeTimeLimit", .float)]),
   ("ChannelFunction", [("Name", .text), ("Default", .dmx), ("DMXFrom", .dmx), ("PhysicalFrom", .float), ("PhysicalTo", .float),
      ("RealFade", .float), ("RealAcceleration", .float), ("Min", .float), ("Max", .float), ("CustomName", .text),
      ("OriginalAttribute", .text), ("Attribute", .ref), ("Wheel", .ref), ("Emitter", .ref), ("Filter", .ref), ("ColorSpace", .ref),
      ("Gamut", .ref), ("DMXProfile", .ref), ("ModeMaster", .ref), ("ModeFrom", .dmx), ("ModeTo", .dmx)]),
   ("ChannelSet", [("Name", .text), ("DMXFrom", .dmx), ("WheelSlotIndex", .int), ("PhysicalFrom", .float), ("PhysicalTo", .float)]),
   ("SubChannelSet", [("Name", .text), ("PhysicalFrom", .float), ("PhysicalTo", .float), ("SubPhysicalUnit", .ref), ("DMXProfile",
      .ref)]),
   ("Relation", [("Name", .text), ("Master", .ref), ("Follower", .ref), ("Type", .oneOf relations)]),
   ("Revision", [("Text", .text), ("Date", .date), ("UserID", .int), ("ModifiedBy", .text)]),
   ("Emitter", [("Name", .text), ("Color", .color), ("DominantWaveLength", .float), ("DiodePart", .text)]),
   ("FTMacro", [("Name", .text), ("ChannelFunction", .ref)]),
   ("MeasurementPoint", [("WaveLength", .float), ("Energy", .float)]),
   ("FixtureType", [("Name", .text), ("ShortName", .text), ("LongName", .text), ("Manufacturer", .text), ("Description", .text),
      ("FixtureTypeID", .guid), ("Thumbnail", .text), ("ThumbnailOffsetX", .int), ("ThumbnailOffsetY", .int), ("CanHaveChildren",
      .oneOf answers), ("RefFT", .guid)]),
   ("Point", [("DMXPercentage", .float), ("CFC3", .float), ("CFC2", .float), ("CFC1", .float), ("CFC0", .float)]),
   ("DMXProfile", [("Name", .text)]),
   ("CRIGroup", [("ColorTemperature", .float)]),
   ("CRI", [("CES", .oneOf samples), ("ColorRenderingIndex", .int)]),
   ("FTRDM", [("ManufacturerID", .hex), ("DeviceModelID", .hex)]),
   ("DMXPersonality", [("Value", .hex), ("DMXMode", .ref)]),
   ("Map", [("Key", .int), ("Value", .int)]),
   ("MacroDMXStep", [("Duration", .float)]),
   ("MacroDMXValue", [("Value", .dmx), ("DMXChannel", .ref)]),
   ("MacroVisualStep", [("Duration", .float), ("Fade", .float), ("Delay", .float)]),
   ("MacroVisualValue", [("Value", .dmx), ("ChannelFunction", .ref)]),
   ("SoftwareVersionID", [("Value", .hex)]),
   ("Gamut", [("Name", .text), ("Points", .colors)]),
   ("ColorSpace", [("Name", .text), ("Mode", .oneOf spaces), ("Red", .color), ("Green", .color), ("Blue", .color), ("WhitePoint",
      .color)]),
   ("Filter", [("Name", .text), ("Color", .color)]),
   ("Measurement", [("Physical", .float), ("Transmission", .float), ("LuminousIntensity", .float), ("InterpolationTo", .oneOf
      interpolations)]),
   ("Connector", [("Name", .text), ("Type", .text), ("DMXBreak", .int), ("Gender", .int), ("Length", .float)]),
   ("OperatingTemperature", [("Low", .float), ("High", .float)]),
   ("Weight", [("Value", .float)]),
   ("LegHeight", [("Value", .float)])]

/-- The nodes that only collect others: they have no attributes. -/
def collects : List String := ["ActivationGroups", "FeatureGroups", "Attributes", "Wheels", "AdditionalColorSpaces", "Gamuts", "Filters",
  "Emitters", "DMXProfiles", "CRIs", "Connectors", "Models", "Geometries", "DMXModes", "DMXChannels", "Relations", "FTMacros", "Revisions",
  "FTPresets"]

/-! ### Meaning -/

/-- Decimal digits. -/
def Digits (s : List Char) : Prop := s ≠ [] ∧ ∀ c ∈ s, 48 ≤ c.toNat ∧ c.toNat ≤ 57

/-- Their value. -/
def decimal (s : List Char) : Nat := s.foldl (fun n c => 10 * n + (c.toNat - 48)) 0

/-- A number without sign and decimals. -/
def NatText (n : Nat) (s : List Char) : Prop := Digits s ∧ decimal s = n

/-- A number without decimals. -/
def IntText (i : Int) (s : List Char) : Prop :=
  (∃ n : Nat, NatText n s ∧ i = n) ∨ ∃ (n : Nat) (t : List Char), NatText n t ∧ s = '-' :: t ∧ i = -(n : Int)

/-- The number itself. -/
def value (x : Dbl) : ℚ := if x.neg then -x.mag else x.mag

/-- A number with decimals, rounded to six of them. -/
def RealText (x : Dbl) (s : List Char) : Prop :=
  ∃ (minus : Bool) (a b : List Char), Digits a ∧ Digits b ∧ s = (if minus then ['-'] else []) ++ a ++ '.' :: b ∧
    |(if minus then -1 else 1) * ((decimal (a ++ b) : ℚ) / 10 ^ b.length) - value x| ≤ 1 / 2000000

/-- Some texts with commas between them. -/
def Listed : List (List Char → Prop) → List Char → Prop
  | [], s => s = []
  | [p], s => p s
  | p :: q :: ps, s => ∃ a b, p a ∧ Listed (q :: ps) b ∧ s = a ++ ',' :: b

/-- The same in brackets. -/
def Row (ps : List (List Char → Prop)) (s : List Char) : Prop := ∃ a, Listed ps a ∧ s = '{' :: (a ++ ['}'])

/-- Rows, one behind the other. -/
def Rows : List (List (List Char → Prop)) → List Char → Prop
  | [], s => s = []
  | r :: rs, s => ∃ a b, Row r a ∧ Rows rs b ∧ s = a ++ b

/-- A number with two digits (more if there are more). -/
def TwoDigits (n : Nat) (s : List Char) : Prop := NatText n s ∧ 2 ≤ s.length

/-- A byte by two hexadecimal digits. -/
def HexByte (b : BitVec 8) (s : List Char) : Prop := s.length = 2 ∧ (∀ c ∈ s, IsHex c) ∧ hexNumber s = b.toNat

/-- Bytes one behind the other. -/
def HexBytes : List (BitVec 8) → List Char → Prop
  | [], s => s = []
  | b :: bs, s => ∃ a t, HexByte b a ∧ HexBytes bs t ∧ s = a ++ t

/-- 8, 4, 4, 4 and 12 hexadecimal digits with lines between them. -/
def GuidText (u : List (BitVec 8)) (s : List Char) : Prop :=
  ∃ a b c d e, HexBytes (u.take 4) a ∧ HexBytes ((u.drop 4).take 2) b ∧ HexBytes ((u.drop 6).take 2) c ∧ HexBytes ((u.drop 8).take 2) d ∧
    HexBytes (u.drop 10) e ∧ s = a ++ '-' :: (b ++ '-' :: (c ++ '-' :: (d ++ '-' :: e)))

/-- A word. -/
def Word (words : List String) (n : Nat) (s : List Char) : Prop := ∃ w, words[n]? = some w ∧ s = w.toList

/-- A text in the notation says the value; `n` is the number of bytes of the channel. -/
def Says (n : Nat) : Form → Val → List Char → Prop
  | .float, .real x, s => RealText x s
  | .int, .int _ i, s => IntText i s
  | .matrix, .matrix m, s => Rows [[RealText m.u.x, RealText m.u.y, RealText m.u.z, RealText m.o.x],
      [RealText m.v.x, RealText m.v.y, RealText m.v.z, RealText m.o.y], [RealText m.w.x, RealText m.w.y, RealText m.w.z, RealText m.o.z],
      [IntText 0, IntText 0, IntText 0, IntText 1]] s
  | .rotation, .rotation m, s => Rows [[RealText m.u.x, RealText m.u.y, RealText m.u.z], [RealText m.v.x, RealText m.v.y, RealText m.v.z],
      [RealText m.w.x, RealText m.w.y, RealText m.w.z]] s
  | .color, .color c, s => Listed [RealText c.x, RealText c.y, RealText c.z] s
  | .colors, .colors cs, s => Rows (cs.map (fun c => [RealText c.x, RealText c.y, RealText c.z])) s
  | .vec2, .point x y, s => Listed [RealText x, RealText y] s
  | .vec3, .vec v, s => Row [RealText v.x, RealText v.y, RealText v.z] s
  | .dmx, .dmx v, s => ∃ a b, NatText v a ∧ NatText n b ∧ s = a ++ '/' :: b
  | .dmx, .high _ true, s => s = "None".toList
  | .dmx, .high v false, s => ∃ a b, NatText v a ∧ NatText n b ∧ s = a ++ '/' :: b
  | .hex, .hex v, s => ∃ a, a ≠ [] ∧ (∀ c ∈ a, IsHex c) ∧ hexNumber a = v ∧ s = '0' :: 'x' :: a
  | .guid, .uuid u, s => GuidText u s
  | .offset, .offset o, s => Listed ((([o.coarse, o.fine, o.ultra, o.uber] : List Nat).takeWhile (fun b => decide (b ≠ 0))).map NatText) s
  | .brk, .brk i, s => if i = 0 then s = "Overwrite".toList else IntText i s
  | .date, .date t, s => ∃ y mo d h mi se, NatText t.year y ∧ TwoDigits t.month mo ∧ TwoDigits t.day d ∧ TwoDigits t.hour h ∧
      TwoDigits t.minute mi ∧ TwoDigits t.second se ∧ s = y ++ '-' :: (mo ++ '-' :: (d ++ 'T' :: (h ++ ':' :: (mi ++ ':' :: se))))
  | .address, .address a, s => NatText a s
  | .bool, .flag b, s => s = (if b then "true" else "false").toList
  | .oneOf w, .primitive v, s => w = primitives ∧ Word w v.ctorIdx s
  | .oneOf w, .unit v, s => w = units ∧ Word w v.ctorIdx s
  | .oneOf w, .beam v, s => w = beams ∧ Word w v.ctorIdx s
  | .oneOf w, .lamp v, s => w = lamps ∧ Word w v.ctorIdx s
  | .oneOf w, .snap v, s => w = snaps ∧ Word w v.ctorIdx s
  | .oneOf w, .master v, s => w = masters ∧ Word w v.ctorIdx s
  | .oneOf w, .relation v, s => w = relations ∧ Word w v.ctorIdx s
  | .oneOf w, .sample v, s => w = samples ∧ Word w v.ctorIdx s
  | .oneOf w, .space v, s => w = spaces ∧ Word w v.ctorIdx s
  | .oneOf w, .interpolation v, s => w = interpolations ∧ Word w v.ctorIdx s
  | .oneOf w, .laser v, s => w = laserColors ∧ Word w v.ctorIdx s
  | .oneOf w, .component v, s => w = components ∧ Word w v.ctorIdx s
  | .oneOf w, .orientation v, s => w = orientations ∧ Word w v.ctorIdx s
  | .oneOf w, .fuse v, s => w = fuses ∧ Word w v.ctorIdx s
  | .oneOf w, .truss v, s => w = structures ∧ Word w v.ctorIdx s
  | .oneOf w, .section_ v, s => w = sections ∧ Word w v.ctorIdx s
  | .oneOf w, .support v, s => w = supports ∧ Word w v.ctorIdx s
  | .oneOf w, .subUnit v, s => w = subUnits ∧ Word w v.ctorIdx s
  | .oneOf w, .canHave b, s => w = answers ∧ Word w b.toNat s
  | _, _, _ => False

/-- The characters of a text in the file. -/
def Spelled (t : Txt) (s : List Char) : Prop := t.map BitVec.toNat = s.map Char.toNat

/-- The text of an attribute says the value. -/
def Tells (n : Nat) (f : Form) (v : Val) (t : Txt) : Prop :=
  match f, v with
  | .text, .text u => t = u
  | .ref, .link (some u) => t = u
  | f, v => ∃ s, Spelled t s ∧ Says n f v s

/-! ### The nodes -/

mutual
/-- The node and all nodes in it, in the order of the file: names and attributes. -/
def nodes : Elem → List (String × Attrs)
  | .mk n a k => (n, a) :: nodesIn k

/-- The nodes of a list. -/
def nodesIn : List Elem → List (String × Attrs)
  | [] => []
  | e :: es => nodes e ++ nodesIn es
end

/-- Without the nodes that collect others. -/
def ownNodes (e : Elem) : List (String × Attrs) := (nodes e).filter (fun p => decide (p.1 ∉ collects))

mutual
/-- The object and all objects in it, with the number of bytes of the channel around them (2 outside of channels). -/
def objects (n : Nat) : Obj Members → List (Nat × String × Members)
  | .mk cls d ks =>
    let m := if cls = "GdtfDmxChannel" then channelBytes (d "fCoarse+fFine+fUltra+fUber") else n
    (m, cls, d) :: objectsAll m ks

/-- All members. -/
def objectsAll (n : Nat) : List (List (Obj Members)) → List (Nat × String × Members)
  | [] => []
  | k :: ks => objectsList n k ++ objectsAll n ks

/-- One member. -/
def objectsList (n : Nat) : List (Obj Members) → List (Nat × String × Members)
  | [] => []
  | o :: os => objects n o ++ objectsList n os
end

/-- The node for an object of a class. -/
def nodeNames : List (String × String) :=
  [("GdtfActivationGroup", "ActivationGroup"), ("GdtfFeature", "Feature"), ("GdtfFeatureGroup", "FeatureGroup"),
   ("GdtfSubPhysicalUnit", "SubPhysicalUnit"), ("GdtfAttribute", "Attribute"), ("GdtfWheel", "Wheel"),
   ("GdtfWheelSlotPrismFacet", "Facet"), ("GdtfWheelSlotAnimationSystem", "AnimationSystem"), ("GdtfWheelSlot", "Slot"),
   ("GdtfModel", "Model"), ("GdtfGeometry", "Geometry"), ("GdtfGeometryAxis", "Axis"), ("GdtfGeometryBeamFilter", "FilterBeam"),
   ("GdtfGeometryColorFilter", "FilterColor"), ("GdtfGeometryShaperFilter", "FilterShaper"), ("GdtfGeometryGoboFilter", "FilterGobo"),
   ("GdtfGeometryMediaServerCamera", "MediaServerCamera"), ("GdtfGeometryMediaServerLayer", "MediaServerLayer"),
   ("GdtfGeometryMediaServerMaster", "MediaServerMaster"), ("GdtfGeometryDisplay", "Display"), ("GdtfLaserProtocol", "Protocol"),
   ("GdtfGeometryLaser", "Laser"), ("GdtfPinPatch", "PinPatch"), ("GdtfGeometryWiringObject", "WiringObject"),
   ("GdtfGeometryInventory", "Inventory"), ("GdtfGeometryStructure", "Structure"), ("GdtfGeometrySupport", "Support"),
   ("GdtfGeometryMagnet", "Magnet"), ("GdtfGeometryLamp", "Beam"), ("GdtfBreak", "Break"), ("GdtfGeometryReference", "GeometryReference"),
   ("GdtfDmxMode", "DMXMode"), ("GdtfDmxChannel", "DMXChannel"), ("GdtfDmxLogicalChannel", "LogicalChannel"),
   ("GdtfDmxChannelFunction", "ChannelFunction"), ("GdtfDmxChannelSet", "ChannelSet"), ("GdtfDmxSubChannelSet", "SubChannelSet"),
   ("GdtfDmxRelation", "Relation"), ("GdtfRevision", "Revision"), ("GdtfPhysicalEmitter", "Emitter"), ("GdtfUserPreset", "FTPreset"),
   ("GdtfMacro", "FTMacro"), ("GdtfMeasurementPoint", "MeasurementPoint"), ("GdtfFixture", "FixtureType"), ("GdtfPoint", "Point"),
   ("GdtfDMXProfile", "DMXProfile"), ("GdtfCRIGroup", "CRIGroup"), ("GdtfCRI", "CRI"), ("GdtfFTRDM", "FTRDM"),
   ("GdtfDMXPersonality", "DMXPersonality"), ("GdtfProtocols", "Protocols"), ("GdtfMap", "Map"), ("GdtfArtNet", "Art-Net"),
   ("GdtfsAcn", "sACN"), ("GdtfKiNET", "KiNET"), ("GdtfPosiStageNet", "PosiStageNet"), ("GdtfOpenSoundControl", "OpenSoundControl"),
   ("GdtfCITP", "CITP"), ("GdtfMacroDMX", "MacroDMX"), ("GdtfMacroDMXStep", "MacroDMXStep"), ("GdtfMacroDMXValue", "MacroDMXValue"),
   ("GdtfMacroVisual", "MacroVisual"), ("GdtfMacroVisualStep", "MacroVisualStep"), ("GdtfMacroVisualValue", "MacroVisualValue"),
   ("GdtfSoftwareVersionID", "SoftwareVersionID"), ("GdtfGamut", "Gamut"), ("GdtfPhysicalDescriptions", "PhysicalDescriptions"),
   ("GdtfColorSpace", "ColorSpace"), ("GdtfFilter", "Filter"), ("GdtfMeasurement", "Measurement"), ("GdtfMeasurement(true)", "Measurement"),
   ("GdtfConnector", "Connector"),
   ("AttributeDefinitions", "AttributeDefinitions"), ("Properties", "Properties"), ("OperatingTemperature", "OperatingTemperature"),
   ("Weight", "Weight"), ("LegHeight", "LegHeight")]

/-- The notation of an attribute. -/
def formAt (node attr : String) : Option Form := (forms.lookup node).bind (fun l => l.lookup attr)

/-- A statement that writes a value of the class, or a reference. -/
def Prints (cls : String) (i : Node.Item) : Prop :=
  Writes cls i ∨ ∃ k ∈ Node.kinds, k.name = cls ∧ i ∈ k.writes ∧ i.codec = .ref

/-- A node shows an object of a class: it has the right name; each member that is written has its attribute, and the text there is the value
in the notation of the attribute; there are no other attributes than those of the standard. -/
structure Shows (n : Nat) (cls : String) (d : Members) (e : String × Attrs) : Prop where
  name : nodeNames.lookup cls = some e.1
  known : ∀ p ∈ e.2, (formAt e.1 p.1).isSome = true
  values : ∀ i, Prints cls i → i.guard.holds (cond d) = true → (i.codec = .ref → ∃ u, d i.field = .link (some u)) →
    ∃ f t, formAt e.1 i.attr = some f ∧ Node.getAttr e.2 i.attr = some t ∧ Tells n f (d i.field) t

/-- Two lists agree one by one. -/
def OneByOne {α β : Type} (R : α → β → Prop) : List α → List β → Prop
  | [], [] => True
  | a :: as, b :: bs => R a b ∧ OneByOne R as bs
  | _, _ => False

/-- The nodes of geometries. -/
def geometryNames : List String :=
  ["Axis", "Geometry", "FilterBeam", "FilterColor", "FilterGobo", "FilterShaper", "Beam", "MediaServerCamera", "MediaServerLayer",
   "MediaServerMaster", "GeometryReference", "Display", "Laser", "WiringObject", "Inventory", "Structure", "Support", "Magnet"]

/-- The nodes that can be in a node. -/
def nesting : List (String × List String) :=
  [("FeatureGroup", ["Feature"]), ("Attribute", ["SubPhysicalUnit"]), ("Wheel", ["Slot"]), ("Slot", ["Facet", "AnimationSystem"]),
   ("Geometry", geometryNames), ("Axis", geometryNames), ("FilterBeam", geometryNames), ("FilterColor", geometryNames),
   ("FilterShaper", geometryNames), ("FilterGobo", geometryNames), ("MediaServerCamera", geometryNames),
   ("MediaServerLayer", geometryNames), ("MediaServerMaster", geometryNames), ("Display", geometryNames),
   ("Laser", "Protocol" :: geometryNames), ("WiringObject", "PinPatch" :: geometryNames), ("Inventory", geometryNames),
   ("Structure", geometryNames), ("Support", geometryNames), ("Magnet", geometryNames), ("Beam", geometryNames),
   ("GeometryReference", "Break" :: geometryNames), ("DMXMode", ["DMXChannels", "Relations", "FTMacros"]),
   ("DMXChannels", ["DMXChannel"]), ("Relations", ["Relation"]), ("FTMacros", ["FTMacro"]), ("DMXChannel", ["LogicalChannel"]),
   ("LogicalChannel", ["ChannelFunction"]), ("ChannelFunction", ["ChannelSet", "SubChannelSet"]), ("Emitter", ["Measurement"]),
   ("FTMacro", ["MacroDMX", "MacroVisual"]),
   ("FixtureType", ["AttributeDefinitions", "Wheels", "PhysicalDescriptions", "Models", "Geometries", "DMXModes", "Revisions", "FTPresets", "Protocols"]),
   ("Wheels", ["Wheel"]), ("Models", ["Model"]), ("Geometries", geometryNames), ("DMXModes", ["DMXMode"]), ("Revisions", ["Revision"]),
   ("FTPresets", ["FTPreset"]), ("DMXProfile", ["Point"]), ("CRIGroup", ["CRI"]), ("FTRDM", ["SoftwareVersionID"]),
   ("Protocols", ["FTRDM", "Art-Net", "sACN", "KiNET", "PosiStageNet", "OpenSoundControl", "CITP"]), ("Art-Net", ["Map"]),
   ("sACN", ["Map"]), ("MacroDMX", ["MacroDMXStep"]), ("MacroDMXStep", ["MacroDMXValue"]), ("MacroVisual", ["MacroVisualStep"]),
   ("MacroVisualStep", ["MacroVisualValue"]), ("SoftwareVersionID", ["DMXPersonality"]),
   ("PhysicalDescriptions", ["ColorSpace", "AdditionalColorSpaces", "Gamuts", "Filters", "Emitters", "DMXProfiles", "CRIs", "Connectors", "Properties"]),
   ("AdditionalColorSpaces", ["ColorSpace"]), ("Gamuts", ["Gamut"]), ("Filters", ["Filter"]), ("Emitters", ["Emitter"]),
   ("DMXProfiles", ["DMXProfile"]), ("CRIs", ["CRIGroup"]), ("Connectors", ["Connector"]), ("Filter", ["Measurement"]),
   ("Measurement", ["MeasurementPoint"]), ("AttributeDefinitions", ["ActivationGroups", "FeatureGroups", "Attributes"]),
   ("ActivationGroups", ["ActivationGroup"]), ("FeatureGroups", ["FeatureGroup"]), ("Attributes", ["Attribute"]),
   ("Properties", ["OperatingTemperature", "Weight", "LegHeight"])]

mutual
/-- Every node is in a node that can have it. -/
def Nested : Elem → Prop
  | .mk n _ k => (∀ c ∈ k, ∃ l, nesting.lookup n = some l ∧ c.name ∈ l) ∧ NestedAll k

/-- All nodes of a list. -/
def NestedAll : List Elem → Prop
  | [] => True
  | e :: es => Nested e ∧ NestedAll es
end

end Verif.Gdtf.Spec
