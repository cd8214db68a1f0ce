import Verif.Gdtf.CtorModel
import Verif.Gdtf.Spec

/-!
# Specification: the values of attributes that a description leaves out
-/

namespace Verif.Gdtf.Spec

open Verif.Lookup (Txt)
open Verif.Real Verif.Text Verif.Dmx Verif.Enum

/-- A number. -/
def real (n : Nat) (d : Nat := 1) : Val := .real ⟨false, (n : Rat) / d⟩

/-- A colour: the white of the library. -/
def whiteColor : Val := .color ⟨⟨false, 31273 / 100000⟩, ⟨false, 32902 / 100000⟩, ⟨false, 100⟩⟩

/-- The unit matrix. -/
def unitMatrix : Mat := ⟨⟨⟨false, 1⟩, ⟨false, 0⟩, ⟨false, 0⟩⟩, ⟨⟨false, 0⟩, ⟨false, 1⟩, ⟨false, 0⟩⟩, ⟨⟨false, 0⟩, ⟨false, 0⟩, ⟨false, 1⟩⟩,
  ⟨⟨false, 0⟩, ⟨false, 0⟩, ⟨false, 0⟩⟩⟩

/-- The value of an attribute (by class and name) that is not in the file, if it is not a text or a reference; the position of a geometry is
not in the list.  The values are those of the standard where it has one. -/
def defaults : List (String × List (String × Val)) := [
  ("GdtfSubPhysicalUnit", [("Type", .subUnit .cPlacementOffset), ("PhysicalUnit", .unit .cNone), ("PhysicalFrom", real 0), ("PhysicalTo", real 0)]),
  ("GdtfAttribute", [("PhysicalUnit", .unit .cNone), ("Color", whiteColor)]),
  ("GdtfWheelSlotPrismFacet", [("Color", whiteColor), ("Rotation", .rotation unitMatrix)]),
  ("GdtfWheelSlotAnimationSystem", [("P1", .point ⟨false, 0⟩ ⟨false, 0⟩), ("P2", .point ⟨false, 0⟩ ⟨false, 0⟩),
    ("P3", .point ⟨false, 0⟩ ⟨false, 0⟩)]),
  ("GdtfWheelSlot", [("Color", whiteColor), ("Duration", real 0), ("Width", .int .size 0), ("Height", .int .size 0), ("FPS", .int .size 0)]),
  ("GdtfModel", [("Length", real 0), ("Width", real 0), ("Height", real 0), ("SVGOffsetX", real 0), ("SVGOffsetY", real 0),
    ("SVGSideOffsetX", real 0), ("SVGSideOffsetY", real 0), ("SVGFrontOffsetX", real 0), ("SVGFrontOffsetY", real 0),
    ("PrimitiveType", .primitive .cUndefined)]),
  ("GdtfGeometryDisplay", [("IsCurved", .flag false)]),
  ("GdtfGeometryLaser", [("ColorType", .laser .cRGB)]),
  ("GdtfGeometryWiringObject", [("ComponentType", .component .cInput), ("PinCount", .int .size 0), ("SignalLayer", .int .size 0),
    ("Orientation", .orientation .cLeft), ("ElectricalPayLoad", real 0), ("VoltageRangeMin", real 0), ("VoltageRangeMax", real 0),
    ("FrequencyRangeMin", real 0), ("FrequencyRangeMax", real 0), ("CosPhi", real 0), ("MaxPayLoad", real 0), ("Voltage", real 0),
    ("FuseCurrent", real 0), ("FuseRating", .fuse .cB)]),
  ("GdtfGeometryStructure", [("StructureType", .truss .cCenterLineBased), ("CrossSectionType", .section_ .cTrussFramework)]),
  ("GdtfGeometrySupport", [("SupportType", .support .cRope), ("RopeOffset", .vec ⟨⟨false, 0⟩, ⟨false, 0⟩, ⟨false, 0⟩⟩)]),
  ("GdtfGeometryLamp", [("LampType", .lamp .cDischange), ("PowerConsumption", real 1000), ("LuminousFlux", real 10000),
    ("ColorTemperature", real 6000), ("BeamAngle", real 25), ("BeamRadius", real 5 100), ("FieldAngle", real 25), ("ThrowRatio", real 1),
    ("RectangleRatio", real 17777 10000), ("BeamType", .beam .cWash), ("ColorRenderingIndex", .int .s32 100)]),
  ("GdtfBreak", [("DMXBreak", .int .s32 1), ("DMXOffset", .address 1)]),
  ("GdtfDmxChannel", [("DMXBreak", .brk 1), ("Offset", .offset ⟨0, 0, 0, 0⟩), ("Default", .dmx 0), ("Highlight", .high 0 true)]),
  ("GdtfDmxLogicalChannel", [("Snap", .snap .cNo), ("Master", .master .cNone), ("MibFade", real 0), ("DMXChangeTimeLimit", real 0)]),
  ("GdtfDmxChannelFunction", [("Default", .dmx 0), ("DMXFrom", .dmx 0), ("PhysicalFrom", real 0), ("PhysicalTo", real 1), ("RealFade", real 0),
    ("RealAcceleration", real 0)]),
  ("GdtfDmxChannelSet", [("DMXFrom", .dmx 0), ("WheelSlotIndex", .int .s32 0), ("PhysicalFrom", real 0), ("PhysicalTo", real 1)]),
  ("GdtfDmxSubChannelSet", [("PhysicalFrom", real 0), ("PhysicalTo", real 1)]),
  ("GdtfDmxRelation", [("Type", .relation .cOverride)]),
  ("GdtfRevision", [("Date", .date ⟨0, 0, 0, 0, 0, 0⟩), ("UserID", .int .size 0)]),
  ("GdtfPhysicalEmitter", [("Color", whiteColor), ("DominantWaveLength", real 0)]),
  ("GdtfMeasurementPoint", [("WaveLength", real 0), ("Energy", real 0)]),
  ("GdtfFixture", [("FixtureTypeID", .uuid (List.replicate 16 0)), ("ThumbnailOffsetX", .int .s32 0), ("ThumbnailOffsetY", .int .s32 0),
    ("CanHaveChildren", .canHave true), ("RefFT", .uuid (List.replicate 16 0))]),
  ("GdtfPoint", [("DMXPercentage", real 0), ("CFC3", real 0), ("CFC2", real 0), ("CFC1", real 0), ("CFC0", real 0)]),
  ("GdtfCRIGroup", [("ColorTemperature", real 6000)]),
  ("GdtfCRI", [("CES", .sample .cCES_01), ("ColorRenderingIndex", .int .u8 100)]),
  ("GdtfFTRDM", [("ManufacturerID", .hex 0), ("DeviceModelID", .hex 0)]),
  ("GdtfDMXPersonality", [("Value", .hex 0)]),
  ("GdtfMacroVisualStep", [("Duration", real 1), ("Fade", real 0), ("Delay", real 0)]),
  ("GdtfSoftwareVersionID", [("Value", .hex 0)]),
  ("GdtfGamut", [("Points", .colors [])]),
  ("GdtfColorSpace", [("Mode", .space .csRGB), ("Red", whiteColor), ("Green", whiteColor), ("Blue", whiteColor), ("WhitePoint", whiteColor)]),
  ("GdtfFilter", [("Color", whiteColor)]),
  ("GdtfMeasurement", [("Physical", real 0), ("LuminousIntensity", real 0), ("Transmission", real 0), ("InterpolationTo", .interpolation .cLinear)]),
  ("GdtfMeasurement(true)", [("Physical", real 0), ("LuminousIntensity", real 0), ("Transmission", real 0), ("InterpolationTo", .interpolation .cLinear)]),
  ("GdtfConnector", [("DMXBreak", .int .u32 0), ("Gender", .int .s32 0), ("Length", real 0)]),
  ("OperatingTemperature", [("Low", real 0), ("High", real 40)]),
  ("Weight", [("Value", real 0)]),
  ("LegHeight", [("Value", real 0)])]

/-- The attribute of the class has a default value. -/
def Default (cls attr : String) (v : Val) : Prop :=
  (attr = "Position" ∧ v = .matrix unitMatrix) ∨ ∃ l, (cls, l) ∈ defaults ∧ (attr, v) ∈ l

/-- Attributes for which the library has no default value. -/
def undetermined : List (String × List String) := [
  ("GdtfWheelSlotAnimationSystem", ["Radius"]),
  ("GdtfGeometryDisplay", ["Width", "Height"]),
  ("GdtfGeometryLaser", ["Color", "OutputStrength", "BeamDiameter", "BeamDivergenceMin", "BeamDivergenceMax", "ScanAnglePan", "ScanAngleTilt",
    "ScanSpeed"]),
  ("GdtfPinPatch", ["FromPin", "ToPin"]),
  ("GdtfGeometryInventory", ["Count"]),
  ("GdtfGeometryStructure", ["CrossSectionHeight", "CrossSectionWallThickness"]),
  ("GdtfGeometrySupport", ["CapacityX", "CapacityY", "CapacityZ", "CapacityXX", "CapacityYY", "CapacityZZ", "ResistanceX", "ResistanceY",
    "ResistanceZ", "ResistanceXX", "ResistanceYY", "ResistanceZZ"]),
  ("GdtfMap", ["Key", "Value"]),
  ("GdtfMacroDMXStep", ["Duration"])]

/-- The attribute is one of these. -/
def Undetermined (cls attr : String) : Prop := ∃ l, (cls, l) ∈ undetermined ∧ attr ∈ l

/-- The member is read from the attribute. -/
def ReadFrom (cls attr f : String) : Prop := ∃ k ∈ Node.kinds, k.name = cls ∧ ∃ j ∈ k.reads, j.attr = attr ∧ j.field = f

/-- The attribute is not there, or it is empty. -/
def LeftOut (node : Attrs) (attr : String) : Prop := Node.getAttr node attr = none ∨ Node.getAttr node attr = some []

/-- An element of the tree. -/
inductive Inside : Elem → Elem → Prop where
  | self (e : Elem) : Inside e e
  | kid (e c x : Elem) (h : c ∈ e.kids) (hx : Inside x c) : Inside x e

/-- The value of an attribute: what the constructor and `OnReadFromNode` leave in the member, with the number of bytes `n` of the channel. -/
def valueOf (F : Fl) (m : Memory) (fresh : String → Obj Members) (n : Nat) (cls : String) (node : Attrs) (f : String) : Val :=
  dmxValue F n ((valueSchema F (ctor m) fresh).dec cls node f)

end Verif.Gdtf.Spec
