import Verif.Gdtf.ValueModel

/-!
# Model: what the constructors of the GDTF classes leave in the members

The constructors are those that `OnReadFromNode` of the parent calls.  A member of a type like `double` or `size_t` that neither the
constructor nor the declaration in GDTFManager.h gives a value holds what was in the memory before; this is a parameter (`Memory`).
-/

namespace Verif.Gdtf

open Verif.Lookup (Txt)
open Verif.Real Verif.Text Verif.Dmx Verif.Enum

/-- What was in the memory of an object, by class and member, for every type for which this matters. -/
structure Memory where
  real : String → String → Dbl
  nat : String → String → Nat
  truss : StructureType
  section_ : CrossSectionType
  support : SupportType

/-- The types of members that are not initialised. -/
inductive Raw where
  | real | size | u32 | point | flag | truss | section_ | support
  deriving DecidableEq

/-- The members without a value behind the constructor: GDTFManager.cpp:1017-1019 (GDTFManager.h:378-384), 2941-2945 (978-980), 3128-3133
(1034-1042), 3360-3363 (1097-1098), 3836-3840 (1212), 3910-3915 (1237-1240), 4069-4073 (1282-1296), 11262-11264 (2344-2345),
11653-11655 (1976). -/
def unset : List ((String × String) × Raw) := [
  (("GdtfWheelSlotAnimationSystem", "fP1_X+fP1_Y"), .point), (("GdtfWheelSlotAnimationSystem", "fP2_X+fP2_Y"), .point),
  (("GdtfWheelSlotAnimationSystem", "fP3_X+fP3_Y"), .point), (("GdtfWheelSlotAnimationSystem", "fRadius"), .real),
  (("GdtfGeometryDisplay", "fWidth"), .size), (("GdtfGeometryDisplay", "fHeight"), .size), (("GdtfGeometryDisplay", "fIsCurved"), .flag),
  (("GdtfGeometryLaser", "fColor"), .real), (("GdtfGeometryLaser", "fOutputStrength"), .real),
  (("GdtfGeometryLaser", "fBeamDiameter"), .real), (("GdtfGeometryLaser", "fBeamDivergenceMin"), .real),
  (("GdtfGeometryLaser", "fBeamDivergenceMax"), .real), (("GdtfGeometryLaser", "fScanAnglePan"), .real),
  (("GdtfGeometryLaser", "fScanAngleTilt"), .real), (("GdtfGeometryLaser", "fScanSpeed"), .real),
  (("GdtfPinPatch", "fFromPin"), .size), (("GdtfPinPatch", "fToPin"), .size),
  (("GdtfGeometryInventory", "fCount"), .size),
  (("GdtfGeometryStructure", "fStructureType"), .truss), (("GdtfGeometryStructure", "fCrossSectionType"), .section_),
  (("GdtfGeometryStructure", "fCrossSectionHeight"), .real), (("GdtfGeometryStructure", "fCrossSectionWallThickness"), .real),
  (("GdtfGeometrySupport", "fSupportType"), .support),
  (("GdtfGeometrySupport", "fCapacityX"), .real), (("GdtfGeometrySupport", "fCapacityY"), .real), (("GdtfGeometrySupport", "fCapacityZ"), .real),
  (("GdtfGeometrySupport", "fCapacityXX"), .real), (("GdtfGeometrySupport", "fCapacityYY"), .real),
  (("GdtfGeometrySupport", "fCapacityZZ"), .real), (("GdtfGeometrySupport", "fResistanceX"), .real),
  (("GdtfGeometrySupport", "fResistanceY"), .real), (("GdtfGeometrySupport", "fResistanceZ"), .real),
  (("GdtfGeometrySupport", "fResistanceXX"), .real), (("GdtfGeometrySupport", "fResistanceYY"), .real),
  (("GdtfGeometrySupport", "fResistanceZZ"), .real),
  (("GdtfMap", "fKey"), .u32), (("GdtfMap", "fValue"), .u32),
  (("GdtfMacroDMXStep", "fDuration"), .real)]

/-- A number without decimals. -/
def num (n : Nat) : Val := .real ⟨false, n⟩

/-- The values that constructors assign, and those of the constructors of the types of the members: CieColor.cpp:15-21 `CCieColor()`,
VWTransformMatrix.cpp:11-14, VWPoint3D.cpp:28-33, UUID.cpp:284-288.  By class: GDTFManager.cpp:438-444, 559-566, 938-941, 1151-1160,
1431-1453, 3128-3133, 3463-3480, 4069-4073, 4418-4432 (`InitializeMembersWithDefaultsVals` of the lamp), 4656-4660, 5442-5457, 5763-5772,
5993-6024, 6752-6763, 6965-6972, 7116-7122, 7248-7260, 7377-7382, 7731-7735, 9374-9383, 10410-10417, 10656-10659, 10766-10770,
10928-10932, 10985-10990, 11918-11923, 12157-12160, 12340-12346, 12770-12774, 12941-12944, 13058-13065, 13192-13197.  The colour of an
emitter is that of `CRGBColor(255, 255, 255)`; it is written as `CCieColor()` here, reading replaces it in every case.  The numbers that are
resolved after reading (mode master, macros) are texts, as in `Verif.Gdtf.ValueModel`. -/
def ctors : List ((String × String) × Val) := [
  (("GdtfSubPhysicalUnit", "fType"), .subUnit .cPlacementOffset), (("GdtfSubPhysicalUnit", "fPhysicalUnit"), .unit .cNone),
  (("GdtfSubPhysicalUnit", "fPhysicalFrom"), num 0), (("GdtfSubPhysicalUnit", "fPhysicalTo"), num 0),
  (("GdtfAttribute", "fPhysicalUnit"), .unit .cNone), (("GdtfAttribute", "fColor"), .color white), (("GdtfAttribute", "fHasColor"), .flag false),
  (("GdtfWheelSlotPrismFacet", "fColor"), .color ⟨⟨false, 3127 / 10000⟩, ⟨false, 3290 / 10000⟩, ⟨false, 100⟩⟩),
  (("GdtfWheelSlotPrismFacet", "fTransform"), .rotation .identity),
  (("GdtfWheelSlot", "fColor"), .color white), (("GdtfWheelSlot", "fDuration"), num 0), (("GdtfWheelSlot", "fWidth"), .int .size 0),
  (("GdtfWheelSlot", "fHeight"), .int .size 0), (("GdtfWheelSlot", "fFPS"), .int .size 0),
  (("GdtfModel", "fLength"), num 0), (("GdtfModel", "fWidth"), num 0), (("GdtfModel", "fHeight"), num 0),
  (("GdtfModel", "fPrimitiveType"), .primitive .cUndefined), (("GdtfModel", "fSVGOffsetX"), num 0), (("GdtfModel", "fSVGOffsetY"), num 0),
  (("GdtfModel", "fSVGSideOffsetX"), num 0), (("GdtfModel", "fSVGSideOffsetY"), num 0), (("GdtfModel", "fSVGFrontOffsetX"), num 0),
  (("GdtfModel", "fSVGFrontOffsetY"), num 0),
  (("GdtfGeometryLaser", "fColorType"), .laser .cRGB),
  (("GdtfGeometryWiringObject", "fComponentType"), .component .cInput), (("GdtfGeometryWiringObject", "fOrientation"), .orientation .cLeft),
  (("GdtfGeometryWiringObject", "fFuseRating"), .fuse .cB), (("GdtfGeometryWiringObject", "fPinCount"), .int .size 0),
  (("GdtfGeometryWiringObject", "fSignalLayer"), .int .size 0), (("GdtfGeometryWiringObject", "fElectricalPayLoad"), num 0),
  (("GdtfGeometryWiringObject", "fVoltageRangeMin"), num 0), (("GdtfGeometryWiringObject", "fVoltageRangeMax"), num 0),
  (("GdtfGeometryWiringObject", "fFrequencyRangeMin"), num 0), (("GdtfGeometryWiringObject", "fFrequencyRangeMax"), num 0),
  (("GdtfGeometryWiringObject", "fCosPhi"), num 0), (("GdtfGeometryWiringObject", "fMaxPayLoad"), num 0),
  (("GdtfGeometryWiringObject", "fVoltage"), num 0), (("GdtfGeometryWiringObject", "fFuseCurrent"), num 0),
  (("GdtfGeometrySupport", "fRopeOffset"), .vec ⟨zero, zero, zero⟩),
  (("GdtfGeometryLamp", "fLampType"), .lamp .cDischange), (("GdtfGeometryLamp", "fPowerConsuption"), num 1000),
  (("GdtfGeometryLamp", "fLuminousIntensity"), num 10000), (("GdtfGeometryLamp", "fColorTemperature"), num 6000),
  (("GdtfGeometryLamp", "fBeamAngle"), num 25), (("GdtfGeometryLamp", "fFieldAngle"), num 25), (("GdtfGeometryLamp", "fBeamRadius"), num 50),
  (("GdtfGeometryLamp", "fThrowRatio"), num 1), (("GdtfGeometryLamp", "fRectangleRatio"), .real ⟨false, 17777 / 10000⟩),
  (("GdtfGeometryLamp", "fBeamType"), .beam .cWash), (("GdtfGeometryLamp", "fColorIndex"), .int .s32 100),
  (("GdtfBreak", "fDmxBreak"), .int .s32 1), (("GdtfBreak", "fDmxAdress"), .address 1),
  (("GdtfDmxChannel", "fDmxBreak"), .brk 1), (("GdtfDmxChannel", "fCoarse+fFine+fUltra+fUber"), .offset ⟨0, 0, 0, 0⟩),
  (("GdtfDmxChannel", "fHeighlight+fHeighlightNone"), .high 0 true), (("GdtfDmxChannel", "fDefaultValue_old"), .dmx 0),
  (("GdtfDmxLogicalChannel", "fSnap"), .snap .cNo), (("GdtfDmxLogicalChannel", "fDmxMaster"), .master .cNone),
  (("GdtfDmxLogicalChannel", "fMoveInBlackFrames"), num 0), (("GdtfDmxLogicalChannel", "fDmxChangeTimeLimit"), num 0),
  (("GdtfDmxChannelFunction", "fDefaultValue"), .dmx 0), (("GdtfDmxChannelFunction", "fAdressStart"), .dmx 0),
  (("GdtfDmxChannelFunction", "fPhysicalStart"), num 0), (("GdtfDmxChannelFunction", "fPhysicalEnd"), num 1),
  (("GdtfDmxChannelFunction", "fRealFade"), num 0), (("GdtfDmxChannelFunction", "fRealAcceleration"), num 0),
  (("GdtfDmxChannelFunction", "fMin"), num 0), (("GdtfDmxChannelFunction", "fMax"), num 1),
  (("GdtfDmxChannelFunction", "fDmxModeStart"), .raw []), (("GdtfDmxChannelFunction", "fDmxModeEnd"), .raw []),
  (("GdtfDmxChannelSet", "fDmxStart"), .dmx 0), (("GdtfDmxChannelSet", "fWheelSlotIdx"), .int .s32 0),
  (("GdtfDmxChannelSet", "fPhysicalStart"), num 0), (("GdtfDmxChannelSet", "fPhysicalEnd"), num 1),
  (("GdtfDmxChannelSet", "fSetPhysical"), .flag false),
  (("GdtfDmxSubChannelSet", "fPhysicalFrom"), num 0), (("GdtfDmxSubChannelSet", "fPhysicalTo"), num 1),
  (("GdtfDmxRelation", "fRelationType"), .relation .cOverride),
  (("GdtfRevision", "fDateS"), .date ⟨0, 0, 0, 0, 0, 0⟩), (("GdtfRevision", "fUserId"), .int .size 0),
  (("GdtfPhysicalEmitter", "fColor"), .color white), (("GdtfPhysicalEmitter", "fDominantWaveLength"), num 0),
  (("GdtfMeasurementPoint", "fWaveLength"), num 0), (("GdtfMeasurementPoint", "fEngergy"), num 0),
  (("GdtfFixture", "fGuid"), .uuid (List.replicate 16 0)), (("GdtfFixture", "fThumbnailOffsetX"), .int .s32 0),
  (("GdtfFixture", "fThumbnailOffsetY"), .int .s32 0), (("GdtfFixture", "fCanHaveChildren"), .canHave false),
  (("GdtfFixture", "fLinkedGuid"), .uuid (List.replicate 16 0)), (("GdtfFixture", "fHasLinkedGuid"), .flag false),
  (("GdtfPoint", "fDMXPercentage"), num 0), (("GdtfPoint", "fCFC3"), num 0), (("GdtfPoint", "fCFC2"), num 0), (("GdtfPoint", "fCFC1"), num 0),
  (("GdtfPoint", "fCFC0"), num 0),
  (("GdtfCRIGroup", "fColorTemperature"), num 6000), (("GdtfCRI", "fCES"), .sample .cCES_01), (("GdtfCRI", "fCRI"), .int .u8 100),
  (("GdtfFTRDM", "fManufacturerID"), .hex 0), (("GdtfFTRDM", "fDeviceModelID"), .hex 0), (("GdtfDMXPersonality", "fValue"), .hex 0),
  (("GdtfMacroDMXValue", "fValue"), .raw []), (("GdtfMacroVisualValue", "fDmxValue"), .raw []),
  (("GdtfMacroVisualStep", "fDuration"), num 1), (("GdtfMacroVisualStep", "fFade"), num 0), (("GdtfMacroVisualStep", "fDelay"), num 0),
  (("GdtfSoftwareVersionID", "fValue"), .hex 0), (("GdtfGamut", "fGamutPoints"), .colors []),
  (("GdtfColorSpace", "fColorSpace"), .space .csRGB), (("GdtfColorSpace", "fRed"), .color white), (("GdtfColorSpace", "fGreen"), .color white),
  (("GdtfColorSpace", "fBlue"), .color white), (("GdtfColorSpace", "fWhitePoint"), .color white),
  (("GdtfFilter", "fColor"), .color white),
  (("GdtfMeasurement", "fPhysical"), num 0), (("GdtfMeasurement", "fLuminousIntensity"), num 0), (("GdtfMeasurement", "fTransmission"), num 0),
  (("GdtfMeasurement", "fInterpolationTo"), .interpolation .cLinear),
  (("GdtfMeasurement(true)", "fPhysical"), num 0), (("GdtfMeasurement(true)", "fLuminousIntensity"), num 0),
  (("GdtfMeasurement(true)", "fTransmission"), num 0), (("GdtfMeasurement(true)", "fInterpolationTo"), .interpolation .cLinear),
  (("GdtfConnector", "fDmxBreak"), .int .u32 0), (("GdtfConnector", "fGender"), .int .s32 0), (("GdtfConnector", "fLength"), num 0),
  (("OperatingTemperature", "fOperatingTemperatureLow"), num 0), (("OperatingTemperature", "fOperatingTemperatureHigh"), num 40),
  (("Weight", "fWeight"), num 0), (("LegHeight", "fLegHeight"), num 0)]

/-- A member that has a value: one of the list; the position of a geometry (GDTFManager.cpp:2070-2076); a null pointer; an empty text. -/
def made (cls f : String) : Val :=
  match ctors.find? (fun p => p.1 == (cls, f)) with
  | some p => p.2
  | none =>
    if f = "fMatrix" then .matrix .identity
    else if Node.kinds.any (fun k => k.name == cls && k.writes.any (fun i => i.field == f && decide (i.codec = .ref))) then .link none
    else .text []

/-- What is in a member without a value. -/
def Raw.val (m : Memory) (cls f : String) : Raw → Val
  | .real => .real (m.real cls f)
  | .size => .int .size (m.nat cls f)
  | .u32 => .int .u32 (m.nat cls f)
  | .point => .point (m.real cls f) (m.real f cls)
  | .flag => .flag (m.nat cls f != 0)
  | .truss => .truss m.truss
  | .section_ => .section_ m.section_
  | .support => .support m.support

/-- The members behind the constructor of a class. -/
def ctor (m : Memory) (cls f : String) : Val :=
  match unset.find? (fun p => p.1 == (cls, f)) with
  | some p => p.2.val m cls f
  | none => made cls f

end Verif.Gdtf
