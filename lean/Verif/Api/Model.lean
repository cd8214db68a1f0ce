/-!
# Model of the indexed getters of the public API

Every list of an object is read through a pair of functions: a count getter and a getter that takes an
index.  The rows below are transcribed from the bodies of these functions; the comment of each row names
the file and lines of the indexed getter and the count getter beside it.
-/

namespace Verif.Api

/-- The bound check in front of the access: `at >= size` (or `size <= at`) refuses, or only `at > size`
(or `size < at`) does. -/
inductive Guard where
  | ge
  | gt
  deriving DecidableEq, Repr

/-- `std::vector::operator[]` (undefined outside of the vector) or `std::vector::at` (throws). -/
inductive Access where
  | unchecked
  | checked
  deriving DecidableEq, Repr

/-- One indexed getter with its count getter. -/
structure Getter where
  cls : String
  fn : String
  /-- The object works on a pointer that may be unset. -/
  handle : Bool
  /-- The getter checks that pointer before it uses it. -/
  nullCheck : Bool
  guard : Guard
  /-- The array whose size the bound check uses. -/
  guardOf : String
  access : Access
  /-- The array that is read. -/
  elemOf : String
  /-- An array of result texts that is written at the same index with `operator[]`. -/
  storeOf : Option String
  countFn : String
  /-- The array whose size the count getter reports. -/
  countOf : String
  /-- The value found reaches the caller. -/
  delivers : Bool
  deriving DecidableEq, Repr

/-- An API object: whether its pointer is set, and its arrays. -/
structure Obj (α : Type) where
  isSet : Bool
  arr : String → List α

/-- What a call does. -/
inductive Out (α : Type) where
  | notInitialised
  | refused
  | value (a : α)
  | nothing
  | thrown
  | undefined
  deriving DecidableEq, Repr

/-- The count getters, e.g. Implementation/CGdtfWheel.cpp:30-38.  Simplified: the type checks of
geometries and scene objects in front of the count are part of `isSet`. -/
def Getter.count (g : Getter) (o : Obj α) : Option Nat :=
  if g.handle && !o.isSet then none else some (o.arr g.countOf).length

/-- The bound check in front of the access. -/
def Getter.refuses (g : Getter) (o : Obj α) (i : Nat) : Bool :=
  match g.guard with
  | .ge => decide (i ≥ (o.arr g.guardOf).length)
  | .gt => decide (i > (o.arr g.guardOf).length)

/-- The indexed getters, e.g. Implementation/CGdtfWheel.cpp:40-86.  Simplified: creating the interface
object around the element found always succeeds; the element stands for it. -/
def Getter.get (g : Getter) (o : Obj α) (i : Nat) : Out α :=
  if g.handle && !o.isSet then
    if g.nullCheck then .notInitialised else .undefined
  else if g.refuses o i then .refused
  else
    match (o.arr g.elemOf)[i]? with
    | none =>
      match g.access with
      | .unchecked => .undefined
      | .checked => .thrown
    | some a =>
      let stored := match g.storeOf with
        | none => true
        | some s => decide (i < (o.arr s).length)
      if !stored then .undefined
      else if g.delivers then .value a else .nothing

/-- Rows 1 to 23 of the table. -/
def getters1 : List Getter := [
  -- Implementation/CGdtfActivationGroup.cpp:64-110, GetAttributeCount
  { cls := "CGdtfActivationGroupImpl", fn := "GetAttributeAt", handle := true, nullCheck := true, guard := .ge,
    guardOf := "GetLinkedAttributes", access := .unchecked, elemOf := "GetLinkedAttributes", storeOf := none, countFn := "GetAttributeCount",
    countOf := "GetLinkedAttributes", delivers := true },
  -- Implementation/CGdtfArtNet.cpp:30-74, GetMapCount
  { cls := "CGdtfArtNetImpl", fn := "GetMapAt", handle := true, nullCheck := true, guard := .ge,
    guardOf := "GetMapArray", access := .unchecked, elemOf := "GetMapArray", storeOf := none, countFn := "GetMapCount",
    countOf := "GetMapArray", delivers := true },
  -- Implementation/CGdtfAttribute.cpp:290-334, GetSubPhysicalUnitCount
  { cls := "CGdtfAttributeImpl", fn := "GetSubPhysicalUnitAt", handle := true, nullCheck := true, guard := .gt,
    guardOf := "GetSubPhysicalUnitArray", access := .unchecked, elemOf := "GetSubPhysicalUnitArray", storeOf := none, countFn := "GetSubPhysicalUnitCount",
    countOf := "GetSubPhysicalUnitArray", delivers := true },
  -- Implementation/CGdtfCRIGroup.cpp:47-101, GetCRICount
  { cls := "CGdtfCRIGroupImpl", fn := "GetCRIAt", handle := true, nullCheck := true, guard := .ge,
    guardOf := "GetCRI_Array", access := .unchecked, elemOf := "GetCRI_Array", storeOf := none, countFn := "GetCRICount",
    countOf := "GetCRI_Array", delivers := true },
  -- Implementation/CGdtfDmxChannel.cpp:246-289, GetLogicalChannelCount
  { cls := "CGdtfDmxChannelImpl", fn := "GetLogicalChannelAt", handle := true, nullCheck := true, guard := .ge,
    guardOf := "GetLogicalChannelArray", access := .unchecked, elemOf := "GetLogicalChannelArray", storeOf := none, countFn := "GetLogicalChannelCount",
    countOf := "GetLogicalChannelArray", delivers := true },
  -- Implementation/CGdtfDmxChannelFunction.cpp:695-739, GetDmxChannelSetCount
  { cls := "CGdtfDmxChannelFunctionImpl", fn := "GetDmxChannelSetAt", handle := true, nullCheck := true, guard := .ge,
    guardOf := "GetChannelSets", access := .unchecked, elemOf := "GetChannelSets", storeOf := none, countFn := "GetDmxChannelSetCount",
    countOf := "GetChannelSets", delivers := true },
  -- Implementation/CGdtfDmxChannelFunction.cpp:798-841, GetDmxSubChannelSetCount
  { cls := "CGdtfDmxChannelFunctionImpl", fn := "GetDmxSubChannelSetAt", handle := true, nullCheck := true, guard := .ge,
    guardOf := "GetSubChannelSets", access := .unchecked, elemOf := "GetSubChannelSets", storeOf := none, countFn := "GetDmxSubChannelSetCount",
    countOf := "GetSubChannelSets", delivers := true },
  -- Implementation/CGdtfDmxLogicalChannel.cpp:184-227, GetDmxFunctionCount
  { cls := "CGdtfDmxLogicalChannelImpl", fn := "GetDmxFunctionAt", handle := true, nullCheck := true, guard := .ge,
    guardOf := "GetDmxChannelFunctions", access := .unchecked, elemOf := "GetDmxChannelFunctions", storeOf := none, countFn := "GetDmxFunctionCount",
    countOf := "GetDmxChannelFunctions", delivers := true },
  -- Implementation/CGdtfDmxMode.cpp:126-170, GetDmxChannelCount
  { cls := "CGdtfDmxModeImpl", fn := "GetDmxChannelAt", handle := true, nullCheck := true, guard := .ge,
    guardOf := "GetChannelArray", access := .unchecked, elemOf := "GetChannelArray", storeOf := none, countFn := "GetDmxChannelCount",
    countOf := "GetChannelArray", delivers := true },
  -- Implementation/CGdtfDmxMode.cpp:233-280, GetDmxRelationCount
  { cls := "CGdtfDmxModeImpl", fn := "GetDmxRelationAt", handle := true, nullCheck := true, guard := .ge,
    guardOf := "GetDmxRelations", access := .unchecked, elemOf := "GetDmxRelations", storeOf := none, countFn := "GetDmxRelationCount",
    countOf := "GetDmxRelations", delivers := true },
  -- Implementation/CGdtfDmxMode.cpp:361-408, GetDmxMacroCount
  { cls := "CGdtfDmxModeImpl", fn := "GetDmxMacroAt", handle := true, nullCheck := true, guard := .ge,
    guardOf := "GetDmxMacrosArray", access := .unchecked, elemOf := "GetDmxMacrosArray", storeOf := none, countFn := "GetDmxMacroCount",
    countOf := "GetDmxMacrosArray", delivers := true },
  -- Implementation/CGdtfDmxMode.cpp:465-475, GetBreakCount
  { cls := "CGdtfDmxModeImpl", fn := "GetBreakAt", handle := true, nullCheck := false, guard := .ge,
    guardOf := "GetBreakArray", access := .unchecked, elemOf := "GetBreakArray", storeOf := none, countFn := "GetBreakCount",
    countOf := "GetBreakArray", delivers := true },
  -- Implementation/CGdtfDmxProfile.cpp:46-91, GetPointCount
  { cls := "CGdtfDMXProfileImpl", fn := "GetPointAt", handle := true, nullCheck := true, guard := .ge,
    guardOf := "GetPointArray", access := .unchecked, elemOf := "GetPointArray", storeOf := none, countFn := "GetPointCount",
    countOf := "GetPointArray", delivers := true },
  -- Implementation/CGdtfFTRDM.cpp:72-118, GetSoftwareVersionIDCount
  { cls := "CGdtf_FTRDMImpl", fn := "GetSoftwareVersionIDAt", handle := true, nullCheck := true, guard := .ge,
    guardOf := "GetSoftwareVersIDs", access := .unchecked, elemOf := "GetSoftwareVersIDs", storeOf := none, countFn := "GetSoftwareVersionIDCount",
    countOf := "GetSoftwareVersIDs", delivers := true },
  -- Implementation/CGdtfFeature.cpp:80-126, GetAttributeCount
  { cls := "CGdtfFeatureImpl", fn := "GetAttributeAt", handle := true, nullCheck := true, guard := .ge,
    guardOf := "GetLinkedAttributes", access := .unchecked, elemOf := "GetLinkedAttributes", storeOf := none, countFn := "GetAttributeCount",
    countOf := "GetLinkedAttributes", delivers := true },
  -- Implementation/CGdtfFeatureGroup.cpp:57-103, GetFeatureCount
  { cls := "CGdtfFeatureGroupImpl", fn := "GetFeatureAt", handle := true, nullCheck := true, guard := .ge,
    guardOf := "GetFeatureArray", access := .unchecked, elemOf := "GetFeatureArray", storeOf := none, countFn := "GetFeatureCount",
    countOf := "GetFeatureArray", delivers := true },
  -- Implementation/CGdtfFilter.cpp:102-148, GetMeasurementCount
  { cls := "CGdtfFilterImpl", fn := "GetMeasurementAt", handle := true, nullCheck := true, guard := .ge,
    guardOf := "GetMeasurementsArray", access := .unchecked, elemOf := "GetMeasurementsArray", storeOf := none, countFn := "GetMeasurementCount",
    countOf := "GetMeasurementsArray", delivers := true },
  -- Implementation/CGdtfFixture.cpp:435-480, GetActivationGroupCount
  { cls := "CGdtfFixtureImpl", fn := "GetActivationGroupAt", handle := true, nullCheck := true, guard := .ge,
    guardOf := "GetActivationGroupArray", access := .unchecked, elemOf := "GetActivationGroupArray", storeOf := none, countFn := "GetActivationGroupCount",
    countOf := "GetActivationGroupArray", delivers := true },
  -- Implementation/CGdtfFixture.cpp:538-584, GetFeatureGroupCount
  { cls := "CGdtfFixtureImpl", fn := "GetFeatureGroupAt", handle := true, nullCheck := true, guard := .ge,
    guardOf := "GetFeatureGroupArray", access := .unchecked, elemOf := "GetFeatureGroupArray", storeOf := none, countFn := "GetFeatureGroupCount",
    countOf := "GetFeatureGroupArray", delivers := true },
  -- Implementation/CGdtfFixture.cpp:642-688, GetAttributeCount
  { cls := "CGdtfFixtureImpl", fn := "GetAttributeAt", handle := true, nullCheck := true, guard := .ge,
    guardOf := "GetAttributeArray", access := .unchecked, elemOf := "GetAttributeArray", storeOf := none, countFn := "GetAttributeCount",
    countOf := "GetAttributeArray", delivers := true },
  -- Implementation/CGdtfFixture.cpp:746-792, GetWheelCount
  { cls := "CGdtfFixtureImpl", fn := "GetWheelAt", handle := true, nullCheck := true, guard := .ge,
    guardOf := "GetWheelArray", access := .unchecked, elemOf := "GetWheelArray", storeOf := none, countFn := "GetWheelCount",
    countOf := "GetWheelArray", delivers := true },
  -- Implementation/CGdtfFixture.cpp:849-895, GetModelCount
  { cls := "CGdtfFixtureImpl", fn := "GetModelAt", handle := true, nullCheck := true, guard := .ge,
    guardOf := "GetModelArray", access := .unchecked, elemOf := "GetModelArray", storeOf := none, countFn := "GetModelCount",
    countOf := "GetModelArray", delivers := true },
  -- Implementation/CGdtfFixture.cpp:952-998, GetGeometryCount
  { cls := "CGdtfFixtureImpl", fn := "GetGeometryAt", handle := true, nullCheck := true, guard := .ge,
    guardOf := "GetGeometryArray", access := .unchecked, elemOf := "GetGeometryArray", storeOf := none, countFn := "GetGeometryCount",
    countOf := "GetGeometryArray", delivers := true } ]

/-- Rows 24 to 46 of the table. -/
def getters2 : List Getter := [
  -- Implementation/CGdtfFixture.cpp:1098-1144, GetDmxModeCount
  { cls := "CGdtfFixtureImpl", fn := "GetDmxModeAt", handle := true, nullCheck := true, guard := .ge,
    guardOf := "GetDmxModeArray", access := .unchecked, elemOf := "GetDmxModeArray", storeOf := none, countFn := "GetDmxModeCount",
    countOf := "GetDmxModeArray", delivers := true },
  -- Implementation/CGdtfFixture.cpp:1201-1247, GetRevisionCount
  { cls := "CGdtfFixtureImpl", fn := "GetRevisionAt", handle := true, nullCheck := true, guard := .ge,
    guardOf := "GetRevisionArray", access := .unchecked, elemOf := "GetRevisionArray", storeOf := none, countFn := "GetRevisionCount",
    countOf := "GetRevisionArray", delivers := true },
  -- Implementation/CGdtfFixture.cpp:1304-1350, GetPresetCount
  { cls := "CGdtfFixtureImpl", fn := "GetPresetAt", handle := true, nullCheck := true, guard := .ge,
    guardOf := "GetPresetArray", access := .unchecked, elemOf := "GetPresetArray", storeOf := none, countFn := "GetPresetCount",
    countOf := "GetPresetArray", delivers := true },
  -- Implementation/CGdtfFixture.cpp:1716-1761, GetAdditionalColorSpaceCount
  { cls := "CGdtfFixtureImpl", fn := "GetAdditionalColorSpaceAt", handle := true, nullCheck := true, guard := .ge,
    guardOf := "GetAdditionalColorSpaceArray", access := .unchecked, elemOf := "GetAdditionalColorSpaceArray", storeOf := none, countFn := "GetAdditionalColorSpaceCount",
    countOf := "GetAdditionalColorSpaceArray", delivers := true },
  -- Implementation/CGdtfFixture.cpp:1819-1863, GetGamutCount
  { cls := "CGdtfFixtureImpl", fn := "GetGamutAt", handle := true, nullCheck := true, guard := .ge,
    guardOf := "GetGamutArray", access := .unchecked, elemOf := "GetGamutArray", storeOf := none, countFn := "GetGamutCount",
    countOf := "GetGamutArray", delivers := true },
  -- Implementation/CGdtfFixture.cpp:1923-1968, GetEmitterCount
  { cls := "CGdtfFixtureImpl", fn := "GetEmitterAt", handle := true, nullCheck := true, guard := .ge,
    guardOf := "GetPhysicalEmitterArray", access := .unchecked, elemOf := "GetPhysicalEmitterArray", storeOf := none, countFn := "GetEmitterCount",
    countOf := "GetPhysicalEmitterArray", delivers := true },
  -- Implementation/CGdtfFixture.cpp:2027-2073, GetFilterCount
  { cls := "CGdtfFixtureImpl", fn := "GetFilterAt", handle := true, nullCheck := true, guard := .ge,
    guardOf := "GetFilterArray", access := .unchecked, elemOf := "GetFilterArray", storeOf := none, countFn := "GetFilterCount",
    countOf := "GetFilterArray", delivers := true },
  -- Implementation/CGdtfFixture.cpp:2132-2178, GetDMXProfileCount
  { cls := "CGdtfFixtureImpl", fn := "GetDMXProfileAt", handle := true, nullCheck := true, guard := .ge,
    guardOf := "GetDmxProfileArray", access := .unchecked, elemOf := "GetDmxProfileArray", storeOf := none, countFn := "GetDMXProfileCount",
    countOf := "GetDmxProfileArray", delivers := true },
  -- Implementation/CGdtfFixture.cpp:2235-2290, GetCRIGroupCount
  { cls := "CGdtfFixtureImpl", fn := "GetCRIGroupAt", handle := true, nullCheck := true, guard := .ge,
    guardOf := "GetCRIGroupArray", access := .unchecked, elemOf := "GetCRIGroupArray", storeOf := none, countFn := "GetCRIGroupCount",
    countOf := "GetCRIGroupArray", delivers := true },
  -- Implementation/CGdtfFixture.cpp:2356-2401, GetParsingErrorCount
  { cls := "CGdtfFixtureImpl", fn := "GetParsingErrorAt", handle := true, nullCheck := true, guard := .ge,
    guardOf := "GetParsingErrorArray", access := .unchecked, elemOf := "GetParsingErrorArray", storeOf := none, countFn := "GetParsingErrorCount",
    countOf := "GetParsingErrorArray", delivers := true },
  -- Implementation/CGdtfFixture.cpp:2412-2425, GetImageRessourcesCount
  { cls := "CGdtfFixtureImpl", fn := "GetImageRessourcesPathAt", handle := true, nullCheck := true, guard := .ge,
    guardOf := "fLocalFilesFullPath", access := .checked, elemOf := "fLocalFilesFullPath", storeOf := none, countFn := "GetImageRessourcesCount",
    countOf := "fLocalFilesFullPath", delivers := true },
  -- Implementation/CGdtfFixture.cpp:2540-2585, GetConnectorCount
  { cls := "CGdtfFixtureImpl", fn := "GetConnectorAt", handle := true, nullCheck := true, guard := .ge,
    guardOf := "GetConnectorArray", access := .unchecked, elemOf := "GetConnectorArray", storeOf := none, countFn := "GetConnectorCount",
    countOf := "GetConnectorArray", delivers := true },
  -- Implementation/CGdtfGamut.cpp:50-62, GetPointCount
  { cls := "CGdtfGamutImpl", fn := "GetPointAt", handle := true, nullCheck := true, guard := .gt,
    guardOf := "GetGamutPoints", access := .unchecked, elemOf := "GetGamutPoints", storeOf := none, countFn := "GetPointCount",
    countOf := "GetGamutPoints", delivers := true },
  -- Implementation/CGdtfGeometry.cpp:157-203, GetInternalGeometryCount
  { cls := "CGdtfGeometryImpl", fn := "GetInternalGeometryAt", handle := true, nullCheck := true, guard := .ge,
    guardOf := "GetInternalGeometries", access := .unchecked, elemOf := "GetInternalGeometries", storeOf := none, countFn := "GetInternalGeometryCount",
    countOf := "GetInternalGeometries", delivers := true },
  -- Implementation/CGdtfGeometry.cpp:781-831, GetBreakCount
  { cls := "CGdtfGeometryImpl", fn := "GetBreakAt", handle := true, nullCheck := true, guard := .gt,
    guardOf := "GetBreakArray", access := .unchecked, elemOf := "GetBreakArray", storeOf := none, countFn := "GetBreakCount",
    countOf := "GetBreakArray", delivers := true },
  -- Implementation/CGdtfGeometry.cpp:1089-1136, GetCountLinkedDmxChannel
  { cls := "CGdtfGeometryImpl", fn := "GetLinkedDmxChannelAt", handle := false, nullCheck := false, guard := .ge,
    guardOf := "channels", access := .unchecked, elemOf := "channels", storeOf := none, countFn := "GetCountLinkedDmxChannel",
    countOf := "channels", delivers := true },
  -- Implementation/CGdtfGeometry.cpp:1501-1551, GetLaserProtocolCount
  { cls := "CGdtfGeometryImpl", fn := "GetLaserProtocolAt", handle := true, nullCheck := true, guard := .gt,
    guardOf := "GetLaserProtocolArray", access := .unchecked, elemOf := "GetLaserProtocolArray", storeOf := none, countFn := "GetLaserProtocolCount",
    countOf := "GetLaserProtocolArray", delivers := true },
  -- Implementation/CGdtfGeometry.cpp:2124-2174, GetPinPatchCount
  { cls := "CGdtfGeometryImpl", fn := "GetPinPatchAt", handle := true, nullCheck := true, guard := .gt,
    guardOf := "GetPinPatchArray", access := .unchecked, elemOf := "GetPinPatchArray", storeOf := none, countFn := "GetPinPatchCount",
    countOf := "GetPinPatchArray", delivers := true },
  -- Implementation/CGdtfMacroDMX.cpp:97-141, GetStepCount
  { cls := "CGdtfMacroDMXImpl", fn := "GetStepAt", handle := true, nullCheck := true, guard := .ge,
    guardOf := "GetStepArray", access := .unchecked, elemOf := "GetStepArray", storeOf := none, countFn := "GetStepCount",
    countOf := "GetStepArray", delivers := true },
  -- Implementation/CGdtfMacroDMXStep.cpp:47-90, GetDMXValueCount
  { cls := "CGdtfMacroDMXStepImpl", fn := "GetDMXValueAt", handle := true, nullCheck := true, guard := .ge,
    guardOf := "GetDMXValueArray", access := .unchecked, elemOf := "GetDMXValueArray", storeOf := none, countFn := "GetDMXValueCount",
    countOf := "GetDMXValueArray", delivers := true },
  -- Implementation/CGdtfMacroVisual.cpp:27-72, GetVisualStepCount
  { cls := "CGdtfMacroVisualImpl", fn := "GetVisualStepAt", handle := true, nullCheck := true, guard := .ge,
    guardOf := "GetVisualStepArray", access := .unchecked, elemOf := "GetVisualStepArray", storeOf := none, countFn := "GetVisualStepCount",
    countOf := "GetVisualStepArray", delivers := true },
  -- Implementation/CGdtfMacroVisualStep.cpp:87-132, GetVisualValueCount
  { cls := "CGdtfMacroVisualStepImpl", fn := "GetVisualValueAt", handle := true, nullCheck := true, guard := .ge,
    guardOf := "GetVisualValueArray", access := .unchecked, elemOf := "GetVisualValueArray", storeOf := none, countFn := "GetVisualValueCount",
    countOf := "GetVisualValueArray", delivers := true },
  -- Implementation/CGdtfMeasurement.cpp:109-155, GetMeasurementPointCount
  { cls := "CGdtfMeasurementImpl", fn := "GetMeasurementPointAt", handle := true, nullCheck := true, guard := .ge,
    guardOf := "GetMeasurementPointsArray", access := .unchecked, elemOf := "GetMeasurementPointsArray", storeOf := none, countFn := "GetMeasurementPointCount",
    countOf := "GetMeasurementPointsArray", delivers := true } ]

/-- Rows 47 to 69 of the table. -/
def getters3 : List Getter := [
  -- Implementation/CGdtfPhysicalEmitter.cpp:53-98, GetMeasurementCount
  { cls := "CGdtfPhysicalEmitterImpl", fn := "GetMeasurementAt", handle := true, nullCheck := true, guard := .ge,
    guardOf := "GetMeasurements", access := .unchecked, elemOf := "GetMeasurements", storeOf := none, countFn := "GetMeasurementCount",
    countOf := "GetMeasurements", delivers := true },
  -- Implementation/CGdtfSACN.cpp:30-74, GetMapCount
  { cls := "CGdtfSACNImpl", fn := "GetMapAt", handle := true, nullCheck := true, guard := .ge,
    guardOf := "GetMapArray", access := .unchecked, elemOf := "GetMapArray", storeOf := none, countFn := "GetMapCount",
    countOf := "GetMapArray", delivers := true },
  -- Implementation/CGdtfSoftwareVersionID.cpp:51-97, GetDMXPersonalityCount
  { cls := "CGdtfSoftwareVersionIDImpl", fn := "GetDMXPersonalityAt", handle := true, nullCheck := true, guard := .ge,
    guardOf := "GetDMXPersonalityArray", access := .unchecked, elemOf := "GetDMXPersonalityArray", storeOf := none, countFn := "GetDMXPersonalityCount",
    countOf := "GetDMXPersonalityArray", delivers := true },
  -- Implementation/CGdtfWheel.cpp:40-86, GetWheelSlotCount
  { cls := "CGdtfWheelImpl", fn := "GetWheelSlotAt", handle := true, nullCheck := true, guard := .ge,
    guardOf := "GetWheelSlotArray", access := .unchecked, elemOf := "GetWheelSlotArray", storeOf := none, countFn := "GetWheelSlotCount",
    countOf := "GetWheelSlotArray", delivers := true },
  -- Implementation/CGdtfWheelSlot.cpp:99-144, GetPrismFacetCount
  { cls := "CGdtfWheelSlotImpl", fn := "GetPrismFacetAt", handle := true, nullCheck := true, guard := .ge,
    guardOf := "GetPrismFacets", access := .unchecked, elemOf := "GetPrismFacets", storeOf := none, countFn := "GetPrismFacetCount",
    countOf := "GetPrismFacets", delivers := true },
  -- Implementation/CMediaRessourceVectorImpl.cpp:1031-1078, GetDataProviderObjectCount
  { cls := "CMediaRessourceVectorImpl", fn := "GetDataProviderObjectAt", handle := false, nullCheck := false, guard := .ge,
    guardOf := "GetProviderObjects", access := .checked, elemOf := "GetProviderObjects", storeOf := none, countFn := "GetDataProviderObjectCount",
    countOf := "GetProviderObjects", delivers := true },
  -- Implementation/CMediaRessourceVectorImpl.cpp:1087-1133, GetPositionObjectCount
  { cls := "CMediaRessourceVectorImpl", fn := "GetPositionObjectAt", handle := false, nullCheck := false, guard := .ge,
    guardOf := "GetPositionObjects", access := .checked, elemOf := "GetPositionObjects", storeOf := none, countFn := "GetPositionObjectCount",
    countOf := "GetPositionObjects", delivers := true },
  -- Implementation/CMediaRessourceVectorImpl.cpp:1142-1196, GetSymDefCount
  { cls := "CMediaRessourceVectorImpl", fn := "GetSymDefAt", handle := false, nullCheck := false, guard := .ge,
    guardOf := "GetSymDefObjects", access := .checked, elemOf := "GetSymDefObjects", storeOf := none, countFn := "GetSymDefCount",
    countOf := "GetSymDefObjects", delivers := true },
  -- Implementation/CMediaRessourceVectorImpl.cpp:1205-1251, GetClassCount
  { cls := "CMediaRessourceVectorImpl", fn := "GetClassAt", handle := false, nullCheck := false, guard := .ge,
    guardOf := "GetClassObjects", access := .checked, elemOf := "GetClassObjects", storeOf := none, countFn := "GetClassCount",
    countOf := "GetClassObjects", delivers := true },
  -- Implementation/CMediaRessourceVectorImpl.cpp:1260-1306, GetMappingDefinitionCount
  { cls := "CMediaRessourceVectorImpl", fn := "GetMappingDefinitionAt", handle := false, nullCheck := false, guard := .ge,
    guardOf := "GetMappingDefinitionObjects", access := .checked, elemOf := "GetMappingDefinitionObjects", storeOf := none, countFn := "GetMappingDefinitionCount",
    countOf := "GetMappingDefinitionObjects", delivers := true },
  -- Implementation/CMediaRessourceVectorImpl.cpp:1500-1510, GetAttachedFileCount
  { cls := "CMediaRessourceVectorImpl", fn := "GetAttachedFileCountAt", handle := false, nullCheck := false, guard := .ge,
    guardOf := "fFilesInZip", access := .checked, elemOf := "fFilesInZip", storeOf := some "fullPathStorage", countFn := "GetAttachedFileCount",
    countOf := "fFilesInZip", delivers := true },
  -- Implementation/CSceneDataProviderImpl.cpp:54-72, GetKeyValueCount
  { cls := "CSceneDataProviderImpl", fn := "GetKeyAt", handle := true, nullCheck := true, guard := .ge,
    guardOf := "fKeyArr", access := .unchecked, elemOf := "fKeyArr", storeOf := none, countFn := "GetKeyValueCount",
    countOf := "fKeyArr", delivers := true },
  -- Implementation/CSceneDataProviderImpl.cpp:100-117, GetKeyValueCount
  { cls := "CSceneDataProviderImpl", fn := "GetValueAt", handle := true, nullCheck := true, guard := .ge,
    guardOf := "fKeyArr", access := .unchecked, elemOf := "fDataArr", storeOf := none, countFn := "GetKeyValueCount",
    countOf := "fKeyArr", delivers := true },
  -- Implementation/CSceneObjImpl.cpp:180-235, GetGeometryCount
  { cls := "CSceneObjImpl", fn := "GetGeometryAt", handle := true, nullCheck := true, guard := .ge,
    guardOf := "GetGeometryArr", access := .checked, elemOf := "GetGeometryArr", storeOf := none, countFn := "GetGeometryCount",
    countOf := "GetGeometryArr", delivers := true },
  -- Implementation/CSceneObjImpl.cpp:557-608, GetCustomCommandCount
  { cls := "CSceneObjImpl", fn := "GetCustomCommandAt", handle := true, nullCheck := true, guard := .ge,
    guardOf := "GetCustomCommandArray", access := .checked, elemOf := "GetCustomCommandArray", storeOf := none, countFn := "GetCustomCommandCount",
    countOf := "GetCustomCommandArray", delivers := true },
  -- Implementation/CSceneObjImpl.cpp:666-717, GetAlignmentCount
  { cls := "CSceneObjImpl", fn := "GetAlignmentAt", handle := true, nullCheck := true, guard := .ge,
    guardOf := "GetAlignmentArray", access := .checked, elemOf := "GetAlignmentArray", storeOf := none, countFn := "GetAlignmentCount",
    countOf := "GetAlignmentArray", delivers := true },
  -- Implementation/CSceneObjImpl.cpp:779-830, GetOverwriteCount
  { cls := "CSceneObjImpl", fn := "GetOverwriteAt", handle := true, nullCheck := true, guard := .ge,
    guardOf := "GetOverwriteArray", access := .checked, elemOf := "GetOverwriteArray", storeOf := none, countFn := "GetOverwriteCount",
    countOf := "GetOverwriteArray", delivers := true },
  -- Implementation/CSceneObjImpl.cpp:1022-1054, GetProtocolsCount
  { cls := "CSceneObjImpl", fn := "GetProtocolAt", handle := true, nullCheck := true, guard := .gt,
    guardOf := "GetProtocolsArray", access := .checked, elemOf := "GetProtocolsArray", storeOf := none, countFn := "GetProtocolsCount",
    countOf := "GetProtocolsArray", delivers := false },
  -- Implementation/CSceneObjImpl.cpp:1075-1102, GetAdressCount
  { cls := "CSceneObjImpl", fn := "GetAdressAt", handle := true, nullCheck := true, guard := .gt,
    guardOf := "GetAdressesArray", access := .checked, elemOf := "GetAdressesArray", storeOf := none, countFn := "GetAdressCount",
    countOf := "GetAdressesArray", delivers := true },
  -- Implementation/CSceneObjImpl.cpp:1361-1419, GetMappingCount
  { cls := "CSceneObjImpl", fn := "GetMappingAt", handle := true, nullCheck := true, guard := .ge,
    guardOf := "GetMappingsArray", access := .checked, elemOf := "GetMappingsArray", storeOf := none, countFn := "GetMappingCount",
    countOf := "GetMappingsArray", delivers := true },
  -- Implementation/CSceneObjImpl.cpp:1440-1485, GetConnectionCount
  { cls := "CSceneObjImpl", fn := "GetConnectionAt", handle := true, nullCheck := true, guard := .ge,
    guardOf := "GetConnectionArr", access := .checked, elemOf := "GetConnectionArr", storeOf := none, countFn := "GetConnectionCount",
    countOf := "GetConnectionArr", delivers := true },
  -- Implementation/CSymDefImpl.cpp:59-114, GetGeometryCount
  { cls := "CSymDefImpl", fn := "GetGeometryAt", handle := true, nullCheck := true, guard := .ge,
    guardOf := "getGeometryArray", access := .checked, elemOf := "getGeometryArray", storeOf := none, countFn := "GetGeometryCount",
    countOf := "getGeometryArray", delivers := true },
  -- mvrxchange/CMVRxchangeService.cpp:177-188, QueryLocalServices
  { cls := "CMVRxchangeServiceImpl", fn := "GetLocalServiceAt", handle := false, nullCheck := false, guard := .gt,
    guardOf := "fQueryLocalServicesResult", access := .unchecked, elemOf := "fQueryLocalServicesResult", storeOf := none, countFn := "QueryLocalServices",
    countOf := "fQueryLocalServicesResult", delivers := true } ]

/-- All indexed getters of src/Implementation and src/mvrxchange. -/
def getters : List Getter := getters1 ++ getters2 ++ getters3

/-- The two arrays of a data provider object (SceneDataExchange.h:155-156) after a history of
`AddEntry` calls: SceneDataExchange.cpp:420-424; reading a file (380-396) appends in the same way. -/
def addEntry (o : Obj α) (key value : α) : Obj α where
  isSet := o.isSet
  arr n := if n = "fKeyArr" then o.arr n ++ [key] else if n = "fDataArr" then o.arr n ++ [value] else o.arr n

/-- `CMediaRessourceVectorImpl::OpenForRead`, CMediaRessourceVectorImpl.cpp:999-1022: the files of the
archive are appended to the file list (SceneDataExchange.cpp:3751-3768; `ReadFromFile` always succeeds)
and the texts are set to as many empty ones. -/
def openForRead (o : Obj α) (empty : α) (files : List α) : Obj α where
  isSet := o.isSet
  arr n :=
    if n = "fFilesInZip" then o.arr n ++ files
    else if n = "fullPathStorage" then List.replicate (o.arr "fFilesInZip" ++ files).length empty
    else o.arr n

end Verif.Api
