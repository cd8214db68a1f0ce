import Verif.Gdtf.Model

/-!
# The classes of a GDTF file and their children

One row per class, transcribed from `OnPrintToFile`, `OnReadFromNode` and `GetNodeName` (lines as listed).  Simplified:
`AttributeDefinitions` and `Properties` with its three nodes are written and read by the fixture and the physical
descriptions themselves; here they are objects of their own that these always contain.
-/

namespace Verif.Gdtf

/-- GDTFManager.h: the subclasses of `GdtfGeometry` and this class itself, the contents of `TGdtfGeometryArray`. -/
def geometries : List String := ["GdtfGeometryAxis", "GdtfGeometry", "GdtfGeometryBeamFilter",
  "GdtfGeometryColorFilter", "GdtfGeometryGoboFilter", "GdtfGeometryShaperFilter", "GdtfGeometryLamp",
  "GdtfGeometryMediaServerCamera", "GdtfGeometryMediaServerLayer", "GdtfGeometryMediaServerMaster",
  "GdtfGeometryReference", "GdtfGeometryDisplay", "GdtfGeometryLaser", "GdtfGeometryWiringObject",
  "GdtfGeometryInventory", "GdtfGeometryStructure", "GdtfGeometrySupport", "GdtfGeometryMagnet"]

/-- GDTFManager.cpp:2310-2336 and 9730-9755: the node names that are read as a geometry, and the class created for each. -/
def geometryNodes : List (String × String) := [("Axis", "GdtfGeometryAxis"), ("Geometry", "GdtfGeometry"),
  ("FilterBeam", "GdtfGeometryBeamFilter"), ("FilterColor", "GdtfGeometryColorFilter"), ("FilterGobo",
  "GdtfGeometryGoboFilter"), ("FilterShaper", "GdtfGeometryShaperFilter"), ("Beam", "GdtfGeometryLamp"),
  ("MediaServerCamera", "GdtfGeometryMediaServerCamera"), ("MediaServerLayer", "GdtfGeometryMediaServerLayer"),
  ("MediaServerMaster", "GdtfGeometryMediaServerMaster"), ("GeometryReference", "GdtfGeometryReference"), ("Display",
  "GdtfGeometryDisplay"), ("Laser", "GdtfGeometryLaser"), ("WiringObject", "GdtfGeometryWiringObject"), ("Inventory",
  "GdtfGeometryInventory"), ("Structure", "GdtfGeometryStructure"), ("Support", "GdtfGeometrySupport"), ("Magnet",
  "GdtfGeometryMagnet")]

/-- The classes. -/
def classes : List Class := [
  -- GDTFManager.cpp:137-148, 150-161, 185-188
  { name := "GdtfActivationGroup", node := "ActivationGroup", slots := [] },
  -- GDTFManager.cpp:223-234, 236-247, 271-274
  { name := "GdtfFeature", node := "Feature", slots := [] },
  -- GDTFManager.cpp:336-354, 356-383, 407-410
  { name := "GdtfFeatureGroup", node := "FeatureGroup", slots := [
    { member := "fFeatures", wbox := none, rbox := none, how := .many, holds := ["GdtfFeature"], accepts := [("Feature", "GdtfFeature")] }] },
  -- GDTFManager.cpp:499-509, 511-521, 552-555
  { name := "GdtfSubPhysicalUnit", node := "SubPhysicalUnit", slots := [] },
  -- GDTFManager.cpp:627-651, 653-690, 719-722
  { name := "GdtfAttribute", node := "Attribute", slots := [
    { member := "fSubPhysicalUnits", wbox := none, rbox := none, how := .many, holds := ["GdtfSubPhysicalUnit"], accepts := [("SubPhysicalUnit", "GdtfSubPhysicalUnit")] }] },
  -- GDTFManager.cpp:856-872, 874-902, 926-929
  { name := "GdtfWheel", node := "Wheel", slots := [
    { member := "fWheelSlots", wbox := none, rbox := none, how := .many, holds := ["GdtfWheelSlot"], accepts := [("Slot", "GdtfWheelSlot")] }] },
  -- GDTFManager.cpp:957-965, 977-986, 1010-1013
  { name := "GdtfWheelSlotPrismFacet", node := "Facet", slots := [] },
  -- GDTFManager.cpp:1095-1105, 1107-1117, 1144-1147
  { name := "GdtfWheelSlotAnimationSystem", node := "AnimationSystem", slots := [] },
  -- GDTFManager.cpp:1268-1296, 1298-1367, 1398-1401
  { name := "GdtfWheelSlot", node := "Slot", slots := [
    { member := "fPrismFacts", wbox := none, rbox := none, how := .many, holds := ["GdtfWheelSlotPrismFacet"], accepts := [("Facet", "GdtfWheelSlotPrismFacet")] },
    { member := "fAnimationSystem", wbox := none, rbox := none, how := .first, holds := ["GdtfWheelSlotAnimationSystem"], accepts := [("AnimationSystem", "GdtfWheelSlotAnimationSystem")] }] },
  -- GDTFManager.cpp:1585-1606, 1608-1679, 1713-1716
  { name := "GdtfModel", node := "Model", slots := [] },
  -- GDTFManager.cpp:2268-2289, 2291-2372, 2415-2418
  { name := "GdtfGeometry", node := "Geometry", slots := [
    { member := "fInternalGeometries", wbox := none, rbox := none, how := .many, holds := geometries, accepts := geometryNodes }] },
  -- GDTFManager.cpp:2465-2472, 2474-2480, 2506-2509
  { name := "GdtfGeometryAxis", node := "Axis", slots := [
    { member := "fInternalGeometries", wbox := none, rbox := none, how := .many, holds := geometries, accepts := geometryNodes }] },
  -- GDTFManager.cpp:2527-2533, 2535-2540, 2566-2569
  { name := "GdtfGeometryBeamFilter", node := "FilterBeam", slots := [
    { member := "fInternalGeometries", wbox := none, rbox := none, how := .many, holds := geometries, accepts := geometryNodes }] },
  -- GDTFManager.cpp:2589-2595, 2597-2602, 2628-2631
  { name := "GdtfGeometryColorFilter", node := "FilterColor", slots := [
    { member := "fInternalGeometries", wbox := none, rbox := none, how := .many, holds := geometries, accepts := geometryNodes }] },
  -- GDTFManager.cpp:2651-2657, 2659-2664, 2690-2693
  { name := "GdtfGeometryShaperFilter", node := "FilterShaper", slots := [
    { member := "fInternalGeometries", wbox := none, rbox := none, how := .many, holds := geometries, accepts := geometryNodes }] },
  -- GDTFManager.cpp:2712-2718, 2720-2725, 2751-2754
  { name := "GdtfGeometryGoboFilter", node := "FilterGobo", slots := [
    { member := "fInternalGeometries", wbox := none, rbox := none, how := .many, holds := geometries, accepts := geometryNodes }] },
  -- GDTFManager.cpp:2773-2779, 2781-2786, 2812-2815
  { name := "GdtfGeometryMediaServerCamera", node := "MediaServerCamera", slots := [
    { member := "fInternalGeometries", wbox := none, rbox := none, how := .many, holds := geometries, accepts := geometryNodes }] },
  -- GDTFManager.cpp:2834-2840, 2842-2847, 2873-2876
  { name := "GdtfGeometryMediaServerLayer", node := "MediaServerLayer", slots := [
    { member := "fInternalGeometries", wbox := none, rbox := none, how := .many, holds := geometries, accepts := geometryNodes }] },
  -- GDTFManager.cpp:2895-2901, 2903-2908, 2934-2937
  { name := "GdtfGeometryMediaServerMaster", node := "MediaServerMaster", slots := [
    { member := "fInternalGeometries", wbox := none, rbox := none, how := .many, holds := geometries, accepts := geometryNodes }] },
  -- GDTFManager.cpp:2997-3006, 3008-3024, 3051-3054
  { name := "GdtfGeometryDisplay", node := "Display", slots := [
    { member := "fInternalGeometries", wbox := none, rbox := none, how := .many, holds := geometries, accepts := geometryNodes }] },
  -- GDTFManager.cpp:3082-3089, 3091-3098, 3121-3124
  { name := "GdtfLaserProtocol", node := "Protocol", slots := [] },
  -- GDTFManager.cpp:3263-3286, 3288-3315, 3353-3356
  { name := "GdtfGeometryLaser", node := "Laser", slots := [
    { member := "fInternalGeometries", wbox := none, rbox := none, how := .many, holds := geometries, accepts := geometryNodes },
    { member := "fLaserProtocols", wbox := none, rbox := none, how := .many, holds := ["GdtfLaserProtocol"], accepts := [("Protocol", "GdtfLaserProtocol")] }] },
  -- GDTFManager.cpp:3411-3420, 3422-3431, 3456-3459
  { name := "GdtfPinPatch", node := "PinPatch", slots := [] },
  -- GDTFManager.cpp:3688-3717, 3719-3754, 3829-3832
  { name := "GdtfGeometryWiringObject", node := "WiringObject", slots := [
    { member := "fInternalGeometries", wbox := none, rbox := none, how := .many, holds := geometries, accepts := geometryNodes },
    { member := "fPinPatches", wbox := none, rbox := none, how := .many, holds := ["GdtfPinPatch"], accepts := [("PinPatch", "GdtfPinPatch")] }] },
  -- GDTFManager.cpp:3860-3867, 3869-3876, 3903-3906
  { name := "GdtfGeometryInventory", node := "Inventory", slots := [
    { member := "fInternalGeometries", wbox := none, rbox := none, how := .many, holds := geometries, accepts := geometryNodes }] },
  -- GDTFManager.cpp:3993-4008, 4010-4021, 4062-4065
  { name := "GdtfGeometryStructure", node := "Structure", slots := [
    { member := "fInternalGeometries", wbox := none, rbox := none, how := .many, holds := geometries, accepts := geometryNodes }] },
  -- GDTFManager.cpp:4235-4256, 4258-4278, 4340-4343
  { name := "GdtfGeometrySupport", node := "Support", slots := [
    { member := "fInternalGeometries", wbox := none, rbox := none, how := .many, holds := geometries, accepts := geometryNodes }] },
  -- GDTFManager.cpp:4361-4366, 4368-4373, 4399-4402
  { name := "GdtfGeometryMagnet", node := "Magnet", slots := [
    { member := "fInternalGeometries", wbox := none, rbox := none, how := .many, holds := geometries, accepts := geometryNodes }] },
  -- GDTFManager.cpp:4498-4521, 4523-4545, 4584-4587
  { name := "GdtfGeometryLamp", node := "Beam", slots := [
    { member := "fInternalGeometries", wbox := none, rbox := none, how := .many, holds := geometries, accepts := geometryNodes }] },
  -- GDTFManager.cpp:4677-4689, 4691-4702, 4727-4730
  { name := "GdtfBreak", node := "Break", slots := [] },
  -- GDTFManager.cpp:4785-4802, 4804-4815, 4842-4845
  { name := "GdtfGeometryReference", node := "GeometryReference", slots := [
    { member := "fInternalGeometries", wbox := none, rbox := none, how := .many, holds := geometries, accepts := geometryNodes },
    { member := "fBreaks", wbox := none, rbox := none, how := .many, holds := ["GdtfBreak"], accepts := [("Break", "GdtfBreak")] }] },
  -- GDTFManager.cpp:4871-4917, 4919-4967, 4993-4996
  { name := "GdtfDmxMode", node := "DMXMode", slots := [
    { member := "fChannels", wbox := some "DMXChannels", rbox := some "DMXChannels", how := .many, holds := ["GdtfDmxChannel"], accepts := [("DMXChannel", "GdtfDmxChannel")] },
    { member := "fRelations", wbox := some "Relations", rbox := some "Relations", how := .many, holds := ["GdtfDmxRelation"], accepts := [("Relation", "GdtfDmxRelation")] },
    { member := "fMacros", wbox := some "FTMacros", rbox := some "FTMacros", how := .many, holds := ["GdtfMacro"], accepts := [("FTMacro", "GdtfMacro")] }] },
  -- GDTFManager.cpp:5516-5537, 5539-5603, 5642-5645
  { name := "GdtfDmxChannel", node := "DMXChannel", slots := [
    { member := "fLogicalChannels", wbox := none, rbox := none, how := .many, holds := ["GdtfDmxLogicalChannel"], accepts := [("LogicalChannel", "GdtfDmxLogicalChannel")] }] },
  -- GDTFManager.cpp:5842-5862, 5864-5911, 5943-5946
  { name := "GdtfDmxLogicalChannel", node := "LogicalChannel", slots := [
    { member := "fFunctions", wbox := none, rbox := none, how := .many, holds := ["GdtfDmxChannelFunction"], accepts := [("ChannelFunction", "GdtfDmxChannelFunction")] }] },
  -- GDTFManager.cpp:6131-6256, 6258-6403, 6446-6449
  { name := "GdtfDmxChannelFunction", node := "ChannelFunction", slots := [
    { member := "fChannelSets", wbox := none, rbox := none, how := .many, holds := ["GdtfDmxChannelSet"], accepts := [("ChannelSet", "GdtfDmxChannelSet")] },
    { member := "fSubChannelSets", wbox := none, rbox := none, how := .many, holds := ["GdtfDmxSubChannelSet"], accepts := [("SubChannelSet", "GdtfDmxSubChannelSet")] }] },
  -- GDTFManager.cpp:6834-6853, 6855-6879, 6917-6920
  { name := "GdtfDmxChannelSet", node := "ChannelSet", slots := [] },
  -- GDTFManager.cpp:7017-7031, 7033-7046, 7074-7077
  { name := "GdtfDmxSubChannelSet", node := "SubChannelSet", slots := [] },
  -- GDTFManager.cpp:7146-7160, 7162-7174, 7201-7204
  { name := "GdtfDmxRelation", node := "Relation", slots := [] },
  -- GDTFManager.cpp:7266-7280, 7282-7296, 7323-7326
  { name := "GdtfRevision", node := "Revision", slots := [] },
  -- GDTFManager.cpp:7424-7442, 7444-7479, 7509-7512
  { name := "GdtfPhysicalEmitter", node := "Emitter", slots := [
    { member := "fMeasurements", wbox := none, rbox := none, how := .many, holds := ["GdtfMeasurement"], accepts := [("Measurement", "GdtfMeasurement")] }] },
  -- GDTFManager.cpp:7554-7559, 7561-7566, 7573-7576
  { name := "GdtfUserPreset", node := "FTPreset", slots := [] },
  -- GDTFManager.cpp:7601-7623, 7625-7652, 7724-7727
  { name := "GdtfMacro", node := "FTMacro", slots := [
    { member := "fMacroDMX", wbox := none, rbox := none, how := .first, holds := ["GdtfMacroDMX"], accepts := [("MacroDMX", "GdtfMacroDMX")] },
    { member := "fMacroVisual", wbox := none, rbox := none, how := .first, holds := ["GdtfMacroVisual"], accepts := [("MacroVisual", "GdtfMacroVisual")] }] },
  -- GDTFManager.cpp:7751-7761, 7763-7773, 7798-7801
  { name := "GdtfMeasurementPoint", node := "MeasurementPoint", slots := [] },
  -- GDTFManager.cpp:9434-9573, 9575-9820, 9853-9856
  { name := "GdtfFixture", node := "FixtureType", slots := [
    { member := "AttributeDefinitions", wbox := none, rbox := none, how := .embedded, holds := ["AttributeDefinitions"], accepts := [("AttributeDefinitions", "AttributeDefinitions")] },
    { member := "fWheels", wbox := some "Wheels", rbox := some "Wheels", how := .many, holds := ["GdtfWheel"], accepts := [("Wheel", "GdtfWheel")] },
    { member := "fPhysicalDesciptions", wbox := none, rbox := none, how := .embedded, holds := ["GdtfPhysicalDescriptions"], accepts := [("PhysicalDescriptions", "GdtfPhysicalDescriptions")] },
    { member := "fModels", wbox := some "Models", rbox := some "Models", how := .many, holds := ["GdtfModel"], accepts := [("Model", "GdtfModel")] },
    { member := "fGeometries", wbox := some "Geometries", rbox := some "Geometries", how := .many, holds := geometries, accepts := geometryNodes },
    { member := "fDmxModes", wbox := some "DMXModes", rbox := some "DMXModes", how := .many, holds := ["GdtfDmxMode"], accepts := [("DMXMode", "GdtfDmxMode")] },
    { member := "fRevisions", wbox := some "Revisions", rbox := some "Revisions", how := .many, holds := ["GdtfRevision"], accepts := [("Revision", "GdtfRevision")] },
    { member := "fPresets", wbox := some "FTPresets", rbox := some "FTPresets", how := .many, holds := ["GdtfUserPreset"], accepts := [] },
    { member := "fProtocollContainer", wbox := none, rbox := none, how := .embedded, holds := ["GdtfProtocols"], accepts := [("Protocols", "GdtfProtocols")] }] },
  -- GDTFManager.cpp:10494-10508, 10510-10523, 10489-10492
  { name := "GdtfPoint", node := "Point", slots := [] },
  -- GDTFManager.cpp:10596-10612, 10614-10637, 10591-10594
  { name := "GdtfDMXProfile", node := "DMXProfile", slots := [
    { member := "fPoints", wbox := none, rbox := none, how := .many, holds := ["GdtfPoint"], accepts := [("Point", "GdtfPoint")] }] },
  -- GDTFManager.cpp:10705-10721, 10723-10747, 10700-10703
  { name := "GdtfCRIGroup", node := "CRIGroup", slots := [
    { member := "fCRI_Array", wbox := none, rbox := none, how := .many, holds := ["GdtfCRI"], accepts := [("CRI", "GdtfCRI")] }] },
  -- GDTFManager.cpp:10812-10823, 10825-10838, 10807-10810
  { name := "GdtfCRI", node := "CRI", slots := [] },
  -- GDTFManager.cpp:10864-10879, 10881-10908, 10859-10862
  { name := "GdtfFTRDM", node := "FTRDM", slots := [
    { member := "fSoftwareVersionIDArray", wbox := none, rbox := none, how := .many, holds := ["GdtfSoftwareVersionID"], accepts := [("SoftwareVersionID", "GdtfSoftwareVersionID")] }] },
  -- GDTFManager.cpp:11038-11048, 11050-11063, 11033-11036
  { name := "GdtfDMXPersonality", node := "DMXPersonality", slots := [] },
  -- GDTFManager.cpp:11170-11184, 11186-11242, 11165-11168
  { name := "GdtfProtocols", node := "Protocols", slots := [
    { member := "fRDM", wbox := none, rbox := none, how := .first, holds := ["GdtfFTRDM"], accepts := [("FTRDM", "GdtfFTRDM")] },
    { member := "fArtNet", wbox := none, rbox := none, how := .first, holds := ["GdtfArtNet"], accepts := [("Art-Net", "GdtfArtNet")] },
    { member := "fsACN", wbox := none, rbox := none, how := .first, holds := ["GdtfsAcn"], accepts := [("sACN", "GdtfsAcn")] },
    { member := "fKiNET", wbox := none, rbox := none, how := .first, holds := ["GdtfKiNET"], accepts := [("KiNET", "GdtfKiNET")] },
    { member := "fPosiStageNet", wbox := none, rbox := none, how := .first, holds := ["GdtfPosiStageNet"], accepts := [("PosiStageNet", "GdtfPosiStageNet")] },
    { member := "fOpenSoundControl", wbox := none, rbox := none, how := .first, holds := ["GdtfOpenSoundControl"], accepts := [("OpenSoundControl", "GdtfOpenSoundControl")] },
    { member := "fCITP", wbox := none, rbox := none, how := .first, holds := ["GdtfCITP"], accepts := [("CITP", "GdtfCITP")] }] },
  -- GDTFManager.cpp:11296-11304, 11306-11314, 11338-11341
  { name := "GdtfMap", node := "Map", slots := [] },
  -- GDTFManager.cpp:11367-11377, 11379-11399, 11406-11409
  { name := "GdtfArtNet", node := "Art-Net", slots := [
    { member := "fMaps", wbox := none, rbox := none, how := .many, holds := ["GdtfMap"], accepts := [("Map", "GdtfMap")] }] },
  -- GDTFManager.cpp:11435-11445, 11447-11467, 11474-11477
  { name := "GdtfsAcn", node := "sACN", slots := [
    { member := "fMaps", wbox := none, rbox := none, how := .many, holds := ["GdtfMap"], accepts := [("Map", "GdtfMap")] }] },
  -- GDTFManager.cpp:11495-11498
  { name := "GdtfKiNET", node := "KiNET", slots := [] },
  -- GDTFManager.cpp:11516-11519
  { name := "GdtfPosiStageNet", node := "PosiStageNet", slots := [] },
  -- GDTFManager.cpp:11537-11540
  { name := "GdtfOpenSoundControl", node := "OpenSoundControl", slots := [] },
  -- GDTFManager.cpp:11558-11561
  { name := "GdtfCITP", node := "CITP", slots := [] },
  -- GDTFManager.cpp:11597-11612, 11614-11634, 11592-11595
  { name := "GdtfMacroDMX", node := "MacroDMX", slots := [
    { member := "fDMXSetps", wbox := none, rbox := none, how := .many, holds := ["GdtfMacroDMXStep"], accepts := [("MacroDMXStep", "GdtfMacroDMXStep")] }] },
  -- GDTFManager.cpp:11699-11715, 11717-11738, 11694-11697
  { name := "GdtfMacroDMXStep", node := "MacroDMXStep", slots := [
    { member := "fDMXValues", wbox := none, rbox := none, how := .many, holds := ["GdtfMacroDMXValue"], accepts := [("MacroDMXValue", "GdtfMacroDMXValue")] }] },
  -- GDTFManager.cpp:11797-11815, 11817-11827, 11792-11795
  { name := "GdtfMacroDMXValue", node := "MacroDMXValue", slots := [] },
  -- GDTFManager.cpp:11879-11894, 11896-11916, 11874-11877
  { name := "GdtfMacroVisual", node := "MacroVisual", slots := [
    { member := "fVisualSteps", wbox := none, rbox := none, how := .many, holds := ["GdtfMacroVisualStep"], accepts := [("MacroVisualStep", "GdtfMacroVisualStep")] }] },
  -- GDTFManager.cpp:11984-12002, 12004-12030, 11979-11982
  { name := "GdtfMacroVisualStep", node := "MacroVisualStep", slots := [
    { member := "fVisualValues", wbox := none, rbox := none, how := .many, holds := ["GdtfMacroVisualValue"], accepts := [("MacroVisualValue", "GdtfMacroVisualValue")] }] },
  -- GDTFManager.cpp:12112-12126, 12128-12137, 12107-12110
  { name := "GdtfMacroVisualValue", node := "MacroVisualValue", slots := [] },
  -- GDTFManager.cpp:12205-12221, 12223-12245, 12200-12203
  { name := "GdtfSoftwareVersionID", node := "SoftwareVersionID", slots := [
    { member := "fDmxPersonalityArray", wbox := none, rbox := none, how := .many, holds := ["GdtfDMXPersonality"], accepts := [("DMXPersonality", "GdtfDMXPersonality")] }] },
  -- GDTFManager.cpp:12285-12293, 12295-12303, 12327-12330
  { name := "GdtfGamut", node := "Gamut", slots := [] },
  -- GDTFManager.cpp:12510-12618, 12620-12768, 12505-12508
  { name := "GdtfPhysicalDescriptions", node := "PhysicalDescriptions", slots := [
    { member := "fColorSpace", wbox := none, rbox := none, how := .embedded, holds := ["GdtfColorSpace"], accepts := [("ColorSpace", "GdtfColorSpace")] },
    { member := "fAdditionalColorSpaces", wbox := some "AdditionalColorSpaces", rbox := some "AdditionalColorSpaces", how := .many, holds := ["GdtfColorSpace"], accepts := [("ColorSpace", "GdtfColorSpace")] },
    { member := "fGamuts", wbox := some "Gamuts", rbox := some "Gamuts", how := .many, holds := ["GdtfGamut"], accepts := [("Gamut", "GdtfGamut")] },
    { member := "fFilters", wbox := some "Filters", rbox := some "Filters", how := .many, holds := ["GdtfFilter"], accepts := [("Filter", "GdtfFilter")] },
    { member := "fEmitters", wbox := some "Emitters", rbox := some "Emitters", how := .many, holds := ["GdtfPhysicalEmitter"], accepts := [("Emitter", "GdtfPhysicalEmitter")] },
    { member := "fDmxProfiles", wbox := some "DMXProfiles", rbox := some "DMXProfiles", how := .many, holds := ["GdtfDMXProfile"], accepts := [("DMXProfile", "GdtfDMXProfile")] },
    { member := "fCRI_Groups", wbox := some "CRIs", rbox := some "CRIs", how := .many, holds := ["GdtfCRIGroup"], accepts := [("CRIGroup", "GdtfCRIGroup")] },
    { member := "fConnectors", wbox := some "Connectors", rbox := some "Connectors", how := .many, holds := ["GdtfConnector"], accepts := [("Connector", "GdtfConnector")] },
    { member := "Properties", wbox := none, rbox := none, how := .embedded, holds := ["Properties"], accepts := [("Properties", "Properties")] }] },
  -- GDTFManager.cpp:12877-12895, 12897-12917, 12872-12875
  { name := "GdtfColorSpace", node := "ColorSpace", slots := [] },
  -- GDTFManager.cpp:13000-13017, 13019-13051, 12995-12998
  { name := "GdtfFilter", node := "Filter", slots := [
    { member := "fMeasurementsArray", wbox := none, rbox := none, how := .many, holds := ["GdtfMeasurement(true)"], accepts := [("Measurement", "GdtfMeasurement(true)")] }] },
  -- GDTFManager.cpp:13134-13155, 13157-13188, 13129-13132
  { name := "GdtfMeasurement", node := "Measurement", slots := [
    { member := "fMeasurementPoints", wbox := none, rbox := none, how := .many, holds := ["GdtfMeasurementPoint"], accepts := [("MeasurementPoint", "GdtfMeasurementPoint")] }] },
  -- the same class with the other argument of the constructor, see `Node.kFilterMeasurement`
  { name := "GdtfMeasurement(true)", node := "Measurement", slots := [
    { member := "fMeasurementPoints", wbox := none, rbox := none, how := .many, holds := ["GdtfMeasurementPoint"], accepts := [("MeasurementPoint", "GdtfMeasurementPoint")] }] },
  -- GDTFManager.cpp:13237-13250, 13252-13269, 13303-13306
  { name := "GdtfConnector", node := "Connector", slots := [] },
  -- GDTFManager.cpp:9463-9499, 9629-9679
  { name := "AttributeDefinitions", node := "AttributeDefinitions", slots := [
    { member := "fActivationGroups", wbox := some "ActivationGroups", rbox := some "ActivationGroups", how := .many, holds := ["GdtfActivationGroup"], accepts := [("ActivationGroup", "GdtfActivationGroup")] },
    { member := "fFeatureGroups", wbox := some "FeatureGroups", rbox := some "FeatureGroups", how := .many, holds := ["GdtfFeatureGroup"], accepts := [("FeatureGroup", "GdtfFeatureGroup")] },
    { member := "fAttributes", wbox := some "Attributes", rbox := some "Attributes", how := .many, holds := ["GdtfAttribute"], accepts := [("Attribute", "GdtfAttribute")] }] },
  -- GDTFManager.cpp:12591-12616, 12733-12770
  { name := "Properties", node := "Properties", slots := [
    { member := "OperatingTemperature", wbox := none, rbox := none, how := .embedded, holds := ["OperatingTemperature"], accepts := [("OperatingTemperature", "OperatingTemperature")] },
    { member := "Weight", wbox := none, rbox := none, how := .embedded, holds := ["Weight"], accepts := [("Weight", "Weight")] },
    { member := "LegHeight", wbox := none, rbox := none, how := .embedded, holds := ["LegHeight"], accepts := [("LegHeight", "LegHeight")] }] },
  -- GDTFManager.cpp:12594-12600, 12737-12747
  { name := "OperatingTemperature", node := "OperatingTemperature", slots := [] },
  -- GDTFManager.cpp:12602-12606, 12749-12756
  { name := "Weight", node := "Weight", slots := [] },
  -- GDTFManager.cpp:12608-12612, 12758-12765
  { name := "LegHeight", node := "LegHeight", slots := [] } ]

end Verif.Gdtf
