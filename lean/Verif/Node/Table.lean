import Verif.Node.Model

/-!
# Table: the attributes of the node kinds of a GDTF description

Transcribed from the functions `OnPrintToFile`, `OnReadFromNode` and `OnErrorCheck` of GDTFManager.cpp; the lines are given
with each entry. Every kind of node the file declares is here except `GdtfPhysicalDescriptions`, whose attributes are those of
nested nodes without an object of their own.
-/

namespace Verif.Node

/-- `GdtfActivationGroup`, GDTFManager.cpp:137-148 OnPrintToFile, 150-161 OnReadFromNode, 163-178 OnErrorCheck. -/
def kActivationGroup : Kind where
  name := "GdtfActivationGroup"
  writes := [⟨"Name", "fName", .text, .always⟩]
  reads := [⟨"Name", "fName", .text, .always⟩]
  checked := true
  needed := [⟨"Name", .always⟩]
  optional := []

/-- `GdtfFeature`, GDTFManager.cpp:223-234 OnPrintToFile, 236-247 OnReadFromNode, 249-264 OnErrorCheck. -/
def kFeature : Kind where
  name := "GdtfFeature"
  writes := [⟨"Name", "fName", .text, .always⟩]
  reads := [⟨"Name", "fName", .text, .always⟩]
  checked := true
  needed := [⟨"Name", .always⟩]
  optional := []

/-- `GdtfFeatureGroup`, GDTFManager.cpp:336-354 OnPrintToFile, 356-383 OnReadFromNode, 385-401 OnErrorCheck. -/
def kFeatureGroup : Kind where
  name := "GdtfFeatureGroup"
  writes := [⟨"Name", "fName", .text, .always⟩, ⟨"Pretty", "fPrettyName", .text, .always⟩]
  reads := [⟨"Name", "fName", .text, .always⟩, ⟨"Pretty", "fPrettyName", .text, .always⟩]
  checked := true
  needed := [⟨"Name", .always⟩, ⟨"Pretty", .always⟩]
  optional := []

/-- `GdtfSubPhysicalUnit`, GDTFManager.cpp:499-509 OnPrintToFile, 511-521 OnReadFromNode, 523-540 OnErrorCheck. -/
def kSubPhysicalUnit : Kind where
  name := "GdtfSubPhysicalUnit"
  writes := [⟨"Type", "fType", (.val "ConvertSubPhysicalUnitTypeEnum"), .always⟩,
      ⟨"PhysicalUnit", "fPhysicalUnit", (.val "ConvertPhysicalUnitEnum"), .always⟩,
      ⟨"PhysicalFrom", "fPhysicalFrom", (.val "ConvertDouble"), .always⟩,
      ⟨"PhysicalTo", "fPhysicalTo", (.val "ConvertDouble"), .always⟩]
  reads := [⟨"Type", "fType", (.val "ConvertSubPhysicalUnitTypeEnum"), .always⟩,
      ⟨"PhysicalUnit", "fPhysicalUnit", (.val "ConvertPhysicalUnitEnum"), .always⟩,
      ⟨"PhysicalFrom", "fPhysicalFrom", (.val "ConvertDouble"), .always⟩,
      ⟨"PhysicalTo", "fPhysicalTo", (.val "ConvertDouble"), .always⟩]
  checked := true
  needed := [⟨"Type", .always⟩, ⟨"PhysicalUnit", .always⟩]
  optional := [⟨"PhysicalFrom", .always⟩, ⟨"PhysicalTo", .always⟩]

/-- `GdtfAttribute`, GDTFManager.cpp:627-651 OnPrintToFile, 653-690 OnReadFromNode, 692-713 OnErrorCheck. -/
def kAttribute : Kind where
  name := "GdtfAttribute"
  writes := [⟨"Name", "fName", .text, .always⟩, ⟨"Pretty", "fPrettyName", .text, .always⟩,
      ⟨"ActivationGroup", "fActivationGroup", .ref, .on "fActivationGroup"⟩, ⟨"Feature", "fFeature", .ref, .on "fFeature"⟩,
      ⟨"MainAttribute", "fMainAttribute", .ref, .on "fMainAttribute"⟩,
      ⟨"Color", "fColor", (.val "ConvertColor"), .on "fHasColor"⟩,
      ⟨"PhysicalUnit", "fPhysicalUnit", (.val "ConvertPhysicalUnitEnum"), .always⟩]
  reads := [⟨"Name", "fName", .text, .always⟩, ⟨"Pretty", "fPrettyName", .text, .always⟩,
      ⟨"ActivationGroup", "fUnresolvedActGroup", .text, .always⟩, ⟨"Feature", "fUnresolvedFeature", .text, .always⟩,
      ⟨"MainAttribute", "fUnresolvedMainAttrib", .text, .always⟩,
      ⟨"PhysicalUnit", "fPhysicalUnit", (.val "ConvertPhysicalUnitEnum"), .always⟩,
      ⟨"Color", "fColor", (.val "ConvertColor"), .always⟩]
  checked := true
  needed := [⟨"Name", .always⟩, ⟨"Pretty", .always⟩, ⟨"Feature", .always⟩]
  optional := [⟨"ActivationGroup", .always⟩, ⟨"MainAttribute", .always⟩, ⟨"PhysicalUnit", .always⟩, ⟨"Color", .always⟩]

/-- `GdtfWheel`, GDTFManager.cpp:856-872 OnPrintToFile, 874-902 OnReadFromNode, 904-919 OnErrorCheck. -/
def kWheel : Kind where
  name := "GdtfWheel"
  writes := [⟨"Name", "fName", .text, .always⟩]
  reads := [⟨"Name", "fName", .text, .always⟩]
  checked := true
  needed := [⟨"Name", .always⟩]
  optional := []

/-- `GdtfWheelSlotPrismFacet`, GDTFManager.cpp:957-965 OnPrintToFile, 977-986 OnReadFromNode, 988-1004 OnErrorCheck. -/
def kWheelSlotPrismFacet : Kind where
  name := "GdtfWheelSlotPrismFacet"
  writes := [⟨"Color", "fColor", (.val "ConvertColor"), .always⟩, ⟨"Rotation", "fTransform", (.val "ConvertRotation"), .always⟩]
  reads := [⟨"Color", "fColor", (.val "ConvertColor"), .always⟩, ⟨"Rotation", "fTransform", (.val "ConvertRotation"), .always⟩]
  checked := true
  needed := [⟨"Rotation", .always⟩]
  optional := [⟨"Color", .always⟩]

/-- `GdtfWheelSlotAnimationSystem`, GDTFManager.cpp:1095-1105 OnPrintToFile, 1107-1117 OnReadFromNode, 1119-1137 OnErrorCheck. -/
def kWheelSlotAnimationSystem : Kind where
  name := "GdtfWheelSlotAnimationSystem"
  writes := [⟨"P1", "fP1_X+fP1_Y", (.val "Convert2DPoint"), .always⟩, ⟨"P2", "fP2_X+fP2_Y", (.val "Convert2DPoint"), .always⟩,
      ⟨"P3", "fP3_X+fP3_Y", (.val "Convert2DPoint"), .always⟩, ⟨"Radius", "fRadius", (.val "ConvertDouble"), .always⟩]
  reads := [⟨"P1", "fP1_X+fP1_Y", (.val "Convert2DPoint"), .always⟩, ⟨"P2", "fP2_X+fP2_Y", (.val "Convert2DPoint"), .always⟩,
      ⟨"P3", "fP3_X+fP3_Y", (.val "Convert2DPoint"), .always⟩, ⟨"Radius", "fRadius", (.val "ConvertDouble"), .always⟩]
  checked := true
  needed := [⟨"P1", .always⟩, ⟨"P2", .always⟩, ⟨"P3", .always⟩, ⟨"Radius", .always⟩]
  optional := []

/-- `GdtfWheelSlot`, GDTFManager.cpp:1268-1296 OnPrintToFile, 1298-1367 OnReadFromNode, 1369-1392 OnErrorCheck. -/
def kWheelSlot : Kind where
  name := "GdtfWheelSlot"
  writes := [⟨"Name", "fName", .text, .always⟩, ⟨"Color", "fColor", (.val "ConvertColor"), .always⟩,
      ⟨"MediaFileName", "fGobo", .text, .on "fGobo != \"\""⟩, ⟨"Filter", "fFilter", .ref, .on "fFilter"⟩,
      ⟨"Duration", "fDuration", (.val "ConvertDouble"), .on "fDuration != 0.0"⟩,
      ⟨"Width", "fWidth", (.val "ConvertInteger"), .on "fWidth != 0"⟩,
      ⟨"Height", "fHeight", (.val "ConvertInteger"), .on "fHeight != 0"⟩,
      ⟨"FPS", "fFPS", (.val "ConvertInteger"), .on "fFPS != 0"⟩]
  reads := [⟨"Name", "fName", .text, .always⟩, ⟨"Color", "fColor", (.val "ConvertColor"), .always⟩,
      ⟨"MediaFileName", "fGobo", .text, .always⟩, ⟨"Filter", "fUnresolvedFilter", .text, .always⟩,
      ⟨"Duration", "fDuration", (.val "ConvertDouble"), .always⟩, ⟨"Width", "fWidth", (.val "ConvertInteger"), .always⟩,
      ⟨"Height", "fHeight", (.val "ConvertInteger"), .always⟩, ⟨"FPS", "fFPS", (.val "ConvertInteger"), .always⟩]
  checked := true
  needed := [⟨"Name", .always⟩]
  optional := [⟨"Color", .always⟩, ⟨"MediaFileName", .always⟩, ⟨"Filter", .always⟩, ⟨"Duration", .always⟩, ⟨"Width", .always⟩,
      ⟨"Height", .always⟩, ⟨"FPS", .always⟩]

/-- `GdtfModel`, GDTFManager.cpp:1585-1606 OnPrintToFile, 1608-1679 OnReadFromNode, 1681-1707 OnErrorCheck. -/
def kModel : Kind where
  name := "GdtfModel"
  writes := [⟨"Name", "fUniqueName", .text, .always⟩, ⟨"Length", "fLength", (.val "ConvertDouble"), .always⟩,
      ⟨"Width", "fWidth", (.val "ConvertDouble"), .always⟩, ⟨"Height", "fHeight", (.val "ConvertDouble"), .always⟩,
      ⟨"PrimitiveType", "fPrimitiveType", (.val "ConvertPrimitiveType"), .always⟩, ⟨"File", "fGeometryFile", .text, .always⟩,
      ⟨"SVGOffsetX", "fSVGOffsetX", (.val "ConvertDouble"), .always⟩,
      ⟨"SVGOffsetY", "fSVGOffsetY", (.val "ConvertDouble"), .always⟩,
      ⟨"SVGSideOffsetX", "fSVGSideOffsetX", (.val "ConvertDouble"), .always⟩,
      ⟨"SVGSideOffsetY", "fSVGSideOffsetY", (.val "ConvertDouble"), .always⟩,
      ⟨"SVGFrontOffsetX", "fSVGFrontOffsetX", (.val "ConvertDouble"), .always⟩,
      ⟨"SVGFrontOffsetY", "fSVGFrontOffsetY", (.val "ConvertDouble"), .always⟩]
  reads := [⟨"Name", "fUniqueName", .text, .always⟩, ⟨"Length", "fLength", (.val "ConvertDouble"), .always⟩,
      ⟨"Width", "fWidth", (.val "ConvertDouble"), .always⟩, ⟨"Height", "fHeight", (.val "ConvertDouble"), .always⟩,
      ⟨"SVGOffsetX", "fSVGOffsetX", (.val "ConvertDouble"), .always⟩,
      ⟨"SVGOffsetY", "fSVGOffsetY", (.val "ConvertDouble"), .always⟩,
      ⟨"SVGSideOffsetX", "fSVGSideOffsetX", (.val "ConvertDouble"), .always⟩,
      ⟨"SVGSideOffsetY", "fSVGSideOffsetY", (.val "ConvertDouble"), .always⟩,
      ⟨"SVGFrontOffsetX", "fSVGFrontOffsetX", (.val "ConvertDouble"), .always⟩,
      ⟨"SVGFrontOffsetY", "fSVGFrontOffsetY", (.val "ConvertDouble"), .always⟩,
      ⟨"PrimitiveType", "fPrimitiveType", (.val "ConvertPrimitiveType"), .always⟩, ⟨"File", "fGeometryFile", .text, .always⟩]
  checked := true
  needed := [⟨"Name", .always⟩]
  optional := [⟨"File", .always⟩, ⟨"Length", .always⟩, ⟨"Width", .always⟩, ⟨"Height", .always⟩, ⟨"PrimitiveType", .always⟩,
      ⟨"SVGOffsetX", .always⟩, ⟨"SVGOffsetY", .always⟩, ⟨"SVGSideOffsetX", .always⟩, ⟨"SVGSideOffsetY", .always⟩,
      ⟨"SVGFrontOffsetX", .always⟩, ⟨"SVGFrontOffsetY", .always⟩]

/-- `GdtfGeometry`, GDTFManager.cpp:2268-2289 OnPrintToFile, 2291-2372 OnReadFromNode, 2374-2392 OnErrorCheck. -/
def kGeometry : Kind where
  name := "GdtfGeometry"
  writes := [⟨"Name", "fUniqueName", .text, .always⟩, ⟨"Position", "fMatrix", (.val "ConvertMatrix"), .always⟩,
      ⟨"Model", "fModelReference", .ref, .on "fModelReference"⟩]
  reads := [⟨"Name", "fUniqueName", .text, .always⟩, ⟨"Position", "fMatrix", (.val "ConvertMatrix"), .always⟩,
      ⟨"Model", "fUnresolvedModelRef", .text, .always⟩]
  checked := true
  needed := [⟨"Name", .always⟩, ⟨"Position", .always⟩]
  optional := [⟨"Model", .always⟩]

/-- `GdtfGeometryAxis`, GDTFManager.cpp:2465-2472 OnPrintToFile, 2474-2480 OnReadFromNode, 2482-2499 OnErrorCheck. -/
def kGeometryAxis : Kind where
  name := "GdtfGeometryAxis"
  writes := [⟨"Name", "fUniqueName", .text, .always⟩, ⟨"Position", "fMatrix", (.val "ConvertMatrix"), .always⟩,
      ⟨"Model", "fModelReference", .ref, .on "fModelReference"⟩]
  reads := [⟨"Name", "fUniqueName", .text, .always⟩, ⟨"Position", "fMatrix", (.val "ConvertMatrix"), .always⟩,
      ⟨"Model", "fUnresolvedModelRef", .text, .always⟩]
  checked := true
  needed := [⟨"Name", .always⟩, ⟨"Position", .always⟩]
  optional := [⟨"Model", .always⟩]

/-- `GdtfGeometryBeamFilter`, GDTFManager.cpp:2527-2533 OnPrintToFile, 2535-2540 OnReadFromNode, 2542-2559 OnErrorCheck. -/
def kGeometryBeamFilter : Kind where
  name := "GdtfGeometryBeamFilter"
  writes := [⟨"Name", "fUniqueName", .text, .always⟩, ⟨"Position", "fMatrix", (.val "ConvertMatrix"), .always⟩,
      ⟨"Model", "fModelReference", .ref, .on "fModelReference"⟩]
  reads := [⟨"Name", "fUniqueName", .text, .always⟩, ⟨"Position", "fMatrix", (.val "ConvertMatrix"), .always⟩,
      ⟨"Model", "fUnresolvedModelRef", .text, .always⟩]
  checked := true
  needed := [⟨"Name", .always⟩, ⟨"Position", .always⟩]
  optional := [⟨"Model", .always⟩]

/-- `GdtfGeometryColorFilter`, GDTFManager.cpp:2589-2595 OnPrintToFile, 2597-2602 OnReadFromNode, 2604-2621 OnErrorCheck. -/
def kGeometryColorFilter : Kind where
  name := "GdtfGeometryColorFilter"
  writes := [⟨"Name", "fUniqueName", .text, .always⟩, ⟨"Position", "fMatrix", (.val "ConvertMatrix"), .always⟩,
      ⟨"Model", "fModelReference", .ref, .on "fModelReference"⟩]
  reads := [⟨"Name", "fUniqueName", .text, .always⟩, ⟨"Position", "fMatrix", (.val "ConvertMatrix"), .always⟩,
      ⟨"Model", "fUnresolvedModelRef", .text, .always⟩]
  checked := true
  needed := [⟨"Name", .always⟩, ⟨"Position", .always⟩]
  optional := [⟨"Model", .always⟩]

/-- `GdtfGeometryShaperFilter`, GDTFManager.cpp:2651-2657 OnPrintToFile, 2659-2664 OnReadFromNode, 2666-2683 OnErrorCheck. -/
def kGeometryShaperFilter : Kind where
  name := "GdtfGeometryShaperFilter"
  writes := [⟨"Name", "fUniqueName", .text, .always⟩, ⟨"Position", "fMatrix", (.val "ConvertMatrix"), .always⟩,
      ⟨"Model", "fModelReference", .ref, .on "fModelReference"⟩]
  reads := [⟨"Name", "fUniqueName", .text, .always⟩, ⟨"Position", "fMatrix", (.val "ConvertMatrix"), .always⟩,
      ⟨"Model", "fUnresolvedModelRef", .text, .always⟩]
  checked := true
  needed := [⟨"Name", .always⟩, ⟨"Position", .always⟩]
  optional := [⟨"Model", .always⟩]

/-- `GdtfGeometryGoboFilter`, GDTFManager.cpp:2712-2718 OnPrintToFile, 2720-2725 OnReadFromNode, 2727-2744 OnErrorCheck. -/
def kGeometryGoboFilter : Kind where
  name := "GdtfGeometryGoboFilter"
  writes := [⟨"Name", "fUniqueName", .text, .always⟩, ⟨"Position", "fMatrix", (.val "ConvertMatrix"), .always⟩,
      ⟨"Model", "fModelReference", .ref, .on "fModelReference"⟩]
  reads := [⟨"Name", "fUniqueName", .text, .always⟩, ⟨"Position", "fMatrix", (.val "ConvertMatrix"), .always⟩,
      ⟨"Model", "fUnresolvedModelRef", .text, .always⟩]
  checked := true
  needed := [⟨"Name", .always⟩, ⟨"Position", .always⟩]
  optional := [⟨"Model", .always⟩]

/-- `GdtfGeometryMediaServerCamera`, GDTFManager.cpp:2773-2779 OnPrintToFile, 2781-2786 OnReadFromNode, 2788-2805 OnErrorCheck. -/
def kGeometryMediaServerCamera : Kind where
  name := "GdtfGeometryMediaServerCamera"
  writes := [⟨"Name", "fUniqueName", .text, .always⟩, ⟨"Position", "fMatrix", (.val "ConvertMatrix"), .always⟩,
      ⟨"Model", "fModelReference", .ref, .on "fModelReference"⟩]
  reads := [⟨"Name", "fUniqueName", .text, .always⟩, ⟨"Position", "fMatrix", (.val "ConvertMatrix"), .always⟩,
      ⟨"Model", "fUnresolvedModelRef", .text, .always⟩]
  checked := true
  needed := [⟨"Name", .always⟩, ⟨"Position", .always⟩]
  optional := [⟨"Model", .always⟩]

/-- `GdtfGeometryMediaServerLayer`, GDTFManager.cpp:2834-2840 OnPrintToFile, 2842-2847 OnReadFromNode, 2849-2866 OnErrorCheck. -/
def kGeometryMediaServerLayer : Kind where
  name := "GdtfGeometryMediaServerLayer"
  writes := [⟨"Name", "fUniqueName", .text, .always⟩, ⟨"Position", "fMatrix", (.val "ConvertMatrix"), .always⟩,
      ⟨"Model", "fModelReference", .ref, .on "fModelReference"⟩]
  reads := [⟨"Name", "fUniqueName", .text, .always⟩, ⟨"Position", "fMatrix", (.val "ConvertMatrix"), .always⟩,
      ⟨"Model", "fUnresolvedModelRef", .text, .always⟩]
  checked := true
  needed := [⟨"Name", .always⟩, ⟨"Position", .always⟩]
  optional := [⟨"Model", .always⟩]

/-- `GdtfGeometryMediaServerMaster`, GDTFManager.cpp:2895-2901 OnPrintToFile, 2903-2908 OnReadFromNode, 2910-2927 OnErrorCheck. -/
def kGeometryMediaServerMaster : Kind where
  name := "GdtfGeometryMediaServerMaster"
  writes := [⟨"Name", "fUniqueName", .text, .always⟩, ⟨"Position", "fMatrix", (.val "ConvertMatrix"), .always⟩,
      ⟨"Model", "fModelReference", .ref, .on "fModelReference"⟩]
  reads := [⟨"Name", "fUniqueName", .text, .always⟩, ⟨"Position", "fMatrix", (.val "ConvertMatrix"), .always⟩,
      ⟨"Model", "fUnresolvedModelRef", .text, .always⟩]
  checked := true
  needed := [⟨"Name", .always⟩, ⟨"Position", .always⟩]
  optional := [⟨"Model", .always⟩]

/-- `GdtfGeometryDisplay`, GDTFManager.cpp:2997-3006 OnPrintToFile, 3008-3024 OnReadFromNode, 3026-3044 OnErrorCheck. -/
def kGeometryDisplay : Kind where
  name := "GdtfGeometryDisplay"
  writes := [⟨"Name", "fUniqueName", .text, .always⟩, ⟨"Position", "fMatrix", (.val "ConvertMatrix"), .always⟩,
      ⟨"Model", "fModelReference", .ref, .on "fModelReference"⟩, ⟨"Texture", "fTexture", .text, .always⟩,
      ⟨"Width", "fWidth", (.val "ConvertInteger"), .always⟩, ⟨"Height", "fHeight", (.val "ConvertInteger"), .always⟩,
      ⟨"IsCurved", "fIsCurved", (.val "ConvertBool"), .always⟩]
  reads := [⟨"Name", "fUniqueName", .text, .always⟩, ⟨"Position", "fMatrix", (.val "ConvertMatrix"), .always⟩,
      ⟨"Model", "fUnresolvedModelRef", .text, .always⟩, ⟨"Texture", "fTexture", .text, .always⟩,
      ⟨"Width", "fWidth", (.val "ConvertInteger"), .always⟩, ⟨"Height", "fHeight", (.val "ConvertInteger"), .always⟩,
      ⟨"IsCurved", "fIsCurved", (.val "ConvertBool"), .always⟩]
  checked := true
  needed := [⟨"Name", .always⟩, ⟨"Position", .always⟩, ⟨"Texture", .always⟩]
  optional := [⟨"Model", .always⟩]

/-- `GdtfLaserProtocol`, GDTFManager.cpp:3082-3089 OnPrintToFile, 3091-3098 OnReadFromNode, 3100-3114 OnErrorCheck. -/
def kLaserProtocol : Kind where
  name := "GdtfLaserProtocol"
  writes := [⟨"Name", "fName", .text, .always⟩]
  reads := [⟨"Name", "fName", .text, .always⟩]
  checked := true
  needed := [⟨"Name", .always⟩]
  optional := []

/-- `GdtfGeometryLaser`, GDTFManager.cpp:3263-3286 OnPrintToFile, 3288-3315 OnReadFromNode, 3317-3346 OnErrorCheck. -/
def kGeometryLaser : Kind where
  name := "GdtfGeometryLaser"
  writes := [⟨"Name", "fUniqueName", .text, .always⟩, ⟨"Position", "fMatrix", (.val "ConvertMatrix"), .always⟩,
      ⟨"Model", "fModelReference", .ref, .on "fModelReference"⟩,
      ⟨"ColorType", "fColorType", (.val "ConvertLaserColorTypeEnum"), .always⟩,
      ⟨"Color", "fColor", (.val "ConvertDouble"), .always⟩,
      ⟨"OutputStrength", "fOutputStrength", (.val "ConvertDouble"), .always⟩, ⟨"Emitter", "fEmitter", .ref, .on "fEmitter"⟩,
      ⟨"BeamDiameter", "fBeamDiameter", (.val "ConvertDouble"), .always⟩,
      ⟨"BeamDivergenceMin", "fBeamDivergenceMin", (.val "ConvertDouble"), .always⟩,
      ⟨"BeamDivergenceMax", "fBeamDivergenceMax", (.val "ConvertDouble"), .always⟩,
      ⟨"ScanAnglePan", "fScanAnglePan", (.val "ConvertDouble"), .always⟩,
      ⟨"ScanAngleTilt", "fScanAngleTilt", (.val "ConvertDouble"), .always⟩,
      ⟨"ScanSpeed", "fScanSpeed", (.val "ConvertDouble"), .always⟩]
  reads := [⟨"Name", "fUniqueName", .text, .always⟩, ⟨"Position", "fMatrix", (.val "ConvertMatrix"), .always⟩,
      ⟨"Model", "fUnresolvedModelRef", .text, .always⟩, ⟨"ColorType", "fColorType", (.val "ConvertLaserColorTypeEnum"), .always⟩,
      ⟨"Color", "fColor", (.val "ConvertDouble"), .always⟩,
      ⟨"OutputStrength", "fOutputStrength", (.val "ConvertDouble"), .always⟩, ⟨"Emitter", "fUnresolvedEmitter", .text, .always⟩,
      ⟨"BeamDiameter", "fBeamDiameter", (.val "ConvertDouble"), .always⟩,
      ⟨"BeamDivergenceMin", "fBeamDivergenceMin", (.val "ConvertDouble"), .always⟩,
      ⟨"BeamDivergenceMax", "fBeamDivergenceMax", (.val "ConvertDouble"), .always⟩,
      ⟨"ScanAnglePan", "fScanAnglePan", (.val "ConvertDouble"), .always⟩,
      ⟨"ScanAngleTilt", "fScanAngleTilt", (.val "ConvertDouble"), .always⟩,
      ⟨"ScanSpeed", "fScanSpeed", (.val "ConvertDouble"), .always⟩]
  checked := true
  needed := [⟨"Name", .always⟩, ⟨"Position", .always⟩, ⟨"ColorType", .always⟩,
      ⟨"Color", .on "fColorType == EGdtfLaserColorType::SingleWaveLength"⟩, ⟨"OutputStrength", .always⟩,
      ⟨"BeamDiameter", .always⟩, ⟨"BeamDivergenceMin", .always⟩, ⟨"BeamDivergenceMax", .always⟩, ⟨"ScanAnglePan", .always⟩,
      ⟨"ScanAngleTilt", .always⟩, ⟨"ScanSpeed", .always⟩]
  optional := [⟨"Model", .always⟩, ⟨"Color", .off "fColorType == EGdtfLaserColorType::SingleWaveLength"⟩, ⟨"Emitter", .always⟩]

/-- `GdtfPinPatch`, GDTFManager.cpp:3411-3420 OnPrintToFile, 3422-3431 OnReadFromNode, 3433-3449 OnErrorCheck. -/
def kPinPatch : Kind where
  name := "GdtfPinPatch"
  writes := [⟨"ToWiringObject", "fToWiringObject", .ref, .on "fToWiringObject"⟩,
      ⟨"FromPin", "fFromPin", (.val "ConvertInteger"), .always⟩, ⟨"ToPin", "fToPin", (.val "ConvertInteger"), .always⟩]
  reads := [⟨"ToWiringObject", "fUnresolvedWiringObject", .text, .always⟩,
      ⟨"FromPin", "fFromPin", (.val "ConvertInteger"), .always⟩, ⟨"ToPin", "fToPin", (.val "ConvertInteger"), .always⟩]
  checked := true
  needed := [⟨"ToWiringObject", .always⟩, ⟨"FromPin", .always⟩, ⟨"ToPin", .always⟩]
  optional := []

/-- `GdtfGeometryWiringObject`, GDTFManager.cpp:3688-3717 OnPrintToFile, 3719-3754 OnReadFromNode, 3756-3822 OnErrorCheck. -/
def kGeometryWiringObject : Kind where
  name := "GdtfGeometryWiringObject"
  writes := [⟨"Name", "fUniqueName", .text, .always⟩, ⟨"Position", "fMatrix", (.val "ConvertMatrix"), .always⟩,
      ⟨"Model", "fModelReference", .ref, .on "fModelReference"⟩,
      ⟨"ComponentType", "fComponentType", (.val "ConvertComponentTypeEnum"), .always⟩,
      ⟨"ConnectorType", "fConnectorType", .text, .always⟩, ⟨"SignalType", "fSignalType", .text, .always⟩,
      ⟨"PinCount", "fPinCount", (.val "ConvertInteger"), .always⟩,
      ⟨"SignalLayer", "fSignalLayer", (.val "ConvertInteger"), .always⟩,
      ⟨"Orientation", "fOrientation", (.val "ConvertOrientationEnum"), .always⟩, ⟨"WireGroup", "fWireGroup", .text, .always⟩,
      ⟨"ElectricalPayLoad", "fElectricalPayLoad", (.val "ConvertDouble"), .always⟩,
      ⟨"VoltageRangeMin", "fVoltageRangeMin", (.val "ConvertDouble"), .always⟩,
      ⟨"VoltageRangeMax", "fVoltageRangeMax", (.val "ConvertDouble"), .always⟩,
      ⟨"FrequencyRangeMin", "fFrequencyRangeMin", (.val "ConvertDouble"), .always⟩,
      ⟨"FrequencyRangeMax", "fFrequencyRangeMax", (.val "ConvertDouble"), .always⟩,
      ⟨"CosPhi", "fCosPhi", (.val "ConvertDouble"), .always⟩, ⟨"MaxPayLoad", "fMaxPayLoad", (.val "ConvertDouble"), .always⟩,
      ⟨"Voltage", "fVoltage", (.val "ConvertDouble"), .always⟩, ⟨"FuseCurrent", "fFuseCurrent", (.val "ConvertDouble"), .always⟩,
      ⟨"FuseRating", "fFuseRating", (.val "ConvertFuseRatingEnum"), .always⟩]
  reads := [⟨"Name", "fUniqueName", .text, .always⟩, ⟨"Position", "fMatrix", (.val "ConvertMatrix"), .always⟩,
      ⟨"Model", "fUnresolvedModelRef", .text, .always⟩,
      ⟨"ComponentType", "fComponentType", (.val "ConvertComponentTypeEnum"), .always⟩,
      ⟨"ConnectorType", "fConnectorType", .text, .always⟩, ⟨"SignalType", "fSignalType", .text, .always⟩,
      ⟨"PinCount", "fPinCount", (.val "ConvertInteger"), .always⟩,
      ⟨"SignalLayer", "fSignalLayer", (.val "ConvertInteger"), .always⟩,
      ⟨"Orientation", "fOrientation", (.val "ConvertOrientationEnum"), .always⟩, ⟨"WireGroup", "fWireGroup", .text, .always⟩,
      ⟨"ElectricalPayLoad", "fElectricalPayLoad", (.val "ConvertDouble"), .always⟩,
      ⟨"VoltageRangeMin", "fVoltageRangeMin", (.val "ConvertDouble"), .always⟩,
      ⟨"VoltageRangeMax", "fVoltageRangeMax", (.val "ConvertDouble"), .always⟩,
      ⟨"FrequencyRangeMin", "fFrequencyRangeMin", (.val "ConvertDouble"), .always⟩,
      ⟨"FrequencyRangeMax", "fFrequencyRangeMax", (.val "ConvertDouble"), .always⟩,
      ⟨"CosPhi", "fCosPhi", (.val "ConvertDouble"), .always⟩, ⟨"MaxPayLoad", "fMaxPayLoad", (.val "ConvertDouble"), .always⟩,
      ⟨"Voltage", "fVoltage", (.val "ConvertDouble"), .always⟩, ⟨"FuseCurrent", "fFuseCurrent", (.val "ConvertDouble"), .always⟩,
      ⟨"FuseRating", "fFuseRating", (.val "ConvertFuseRatingEnum"), .always⟩]
  checked := true
  needed := [⟨"Name", .always⟩, ⟨"Position", .always⟩, ⟨"ComponentType", .always⟩, ⟨"ConnectorType", .always⟩,
      ⟨"SignalType", .always⟩, ⟨"PinCount", .always⟩, ⟨"SignalLayer", .always⟩, ⟨"Orientation", .always⟩, ⟨"WireGroup", .always⟩,
      ⟨"ElectricalPayLoad", .on "fComponentType == EGdtfComponentType::Consumer"⟩,
      ⟨"VoltageRangeMin", .on "fComponentType == EGdtfComponentType::Consumer"⟩,
      ⟨"VoltageRangeMax", .on "fComponentType == EGdtfComponentType::Consumer"⟩,
      ⟨"FrequencyRangeMin", .on "fComponentType == EGdtfComponentType::Consumer"⟩,
      ⟨"FrequencyRangeMax", .on "fComponentType == EGdtfComponentType::Consumer"⟩,
      ⟨"CosPhi", .on "fComponentType == EGdtfComponentType::Consumer"⟩,
      ⟨"MaxPayLoad", .on "fComponentType == EGdtfComponentType::PowerSource"⟩,
      ⟨"Voltage", .on "fComponentType == EGdtfComponentType::PowerSource"⟩,
      ⟨"FuseCurrent", .on "fComponentType == EGdtfComponentType::Fuse"⟩,
      ⟨"FuseRating", .on "fComponentType == EGdtfComponentType::Fuse"⟩]
  optional := [⟨"Model", .always⟩, ⟨"ElectricalPayLoad", .off "fComponentType == EGdtfComponentType::Consumer"⟩,
      ⟨"VoltageRangeMin", .off "fComponentType == EGdtfComponentType::Consumer"⟩,
      ⟨"VoltageRangeMax", .off "fComponentType == EGdtfComponentType::Consumer"⟩,
      ⟨"FrequencyRangeMin", .off "fComponentType == EGdtfComponentType::Consumer"⟩,
      ⟨"FrequencyRangeMax", .off "fComponentType == EGdtfComponentType::Consumer"⟩,
      ⟨"CosPhi", .off "fComponentType == EGdtfComponentType::Consumer"⟩,
      ⟨"MaxPayLoad", .off "fComponentType == EGdtfComponentType::PowerSource"⟩,
      ⟨"Voltage", .off "fComponentType == EGdtfComponentType::PowerSource"⟩,
      ⟨"FuseCurrent", .off "fComponentType == EGdtfComponentType::Fuse"⟩,
      ⟨"FuseRating", .off "fComponentType == EGdtfComponentType::Fuse"⟩]

/-- `GdtfGeometryInventory`, GDTFManager.cpp:3860-3867 OnPrintToFile, 3869-3876 OnReadFromNode, 3878-3896 OnErrorCheck. -/
def kGeometryInventory : Kind where
  name := "GdtfGeometryInventory"
  writes := [⟨"Name", "fUniqueName", .text, .always⟩, ⟨"Position", "fMatrix", (.val "ConvertMatrix"), .always⟩,
      ⟨"Model", "fModelReference", .ref, .on "fModelReference"⟩, ⟨"Count", "fCount", (.val "ConvertInteger"), .always⟩]
  reads := [⟨"Name", "fUniqueName", .text, .always⟩, ⟨"Position", "fMatrix", (.val "ConvertMatrix"), .always⟩,
      ⟨"Model", "fUnresolvedModelRef", .text, .always⟩, ⟨"Count", "fCount", (.val "ConvertInteger"), .always⟩]
  checked := true
  needed := [⟨"Name", .always⟩, ⟨"Position", .always⟩, ⟨"Count", .always⟩]
  optional := [⟨"Model", .always⟩]

/-- `GdtfGeometryStructure`, GDTFManager.cpp:3993-4008 OnPrintToFile, 4010-4021 OnReadFromNode, 4023-4055 OnErrorCheck. -/
def kGeometryStructure : Kind where
  name := "GdtfGeometryStructure"
  writes := [⟨"Name", "fUniqueName", .text, .always⟩, ⟨"Position", "fMatrix", (.val "ConvertMatrix"), .always⟩,
      ⟨"Model", "fModelReference", .ref, .on "fModelReference"⟩, ⟨"LinkedGeometry", "fLinkedGeometry", .ref, .always⟩,
      ⟨"StructureType", "fStructureType", (.val "ConvertStructureTypeEnum"), .always⟩,
      ⟨"CrossSectionType", "fCrossSectionType", (.val "ConvertCrossSectionTypeEnum"), .always⟩,
      ⟨"CrossSectionHeight", "fCrossSectionHeight", (.val "ConvertDouble"), .always⟩,
      ⟨"CrossSectionWallThickness", "fCrossSectionWallThickness", (.val "ConvertDouble"), .always⟩,
      ⟨"TrussCrossSection", "fTrussCrossSection", .text, .always⟩]
  reads := [⟨"Name", "fUniqueName", .text, .always⟩, ⟨"Position", "fMatrix", (.val "ConvertMatrix"), .always⟩,
      ⟨"Model", "fUnresolvedModelRef", .text, .always⟩, ⟨"LinkedGeometry", "fUnresolvedLinkedGeometry", .text, .always⟩,
      ⟨"StructureType", "fStructureType", (.val "ConvertStructureTypeEnum"), .always⟩,
      ⟨"CrossSectionType", "fCrossSectionType", (.val "ConvertCrossSectionTypeEnum"), .always⟩,
      ⟨"CrossSectionHeight", "fCrossSectionHeight", (.val "ConvertDouble"), .always⟩,
      ⟨"CrossSectionWallThickness", "fCrossSectionWallThickness", (.val "ConvertDouble"), .always⟩,
      ⟨"TrussCrossSection", "fTrussCrossSection", .text, .always⟩]
  checked := true
  needed := [⟨"Name", .always⟩, ⟨"Position", .always⟩, ⟨"StructureType", .always⟩,
      ⟨"CrossSectionHeight", .on "fCrossSectionType == EGdtfCrossSectionType::Tube"⟩,
      ⟨"CrossSectionWallThickness", .on "fCrossSectionType == EGdtfCrossSectionType::Tube"⟩,
      ⟨"TrussCrossSection", .off "fCrossSectionType == EGdtfCrossSectionType::Tube"⟩]
  optional := [⟨"Model", .always⟩, ⟨"LinkedGeometry", .always⟩, ⟨"CrossSectionType", .always⟩,
      ⟨"TrussCrossSection", .on "fCrossSectionType == EGdtfCrossSectionType::Tube"⟩,
      ⟨"CrossSectionHeight", .off "fCrossSectionType == EGdtfCrossSectionType::Tube"⟩,
      ⟨"CrossSectionWallThickness", .off "fCrossSectionType == EGdtfCrossSectionType::Tube"⟩]

/-- `GdtfGeometrySupport`, GDTFManager.cpp:4235-4256 OnPrintToFile, 4258-4278 OnReadFromNode, 4280-4333 OnErrorCheck. -/
def kGeometrySupport : Kind where
  name := "GdtfGeometrySupport"
  writes := [⟨"Name", "fUniqueName", .text, .always⟩, ⟨"Position", "fMatrix", (.val "ConvertMatrix"), .always⟩,
      ⟨"Model", "fModelReference", .ref, .on "fModelReference"⟩,
      ⟨"SupportType", "fSupportType", (.val "ConvertSupportTypeEnum"), .always⟩,
      ⟨"CapacityX", "fCapacityX", (.val "ConvertDouble"), .always⟩, ⟨"CapacityY", "fCapacityY", (.val "ConvertDouble"), .always⟩,
      ⟨"CapacityZ", "fCapacityZ", (.val "ConvertDouble"), .always⟩,
      ⟨"CapacityXX", "fCapacityXX", (.val "ConvertDouble"), .always⟩,
      ⟨"CapacityYY", "fCapacityYY", (.val "ConvertDouble"), .always⟩,
      ⟨"CapacityZZ", "fCapacityZZ", (.val "ConvertDouble"), .always⟩, ⟨"RopeCrossSection", "fRopeCrossSection", .text, .always⟩,
      ⟨"RopeOffset", "fRopeOffset", (.val "ConvertVector3"), .always⟩,
      ⟨"ResistanceX", "fResistanceX", (.val "ConvertDouble"), .always⟩,
      ⟨"ResistanceY", "fResistanceY", (.val "ConvertDouble"), .always⟩,
      ⟨"ResistanceZ", "fResistanceZ", (.val "ConvertDouble"), .always⟩,
      ⟨"ResistanceXX", "fResistanceXX", (.val "ConvertDouble"), .always⟩,
      ⟨"ResistanceYY", "fResistanceYY", (.val "ConvertDouble"), .always⟩,
      ⟨"ResistanceZZ", "fResistanceZZ", (.val "ConvertDouble"), .always⟩]
  reads := [⟨"Name", "fUniqueName", .text, .always⟩, ⟨"Position", "fMatrix", (.val "ConvertMatrix"), .always⟩,
      ⟨"Model", "fUnresolvedModelRef", .text, .always⟩,
      ⟨"SupportType", "fSupportType", (.val "ConvertSupportTypeEnum"), .always⟩,
      ⟨"CapacityX", "fCapacityX", (.val "ConvertDouble"), .always⟩, ⟨"CapacityY", "fCapacityY", (.val "ConvertDouble"), .always⟩,
      ⟨"CapacityZ", "fCapacityZ", (.val "ConvertDouble"), .always⟩,
      ⟨"CapacityXX", "fCapacityXX", (.val "ConvertDouble"), .always⟩,
      ⟨"CapacityYY", "fCapacityYY", (.val "ConvertDouble"), .always⟩,
      ⟨"CapacityZZ", "fCapacityZZ", (.val "ConvertDouble"), .always⟩, ⟨"RopeCrossSection", "fRopeCrossSection", .text, .always⟩,
      ⟨"RopeOffset", "fRopeOffset", (.val "ConvertVector3"), .always⟩,
      ⟨"ResistanceX", "fResistanceX", (.val "ConvertDouble"), .always⟩,
      ⟨"ResistanceY", "fResistanceY", (.val "ConvertDouble"), .always⟩,
      ⟨"ResistanceZ", "fResistanceZ", (.val "ConvertDouble"), .always⟩,
      ⟨"ResistanceXX", "fResistanceXX", (.val "ConvertDouble"), .always⟩,
      ⟨"ResistanceYY", "fResistanceYY", (.val "ConvertDouble"), .always⟩,
      ⟨"ResistanceZZ", "fResistanceZZ", (.val "ConvertDouble"), .always⟩]
  checked := true
  needed := [⟨"Name", .always⟩, ⟨"Position", .always⟩, ⟨"SupportType", .always⟩,
      ⟨"RopeCrossSection", .on "fSupportType == EGdtfSupportType::Rope"⟩,
      ⟨"RopeOffset", .on "fSupportType == EGdtfSupportType::Rope"⟩, ⟨"CapacityX", .off "fSupportType == EGdtfSupportType::Rope"⟩,
      ⟨"CapacityY", .off "fSupportType == EGdtfSupportType::Rope"⟩, ⟨"CapacityZ", .off "fSupportType == EGdtfSupportType::Rope"⟩,
      ⟨"CapacityXX", .off "fSupportType == EGdtfSupportType::Rope"⟩,
      ⟨"CapacityYY", .off "fSupportType == EGdtfSupportType::Rope"⟩,
      ⟨"CapacityZZ", .off "fSupportType == EGdtfSupportType::Rope"⟩,
      ⟨"ResistanceX", .off "fSupportType == EGdtfSupportType::Rope"⟩,
      ⟨"ResistanceY", .off "fSupportType == EGdtfSupportType::Rope"⟩,
      ⟨"ResistanceZ", .off "fSupportType == EGdtfSupportType::Rope"⟩,
      ⟨"ResistanceXX", .off "fSupportType == EGdtfSupportType::Rope"⟩,
      ⟨"ResistanceYY", .off "fSupportType == EGdtfSupportType::Rope"⟩,
      ⟨"ResistanceZZ", .off "fSupportType == EGdtfSupportType::Rope"⟩]
  optional := [⟨"Model", .always⟩, ⟨"CapacityX", .on "fSupportType == EGdtfSupportType::Rope"⟩,
      ⟨"CapacityY", .on "fSupportType == EGdtfSupportType::Rope"⟩, ⟨"CapacityZ", .on "fSupportType == EGdtfSupportType::Rope"⟩,
      ⟨"CapacityXX", .on "fSupportType == EGdtfSupportType::Rope"⟩, ⟨"CapacityYY", .on "fSupportType == EGdtfSupportType::Rope"⟩,
      ⟨"CapacityZZ", .on "fSupportType == EGdtfSupportType::Rope"⟩,
      ⟨"ResistanceX", .on "fSupportType == EGdtfSupportType::Rope"⟩,
      ⟨"ResistanceY", .on "fSupportType == EGdtfSupportType::Rope"⟩,
      ⟨"ResistanceZ", .on "fSupportType == EGdtfSupportType::Rope"⟩,
      ⟨"ResistanceXX", .on "fSupportType == EGdtfSupportType::Rope"⟩,
      ⟨"ResistanceYY", .on "fSupportType == EGdtfSupportType::Rope"⟩,
      ⟨"ResistanceZZ", .on "fSupportType == EGdtfSupportType::Rope"⟩,
      ⟨"RopeCrossSection", .off "fSupportType == EGdtfSupportType::Rope"⟩,
      ⟨"RopeOffset", .off "fSupportType == EGdtfSupportType::Rope"⟩]

/-- `GdtfGeometryMagnet`, GDTFManager.cpp:4361-4366 OnPrintToFile, 4368-4373 OnReadFromNode, 4375-4392 OnErrorCheck. -/
def kGeometryMagnet : Kind where
  name := "GdtfGeometryMagnet"
  writes := [⟨"Name", "fUniqueName", .text, .always⟩, ⟨"Position", "fMatrix", (.val "ConvertMatrix"), .always⟩,
      ⟨"Model", "fModelReference", .ref, .on "fModelReference"⟩]
  reads := [⟨"Name", "fUniqueName", .text, .always⟩, ⟨"Position", "fMatrix", (.val "ConvertMatrix"), .always⟩,
      ⟨"Model", "fUnresolvedModelRef", .text, .always⟩]
  checked := true
  needed := [⟨"Name", .always⟩, ⟨"Position", .always⟩]
  optional := [⟨"Model", .always⟩]

/-- `GdtfGeometryLamp`, GDTFManager.cpp:4498-4521 OnPrintToFile, 4523-4545 OnReadFromNode, 4547-4577 OnErrorCheck. -/
def kGeometryLamp : Kind where
  name := "GdtfGeometryLamp"
  writes := [⟨"Name", "fUniqueName", .text, .always⟩, ⟨"Position", "fMatrix", (.val "ConvertMatrix"), .always⟩,
      ⟨"Model", "fModelReference", .ref, .on "fModelReference"⟩, ⟨"LampType", "fLampType", (.val "ConvertLampeType"), .always⟩,
      ⟨"PowerConsumption", "fPowerConsuption", (.val "ConvertDouble"), .always⟩,
      ⟨"LuminousFlux", "fLuminousIntensity", (.val "ConvertDouble"), .always⟩,
      ⟨"ColorTemperature", "fColorTemperature", (.val "ConvertDouble"), .always⟩,
      ⟨"BeamAngle", "fBeamAngle", (.val "ConvertDouble"), .always⟩,
      ⟨"BeamRadius", "fBeamRadius", (.val "ConvertDouble"), .always⟩,
      ⟨"FieldAngle", "fFieldAngle", (.val "ConvertDouble"), .always⟩,
      ⟨"ThrowRatio", "fThrowRatio", (.val "ConvertDouble"), .always⟩,
      ⟨"RectangleRatio", "fRectangleRatio", (.val "ConvertDouble"), .always⟩,
      ⟨"BeamType", "fBeamType", (.val "ConvertBeamType"), .always⟩,
      ⟨"ColorRenderingIndex", "fColorIndex", (.val "ConvertInteger"), .always⟩,
      ⟨"EmitterSpectrum", "fEmitterSpectrum", .ref, .on "fEmitterSpectrum"⟩]
  reads := [⟨"Name", "fUniqueName", .text, .always⟩, ⟨"Position", "fMatrix", (.val "ConvertMatrix"), .always⟩,
      ⟨"Model", "fUnresolvedModelRef", .text, .always⟩, ⟨"LampType", "fLampType", (.val "ConvertLampeType"), .always⟩,
      ⟨"PowerConsumption", "fPowerConsuption", (.val "ConvertDouble"), .always⟩,
      ⟨"LuminousFlux", "fLuminousIntensity", (.val "ConvertDouble"), .always⟩,
      ⟨"ColorTemperature", "fColorTemperature", (.val "ConvertDouble"), .always⟩,
      ⟨"BeamAngle", "fBeamAngle", (.val "ConvertDouble"), .always⟩,
      ⟨"BeamRadius", "fBeamRadius", (.val "ConvertDouble"), .always⟩,
      ⟨"FieldAngle", "fFieldAngle", (.val "ConvertDouble"), .always⟩,
      ⟨"ThrowRatio", "fThrowRatio", (.val "ConvertDouble"), .always⟩,
      ⟨"RectangleRatio", "fRectangleRatio", (.val "ConvertDouble"), .always⟩,
      ⟨"BeamType", "fBeamType", (.val "ConvertBeamType"), .always⟩,
      ⟨"ColorRenderingIndex", "fColorIndex", (.val "ConvertInteger"), .always⟩,
      ⟨"EmitterSpectrum", "fUnresolvedEmitterRef", .text, .always⟩]
  checked := true
  needed := [⟨"Name", .always⟩, ⟨"Position", .always⟩]
  optional := [⟨"LampType", .always⟩, ⟨"PowerConsumption", .always⟩, ⟨"LuminousFlux", .always⟩, ⟨"ColorTemperature", .always⟩,
      ⟨"BeamAngle", .always⟩, ⟨"FieldAngle", .always⟩, ⟨"BeamRadius", .always⟩, ⟨"ThrowRatio", .always⟩,
      ⟨"RectangleRatio", .always⟩, ⟨"BeamType", .always⟩, ⟨"ColorRenderingIndex", .always⟩, ⟨"Model", .always⟩,
      ⟨"EmitterSpectrum", .always⟩]

/-- `GdtfBreak`, GDTFManager.cpp:4677-4689 OnPrintToFile, 4691-4702 OnReadFromNode, 4704-4720 OnErrorCheck. -/
def kBreak : Kind where
  name := "GdtfBreak"
  writes := [⟨"DMXBreak", "fDmxBreak", (.val "ConvertInteger"), .always⟩,
      ⟨"DMXOffset", "fDmxAdress", (.val "ConvertDMXAdress"), .always⟩]
  reads := [⟨"DMXBreak", "fDmxBreak", (.val "ConvertInteger"), .always⟩,
      ⟨"DMXOffset", "fDmxAdress", (.val "ConvertDMXAdress"), .always⟩]
  checked := true
  needed := []
  optional := [⟨"DMXOffset", .always⟩, ⟨"DMXBreak", .always⟩]

/-- `GdtfGeometryReference`, GDTFManager.cpp:4785-4802 OnPrintToFile, 4804-4815 OnReadFromNode, 4817-4835 OnErrorCheck. -/
def kGeometryReference : Kind where
  name := "GdtfGeometryReference"
  writes := [⟨"Name", "fUniqueName", .text, .always⟩, ⟨"Position", "fMatrix", (.val "ConvertMatrix"), .always⟩,
      ⟨"Model", "fModelReference", .ref, .on "fModelReference"⟩, ⟨"Geometry", "fLinkedGeometry", .ref, .on "fLinkedGeometry"⟩]
  reads := [⟨"Name", "fUniqueName", .text, .always⟩, ⟨"Position", "fMatrix", (.val "ConvertMatrix"), .always⟩,
      ⟨"Model", "fUnresolvedModelRef", .text, .always⟩, ⟨"Geometry", "fUnresolvedGeoRef", .text, .always⟩]
  checked := true
  needed := [⟨"Name", .always⟩, ⟨"Geometry", .always⟩, ⟨"Position", .always⟩]
  optional := [⟨"Model", .always⟩]

/-- `GdtfDmxMode`, GDTFManager.cpp:4871-4917 OnPrintToFile, 4919-4967 OnReadFromNode, 4969-4986 OnErrorCheck. -/
def kDmxMode : Kind where
  name := "GdtfDmxMode"
  writes := [⟨"Name", "fName", .text, .always⟩, ⟨"Description", "fDescription", .text, .always⟩,
      ⟨"Geometry", "fGeomRef", .ref, .on "fGeomRef"⟩]
  reads := [⟨"Name", "fName", .text, .always⟩, ⟨"Description", "fDescription", .text, .always⟩,
      ⟨"Geometry", "fUnresolvedGeomRef", .text, .always⟩]
  checked := true
  needed := [⟨"Name", .always⟩, ⟨"Geometry", .always⟩]
  optional := [⟨"Description", .always⟩]

/-- `GdtfDmxChannel`, GDTFManager.cpp:5516-5537 OnPrintToFile, 5539-5603 OnReadFromNode, 5605-5625 OnErrorCheck. -/
def kDmxChannel : Kind where
  name := "GdtfDmxChannel"
  writes := [⟨"DMXBreak", "fDmxBreak", (.val "ConvertDmxBreak"), .always⟩,
      ⟨"Offset", "fCoarse+fFine+fUltra+fUber", (.val "ConvertDmxOffset"), .always⟩,
      ⟨"Highlight", "fHeighlight+fHeighlightNone", (.val "ConvertDMXValue"), .always⟩,
      ⟨"Geometry", "fGeomRef", .ref, .on "fGeomRef"⟩, ⟨"InitialFunction", "fInitialFunction", .ref, .on "fInitialFunction"⟩]
  reads := [⟨"DMXBreak", "fDmxBreak", (.val "ConvertDmxBreak"), .always⟩,
      ⟨"Offset", "fCoarse+fFine+fUltra+fUber", (.val "ConvertDmxOffset"), .always⟩,
      ⟨"Default", "fDefaultValue_old", (.val "ConvertDMXValue"), .always⟩,
      ⟨"Highlight", "fHeighlight+fHeighlightNone", (.val "ConvertDMXValue"), .always⟩,
      ⟨"Geometry", "fUnresolvedGeomRef", .text, .always⟩, ⟨"InitialFunction", "fUnresolvedInitialFunction", .text, .always⟩]
  checked := true
  needed := [⟨"Geometry", .always⟩]
  optional := [⟨"InitialFunction", .always⟩, ⟨"DMXBreak", .always⟩, ⟨"Offset", .always⟩, ⟨"Highlight", .always⟩,
      ⟨"Default", .always⟩]

/-- `GdtfDmxLogicalChannel`, GDTFManager.cpp:5842-5862 OnPrintToFile, 5864-5911 OnReadFromNode, 5913-5931 OnErrorCheck. -/
def kDmxLogicalChannel : Kind where
  name := "GdtfDmxLogicalChannel"
  writes := [⟨"Attribute", "fAttribute", .ref, .on "fAttribute"⟩, ⟨"Snap", "fSnap", (.val "ConvertSnapEnum"), .always⟩,
      ⟨"Master", "fDmxMaster", (.val "ConvertMasterEnum"), .always⟩,
      ⟨"MibFade", "fMoveInBlackFrames", (.val "ConvertDouble"), .always⟩,
      ⟨"DMXChangeTimeLimit", "fDmxChangeTimeLimit", (.val "ConvertDouble"), .always⟩]
  reads := [⟨"Attribute", "fUnresolvedAttribRef", .text, .always⟩, ⟨"Snap", "fSnap", (.val "ConvertSnapEnum"), .always⟩,
      ⟨"Master", "fDmxMaster", (.val "ConvertMasterEnum"), .always⟩,
      ⟨"MibFade", "fMoveInBlackFrames", (.val "ConvertDouble"), .always⟩,
      ⟨"DMXChangeTimeLimit", "fDmxChangeTimeLimit", (.val "ConvertDouble"), .always⟩]
  checked := true
  needed := [⟨"Attribute", .always⟩]
  optional := [⟨"Snap", .always⟩, ⟨"Master", .always⟩, ⟨"MibFade", .always⟩, ⟨"DMXChangeTimeLimit", .always⟩]

/-- `GdtfDmxChannelFunction`, GDTFManager.cpp:6131-6256 OnPrintToFile, 6258-6403 OnReadFromNode, 6405-6439 OnErrorCheck. -/
def kDmxChannelFunction : Kind where
  name := "GdtfDmxChannelFunction"
  writes := [⟨"Name", "fName", .text, .always⟩, ⟨"Default", "fDefaultValue", (.val "ConvertDMXValue"), .always⟩,
      ⟨"DMXFrom", "fAdressStart", (.val "ConvertDMXValue"), .always⟩,
      ⟨"PhysicalFrom", "fPhysicalStart", (.val "ConvertDouble"), .always⟩,
      ⟨"PhysicalTo", "fPhysicalEnd", (.val "ConvertDouble"), .always⟩,
      ⟨"RealFade", "fRealFade", (.val "ConvertDouble"), .always⟩,
      ⟨"RealAcceleration", "fRealAcceleration", (.val "ConvertDouble"), .always⟩,
      ⟨"Min", "fMin", (.val "ConvertDouble"), .always⟩, ⟨"Max", "fMax", (.val "ConvertDouble"), .always⟩,
      ⟨"CustomName", "fCustomName", .text, .always⟩, ⟨"OriginalAttribute", "fOrignalAttribute", .text, .always⟩,
      ⟨"Attribute", "fAttribute", .ref, .on "fAttribute"⟩, ⟨"Wheel", "fOnWheel", .ref, .on "fOnWheel"⟩,
      ⟨"Emitter", "fEmitter", .ref, .on "fEmitter"⟩, ⟨"Filter", "fFilter", .ref, .on "fFilter"⟩,
      ⟨"ColorSpace", "fColorSpace", .ref, .on "fColorSpace"⟩, ⟨"Gamut", "fGamut", .ref, .on "fGamut"⟩,
      ⟨"DMXProfile", "fDMXProfile", .ref, .on "fDMXProfile"⟩,
      ⟨"ModeMaster", "fModeMaster_Channel", .ref, .on "fModeMaster_Channel"⟩,
      ⟨"ModeFrom", "fDmxModeStart", (.val "ConvertDMXValue"), .on "fModeMaster_Channel"⟩,
      ⟨"ModeTo", "fDmxModeEnd", (.val "ConvertDMXValue"), .on "fModeMaster_Channel"⟩,
      ⟨"ModeMaster", "fModeMaster_Function", .ref, .on "fModeMaster_Function"⟩,
      ⟨"ModeFrom", "fDmxModeStart", (.val "ConvertDMXValue"), .on "fModeMaster_Function"⟩,
      ⟨"ModeTo", "fDmxModeEnd", (.val "ConvertDMXValue"), .on "fModeMaster_Function"⟩]
  reads := [⟨"Name", "fName", .text, .always⟩, ⟨"OriginalAttribute", "fOrignalAttribute", .text, .always⟩,
      ⟨"Default", "fDefaultValue", (.val "ConvertDMXValue"), .always⟩,
      ⟨"DMXFrom", "fAdressStart", (.val "ConvertDMXValue"), .always⟩,
      ⟨"PhysicalFrom", "fPhysicalStart", (.val "ConvertDouble"), .always⟩,
      ⟨"PhysicalTo", "fPhysicalEnd", (.val "ConvertDouble"), .always⟩,
      ⟨"RealFade", "fRealFade", (.val "ConvertDouble"), .always⟩,
      ⟨"RealAcceleration", "fRealAcceleration", (.val "ConvertDouble"), .always⟩,
      ⟨"Min", "fMin", (.val "ConvertDouble"), .always⟩, ⟨"Max", "fMax", (.val "ConvertDouble"), .always⟩,
      ⟨"CustomName", "fCustomName", .text, .always⟩, ⟨"Attribute", "fUnresolvedAttrRef", .text, .always⟩,
      ⟨"Wheel", "fUnresolvedWheelRef", .text, .always⟩, ⟨"Emitter", "fUnresolvedEmitterRef", .text, .always⟩,
      ⟨"Filter", "fUnresolvedFilterRef", .text, .always⟩, ⟨"ColorSpace", "fUnresolvedColorSpaceRef", .text, .always⟩,
      ⟨"Gamut", "fUnresolvedGamutRef", .text, .always⟩, ⟨"DMXProfile", "fUnresolvedDMXProfileRef", .text, .always⟩,
      ⟨"ModeMaster", "fUnresolvedModeMaster", .text, .always⟩, ⟨"ModeFrom", "fUnresolvedDmxModeStart", .text, .always⟩,
      ⟨"ModeTo", "fUnresolvedDmxModeEnd", .text, .always⟩]
  checked := true
  needed := []
  optional := [⟨"Name", .always⟩, ⟨"Attribute", .always⟩, ⟨"OriginalAttribute", .always⟩, ⟨"Default", .always⟩,
      ⟨"DMXFrom", .always⟩, ⟨"PhysicalFrom", .always⟩, ⟨"PhysicalTo", .always⟩, ⟨"Wheel", .always⟩, ⟨"Emitter", .always⟩,
      ⟨"ModeMaster", .always⟩, ⟨"ModeFrom", .always⟩, ⟨"ModeTo", .always⟩, ⟨"RealFade", .always⟩, ⟨"Filter", .always⟩,
      ⟨"RealAcceleration", .always⟩, ⟨"ColorSpace", .always⟩, ⟨"Gamut", .always⟩, ⟨"DMXProfile", .always⟩, ⟨"Min", .always⟩,
      ⟨"Max", .always⟩, ⟨"CustomName", .always⟩]

/-- `GdtfDmxChannelSet`, GDTFManager.cpp:6834-6853 OnPrintToFile, 6855-6879 OnReadFromNode, 6881-6910 OnErrorCheck. -/
def kDmxChannelSet : Kind where
  name := "GdtfDmxChannelSet"
  writes := [⟨"Name", "fUniqueName", .text, .always⟩, ⟨"DMXFrom", "fDmxStart", (.val "ConvertDMXValue"), .always⟩,
      ⟨"WheelSlotIndex", "fWheelSlotIdx", (.val "ConvertInteger"), .always⟩,
      ⟨"PhysicalFrom", "fPhysicalStart", (.val "ConvertDouble"), .on "fSetPhysical"⟩,
      ⟨"PhysicalTo", "fPhysicalEnd", (.val "ConvertDouble"), .on "fSetPhysical"⟩]
  reads := [⟨"Name", "fUniqueName", .text, .always⟩, ⟨"DMXFrom", "fDmxStart", (.val "ConvertDMXValue"), .always⟩,
      ⟨"WheelSlotIndex", "fWheelSlotIdx", (.val "ConvertInteger"), .always⟩,
      ⟨"PhysicalFrom", "fPhysicalStart", (.val "ConvertDouble"), .always⟩,
      ⟨"PhysicalTo", "fPhysicalEnd", (.val "ConvertDouble"), .always⟩]
  checked := true
  needed := [⟨"PhysicalFrom", .on "fSetPhysical"⟩, ⟨"PhysicalTo", .on "fSetPhysical"⟩]
  optional := [⟨"Name", .always⟩, ⟨"DMXFrom", .always⟩, ⟨"WheelSlotIndex", .always⟩, ⟨"PhysicalFrom", .off "fSetPhysical"⟩,
      ⟨"PhysicalTo", .off "fSetPhysical"⟩]

/-- `GdtfDmxSubChannelSet`, GDTFManager.cpp:7017-7031 OnPrintToFile, 7033-7046 OnReadFromNode, 7048-7067 OnErrorCheck. -/
def kDmxSubChannelSet : Kind where
  name := "GdtfDmxSubChannelSet"
  writes := [⟨"Name", "fUniqueName", .text, .always⟩, ⟨"PhysicalFrom", "fPhysicalFrom", (.val "ConvertDouble"), .always⟩,
      ⟨"PhysicalTo", "fPhysicalTo", (.val "ConvertDouble"), .always⟩,
      ⟨"SubPhysicalUnit", "fSubPhysicalUnit", .ref, .on "fSubPhysicalUnit"⟩,
      ⟨"DMXProfile", "fDMXProfile", .ref, .on "fDMXProfile"⟩]
  reads := [⟨"Name", "fUniqueName", .text, .always⟩, ⟨"PhysicalFrom", "fPhysicalFrom", (.val "ConvertDouble"), .always⟩,
      ⟨"PhysicalTo", "fPhysicalTo", (.val "ConvertDouble"), .always⟩,
      ⟨"SubPhysicalUnit", "fUnresolvedSubPhysicalUnitRef", .text, .always⟩,
      ⟨"DMXProfile", "fUnresolvedDMXProfileRef", .text, .always⟩]
  checked := true
  needed := [⟨"SubPhysicalUnit", .always⟩]
  optional := [⟨"Name", .always⟩, ⟨"PhysicalFrom", .always⟩, ⟨"PhysicalTo", .always⟩, ⟨"DMXProfile", .always⟩]

/-- `GdtfDmxRelation`, GDTFManager.cpp:7146-7160 OnPrintToFile, 7162-7174 OnReadFromNode, 7176-7194 OnErrorCheck. -/
def kDmxRelation : Kind where
  name := "GdtfDmxRelation"
  writes := [⟨"Name", "fUniqueName", .text, .always⟩, ⟨"Master", "fMasterDmxChannel", .ref, .on "fMasterDmxChannel"⟩,
      ⟨"Follower", "fSlaveChannelFunction", .ref, .on "fSlaveChannelFunction"⟩,
      ⟨"Type", "fRelationType", (.val "ConvertRelationEnum"), .always⟩]
  reads := [⟨"Name", "fUniqueName", .text, .always⟩, ⟨"Master", "fUnresolvedMasterRef", .text, .always⟩,
      ⟨"Follower", "fUnresolvedSlaveRef", .text, .always⟩, ⟨"Type", "fRelationType", (.val "ConvertRelationEnum"), .always⟩]
  checked := true
  needed := [⟨"Name", .always⟩, ⟨"Master", .always⟩, ⟨"Follower", .always⟩, ⟨"Type", .always⟩]
  optional := []

/-- `GdtfRevision`, GDTFManager.cpp:7266-7280 OnPrintToFile, 7282-7296 OnReadFromNode, 7298-7316 OnErrorCheck. -/
def kRevision : Kind where
  name := "GdtfRevision"
  writes := [⟨"Text", "fText", .text, .always⟩, ⟨"Date", "fDateS", (.val "ConvertDate"), .always⟩,
      ⟨"UserID", "fUserId", (.val "ConvertInteger"), .always⟩, ⟨"ModifiedBy", "fModifiedBy", .text, .always⟩]
  reads := [⟨"Text", "fText", .text, .always⟩, ⟨"Date", "fDateS", (.val "ConvertDate"), .always⟩,
      ⟨"UserID", "fUserId", (.val "ConvertInteger"), .always⟩, ⟨"ModifiedBy", "fModifiedBy", .text, .always⟩]
  checked := true
  needed := [⟨"Date", .always⟩]
  optional := [⟨"Text", .always⟩, ⟨"UserID", .always⟩, ⟨"ModifiedBy", .always⟩]

/-- `GdtfPhysicalEmitter`, GDTFManager.cpp:7424-7442 OnPrintToFile, 7444-7479 OnReadFromNode, 7481-7502 OnErrorCheck. -/
def kPhysicalEmitter : Kind where
  name := "GdtfPhysicalEmitter"
  writes := [⟨"Name", "fName", .text, .always⟩, ⟨"Color", "fColor", (.val "ConvertColor"), .always⟩,
      ⟨"DominantWaveLength", "fDominantWaveLength", (.val "ConvertDouble"), .always⟩, ⟨"DiodePart", "fDiodePart", .text, .always⟩]
  reads := [⟨"Name", "fName", .text, .always⟩, ⟨"Color", "fColor", (.val "ConvertColor"), .always⟩,
      ⟨"DominantWaveLength", "fDominantWaveLength", (.val "ConvertDouble"), .always⟩, ⟨"DiodePart", "fDiodePart", .text, .always⟩]
  checked := true
  needed := [⟨"Name", .always⟩, ⟨"Color", .always⟩]
  optional := [⟨"DominantWaveLength", .always⟩, ⟨"DiodePart", .always⟩]

/-- `GdtfUserPreset`, GDTFManager.cpp:7554-7559 OnPrintToFile, 7561-7566 OnReadFromNode. -/
def kUserPreset : Kind where
  name := "GdtfUserPreset"
  writes := []
  reads := []
  checked := false
  needed := []
  optional := []

/-- `GdtfMacro`, GDTFManager.cpp:7601-7623 OnPrintToFile, 7625-7652 OnReadFromNode, 7654-7670 OnErrorCheck. -/
def kMacro : Kind where
  name := "GdtfMacro"
  writes := [⟨"Name", "fName", .text, .always⟩, ⟨"ChannelFunction", "fChannelFunction", .ref, .on "fChannelFunction"⟩]
  reads := [⟨"Name", "fName", .text, .always⟩, ⟨"ChannelFunction", "fUnresolvedChannelFunction", .text, .always⟩]
  checked := true
  needed := [⟨"Name", .always⟩]
  optional := [⟨"ChannelFunction", .always⟩]

/-- `GdtfMeasurementPoint`, GDTFManager.cpp:7751-7761 OnPrintToFile, 7763-7773 OnReadFromNode, 7775-7791 OnErrorCheck. -/
def kMeasurementPoint : Kind where
  name := "GdtfMeasurementPoint"
  writes := [⟨"WaveLength", "fWaveLength", (.val "ConvertDouble"), .always⟩,
      ⟨"Energy", "fEngergy", (.val "ConvertDouble"), .always⟩]
  reads := [⟨"WaveLength", "fWaveLength", (.val "ConvertDouble"), .always⟩,
      ⟨"Energy", "fEngergy", (.val "ConvertDouble"), .always⟩]
  checked := true
  needed := [⟨"WaveLength", .always⟩, ⟨"Energy", .always⟩]
  optional := []

/-- `GdtfFixture`, GDTFManager.cpp:9434-9573 OnPrintToFile, 9575-9820 OnReadFromNode, 9822-9847 OnErrorCheck. -/
def kFixture : Kind where
  name := "GdtfFixture"
  writes := [⟨"Name", "fName", .text, .always⟩, ⟨"ShortName", "fShortName", .text, .always⟩,
      ⟨"LongName", "fLongName", .text, .always⟩, ⟨"Manufacturer", "fManufacturer", .text, .always⟩,
      ⟨"Description", "fFixtureTypeDescription", .text, .always⟩, ⟨"FixtureTypeID", "fGuid", (.val "ConvertUUID"), .always⟩,
      ⟨"Thumbnail", "fTumbnailName", .text, .always⟩,
      ⟨"ThumbnailOffsetX", "fThumbnailOffsetX", (.val "ConvertInteger"), .always⟩,
      ⟨"ThumbnailOffsetY", "fThumbnailOffsetY", (.val "ConvertInteger"), .always⟩,
      ⟨"CanHaveChildren", "fCanHaveChildren", (.val "ConvertEGdtfCanHaveChildren"), .always⟩,
      ⟨"RefFT", "fLinkedGuid", (.val "ConvertUUID"), .on "fHasLinkedGuid"⟩, ⟨"RefFT", "", .blank, .off "fHasLinkedGuid"⟩]
  reads := [⟨"Name", "fName", .text, .always⟩, ⟨"ShortName", "fShortName", .text, .always⟩,
      ⟨"LongName", "fLongName", .text, .always⟩, ⟨"Manufacturer", "fManufacturer", .text, .always⟩,
      ⟨"Description", "fFixtureTypeDescription", .text, .always⟩, ⟨"FixtureTypeID", "fGuid", (.val "ConvertUUID"), .always⟩,
      ⟨"Thumbnail", "fTumbnailName", .text, .always⟩,
      ⟨"ThumbnailOffsetX", "fThumbnailOffsetX", (.val "ConvertInteger"), .always⟩,
      ⟨"ThumbnailOffsetY", "fThumbnailOffsetY", (.val "ConvertInteger"), .always⟩,
      ⟨"CanHaveChildren", "fCanHaveChildren", (.val "ConvertEGdtfCanHaveChildren"), .always⟩,
      ⟨"RefFT", "fLinkedGuid", (.val "ConvertUUID"), .always⟩]
  checked := true
  needed := [⟨"Name", .always⟩, ⟨"ShortName", .always⟩, ⟨"LongName", .always⟩, ⟨"Manufacturer", .always⟩,
      ⟨"Description", .always⟩, ⟨"FixtureTypeID", .always⟩]
  optional := [⟨"Thumbnail", .always⟩, ⟨"RefFT", .always⟩, ⟨"ThumbnailOffsetX", .always⟩, ⟨"ThumbnailOffsetY", .always⟩,
      ⟨"CanHaveChildren", .always⟩]

/-- `GdtfPoint`, GDTFManager.cpp:10494-10508 OnPrintToFile, 10510-10523 OnReadFromNode, 10525-10544 OnErrorCheck. -/
def kPoint : Kind where
  name := "GdtfPoint"
  writes := [⟨"DMXPercentage", "fDMXPercentage", (.val "ConvertDouble"), .always⟩,
      ⟨"CFC3", "fCFC3", (.val "ConvertDouble"), .always⟩, ⟨"CFC2", "fCFC2", (.val "ConvertDouble"), .always⟩,
      ⟨"CFC1", "fCFC1", (.val "ConvertDouble"), .always⟩, ⟨"CFC0", "fCFC0", (.val "ConvertDouble"), .always⟩]
  reads := [⟨"DMXPercentage", "fDMXPercentage", (.val "ConvertDouble"), .always⟩,
      ⟨"CFC3", "fCFC3", (.val "ConvertDouble"), .always⟩, ⟨"CFC2", "fCFC2", (.val "ConvertDouble"), .always⟩,
      ⟨"CFC1", "fCFC1", (.val "ConvertDouble"), .always⟩, ⟨"CFC0", "fCFC0", (.val "ConvertDouble"), .always⟩]
  checked := true
  needed := []
  optional := [⟨"DMXPercentage", .always⟩, ⟨"CFC3", .always⟩, ⟨"CFC2", .always⟩, ⟨"CFC1", .always⟩, ⟨"CFC0", .always⟩]

/-- `GdtfDMXProfile`, GDTFManager.cpp:10596-10612 OnPrintToFile, 10614-10637 OnReadFromNode, 10639-10654 OnErrorCheck. -/
def kDMXProfile : Kind where
  name := "GdtfDMXProfile"
  writes := [⟨"Name", "fUniqueName", .text, .always⟩]
  reads := [⟨"Name", "fUniqueName", .text, .always⟩]
  checked := true
  needed := []
  optional := [⟨"Name", .always⟩]

/-- `GdtfCRIGroup`, GDTFManager.cpp:10705-10721 OnPrintToFile, 10723-10747 OnReadFromNode, 10749-10764 OnErrorCheck. -/
def kCRIGroup : Kind where
  name := "GdtfCRIGroup"
  writes := [⟨"ColorTemperature", "fColorTemperature", (.val "ConvertDouble"), .always⟩]
  reads := [⟨"ColorTemperature", "fColorTemperature", (.val "ConvertDouble"), .always⟩]
  checked := true
  needed := []
  optional := [⟨"ColorTemperature", .always⟩]

/-- `GdtfCRI`, GDTFManager.cpp:10812-10823 OnPrintToFile, 10825-10838 OnReadFromNode, 10840-10856 OnErrorCheck. -/
def kCRI : Kind where
  name := "GdtfCRI"
  writes := [⟨"CES", "fCES", (.val "ConvertEGdtfColorSampleEnum"), .always⟩,
      ⟨"ColorRenderingIndex", "fCRI", (.val "ConvertInteger"), .always⟩]
  reads := [⟨"CES", "fCES", (.val "ConvertEGdtfColorSampleEnum"), .always⟩,
      ⟨"ColorRenderingIndex", "fCRI", (.val "ConvertInteger"), .always⟩]
  checked := true
  needed := []
  optional := [⟨"CES", .always⟩, ⟨"ColorRenderingIndex", .always⟩]

/-- `GdtfFTRDM`, GDTFManager.cpp:10864-10879 OnPrintToFile, 10881-10908 OnReadFromNode, 10910-10926 OnErrorCheck. -/
def kFTRDM : Kind where
  name := "GdtfFTRDM"
  writes := [⟨"ManufacturerID", "fManufacturerID", (.val "ConvertHexValue"), .always⟩,
      ⟨"DeviceModelID", "fDeviceModelID", (.val "ConvertHexValue"), .always⟩]
  reads := [⟨"ManufacturerID", "fManufacturerID", (.val "ConvertHexValue"), .always⟩,
      ⟨"DeviceModelID", "fDeviceModelID", (.val "ConvertHexValue"), .always⟩]
  checked := true
  needed := [⟨"ManufacturerID", .always⟩, ⟨"DeviceModelID", .always⟩]
  optional := []

/-- `GdtfDMXPersonality`, GDTFManager.cpp:11038-11048 OnPrintToFile, 11050-11063 OnReadFromNode. -/
def kDMXPersonality : Kind where
  name := "GdtfDMXPersonality"
  writes := [⟨"Value", "fValue", (.val "ConvertHexValue"), .always⟩, ⟨"DMXMode", "fDMXMode", .ref, .always⟩]
  reads := [⟨"Value", "fValue", (.val "ConvertHexValue"), .always⟩, ⟨"DMXMode", "fDMXMode_Unresolved", .text, .always⟩]
  checked := false
  needed := []
  optional := []

/-- `GdtfProtocols`, GDTFManager.cpp:11170-11184 OnPrintToFile, 11186-11242 OnReadFromNode, 11244-11258 OnErrorCheck. -/
def kProtocols : Kind where
  name := "GdtfProtocols"
  writes := []
  reads := []
  checked := true
  needed := []
  optional := []

/-- `GdtfMap`, GDTFManager.cpp:11296-11304 OnPrintToFile, 11306-11314 OnReadFromNode, 11316-11331 OnErrorCheck. -/
def kMap : Kind where
  name := "GdtfMap"
  writes := [⟨"Key", "fKey", (.val "ConvertInteger"), .always⟩, ⟨"Value", "fValue", (.val "ConvertInteger"), .always⟩]
  reads := [⟨"Key", "fKey", (.val "ConvertInteger"), .always⟩, ⟨"Value", "fValue", (.val "ConvertInteger"), .always⟩]
  checked := true
  needed := [⟨"Key", .always⟩, ⟨"Value", .always⟩]
  optional := []

/-- `GdtfArtNet`, GDTFManager.cpp:11367-11377 OnPrintToFile, 11379-11399 OnReadFromNode. -/
def kArtNet : Kind where
  name := "GdtfArtNet"
  writes := []
  reads := []
  checked := false
  needed := []
  optional := []

/-- `GdtfsAcn`, GDTFManager.cpp:11435-11445 OnPrintToFile, 11447-11467 OnReadFromNode. -/
def ksAcn : Kind where
  name := "GdtfsAcn"
  writes := []
  reads := []
  checked := false
  needed := []
  optional := []

/-- `GdtfMacroDMX`, GDTFManager.cpp:11597-11612 OnPrintToFile, 11614-11634 OnReadFromNode. -/
def kMacroDMX : Kind where
  name := "GdtfMacroDMX"
  writes := []
  reads := []
  checked := false
  needed := []
  optional := []

/-- `GdtfMacroDMXStep`, GDTFManager.cpp:11699-11715 OnPrintToFile, 11717-11738 OnReadFromNode, 11740-11755 OnErrorCheck. -/
def kMacroDMXStep : Kind where
  name := "GdtfMacroDMXStep"
  writes := [⟨"Duration", "fDuration", (.val "ConvertDouble"), .always⟩]
  reads := [⟨"Duration", "fDuration", (.val "ConvertDouble"), .always⟩]
  checked := true
  needed := []
  optional := [⟨"Duration", .always⟩]

/-- `GdtfMacroDMXValue`, GDTFManager.cpp:11797-11815 OnPrintToFile, 11817-11827 OnReadFromNode, 11829-11845 OnErrorCheck. -/
def kMacroDMXValue : Kind where
  name := "GdtfMacroDMXValue"
  writes := [⟨"Value", "fValue", (.val "ConvertDMXValue"), .always⟩, ⟨"DMXChannel", "fDMXChannel", .ref, .always⟩]
  reads := [⟨"Value", "funresolvedValue", .text, .always⟩, ⟨"DMXChannel", "funresolvedDMXChannel", .text, .always⟩]
  checked := true
  needed := [⟨"Value", .always⟩, ⟨"DMXChannel", .always⟩]
  optional := []

/-- `GdtfMacroVisual`, GDTFManager.cpp:11879-11894 OnPrintToFile, 11896-11916 OnReadFromNode. -/
def kMacroVisual : Kind where
  name := "GdtfMacroVisual"
  writes := []
  reads := []
  checked := false
  needed := []
  optional := []

/-- `GdtfMacroVisualStep`, GDTFManager.cpp:11984-12002 OnPrintToFile, 12004-12030 OnReadFromNode, 12032-12049 OnErrorCheck. -/
def kMacroVisualStep : Kind where
  name := "GdtfMacroVisualStep"
  writes := [⟨"Duration", "fDuration", (.val "ConvertDouble"), .always⟩, ⟨"Fade", "fFade", (.val "ConvertDouble"), .always⟩,
      ⟨"Delay", "fDelay", (.val "ConvertDouble"), .always⟩]
  reads := [⟨"Duration", "fDuration", (.val "ConvertDouble"), .always⟩, ⟨"Fade", "fFade", (.val "ConvertDouble"), .always⟩,
      ⟨"Delay", "fDelay", (.val "ConvertDouble"), .always⟩]
  checked := true
  needed := []
  optional := [⟨"Duration", .always⟩, ⟨"Fade", .always⟩, ⟨"Delay", .always⟩]

/-- `GdtfMacroVisualValue`, GDTFManager.cpp:12112-12126 OnPrintToFile, 12128-12137 OnReadFromNode, 12139-12155 OnErrorCheck. -/
def kMacroVisualValue : Kind where
  name := "GdtfMacroVisualValue"
  writes := [⟨"Value", "fDmxValue", (.val "ConvertDMXValue"), .always⟩, ⟨"ChannelFunction", "fChannelFunctionRef", .ref, .always⟩]
  reads := [⟨"Value", "funresolvedValue", .text, .always⟩, ⟨"ChannelFunction", "fUnresolvedChannelFunctionRef", .text, .always⟩]
  checked := true
  needed := [⟨"Value", .always⟩, ⟨"ChannelFunction", .always⟩]
  optional := []

/-- `GdtfSoftwareVersionID`, GDTFManager.cpp:12205-12221 OnPrintToFile, 12223-12245 OnReadFromNode. -/
def kSoftwareVersionID : Kind where
  name := "GdtfSoftwareVersionID"
  writes := [⟨"Value", "fValue", (.val "ConvertHexValue"), .always⟩]
  reads := [⟨"Value", "fValue", (.val "ConvertHexValue"), .always⟩]
  checked := false
  needed := []
  optional := []

/-- `GdtfGamut`, GDTFManager.cpp:12285-12293 OnPrintToFile, 12295-12303 OnReadFromNode, 12305-12320 OnErrorCheck. -/
def kGamut : Kind where
  name := "GdtfGamut"
  writes := [⟨"Name", "fUniqueName", .text, .always⟩, ⟨"Points", "fGamutPoints", (.val "ConvertColorArray"), .always⟩]
  reads := [⟨"Name", "fUniqueName", .text, .always⟩, ⟨"Points", "fGamutPoints", (.val "ConvertColorArray"), .always⟩]
  checked := true
  needed := [⟨"Name", .always⟩, ⟨"Points", .always⟩]
  optional := []

/-- `GdtfColorSpace`, GDTFManager.cpp:12877-12895 OnPrintToFile, 12897-12917 OnReadFromNode, 12919-12939 OnErrorCheck. -/
def kColorSpace : Kind where
  name := "GdtfColorSpace"
  writes := [⟨"Name", "fUniqueName", .text, .always⟩, ⟨"Mode", "fColorSpace", (.val "ConvertEGdtfColorSpace"), .always⟩,
      ⟨"Red", "fRed", (.val "ConvertColor"), .on "fColorSpace == EGdtfColorSpace::Custom"⟩,
      ⟨"Green", "fGreen", (.val "ConvertColor"), .on "fColorSpace == EGdtfColorSpace::Custom"⟩,
      ⟨"Blue", "fBlue", (.val "ConvertColor"), .on "fColorSpace == EGdtfColorSpace::Custom"⟩,
      ⟨"WhitePoint", "fWhitePoint", (.val "ConvertColor"), .on "fColorSpace == EGdtfColorSpace::Custom"⟩]
  reads := [⟨"Name", "fUniqueName", .text, .always⟩, ⟨"Mode", "fColorSpace", (.val "ConvertEGdtfColorSpace"), .always⟩,
      ⟨"Red", "fRed", (.val "ConvertColor"), .on "fColorSpace == EGdtfColorSpace::Custom"⟩,
      ⟨"Green", "fGreen", (.val "ConvertColor"), .on "fColorSpace == EGdtfColorSpace::Custom"⟩,
      ⟨"Blue", "fBlue", (.val "ConvertColor"), .on "fColorSpace == EGdtfColorSpace::Custom"⟩,
      ⟨"WhitePoint", "fWhitePoint", (.val "ConvertColor"), .on "fColorSpace == EGdtfColorSpace::Custom"⟩]
  checked := true
  needed := []
  optional := [⟨"Red", .always⟩, ⟨"Green", .always⟩, ⟨"Blue", .always⟩, ⟨"WhitePoint", .always⟩, ⟨"Mode", .always⟩,
      ⟨"Name", .always⟩]

/-- `GdtfFilter`, GDTFManager.cpp:13000-13017 OnPrintToFile, 13019-13051 OnReadFromNode. -/
def kFilter : Kind where
  name := "GdtfFilter"
  writes := [⟨"Name", "fName", .text, .always⟩, ⟨"Color", "fColor", (.val "ConvertColor"), .always⟩]
  reads := [⟨"Name", "fName", .text, .always⟩, ⟨"Color", "fColor", (.val "ConvertColor"), .always⟩]
  checked := false
  needed := []
  optional := []

/-- `GdtfMeasurement` of an emitter, GDTFManager.cpp:13134-13155 OnPrintToFile, 13157-13188 OnReadFromNode.  The member `fIsForFilter` is set by the
constructor only (13058-13065): it is false here (7419, 7469), and the condition of 13144 is decided. -/
def kMeasurement : Kind where
  name := "GdtfMeasurement"
  writes := [⟨"Physical", "fPhysical", (.val "ConvertDouble"), .always⟩,
      ⟨"LuminousIntensity", "fLuminousIntensity", (.val "ConvertDouble"), .always⟩,
      ⟨"InterpolationTo", "fInterpolationTo", (.val "ConvertEGdtfInterpolationTo"), .always⟩]
  reads := [⟨"Physical", "fPhysical", (.val "ConvertDouble"), .always⟩,
      ⟨"LuminousIntensity", "fLuminousIntensity", (.val "ConvertDouble"), .always⟩,
      ⟨"Transmission", "fTransmission", (.val "ConvertDouble"), .always⟩,
      ⟨"InterpolationTo", "fInterpolationTo", (.val "ConvertEGdtfInterpolationTo"), .always⟩]
  checked := false
  needed := []
  optional := []

/-- `GdtfMeasurement` of a filter, the same lines: `fIsForFilter` is true (GDTFManager.cpp:12989, 13044). -/
def kFilterMeasurement : Kind where
  name := "GdtfMeasurement(true)"
  writes := [⟨"Physical", "fPhysical", (.val "ConvertDouble"), .always⟩,
      ⟨"Transmission", "fTransmission", (.val "ConvertDouble"), .always⟩,
      ⟨"InterpolationTo", "fInterpolationTo", (.val "ConvertEGdtfInterpolationTo"), .always⟩]
  reads := [⟨"Physical", "fPhysical", (.val "ConvertDouble"), .always⟩,
      ⟨"LuminousIntensity", "fLuminousIntensity", (.val "ConvertDouble"), .always⟩,
      ⟨"Transmission", "fTransmission", (.val "ConvertDouble"), .always⟩,
      ⟨"InterpolationTo", "fInterpolationTo", (.val "ConvertEGdtfInterpolationTo"), .always⟩]
  checked := false
  needed := []
  optional := []

/-- `GdtfConnector`, GDTFManager.cpp:13237-13250 OnPrintToFile, 13252-13269 OnReadFromNode, 13271-13291 OnErrorCheck. -/
def kConnector : Kind where
  name := "GdtfConnector"
  writes := [⟨"Name", "fName", .text, .always⟩, ⟨"Type", "fType", .text, .always⟩,
      ⟨"DMXBreak", "fDmxBreak", (.val "ConvertInteger"), .always⟩, ⟨"Gender", "fGender", (.val "ConvertInteger"), .always⟩,
      ⟨"Length", "fLength", (.val "ConvertDouble"), .always⟩]
  reads := [⟨"Name", "fName", .text, .always⟩, ⟨"Type", "fType", .text, .always⟩,
      ⟨"DMXBreak", "fDmxBreak", (.val "ConvertInteger"), .always⟩, ⟨"Gender", "fGender", (.val "ConvertInteger"), .always⟩,
      ⟨"Length", "fLength", (.val "ConvertDouble"), .always⟩]
  checked := true
  needed := [⟨"Name", .always⟩, ⟨"Type", .always⟩]
  optional := [⟨"DMXBreak", .always⟩, ⟨"Gender", .always⟩, ⟨"Length", .always⟩]

/-- The node `OperatingTemperature` of `GdtfPhysicalDescriptions`, GDTFManager.cpp:12597-12602 OnPrintToFile, 12737-12747
OnReadFromNode. -/
def kOperatingTemperature : Kind where
  name := "OperatingTemperature"
  writes := [⟨"Low", "fOperatingTemperatureLow", (.val "ConvertDouble"), .always⟩,
      ⟨"High", "fOperatingTemperatureHigh", (.val "ConvertDouble"), .always⟩]
  reads := [⟨"Low", "fOperatingTemperatureLow", (.val "ConvertDouble"), .always⟩,
      ⟨"High", "fOperatingTemperatureHigh", (.val "ConvertDouble"), .always⟩]
  checked := false
  needed := []
  optional := []

/-- The node `Weight` of `GdtfPhysicalDescriptions`, GDTFManager.cpp:12604-12608 OnPrintToFile, 12749-12756 OnReadFromNode. -/
def kWeight : Kind where
  name := "Weight"
  writes := [⟨"Value", "fWeight", (.val "ConvertDouble"), .always⟩]
  reads := [⟨"Value", "fWeight", (.val "ConvertDouble"), .always⟩]
  checked := false
  needed := []
  optional := []

/-- The node `LegHeight` of `GdtfPhysicalDescriptions`, GDTFManager.cpp:12610-12614 OnPrintToFile, 12758-12765 OnReadFromNode. -/
def kLegHeight : Kind where
  name := "LegHeight"
  writes := [⟨"Value", "fLegHeight", (.val "ConvertDouble"), .always⟩]
  reads := [⟨"Value", "fLegHeight", (.val "ConvertDouble"), .always⟩]
  checked := false
  needed := []
  optional := []

/-- All kinds. -/
def kinds : List Kind := [kActivationGroup, kFeature, kFeatureGroup, kSubPhysicalUnit, kAttribute, kWheel, kWheelSlotPrismFacet,
      kWheelSlotAnimationSystem, kWheelSlot, kModel, kGeometry, kGeometryAxis, kGeometryBeamFilter, kGeometryColorFilter,
      kGeometryShaperFilter, kGeometryGoboFilter, kGeometryMediaServerCamera, kGeometryMediaServerLayer,
      kGeometryMediaServerMaster, kGeometryDisplay, kLaserProtocol, kGeometryLaser, kPinPatch, kGeometryWiringObject,
      kGeometryInventory, kGeometryStructure, kGeometrySupport, kGeometryMagnet, kGeometryLamp, kBreak, kGeometryReference,
      kDmxMode, kDmxChannel, kDmxLogicalChannel, kDmxChannelFunction, kDmxChannelSet, kDmxSubChannelSet, kDmxRelation, kRevision,
      kPhysicalEmitter, kUserPreset, kMacro, kMeasurementPoint, kFixture, kPoint, kDMXProfile, kCRIGroup, kCRI, kFTRDM,
      kDMXPersonality, kProtocols, kMap, kArtNet, ksAcn, kMacroDMX, kMacroDMXStep, kMacroDMXValue, kMacroVisual,
      kMacroVisualStep, kMacroVisualValue, kSoftwareVersionID, kGamut, kColorSpace, kFilter, kMeasurement, kFilterMeasurement, kConnector,
      kOperatingTemperature, kWeight, kLegHeight]

end Verif.Node
