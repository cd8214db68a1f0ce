import Verif.Node.Model

/-!
# Specification: objects that can be written without losing anything
-/

namespace Verif.Node.Spec

/-- The references that a node of the kind must have: kind, member. -/
def references : List (String × String) :=
  [("GdtfAttribute", "fFeature"), ("GdtfPinPatch", "fToWiringObject"), ("GdtfGeometryReference", "fLinkedGeometry"),
   ("GdtfDmxMode", "fGeomRef"), ("GdtfDmxChannel", "fGeomRef"), ("GdtfDmxLogicalChannel", "fAttribute"),
   ("GdtfDmxSubChannelSet", "fSubPhysicalUnit"), ("GdtfDmxRelation", "fMasterDmxChannel"),
   ("GdtfDmxRelation", "fSlaveChannelFunction")]

/-- All references the kind must have are set. -/
def Complete (k : Kind) (flags : String → Bool) : Prop := ∀ p ∈ references, p.1 = k.name → flags p.2 = true

/-- Members that keep the text of another member until all nodes are read: kind, member with the text, member. -/
def deferred : List (String × String × String) := [
   ("GdtfAttribute", "fUnresolvedActGroup", "fActivationGroup"),
   ("GdtfAttribute", "fUnresolvedFeature", "fFeature"),
   ("GdtfAttribute", "fUnresolvedMainAttrib", "fMainAttribute"),
   ("GdtfDMXPersonality", "fDMXMode_Unresolved", "fDMXMode"),
   ("GdtfDmxChannel", "fUnresolvedGeomRef", "fGeomRef"),
   ("GdtfDmxChannel", "fUnresolvedInitialFunction", "fInitialFunction"),
   ("GdtfDmxChannelFunction", "fUnresolvedAttrRef", "fAttribute"),
   ("GdtfDmxChannelFunction", "fUnresolvedColorSpaceRef", "fColorSpace"),
   ("GdtfDmxChannelFunction", "fUnresolvedDMXProfileRef", "fDMXProfile"),
   ("GdtfDmxChannelFunction", "fUnresolvedDmxModeEnd", "fDmxModeEnd"),
   ("GdtfDmxChannelFunction", "fUnresolvedDmxModeStart", "fDmxModeStart"),
   ("GdtfDmxChannelFunction", "fUnresolvedEmitterRef", "fEmitter"),
   ("GdtfDmxChannelFunction", "fUnresolvedFilterRef", "fFilter"),
   ("GdtfDmxChannelFunction", "fUnresolvedGamutRef", "fGamut"),
   ("GdtfDmxChannelFunction", "fUnresolvedModeMaster", "fModeMaster_Channel"),
   ("GdtfDmxChannelFunction", "fUnresolvedModeMaster", "fModeMaster_Function"),
   ("GdtfDmxChannelFunction", "fUnresolvedWheelRef", "fOnWheel"),
   ("GdtfDmxLogicalChannel", "fUnresolvedAttribRef", "fAttribute"),
   ("GdtfDmxMode", "fUnresolvedGeomRef", "fGeomRef"),
   ("GdtfDmxRelation", "fUnresolvedMasterRef", "fMasterDmxChannel"),
   ("GdtfDmxRelation", "fUnresolvedSlaveRef", "fSlaveChannelFunction"),
   ("GdtfDmxSubChannelSet", "fUnresolvedDMXProfileRef", "fDMXProfile"),
   ("GdtfDmxSubChannelSet", "fUnresolvedSubPhysicalUnitRef", "fSubPhysicalUnit"),
   ("GdtfGeometry", "fUnresolvedModelRef", "fModelReference"),
   ("GdtfGeometryAxis", "fUnresolvedModelRef", "fModelReference"),
   ("GdtfGeometryBeamFilter", "fUnresolvedModelRef", "fModelReference"),
   ("GdtfGeometryColorFilter", "fUnresolvedModelRef", "fModelReference"),
   ("GdtfGeometryDisplay", "fUnresolvedModelRef", "fModelReference"),
   ("GdtfGeometryGoboFilter", "fUnresolvedModelRef", "fModelReference"),
   ("GdtfGeometryInventory", "fUnresolvedModelRef", "fModelReference"),
   ("GdtfGeometryLamp", "fUnresolvedEmitterRef", "fEmitterSpectrum"),
   ("GdtfGeometryLamp", "fUnresolvedModelRef", "fModelReference"),
   ("GdtfGeometryLaser", "fUnresolvedEmitter", "fEmitter"),
   ("GdtfGeometryLaser", "fUnresolvedModelRef", "fModelReference"),
   ("GdtfGeometryMagnet", "fUnresolvedModelRef", "fModelReference"),
   ("GdtfGeometryMediaServerCamera", "fUnresolvedModelRef", "fModelReference"),
   ("GdtfGeometryMediaServerLayer", "fUnresolvedModelRef", "fModelReference"),
   ("GdtfGeometryMediaServerMaster", "fUnresolvedModelRef", "fModelReference"),
   ("GdtfGeometryReference", "fUnresolvedGeoRef", "fLinkedGeometry"),
   ("GdtfGeometryReference", "fUnresolvedModelRef", "fModelReference"),
   ("GdtfGeometryShaperFilter", "fUnresolvedModelRef", "fModelReference"),
   ("GdtfGeometryStructure", "fUnresolvedLinkedGeometry", "fLinkedGeometry"),
   ("GdtfGeometryStructure", "fUnresolvedModelRef", "fModelReference"),
   ("GdtfGeometrySupport", "fUnresolvedModelRef", "fModelReference"),
   ("GdtfGeometryWiringObject", "fUnresolvedModelRef", "fModelReference"),
   ("GdtfMacro", "fUnresolvedChannelFunction", "fChannelFunction"),
   ("GdtfMacroDMXValue", "funresolvedDMXChannel", "fDMXChannel"),
   ("GdtfMacroDMXValue", "funresolvedValue", "fValue"),
   ("GdtfMacroVisualValue", "fUnresolvedChannelFunctionRef", "fChannelFunctionRef"),
   ("GdtfMacroVisualValue", "funresolvedValue", "fDmxValue"),
   ("GdtfPinPatch", "fUnresolvedWiringObject", "fToWiringObject"),
   ("GdtfWheelSlot", "fUnresolvedFilter", "fFilter")]

end Verif.Node.Spec
