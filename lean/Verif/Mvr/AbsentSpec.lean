import Verif.Mvr.Spec

/-!
# Specification: what is left out of an MVR description

Numbers are zero, flags false, texts and lists empty, UUIDs zero, a matrix is the identity, a colour white, the direction of an alignment is
downwards with the z axis up, an enumeration has its first value.
-/

namespace Verif.Mvr.Spec

open Verif.Real Verif.Dmx Verif.Enum

/-- The value of a member of an object. -/
def valueIn : Obj → String → Option Val
  | .mk c vs _, m =>
    match kinds.find? (fun k => k.cls == c) with
    | some k => ((k.values.map (·.member)).zip vs).lookup m
    | none => none

/-- The objects in a member of an object. -/
def objectsIn : Obj → String → Option (List Obj)
  | .mk c _ ks, m =>
    match kinds.find? (fun k => k.cls == c) with
    | some k => ((k.members.map (·.member)).zip ks).lookup m
    | none => none

/-- The UUID of zeros. -/
def noUuid : Val := .uuid (List.replicate 16 0)

/-- An integer as a floating point number. -/
def num (i : Int) : Dbl := ⟨decide (i < 0), i.natAbs⟩

/-- Classes with a name. -/
def withName : List String :=
  ["SceneDataSourceObj", "SceneDataMappingObj", "SceneDataMappingDefinitionObj", "SceneDataConnectionObj", "SceneDataCustomCommand",
   "SceneDataAlignment", "SceneDataOverwrite", "SceneDataGeometryObj", "SceneDataSymbolObj", "SceneDataSymDefObj", "SceneDataPositionObj",
   "SceneDataGroupObj", "SceneDataLayerObj", "SceneDataFocusPointObj", "SceneDataSceneryObj", "SceneDataTrussObj", "SceneDataSupportObj",
   "SceneDataFixtureObj", "SceneDataVideoScreenObj", "SceneDataProjectorObj"]

/-- A class, an attribute of its node, the member for it, and the value it has without the attribute. -/
def withoutAttribute : List (String × String × String × Val) :=
  withName.map (fun c => (c, "name", "fName", .text [])) ++
  [("SceneDataSymbolObj", "uuid", "fGuid", noUuid), ("SceneDataSymDefObj", "uuid", "fGuid", noUuid),
   ("SceneDataPositionObj", "uuid", "fGuid", noUuid), ("SceneDataMappingDefinitionObj", "uuid", "fGuid", noUuid),
   ("SceneDataSymbolObj", "symdef", "fSymDef", .text []),
   ("SceneDataGeometryObj", "fileName", "fFileName", .text []),
   ("SceneDataConnectionObj", "own", "fOwn", .text []), ("SceneDataConnectionObj", "other", "fOther", .text []),
   ("SceneDataConnectionObj", "toObject", "fToObject", noUuid),
   ("SceneDataOverwrite", "universal", "fUniversal", .text []), ("SceneDataOverwrite", "target", "fTarget", .text []),
   ("SceneDataAlignment", "geometry", "fBeamGeometry", .text []),
   ("SceneDataAlignment", "up", "fUpVector", .vec ⟨num 0, num 0, num 1⟩),
   ("SceneDataAlignment", "direction", "fDirection", .vec ⟨num 0, num 0, num (-1)⟩),
   ("SceneDataSourceObj", "linkedGeometry", "fLinkedGeometry", .text []), ("SceneDataSourceObj", "type", "fType", .source .cNDI),
   ("SceneDataMappingObj", "linkedDef", "fLinkedDefUuid", noUuid),
   ("fGobo", "rotation", "fGoboRotation", .real (num 0)),
   ("SceneDataDmxAdress", "break", "fBreak", .int 0),
   ("SceneDataProtocols", "geometry", "fGeometry", .text []), ("SceneDataProtocols", "name", "fName", .text []),
   ("SceneDataProtocols", "type", "fType", .text []), ("SceneDataProtocols", "version", "fVersion", .text []),
   ("SceneDataProtocols", "transmission", "fTransmision", .transmission .cAnycast),
   ("Provider.Entry", "key", "fKeyArr", .text []), ("SceneDataProviderObj", "provider", "fProvider", .text []),
   ("SceneDataProviderObj", "ver", "fVersion", .text [])]

/-- White. -/
def cieWhite : Val := .color ⟨⟨false, 312712 / 1000000⟩, ⟨false, 329008 / 1000000⟩, num 100⟩

/-- The auxiliary data of a scene without any. -/
def noAux : Obj := .mk "Exchange.AUXData" [] [[], [], []]

/-- A member, the node for it, and the object in it without the node. -/
def withoutNode : List (String × String × Obj) :=
  [("fMatrix", "Matrix", .mk "fMatrix" [.matrix ⟨⟨num 1, num 0, num 0⟩, ⟨num 0, num 1, num 0⟩, ⟨num 0, num 0, num 1⟩, ⟨num 0, num 0, num 0⟩⟩] []),
   ("fGdtfFile", "GDTFSpec", .mk "fGdtfFile" [.text []] []), ("fGdtfDmxMode", "GDTFMode", .mk "fGdtfDmxMode" [.text []] []),
   ("fFixtureId", "FixtureID", .mk "fFixtureId" [.text []] []),
   ("fFixtureIdNumeric", "FixtureIDNumeric", .mk "fFixtureIdNumeric" [.int 0] []),
   ("fUnitNumber", "UnitNumber", .mk "fUnitNumber" [.int 0] []), ("fFixtureTypeId", "FixtureTypeId", .mk "fFixtureTypeId" [.int 0] []),
   ("fCustomId", "CustomId", .mk "fCustomId" [.int 0] []), ("fColor", "Color", .mk "fColor" [cieWhite] []),
   ("fGobo", "Gobo", .mk "fGobo" [.text [], .real (num 0)] []), ("fFunction", "Function", .mk "fFunction" [.text []] []),
   ("fCastShadow", "CastShadow", .mk "fCastShadow" [.flag false] []), ("fDMXInvertPan", "DMXInvertPan", .mk "fDMXInvertPan" [.flag false] []),
   ("fDMXInvertTilt", "DMXInvertTilt", .mk "fDMXInvertTilt" [.flag false] []),
   ("fUx", "ux", .mk "fUx" [.int 0] []), ("fUy", "uy", .mk "fUy" [.int 0] []), ("fOx", "ox", .mk "fOx" [.int 0] []),
   ("fOy", "oy", .mk "fOy" [.int 0] []), ("fRz", "rz", .mk "fRz" [.real (num 0)] []),
   ("fSizeX", "SizeX", .mk "fSizeX" [.int 0] []), ("fSizeY", "SizeY", .mk "fSizeY" [.int 0] []),
   ("fScaleHandling", "ScaleHandling", .mk "fScaleHandling" [.scale .cScaleKeepRatio] []),
   ("Projector.fScaleHandling", "ScaleHandling", .mk "Projector.fScaleHandling" [.scale .cScaleKeepRatio] []),
   ("AUXData", "AUXData", noAux), ("Scene", "Scene", .mk "Exchange.Scene" [] [[], [noAux]])]

/-- The values of a mapping, and how a projector scales. -/
def mappingValues : List String := ["fUx", "fUy", "fOx", "fOy", "fRz", "Projector.fScaleHandling"]

/-- Classes with a position. -/
def positioned : List String :=
  ["SceneDataGeometryObj", "SceneDataSymbolObj", "SceneDataGroupObj", "SceneDataLayerObj", "SceneDataFocusPointObj", "SceneDataSceneryObj",
   "SceneDataTrussObj", "SceneDataSupportObj", "SceneDataFixtureObj", "SceneDataVideoScreenObj", "SceneDataProjectorObj"]

/-- A class, a member of it, and the node without which the member is empty. -/
def empty : List (String × String × String) :=
  positioned.flatMap (fun c => [(c, "fGeometries", "Geometries"), (c, "fCustomCommands", "CustomCommands"), (c, "fAlignments", "Alignments"),
    (c, "fOverwrites", "Overwrites"), (c, "fClass", "Classing"), (c, "fConnections", "Connections")]) ++
  (positioned.drop 2).map (fun c => (c, "fChildObjs", "ChildList")) ++
  [("SceneDataSymDefObj", "fGeometries", "ChildList"), ("SceneDataFixtureObj", "fFocusPoint", "Focus"),
   ("SceneDataFixtureObj", "fPosition", "Position"), ("SceneDataFixtureObj", "fAdresses", "Addresses"),
   ("SceneDataFixtureObj", "fMappings", "Mappings"), ("SceneDataFixtureObj", "fProtocols", "Protocols"),
   ("SceneDataVideoScreenObj", "fSource", "Sources"), ("Projector.Projection", "fSource", "Source"),
   ("SceneDataMappingDefinitionObj", "fSource", "Source"), ("Exchange.Scene", "fChildObjs", "Layers"),
   ("SceneDataExchange", "fProviderObjs", "UserData")]

end Verif.Mvr.Spec
