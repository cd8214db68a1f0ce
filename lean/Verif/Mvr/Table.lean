import Verif.Mvr.Model

/-!
# The classes of an MVR scene and what they write and read

Transcribed from `/repo/src/SceneDataExchange.cpp`; the names of nodes and attributes are the constants of
`/repo/src/Prefix/CommonPrefix.h:66-252`.  Names with a point stand for members that are written as a child node.
-/

namespace Verif.Mvr

open Verif.Real

/-- A member that is a child node with a text. -/
def leaf (name node : String) (codec : Codec) (init : Val) (skip : Skip := .never) : Class :=
  ⟨name, node, [⟨name, .own, codec, .own, codec, init⟩], [], skip⟩

/-- The slot of such a member, always present. -/
def child (name node : String) : Slot := ⟨name, none, false, none, .embedded, [name], [(node, name)]⟩

/-- The slot of such a member, only there if it is set. -/
def childIfSet (name node : String) : Slot := ⟨name, none, false, none, .first, [name], [(node, name)]⟩

/-- An array of objects in a node of their own. -/
def boxed (member box : String) (items : List (String × String)) (onlyIfAny : Bool) : Slot :=
  ⟨member, some box, onlyIfAny, some box, .many, items.map (·.2), items⟩

/-- SceneDataExchange.cpp:272-277, 302-305. -/
def nameField : Field := ⟨"fName", .attr "name", .optText, .attr "name", .optText, .text []⟩

/-- SceneDataExchange.cpp:264-269; the constructor gets the attribute. -/
def uuidField : Field := ⟨"fGuid", .attr "uuid", .uuid, .attr "uuid", .uuid, .uuid []⟩

/-- SceneDataExchange.cpp:1506-1597, 1600-1720 `SceneDataObjWithMatrix`. -/
def matrixSlots : List Slot :=
  [child "fMatrix" "Matrix",
   boxed "fGeometries" "Geometries" [("Geometry3D", "SceneDataGeometryObj"), ("Symbol", "SceneDataSymbolObj")] true,
   boxed "fCustomCommands" "CustomCommands" [("CustomCommand", "SceneDataCustomCommand")] true,
   boxed "fAlignments" "Alignments" [("Alignment", "SceneDataAlignment")] true,
   boxed "fOverwrites" "Overwrites" [("Overwrite", "SceneDataOverwrite")] true,
   childIfSet "fClass" "Classing",
   boxed "fConnections" "Connections" [("Connection", "SceneDataConnectionObj")] true]

/-- SceneDataExchange.cpp:4070-4077: the objects of a scene. -/
def sceneObjects : List (String × String) :=
  [("Fixture", "SceneDataFixtureObj"), ("SceneObject", "SceneDataSceneryObj"), ("FocusPoint", "SceneDataFocusPointObj"),
   ("Truss", "SceneDataTrussObj"), ("VideoScreen", "SceneDataVideoScreenObj"), ("Support", "SceneDataSupportObj"),
   ("Projector", "SceneDataProjectorObj"), ("GroupObject", "SceneDataGroupObj")]

/-- SceneDataExchange.cpp:2508-2526, 4045-4063 `SceneDataGroupObj`. -/
def groupSlots : List Slot := matrixSlots ++ [boxed "fChildObjs" "ChildList" sceneObjects true]

/-- SceneDataExchange.cpp:92-129 `SceneDataGDTFSpecObj`. -/
def specSlots : List Slot := groupSlots ++ [child "fGdtfFile" "GDTFSpec", child "fGdtfDmxMode" "GDTFMode"]

/-- SceneDataExchange.cpp:2133-2296, 2298-2449 `SceneDataFixtureObj`. -/
def fixtureSlots : List Slot := specSlots ++
  [childIfSet "fFocusPoint" "Focus",
   childIfSet "fPosition" "Position",
   boxed "fAdresses" "Addresses" [("Address", "SceneDataDmxAdress")] false,
   child "fFixtureId" "FixtureID",
   child "fFixtureIdNumeric" "FixtureIDNumeric",
   child "fUnitNumber" "UnitNumber",
   child "fFixtureTypeId" "FixtureTypeId",
   child "fCustomId" "CustomId",
   child "fColor" "Color",
   child "fGobo" "Gobo",
   child "fFunction" "Function",
   child "fCastShadow" "CastShadow",
   boxed "fMappings" "Mappings" [("Mapping", "SceneDataMappingObj")] false,
   child "fDMXInvertPan" "DMXInvertPan",
   child "fDMXInvertTilt" "DMXInvertTilt",
   boxed "fProtocols" "Protocols" [("Protocol", "SceneDataProtocols")] false]

/-- All classes. -/
def classes : List Class :=
  [-- SceneDataExchange.cpp:1510-1525, 1614-1628
   leaf "fMatrix" "Matrix" .matrix (.matrix .identity) .identity,
   -- 1578-1586, 1717-1721
   leaf "fClass" "Classing" .text (.text []),
   -- 98-104, 120-121
   leaf "fGdtfFile" "GDTFSpec" .text (.text []),
   -- 108-112, 126
   leaf "fGdtfDmxMode" "GDTFMode" .text (.text []),
   -- 2139-2147, 2304-2305
   leaf "fFocusPoint" "Focus" .text (.text []),
   -- 2152-2159, 2309-2310
   leaf "fPosition" "Position" .text (.text []),
   -- 2181-2185, 2316-2317
   leaf "fFixtureId" "FixtureID" .text (.text []),
   -- 2189-2193, 2321-2323
   leaf "fFixtureIdNumeric" "FixtureIDNumeric" .size (.int 0) .zero,
   -- 2197-2202, 2327-2329
   leaf "fUnitNumber" "UnitNumber" (.sint 32) (.int 0),
   -- 2206-2211, 2334-2336
   leaf "fFixtureTypeId" "FixtureTypeId" (.sint 8) (.int 0),
   -- 2216-2220, 2342-2344
   leaf "fCustomId" "CustomId" .sizeAs32 (.int 0),
   -- 2224-2229, 2367-2374; SceneDataExchange.cpp:1894
   leaf "fColor" "Color" .color (.color ⟨⟨false, 312712 / 1000000⟩, ⟨false, 329008 / 1000000⟩, ⟨false, 100⟩⟩),
   -- 2233-2238, 2378-2387
   ⟨"fGobo", "Gobo", [⟨"fGobo", .own, .text, .own, .text, .text []⟩,
     ⟨"fGoboRotation", .attr "rotation", .real, .attr "rotation", .real, .real zero⟩], [], .noText⟩,
   -- 2242-2246, 2391-2395
   leaf "fFunction" "Function" .text (.text []) .noText,
   -- 2251-2255, 2400-2406
   leaf "fCastShadow" "CastShadow" .flag (.flag false),
   -- 2268-2272, 2418-2424
   leaf "fDMXInvertPan" "DMXInvertPan" .flag (.flag false),
   -- 2274-2278, 2426-2432
   leaf "fDMXInvertTilt" "DMXInvertTilt" .flag (.flag false),
   -- 2164-2177, 2350-2362
   ⟨"SceneDataDmxAdress", "Address", [⟨"fBreak", .attr "break", .sizeFrom32, .attr "break", .sizeFrom32, .int 0⟩,
     ⟨"fAbsuluteAdress", .own, .sizeFrom32, .own, .sizeFrom32, .int 0⟩], [],
     .never⟩,
   -- 2280-2295, 2434-2448
   ⟨"SceneDataProtocols", "Protocol", [⟨"fGeometry", .attr "geometry", .text, .attr "geometry", .text, .text []⟩,
     ⟨"fName", .attr "name", .text, .attr "name", .text, .text []⟩,
     ⟨"fType", .attr "type", .text, .attr "type", .text, .text []⟩, ⟨"fVersion", .attr "version", .text, .attr "version", .text, .text []⟩,
     ⟨"fTransmision", .attr "transmission", .transmission, .attr "transmission", .transmission, .undef⟩], [], .never⟩,
   -- 684-713
   ⟨"SceneDataSourceObj", "Source", [nameField, ⟨"fLinkedGeometry", .attr "linkedGeometry", .optText, .attr "linkedGeometry", .optText, .text []⟩,
     ⟨"fType", .attr "type", .source, .attr "type", .source, .undef⟩, ⟨"fValue", .own, .text, .own, .text, .text []⟩], [], .never⟩,
   -- 956-1046; the constructors do not set the members
   leaf "fUx" "ux" .uint32 .undef,
   leaf "fUy" "uy" .uint32 .undef,
   leaf "fOx" "ox" .uint32 .undef,
   leaf "fOy" "oy" .uint32 .undef,
   leaf "fRz" "rz" .real .undef,
   ⟨"SceneDataMappingObj", "Mapping", [nameField, ⟨"fLinkedDefUuid", .attr "linkedDef", .uuid, .attr "linkedDef", .uuid, .uuid []⟩],
     [child "fUx" "ux", child "fUy" "uy", child "fOx" "ox", child "fOy" "oy", child "fRz" "rz"], .never⟩,
   -- 796-865
   leaf "fSizeX" "SizeX" .uint32 (.int 0),
   leaf "fSizeY" "SizeY" .uint32 (.int 0),
   leaf "fScaleHandling" "ScaleHandling" .scale (.scale .cScaleKeepRatio),
   ⟨"SceneDataMappingDefinitionObj", "MappingDefinition", [uuidField, nameField],
     [child "fSizeX" "SizeX", child "fSizeY" "SizeY",
      ⟨"fSource", none, false, none, .needed, ["SceneDataSourceObj"], [("Source", "SceneDataSourceObj")]⟩,
      child "fScaleHandling" "ScaleHandling"], .never⟩,
   -- 1112-1135
   ⟨"SceneDataConnectionObj", "Connection", [nameField, ⟨"fOwn", .attr "own", .text, .attr "own", .text, .text []⟩,
     ⟨"fOther", .attr "other", .text, .attr "other", .text, .text []⟩,
     ⟨"fToObject", .attr "toObject", .uuid, .attr "toObject", .uuid, .uuid []⟩], [], .never⟩,
   -- 1187-1225
   ⟨"SceneDataCustomCommand", "CustomCommand", [nameField,
     ⟨"fChannelFunction, fIsPercentage, fValue", .own, .command, .own, .command, .command [] false zero⟩],
     [], .never⟩,
   -- 1289-1308
   ⟨"SceneDataAlignment", "Alignment", [nameField, ⟨"fBeamGeometry", .attr "geometry", .text, .attr "geometry", .text, .text []⟩,
     ⟨"fUpVector", .attr "up", .vec, .attr "up", .vec, .vec ⟨zero, zero, zero⟩⟩,
     ⟨"fDirection", .attr "direction", .vec, .attr "direction", .vec, .vec ⟨zero, zero, zero⟩⟩], [], .never⟩,
   -- 1359-1376
   ⟨"SceneDataOverwrite", "Overwrite", [nameField, ⟨"fUniversal", .attr "universal", .text, .attr "universal", .text, .text []⟩,
     ⟨"fTarget", .attr "target", .text, .attr "target", .text, .text []⟩], [], .never⟩,
   -- 187-201
   ⟨"SceneDataGeometryObj", "Geometry3D", [nameField,
     ⟨"fFileName", .attr "fileName", .text, .attr "fileName", .text, .text []⟩], matrixSlots, .never⟩,
   -- 2822-2838
   ⟨"SceneDataSymbolObj", "Symbol", [uuidField, nameField,
     ⟨"fSymDef", .attr "symdef", .optText, .attr "symdef", .optText, .text []⟩], matrixSlots, .never⟩,
   -- 476-524
   ⟨"SceneDataSymDefObj", "Symdef", [uuidField, nameField],
     [boxed "fGeometries" "ChildList" [("Geometry3D", "SceneDataGeometryObj"), ("Symbol", "SceneDataSymbolObj")] false], .never⟩,
   -- 573-586
   ⟨"SceneDataPositionObj", "Position", [uuidField, nameField], [], .never⟩,
   -- 2490-2526
   ⟨"SceneDataGroupObj", "GroupObject", [uuidField, nameField], groupSlots, .noChildren⟩,
   ⟨"SceneDataLayerObj", "Layer", [uuidField, nameField], groupSlots, .never⟩,
   ⟨"SceneDataFocusPointObj", "FocusPoint", [uuidField, nameField], groupSlots, .never⟩,
   ⟨"SceneDataSceneryObj", "SceneObject", [uuidField, nameField], specSlots, .never⟩,
   ⟨"SceneDataTrussObj", "Truss", [uuidField, nameField], specSlots, .never⟩,
   ⟨"SceneDataSupportObj", "Support", [uuidField, nameField], specSlots, .never⟩,
   ⟨"SceneDataFixtureObj", "Fixture", [uuidField, nameField], fixtureSlots, .never⟩,
   -- 2656-2690
   ⟨"SceneDataVideoScreenObj", "VideoScreen", [uuidField, nameField], specSlots ++
     [⟨"fSource", some "Sources", false, some "Sources", .first, ["SceneDataSourceObj"], [("Source", "SceneDataSourceObj")]⟩], .never⟩,
   -- 2742-2800; the constructor does not set fScaleHandling
   leaf "Projector.fScaleHandling" "ScaleHandling" .scale .undef,
   ⟨"Projector.Projection", "Projection", [], [⟨"fSource", none, false, none, .first, ["SceneDataSourceObj"], [("Source", "SceneDataSourceObj")]⟩,
     child "Projector.fScaleHandling" "ScaleHandling"], .never⟩,
   ⟨"SceneDataProjectorObj", "Projector", [uuidField, nameField], specSlots ++
     [⟨"Projection", some "Projections", false, some "Projections", .embedded, ["Projector.Projection"],
       [("Projection", "Projector.Projection")]⟩], .never⟩,
   -- 337-395
   ⟨"Provider.Entry", "VWEntry", [⟨"fKeyArr", .attr "key", .text, .attr "key", .text, .text []⟩,
     ⟨"fDataArr", .own, .text, .own, .text, .text []⟩], [], .never⟩,
   ⟨"SceneDataProviderObj", "Data", [⟨"fProvider", .attr "provider", .text, .attr "provider", .text, .text []⟩,
     ⟨"fVersion", .attr "ver", .text, .attr "ver", .text, .text []⟩],
     [⟨"fKeyArr, fDataArr", none, false, none, .many, ["Provider.Entry"], [("VWEntry", "Provider.Entry")]⟩], .never⟩,
   -- 3592-3690, 3792-3925; the classes of a scene are read but never written
   ⟨"Exchange.AUXData", "AUXData", [],
     [⟨"fMappingDefinitionObjs", none, false, none, .many, ["SceneDataMappingDefinitionObj"],
        [("MappingDefinition", "SceneDataMappingDefinitionObj")]⟩,
      ⟨"fPositions", none, false, none, .many, ["SceneDataPositionObj"], [("Position", "SceneDataPositionObj")]⟩,
      ⟨"fSymDefObjs", none, false, none, .many, ["SceneDataSymDefObj"], [("Symdef", "SceneDataSymDefObj")]⟩], .never⟩,
   ⟨"Exchange.Scene", "Scene", [],
     [boxed "fChildObjs" "Layers" [("Layer", "SceneDataLayerObj")] false,
      ⟨"AUXData", none, false, none, .embedded, ["Exchange.AUXData"], [("AUXData", "Exchange.AUXData")]⟩], .never⟩,
   ⟨"SceneDataExchange", "GeneralSceneDescription", [],
     [boxed "fProviderObjs" "UserData" [("Data", "SceneDataProviderObj")] false,
      ⟨"Scene", none, false, none, .embedded, ["Exchange.Scene"], [("Scene", "Exchange.Scene")]⟩], .never⟩]

end Verif.Mvr
