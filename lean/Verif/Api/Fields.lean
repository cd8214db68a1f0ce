import Verif.Name.Model

/-!
# Model of the setters and getters of the public API

Every row is one field of an API class that has a setter and a getter.  The comment of the row names the
lines of the setter and of the getter in src/Implementation, and the lines of the functions behind them.
Members are qualified with the class that declares them.
-/

namespace Verif.Api

/-- A value that passes the interface.  Doubles, DMX values, matrices, vectors, times, UUIDs and links to other
objects are passed on as they are; they are all `opaque`.  Colours are three numbers in units of
0.0001. -/
inductive Val where
  | int (i : Int)
  | text (s : List (BitVec 16))
  | enum (s : String)
  | nums (l : List Int)
  | flag (b : Bool)
  | null
  | opaque (n : Nat)
  deriving DecidableEq, Repr

/-- What a setter does with an argument before it is stored. -/
inductive Conv where
  /-- Stored as it is. -/
  | same
  /-- `GdtfUtil::DoesNameContainInvalidChars` was applied, Utility.cpp:97-107. -/
  | clean
  /-- Converted from `Sint32` to the `Uint16` of `DMXAddress`, Include/GDTFPrefix.h:13. -/
  | addr
  /-- The unit that belongs to a sub physical type, `GdtfConverter::GetUnitFromSubPhysical`. -/
  | unit
  deriving DecidableEq, Repr

/-- XmlFileHelper.cpp:2484-2501 `GdtfConverter::GetUnitFromSubPhysical`. -/
def unitOf (t : String) : String :=
  if t = "PlacementOffset" then "Angle" else if t = "Duration" then "Time" else "Percent"

/-- The conversion of an argument. -/
def Conv.apply : Conv → Val → Val
  | .clean, .text s => .text ((Name.cleanName (s.length + 1) s).getD s)
  | .addr, .int i => .int (i % 65536)
  | .unit, .enum s => .enum (unitOf s)
  | _, v => v

/-- What is assigned to a member: a converted argument or a constant. -/
inductive Src where
  | arg (name : String) (c : Conv)
  | const (v : Val)
  deriving DecidableEq, Repr

/-- One field. -/
structure Field where
  cls : String
  field : String
  /-- The kinds of object the setter and the getter work on; empty = all kinds. -/
  need : List String
  /-- The kinds they refuse. -/
  deny : List String
  /-- The assignments of the setter, in order. -/
  writes : List (String × Src)
  /-- The getter reports "not set" unless this member is true. -/
  flag : Option String
  /-- The results of the getter and the members they come from. -/
  reads : List (String × String)
  /-- The getter reports "not set" for this value. -/
  unset : Option Val
  /-- The getter returns these values instead for the listed colour spaces. -/
  over : List (String × Val)
  deriving DecidableEq, Repr

/-- An object behind the interface: whether the pointer is set, the kind of object, the members. -/
structure Inst where
  isSet : Bool
  kind : String
  mem : String → Val

/-- The member with a new value. -/
def Inst.put (o : Inst) (m : String) (v : Val) : Inst :=
  { o with mem := fun n => if n = m then v else o.mem n }

/-- The checks of the pointer and the kind of object in front of setters and getters, e.g.
CGdtfGeometry.cpp:1055-1062. -/
def Field.admits (f : Field) (o : Inst) : Bool :=
  o.isSet && (f.need.isEmpty || f.need.contains o.kind) && !f.deny.contains o.kind

/-- The value an assignment stores. -/
def Src.val (args : String → Val) : Src → Val
  | .arg n c => c.apply (args n)
  | .const v => v

/-- A setter; `none` = an error is returned and nothing changes. -/
def Field.set (f : Field) (o : Inst) (args : String → Val) : Option Inst :=
  if f.admits o then some (f.writes.foldl (fun o w => o.put w.1 (w.2.val args)) o) else none

/-- What a getter answers. -/
inductive Answer where
  | refused
  | notSet
  | values (l : List (String × Val))
  deriving DecidableEq, Repr

/-- The value behind one result of a getter, e.g. GDTFManager.cpp:12806-12840 for the colours of a colour
space. -/
def Field.value (f : Field) (o : Inst) (m : String) : Val :=
  match f.over.find? (fun p => decide (o.mem "GdtfColorSpace.fColorSpace" = .enum p.1)) with
  | some p => p.2
  | none => o.mem m

/-- A getter. -/
def Field.get (f : Field) (o : Inst) : Answer :=
  if !f.admits o then .refused
  else if f.flag.any (fun m => decide (o.mem m ≠ .flag true)) then .notSet
  else if f.reads.any (fun p => decide (f.unset = some (f.value o p.2))) then .notSet
  else .values (f.reads.map fun p => (p.1, f.value o p.2))

/-- The fields of `CAlignmentImpl`. -/
def fieldsAlignment : List Field := [
  -- CAlignmentImpl.cpp:53-63, 19-27; SceneDataExchange.cpp:1274-1277, 1259-1262
  { cls := "CAlignmentImpl", field := "BeamGeometry", need := [], deny := [],
    writes := [("SceneDataAlignment.fBeamGeometry", .arg "value" .same)],
    flag := none, reads := [("value", "SceneDataAlignment.fBeamGeometry")], unset := none, over := [] },
  -- CAlignmentImpl.cpp:77-87, 41-51; SceneDataExchange.cpp:1284-1287, 1269-1272
  { cls := "CAlignmentImpl", field := "Direction", need := [], deny := [],
    writes := [("SceneDataAlignment.fDirection", .arg "value" .same)],
    flag := none, reads := [("value", "SceneDataAlignment.fDirection")], unset := none, over := [] },
  -- CAlignmentImpl.cpp:65-75, 29-39; SceneDataExchange.cpp:1279-1282, 1264-1267
  { cls := "CAlignmentImpl", field := "UpVector", need := [], deny := [],
    writes := [("SceneDataAlignment.fUpVector", .arg "value" .same)],
    flag := none, reads := [("value", "SceneDataAlignment.fUpVector")], unset := none, over := [] } ]

/-- The fields of `CConnectionImpl`. -/
def fieldsConnection : List Field := [
  -- CConnectionImpl.cpp:57-68, 80-88; SceneDataExchange.cpp:1100-1102, 1095-1097
  { cls := "CConnectionImpl", field := "Other", need := [], deny := [],
    writes := [("SceneDataConnectionObj.fOther", .arg "value" .same)],
    flag := none, reads := [("value", "SceneDataConnectionObj.fOther")], unset := none, over := [] },
  -- CConnectionImpl.cpp:44-55, 70-78; SceneDataExchange.cpp:1091-1093, 1086-1088
  { cls := "CConnectionImpl", field := "Own", need := [], deny := [],
    writes := [("SceneDataConnectionObj.fOwn", .arg "value" .same)],
    flag := none, reads := [("value", "SceneDataConnectionObj.fOwn")], unset := none, over := [] },
  -- CConnectionImpl.cpp:32-42, 20-30; SceneDataExchange.cpp:1082-1084, 1076-1079
  { cls := "CConnectionImpl", field := "ToObject", need := [], deny := [],
    writes := [("SceneDataConnectionObj.fToObject", .arg "value" .same)],
    flag := none, reads := [("value", "SceneDataConnectionObj.fToObject")], unset := none, over := [] } ]

/-- The fields of `CCustomCommandImpl`. -/
def fieldsCustomCommand : List Field := [
  -- CCustomCommandImpl.cpp:52-62, 18-26; SceneDataExchange.cpp:1172-1175, 1157-1160
  { cls := "CCustomCommandImpl", field := "ChannelFunction", need := [], deny := [],
    writes := [("SceneDataCustomCommand.fChannelFunction", .arg "value" .same)],
    flag := none, reads := [("value", "SceneDataCustomCommand.fChannelFunction")], unset := none, over := [] },
  -- CCustomCommandImpl.cpp:76-86, 40-50; SceneDataExchange.cpp:1182-1185, 1167-1170
  { cls := "CCustomCommandImpl", field := "Value", need := [], deny := [],
    writes := [("SceneDataCustomCommand.fValue", .arg "value" .same)],
    flag := none, reads := [("value", "SceneDataCustomCommand.fValue")], unset := none, over := [] },
  -- CCustomCommandImpl.cpp:64-74, 28-38; SceneDataExchange.cpp:1177-1180, 1162-1165
  { cls := "CCustomCommandImpl", field := "IsPercentage", need := [], deny := [],
    writes := [("SceneDataCustomCommand.fIsPercentage", .arg "value" .same)],
    flag := none, reads := [("value", "SceneDataCustomCommand.fIsPercentage")], unset := none, over := [] } ]

/-- The fields of `CGdtfAttributeImpl`. -/
def fieldsGdtfAttribute : List Field := [
  -- CGdtfAttribute.cpp:196-215, 37-81; GDTFManager.cpp:595-602, 734-737
  { cls := "CGdtfAttributeImpl", field := "ActivationGroup", need := [], deny := [],
    writes := [("GdtfAttribute.fActivationGroup", .arg "value" .same)],
    flag := none, reads := [("value", "GdtfAttribute.fActivationGroup")], unset := none, over := [] },
  -- CGdtfAttribute.cpp:269-278, 183-194; GDTFManager.cpp:614-618, 773-776
  { cls := "CGdtfAttributeImpl", field := "Color", need := [], deny := [],
    writes := [("GdtfAttribute.fHasColor", .const (.flag true)), ("GdtfAttribute.fColor", .arg "value" .same)],
    flag := some "GdtfAttribute.fHasColor", reads := [("value", "GdtfAttribute.fColor")], unset := none, over := [] },
  -- CGdtfAttribute.cpp:217-236, 84-127; GDTFManager.cpp:754-761, 739-742
  { cls := "CGdtfAttributeImpl", field := "Feature", need := [], deny := [],
    writes := [("GdtfAttribute.fFeature", .arg "value" .same)],
    flag := none, reads := [("value", "GdtfAttribute.fFeature")], unset := none, over := [] },
  -- CGdtfAttribute.cpp:238-257, 129-171; GDTFManager.cpp:604-607, 763-766
  { cls := "CGdtfAttributeImpl", field := "MainAttribute", need := [], deny := [],
    writes := [("GdtfAttribute.fMainAttribute", .arg "value" .same)],
    flag := none, reads := [("value", "GdtfAttribute.fMainAttribute")], unset := none, over := [] },
  -- CGdtfAttribute.cpp:259-267, 173-181; GDTFManager.cpp:609-612, 768-771
  { cls := "CGdtfAttributeImpl", field := "PhysicalUnit", need := [], deny := [],
    writes := [("GdtfAttribute.fPhysicalUnit", .arg "value" .same)],
    flag := none, reads := [("value", "GdtfAttribute.fPhysicalUnit")], unset := none, over := [] } ]

/-- The fields of `CGdtfBreakImpl`. -/
def fieldsGdtfBreak : List Field := [
  -- CGdtfBreak.cpp:48-56, 29-36; GDTFManager.cpp:4672-4675, 4737-4740
  { cls := "CGdtfBreakImpl", field := "DmxAddress", need := [], deny := [],
    writes := [("GdtfBreak.fDmxAdress", .arg "value" .same)],
    flag := none, reads := [("value", "GdtfBreak.fDmxAdress")], unset := none, over := [] },
  -- CGdtfBreak.cpp:38-46, 20-27; GDTFManager.cpp:4667-4670, 4732-4735
  { cls := "CGdtfBreakImpl", field := "DmxBreak", need := [], deny := [],
    writes := [("GdtfBreak.fDmxBreak", .arg "value" .same)],
    flag := none, reads := [("value", "GdtfBreak.fDmxBreak")], unset := none, over := [] } ]

/-- The fields of `CGdtfCRIImpl`. -/
def fieldsGdtfCRI : List Field := [
  -- CGdtfCRI.cpp:45-53, 25-33; GDTFManager.cpp:10802-10805, 10792-10795
  { cls := "CGdtfCRIImpl", field := "ColorRenderingIndex", need := [], deny := [],
    writes := [("GdtfCRI.fCRI", .arg "value" .same)],
    flag := none, reads := [("value", "GdtfCRI.fCRI")], unset := none, over := [] },
  -- CGdtfCRI.cpp:35-43, 15-23; GDTFManager.cpp:10797-10800, 10787-10790
  { cls := "CGdtfCRIImpl", field := "ColorSample", need := [], deny := [],
    writes := [("GdtfCRI.fCES", .arg "value" .same)],
    flag := none, reads := [("value", "GdtfCRI.fCES")], unset := none, over := [] } ]

/-- The fields of `CGdtfCRIGroupImpl`. -/
def fieldsGdtfCRIGroup : List Field := [
  -- CGdtfCRIGroup.cpp:27-35, 17-25; GDTFManager.cpp:10686-10689, 10676-10679
  { cls := "CGdtfCRIGroupImpl", field := "ColorTemperature", need := [], deny := [],
    writes := [("GdtfCRIGroup.fColorTemperature", .arg "value" .same)],
    flag := none, reads := [("value", "GdtfCRIGroup.fColorTemperature")], unset := none, over := [] } ]

/-- The fields of `CGdtfColorSpaceImpl`. -/
def fieldsGdtfColorSpace : List Field := [
  -- CGdtfColorSpace.cpp:122-130, 60-68; GDTFManager.cpp:12862-12865, 12824-12831
  { cls := "CGdtfColorSpaceImpl", field := "Blue", need := [], deny := [],
    writes := [("GdtfColorSpace.fBlue", .arg "value" .same)],
    flag := none, reads := [("value", "GdtfColorSpace.fBlue")], unset := none, over := [("ANSI", .nums [366, 10, 1000000]), ("ProPhoto", .nums [366, 1, 1000000]), ("sRGB", .nums [1500, 600, 72200])] },
  -- CGdtfColorSpace.cpp:92-100, 30-38; GDTFManager.cpp:12847-12850, 12801-12804
  { cls := "CGdtfColorSpaceImpl", field := "ColorSpace", need := [], deny := [],
    writes := [("GdtfColorSpace.fColorSpace", .arg "value" .same)],
    flag := none, reads := [("value", "GdtfColorSpace.fColorSpace")], unset := none, over := [] },
  -- CGdtfColorSpace.cpp:112-120, 50-58; GDTFManager.cpp:12857-12860, 12815-12822
  { cls := "CGdtfColorSpaceImpl", field := "Green", need := [], deny := [],
    writes := [("GdtfColorSpace.fGreen", .arg "value" .same)],
    flag := none, reads := [("value", "GdtfColorSpace.fGreen")], unset := none, over := [("ANSI", .nums [1596, 8404, 1000000]), ("ProPhoto", .nums [1596, 8404, 1000000]), ("sRGB", .nums [3000, 6000, 715200])] },
  -- CGdtfColorSpace.cpp:80-90, 22-28; GDTFManager.cpp:12842-12845, 12796-12799
  { cls := "CGdtfColorSpaceImpl", field := "Name", need := [], deny := [],
    writes := [("GdtfColorSpace.fUniqueName", .arg "value" .clean)],
    flag := none, reads := [("value", "GdtfColorSpace.fUniqueName")], unset := none, over := [] },
  -- CGdtfColorSpace.cpp:102-110, 40-48; GDTFManager.cpp:12852-12855, 12806-12813
  { cls := "CGdtfColorSpaceImpl", field := "Red", need := [], deny := [],
    writes := [("GdtfColorSpace.fRed", .arg "value" .same)],
    flag := none, reads := [("value", "GdtfColorSpace.fRed")], unset := none, over := [("ANSI", .nums [7347, 2653, 1000000]), ("ProPhoto", .nums [7347, 2653, 1000000]), ("sRGB", .nums [6400, 3300, 212600])] },
  -- CGdtfColorSpace.cpp:132-140, 70-78; GDTFManager.cpp:12867-12870, 12833-12840
  { cls := "CGdtfColorSpaceImpl", field := "White", need := [], deny := [],
    writes := [("GdtfColorSpace.fWhitePoint", .arg "value" .same)],
    flag := none, reads := [("value", "GdtfColorSpace.fWhitePoint")], unset := none, over := [("ANSI", .nums [4254, 4044, 1000000]), ("ProPhoto", .nums [3457, 3585, 1000000]), ("sRGB", .nums [3127, 3290, 1000000])] } ]

/-- The fields of `CGdtfConnectorImpl`. -/
def fieldsGdtfConnector : List Field := [
  -- CGdtfConnector.cpp:90-98, 37-45; GDTFManager.cpp:13222-13225, 13318-13321
  { cls := "CGdtfConnectorImpl", field := "DmxBreak", need := [], deny := [],
    writes := [("GdtfConnector.fDmxBreak", .arg "value" .same)],
    flag := none, reads := [("value", "GdtfConnector.fDmxBreak")], unset := none, over := [] },
  -- CGdtfConnector.cpp:100-108, 47-55; GDTFManager.cpp:13227-13230, 13323-13326
  { cls := "CGdtfConnectorImpl", field := "Gender", need := [], deny := [],
    writes := [("GdtfConnector.fGender", .arg "value" .same)],
    flag := none, reads := [("value", "GdtfConnector.fGender")], unset := none, over := [] },
  -- CGdtfConnector.cpp:110-118, 57-65; GDTFManager.cpp:13232-13235, 13328-13331
  { cls := "CGdtfConnectorImpl", field := "Length", need := [], deny := [],
    writes := [("GdtfConnector.fLength", .arg "value" .same)],
    flag := none, reads := [("value", "GdtfConnector.fLength")], unset := none, over := [] },
  -- CGdtfConnector.cpp:67-78, 19-26; GDTFManager.cpp:13212-13215, 13308-13311
  { cls := "CGdtfConnectorImpl", field := "Name", need := [], deny := [],
    writes := [("GdtfConnector.fName", .arg "value" .clean)],
    flag := none, reads := [("value", "GdtfConnector.fName")], unset := none, over := [] },
  -- CGdtfConnector.cpp:80-88, 28-35; GDTFManager.cpp:13212-13215, 13313-13316
  { cls := "CGdtfConnectorImpl", field := "Type", need := [], deny := [],
    writes := [("GdtfConnector.fName", .arg "value" .same)],
    flag := none, reads := [("value", "GdtfConnector.fType")], unset := none, over := [] } ]

/-- The fields of `CGdtfDMXPersonalityImpl`. -/
def fieldsGdtfDMXPersonality : List Field := [
  -- CGdtfDMXPersonality.cpp:82-99, 28-70; GDTFManager.cpp:11028-11031, 11018-11021
  { cls := "CGdtfDMXPersonalityImpl", field := "DmxMode", need := [], deny := [],
    writes := [("GdtfDMXPersonality.fDMXMode", .arg "value" .same)],
    flag := none, reads := [("value", "GdtfDMXPersonality.fDMXMode")], unset := none, over := [] },
  -- CGdtfDMXPersonality.cpp:72-80, 18-26; GDTFManager.cpp:11023-11026, 11008-11011
  { cls := "CGdtfDMXPersonalityImpl", field := "Value", need := [], deny := [],
    writes := [("GdtfDMXPersonality.fValue", .arg "value" .same)],
    flag := none, reads := [("value", "GdtfDMXPersonality.fValue")], unset := none, over := [] } ]

/-- The fields of `CGdtfDmxChannelImpl`. -/
def fieldsGdtfDmxChannel : List Field := [
  -- CGdtfDmxChannel.cpp:166-174, 41-49; GDTFManager.cpp:5474-5478, 5670-5673
  { cls := "CGdtfDmxChannelImpl", field := "Coarse", need := [], deny := [],
    writes := [("GdtfDmxChannel.fCoarse", .arg "value" .addr)],
    flag := none, reads := [("value", "GdtfDmxChannel.fCoarse")], unset := none, over := [] },
  -- CGdtfDmxChannel.cpp:156-164, 31-39; GDTFManager.cpp:5469-5472, 5665-5668
  { cls := "CGdtfDmxChannelImpl", field := "DmxBreak", need := [], deny := [],
    writes := [("GdtfDmxChannel.fDmxBreak", .arg "value" .same)],
    flag := none, reads := [("value", "GdtfDmxChannel.fDmxBreak")], unset := none, over := [] },
  -- CGdtfDmxChannel.cpp:176-184, 51-59; GDTFManager.cpp:5480-5484, 5675-5678
  { cls := "CGdtfDmxChannelImpl", field := "Fine", need := [], deny := [],
    writes := [("GdtfDmxChannel.fFine", .arg "value" .addr)],
    flag := none, reads := [("value", "GdtfDmxChannel.fFine")], unset := none, over := [] },
  -- CGdtfDmxChannel.cpp:218-235, 101-144; GDTFManager.cpp:5705-5708, 5710-5713
  { cls := "CGdtfDmxChannelImpl", field := "Geometry", need := [], deny := [],
    writes := [("GdtfDmxChannel.fGeomRef", .arg "value" .same)],
    flag := none, reads := [("value", "GdtfDmxChannel.fGeomRef")], unset := none, over := [] },
  -- CGdtfDmxChannel.cpp:206-214, 81-89; GDTFManager.cpp:5501-5505, 5690-5693
  { cls := "CGdtfDmxChannelImpl", field := "Highlight", need := [], deny := [],
    writes := [("GdtfDmxChannel.fHeighlight", .arg "value" .same), ("GdtfDmxChannel.fHeighlightNone", .const (.flag false))],
    flag := none, reads := [("value", "GdtfDmxChannel.fHeighlight")], unset := none, over := [] },
  -- CGdtfDmxChannel.cpp:412-430, 369-410; GDTFManager.cpp:5720-5723, 5725-5728
  { cls := "CGdtfDmxChannelImpl", field := "InitialFunction", need := [], deny := [],
    writes := [("GdtfDmxChannel.fInitialFunction", .arg "value" .same)],
    flag := none, reads := [("value", "GdtfDmxChannel.fInitialFunction")], unset := none, over := [] },
  -- CGdtfDmxChannel.cpp:196-204, 71-79; GDTFManager.cpp:5493-5499, 5685-5688
  { cls := "CGdtfDmxChannelImpl", field := "Uber", need := [], deny := [],
    writes := [("GdtfDmxChannel.fUber", .arg "value" .addr)],
    flag := none, reads := [("value", "GdtfDmxChannel.fUber")], unset := none, over := [] },
  -- CGdtfDmxChannel.cpp:186-194, 61-69; GDTFManager.cpp:5486-5491, 5680-5683
  { cls := "CGdtfDmxChannelImpl", field := "Ultra", need := [], deny := [],
    writes := [("GdtfDmxChannel.fUltra", .arg "value" .addr)],
    flag := none, reads := [("value", "GdtfDmxChannel.fUltra")], unset := none, over := [] } ]

/-- The fields of `CGdtfDmxChannelFunctionImpl`. -/
def fieldsGdtfDmxChannelFunction : List Field := [
  -- CGdtfDmxChannelFunction.cpp:461-479, 40-82; GDTFManager.cpp:6077-6080, 6488-6491
  { cls := "CGdtfDmxChannelFunctionImpl", field := "Attribute", need := [], deny := [],
    writes := [("GdtfDmxChannelFunction.fAttribute", .arg "value" .same)],
    flag := none, reads := [("value", "GdtfDmxChannelFunction.fAttribute")], unset := none, over := [] },
  -- CGdtfDmxChannelFunction.cpp:602-618, 301-343; GDTFManager.cpp:6665-6668, 6557-6560
  { cls := "CGdtfDmxChannelFunctionImpl", field := "ColorSpace", need := [], deny := [],
    writes := [("GdtfDmxChannelFunction.fColorSpace", .arg "value" .same)],
    flag := none, reads := [("value", "GdtfDmxChannelFunction.fColorSpace")], unset := none, over := [] },
  -- CGdtfDmxChannelFunction.cpp:674-684, 453-459; GDTFManager.cpp:6690-6693, 6582-6585
  { cls := "CGdtfDmxChannelFunctionImpl", field := "CustomName", need := [], deny := [],
    writes := [("GdtfDmxChannelFunction.fCustomName", .arg "value" .same)],
    flag := none, reads := [("value", "GdtfDmxChannelFunction.fCustomName")], unset := none, over := [] },
  -- CGdtfDmxChannelFunction.cpp:638-654, 389-431; GDTFManager.cpp:6675-6678, 6567-6570
  { cls := "CGdtfDmxChannelFunctionImpl", field := "DMXProfile", need := [], deny := [],
    writes := [("GdtfDmxChannelFunction.fDMXProfile", .arg "value" .same)],
    flag := none, reads := [("value", "GdtfDmxChannelFunction.fDMXProfile")], unset := none, over := [] },
  -- CGdtfDmxChannelFunction.cpp:494-502, 95-103; GDTFManager.cpp:6087-6090, 6498-6501
  { cls := "CGdtfDmxChannelFunctionImpl", field := "DefaultValue", need := [], deny := [],
    writes := [("GdtfDmxChannelFunction.fDefaultValue", .arg "value" .same)],
    flag := none, reads := [("value", "GdtfDmxChannelFunction.fDefaultValue")], unset := none, over := [] },
  -- CGdtfDmxChannelFunction.cpp:567-582, 204-245; GDTFManager.cpp:6655-6658, 6547-6550
  { cls := "CGdtfDmxChannelFunctionImpl", field := "Emitter", need := [], deny := [],
    writes := [("GdtfDmxChannelFunction.fEmitter", .arg "value" .same)],
    flag := none, reads := [("value", "GdtfDmxChannelFunction.fEmitter")], unset := none, over := [] },
  -- CGdtfDmxChannelFunction.cpp:584-600, 247-289; GDTFManager.cpp:6660-6663, 6552-6555
  { cls := "CGdtfDmxChannelFunctionImpl", field := "Filter", need := [], deny := [],
    writes := [("GdtfDmxChannelFunction.fFilter", .arg "value" .same)],
    flag := none, reads := [("value", "GdtfDmxChannelFunction.fFilter")], unset := none, over := [] },
  -- CGdtfDmxChannelFunction.cpp:620-636, 345-387; GDTFManager.cpp:6670-6673, 6562-6565
  { cls := "CGdtfDmxChannelFunctionImpl", field := "Gamut", need := [], deny := [],
    writes := [("GdtfDmxChannelFunction.fGamut", .arg "value" .same)],
    flag := none, reads := [("value", "GdtfDmxChannelFunction.fGamut")], unset := none, over := [] },
  -- CGdtfDmxChannelFunction.cpp:665-672, 443-451; GDTFManager.cpp:6685-6688, 6577-6580
  { cls := "CGdtfDmxChannelFunctionImpl", field := "Max", need := [], deny := [],
    writes := [("GdtfDmxChannelFunction.fMax", .arg "value" .same)],
    flag := none, reads := [("value", "GdtfDmxChannelFunction.fMax")], unset := none, over := [] },
  -- CGdtfDmxChannelFunction.cpp:656-663, 433-441; GDTFManager.cpp:6680-6683, 6572-6575
  { cls := "CGdtfDmxChannelFunctionImpl", field := "Min", need := [], deny := [],
    writes := [("GdtfDmxChannelFunction.fMin", .arg "value" .same)],
    flag := none, reads := [("value", "GdtfDmxChannelFunction.fMin")], unset := none, over := [] },
  -- CGdtfDmxChannelFunction.cpp:1016-1034, 922-967; GDTFManager.cpp:6602-6652
  { cls := "CGdtfDmxChannelFunctionImpl", field := "ModeMasterChannel", need := [], deny := [],
    writes := [("GdtfDmxChannelFunction.fModeMaster_Function", .const .null), ("GdtfDmxChannelFunction.fModeMaster_Channel", .arg "value" .same), ("GdtfDmxChannelFunction.fDmxModeStart", .arg "start" .same), ("GdtfDmxChannelFunction.fDmxModeEnd", .arg "end" .same)],
    flag := none, reads := [("value", "GdtfDmxChannelFunction.fModeMaster_Channel"), ("start", "GdtfDmxChannelFunction.fDmxModeStart"), ("end", "GdtfDmxChannelFunction.fDmxModeEnd")], unset := none, over := [] },
  -- CGdtfDmxChannelFunction.cpp:1036-1054, 969-1014; GDTFManager.cpp:6602-6652
  { cls := "CGdtfDmxChannelFunctionImpl", field := "ModeMasterFunction", need := [], deny := [],
    writes := [("GdtfDmxChannelFunction.fModeMaster_Channel", .const .null), ("GdtfDmxChannelFunction.fModeMaster_Function", .arg "value" .same), ("GdtfDmxChannelFunction.fDmxModeStart", .arg "start" .same), ("GdtfDmxChannelFunction.fDmxModeEnd", .arg "end" .same)],
    flag := none, reads := [("value", "GdtfDmxChannelFunction.fModeMaster_Function"), ("start", "GdtfDmxChannelFunction.fDmxModeStart"), ("end", "GdtfDmxChannelFunction.fDmxModeEnd")], unset := none, over := [] },
  -- CGdtfDmxChannelFunction.cpp:550-565, 161-202; GDTFManager.cpp:6587-6590, 6542-6545
  { cls := "CGdtfDmxChannelFunctionImpl", field := "OnWheel", need := [], deny := [],
    writes := [("GdtfDmxChannelFunction.fOnWheel", .arg "value" .same)],
    flag := none, reads := [("value", "GdtfDmxChannelFunction.fOnWheel")], unset := none, over := [] },
  -- CGdtfDmxChannelFunction.cpp:481-492, 84-93; GDTFManager.cpp:6082-6085, 6493-6496
  { cls := "CGdtfDmxChannelFunctionImpl", field := "OriginalAttribute", need := [], deny := [],
    writes := [("GdtfDmxChannelFunction.fOrignalAttribute", .arg "value" .same)],
    flag := none, reads := [("value", "GdtfDmxChannelFunction.fOrignalAttribute")], unset := none, over := [] },
  -- CGdtfDmxChannelFunction.cpp:523-530, 134-141; GDTFManager.cpp:6102-6105, 6527-6530
  { cls := "CGdtfDmxChannelFunctionImpl", field := "PhysicalEnd", need := [], deny := [],
    writes := [("GdtfDmxChannelFunction.fPhysicalEnd", .arg "value" .same)],
    flag := none, reads := [("value", "GdtfDmxChannelFunction.fPhysicalEnd")], unset := none, over := [] },
  -- CGdtfDmxChannelFunction.cpp:514-521, 125-132; GDTFManager.cpp:6097-6100, 6522-6525
  { cls := "CGdtfDmxChannelFunctionImpl", field := "PhysicalStart", need := [], deny := [],
    writes := [("GdtfDmxChannelFunction.fPhysicalStart", .arg "value" .same)],
    flag := none, reads := [("value", "GdtfDmxChannelFunction.fPhysicalStart")], unset := none, over := [] },
  -- CGdtfDmxChannelFunction.cpp:541-548, 152-159; GDTFManager.cpp:6112-6115, 6537-6540
  { cls := "CGdtfDmxChannelFunctionImpl", field := "RealAcceleration", need := [], deny := [],
    writes := [("GdtfDmxChannelFunction.fRealAcceleration", .arg "value" .same)],
    flag := none, reads := [("value", "GdtfDmxChannelFunction.fRealAcceleration")], unset := none, over := [] },
  -- CGdtfDmxChannelFunction.cpp:532-539, 143-150; GDTFManager.cpp:6107-6110, 6532-6535
  { cls := "CGdtfDmxChannelFunctionImpl", field := "RealFade", need := [], deny := [],
    writes := [("GdtfDmxChannelFunction.fRealFade", .arg "value" .same)],
    flag := none, reads := [("value", "GdtfDmxChannelFunction.fRealFade")], unset := none, over := [] },
  -- CGdtfDmxChannelFunction.cpp:504-512, 105-113; GDTFManager.cpp:6092-6095, 6503-6506
  { cls := "CGdtfDmxChannelFunctionImpl", field := "StartAddress", need := [], deny := [],
    writes := [("GdtfDmxChannelFunction.fAdressStart", .arg "value" .same)],
    flag := none, reads := [("value", "GdtfDmxChannelFunction.fAdressStart")], unset := none, over := [] } ]

/-- The fields of `CGdtfDmxChannelSetImpl`. -/
def fieldsGdtfDmxChannelSet : List Field := [
  -- CGdtfDmxChannelSet.cpp:96-103, 58-65; GDTFManager.cpp:6818-6822, 6948-6951
  { cls := "CGdtfDmxChannelSetImpl", field := "PhysicalEnd", need := [], deny := [],
    writes := [("GdtfDmxChannelSet.fPhysicalEnd", .arg "value" .same), ("GdtfDmxChannelSet.fSetPhysical", .const (.flag true))],
    flag := none, reads := [("value", "GdtfDmxChannelSet.fPhysicalEnd")], unset := none, over := [] },
  -- CGdtfDmxChannelSet.cpp:87-94, 49-56; GDTFManager.cpp:6812-6816, 6943-6946
  { cls := "CGdtfDmxChannelSetImpl", field := "PhysicalStart", need := [], deny := [],
    writes := [("GdtfDmxChannelSet.fPhysicalStart", .arg "value" .same), ("GdtfDmxChannelSet.fSetPhysical", .const (.flag true))],
    flag := none, reads := [("value", "GdtfDmxChannelSet.fPhysicalStart")], unset := none, over := [] },
  -- CGdtfDmxChannelSet.cpp:105-113, 67-75; GDTFManager.cpp:6824-6827, 6953-6956
  { cls := "CGdtfDmxChannelSetImpl", field := "WheelSlot", need := [], deny := [],
    writes := [("GdtfDmxChannelSet.fWheelSlotIdx", .arg "value" .same)],
    flag := none, reads := [("value", "GdtfDmxChannelSet.fWheelSlotIdx")], unset := none, over := [] } ]

/-- The fields of `CGdtfDmxLogicalChannelImpl`. -/
def fieldsGdtfDmxLogicalChannel : List Field := [
  -- CGdtfDmxLogicalChannel.cpp:75-94, 31-73; GDTFManager.cpp:5784-5787, 5961-5964
  { cls := "CGdtfDmxLogicalChannelImpl", field := "Attribute", need := [], deny := [],
    writes := [("GdtfDmxLogicalChannel.fAttribute", .arg "value" .same)],
    flag := none, reads := [("value", "GdtfDmxLogicalChannel.fAttribute")], unset := none, over := [] },
  -- CGdtfDmxLogicalChannel.cpp:164-172, 125-133; GDTFManager.cpp:5810-5813, 5825-5828
  { cls := "CGdtfDmxLogicalChannelImpl", field := "DmxChangeTimeLimit", need := [], deny := [],
    writes := [("GdtfDmxLogicalChannel.fDmxChangeTimeLimit", .arg "value" .same)],
    flag := none, reads := [("value", "GdtfDmxLogicalChannel.fDmxChangeTimeLimit")], unset := none, over := [] },
  -- CGdtfDmxLogicalChannel.cpp:145-152, 106-113; GDTFManager.cpp:5794-5797, 5971-5974
  { cls := "CGdtfDmxLogicalChannelImpl", field := "DmxMaster", need := [], deny := [],
    writes := [("GdtfDmxLogicalChannel.fDmxMaster", .arg "value" .same)],
    flag := none, reads := [("value", "GdtfDmxLogicalChannel.fDmxMaster")], unset := none, over := [] },
  -- CGdtfDmxLogicalChannel.cpp:135-143, 96-104; GDTFManager.cpp:5789-5792, 5966-5969
  { cls := "CGdtfDmxLogicalChannelImpl", field := "DmxSnap", need := [], deny := [],
    writes := [("GdtfDmxLogicalChannel.fSnap", .arg "value" .same)],
    flag := none, reads := [("value", "GdtfDmxLogicalChannel.fSnap")], unset := none, over := [] },
  -- CGdtfDmxLogicalChannel.cpp:154-162, 115-123; GDTFManager.cpp:5805-5808, 5820-5823
  { cls := "CGdtfDmxLogicalChannelImpl", field := "MoveInBlackFrames", need := [], deny := [],
    writes := [("GdtfDmxLogicalChannel.fMoveInBlackFrames", .arg "value" .same)],
    flag := none, reads := [("value", "GdtfDmxLogicalChannel.fMoveInBlackFrames")], unset := none, over := [] } ]

/-- The fields of `CGdtfDmxModeImpl`. -/
def fieldsGdtfDmxMode : List Field := [
  -- CGdtfDmxMode.cpp:42-50, 34-40; GDTFManager.cpp:5133-5136, 5128-5131
  { cls := "CGdtfDmxModeImpl", field := "Description", need := [], deny := [],
    writes := [("GdtfDmxMode.fDescription", .arg "value" .same)],
    flag := none, reads := [("value", "GdtfDmxMode.fDescription")], unset := none, over := [] },
  -- CGdtfDmxMode.cpp:96-113, 52-94; GDTFManager.cpp:5138-5141, 5157-5160
  { cls := "CGdtfDmxModeImpl", field := "Geometry", need := [], deny := [],
    writes := [("GdtfDmxMode.fGeomRef", .arg "value" .same)],
    flag := none, reads := [("value", "GdtfDmxMode.fGeomRef")], unset := none, over := [] } ]

/-- The fields of `CGdtfDMXProfileImpl`. -/
def fieldsGdtfDMXProfile : List Field := [
  -- CGdtfDmxProfile.cpp:25-34, 18-23; GDTFManager.cpp:10579-10582, 10569-10572
  { cls := "CGdtfDMXProfileImpl", field := "Name", need := [], deny := [],
    writes := [("GdtfDMXProfile.fUniqueName", .arg "value" .clean)],
    flag := none, reads := [("value", "GdtfDMXProfile.fUniqueName")], unset := none, over := [] } ]

/-- The fields of `CGdtfDmxSubChannelSetImpl`. -/
def fieldsGdtfDmxSubChannelSet : List Field := [
  -- CGdtfDmxSubChannelSet.cpp:185-201, 93-135; GDTFManager.cpp:7012-7015, 7099-7102
  { cls := "CGdtfDmxSubChannelSetImpl", field := "DMXProfile", need := [], deny := [],
    writes := [("GdtfDmxSubChannelSet.fDMXProfile", .arg "value" .same)],
    flag := none, reads := [("value", "GdtfDmxSubChannelSet.fDMXProfile")], unset := none, over := [] },
  -- CGdtfDmxSubChannelSet.cpp:137-147, 23-29; GDTFManager.cpp:6992-6995, 7079-7082
  { cls := "CGdtfDmxSubChannelSetImpl", field := "Name", need := [], deny := [],
    writes := [("GdtfDmxSubChannelSet.fUniqueName", .arg "value" .same)],
    flag := none, reads := [("value", "GdtfDmxSubChannelSet.fUniqueName")], unset := none, over := [] },
  -- CGdtfDmxSubChannelSet.cpp:149-156, 31-38; GDTFManager.cpp:6997-7000, 7084-7087
  { cls := "CGdtfDmxSubChannelSetImpl", field := "PhysicalFrom", need := [], deny := [],
    writes := [("GdtfDmxSubChannelSet.fPhysicalFrom", .arg "value" .same)],
    flag := none, reads := [("value", "GdtfDmxSubChannelSet.fPhysicalFrom")], unset := none, over := [] },
  -- CGdtfDmxSubChannelSet.cpp:158-165, 40-47; GDTFManager.cpp:7002-7005, 7089-7092
  { cls := "CGdtfDmxSubChannelSetImpl", field := "PhysicalTo", need := [], deny := [],
    writes := [("GdtfDmxSubChannelSet.fPhysicalTo", .arg "value" .same)],
    flag := none, reads := [("value", "GdtfDmxSubChannelSet.fPhysicalTo")], unset := none, over := [] },
  -- CGdtfDmxSubChannelSet.cpp:167-183, 49-91; GDTFManager.cpp:7007-7010, 7094-7097
  { cls := "CGdtfDmxSubChannelSetImpl", field := "SubPhysicalUnit", need := [], deny := [],
    writes := [("GdtfDmxSubChannelSet.fSubPhysicalUnit", .arg "value" .same)],
    flag := none, reads := [("value", "GdtfDmxSubChannelSet.fSubPhysicalUnit")], unset := none, over := [] } ]

/-- The fields of `CGdtf_FTRDMImpl`. -/
def fieldsGdtfFTRDM : List Field := [
  -- CGdtfFTRDM.cpp:166-174, 51-60; GDTFManager.cpp:10970-10973, 10955-10958
  { cls := "CGdtf_FTRDMImpl", field := "DeviceModelID", need := [], deny := [],
    writes := [("GdtfFTRDM.fDeviceModelID", .arg "value" .same)],
    flag := none, reads := [("value", "GdtfFTRDM.fDeviceModelID")], unset := none, over := [] },
  -- CGdtfFTRDM.cpp:30-38, 20-28; GDTFManager.cpp:10965-10968, 10950-10953
  { cls := "CGdtf_FTRDMImpl", field := "ManufacturerID", need := [], deny := [],
    writes := [("GdtfFTRDM.fManufacturerID", .arg "value" .same)],
    flag := none, reads := [("value", "GdtfFTRDM.fManufacturerID")], unset := none, over := [] } ]

/-- The fields of `CGdtfFeatureImpl`. -/
def fieldsGdtfFeature : List Field := [
  -- CGdtfFeature.cpp:40-51, 23-28; GDTFManager.cpp:297-300, 276-279
  { cls := "CGdtfFeatureImpl", field := "Name", need := [], deny := [],
    writes := [("GdtfFeature.fName", .arg "value" .clean)],
    flag := none, reads := [("value", "GdtfFeature.fName")], unset := none, over := [] } ]

/-- The fields of `CGdtfFeatureGroupImpl`. -/
def fieldsGdtfFeatureGroup : List Field := [
  -- CGdtfFeatureGroup.cpp:35-45, 28-33; GDTFManager.cpp:331-334, 426-429
  { cls := "CGdtfFeatureGroupImpl", field := "PrettyName", need := [], deny := [],
    writes := [("GdtfFeatureGroup.fPrettyName", .arg "value" .same)],
    flag := none, reads := [("value", "GdtfFeatureGroup.fPrettyName")], unset := none, over := [] } ]

/-- The fields of `CGdtfFilterImpl`. -/
def fieldsGdtfFilter : List Field := [
  -- CGdtfFilter.cpp:53-61, 30-38; GDTFManager.cpp:12982-12985, 12967-12970
  { cls := "CGdtfFilterImpl", field := "Color", need := [], deny := [],
    writes := [("GdtfFilter.fColor", .arg "value" .same)],
    flag := none, reads := [("value", "GdtfFilter.fColor")], unset := none, over := [] },
  -- CGdtfFilter.cpp:40-51, 23-28; GDTFManager.cpp:12977-12980, 12962-12965
  { cls := "CGdtfFilterImpl", field := "Name", need := [], deny := [],
    writes := [("GdtfFilter.fName", .arg "value" .same)],
    flag := none, reads := [("value", "GdtfFilter.fName")], unset := none, over := [] } ]

/-- The fields of `CGdtfFixtureImpl`. -/
def fieldsGdtfFixture : List Field := [
  -- CGdtfFixture.cpp:2521-2528, 2512-2519; GDTFManager.cpp:10393-10396, 10287-10290
  { cls := "CGdtfFixtureImpl", field := "CanHaveChildren", need := [], deny := [],
    writes := [("GdtfFixture.fCanHaveChildren", .arg "value" .same)],
    flag := none, reads := [("value", "GdtfFixture.fCanHaveChildren")], unset := none, over := [] },
  -- CGdtfFixture.cpp:406-414, 314-320; GDTFManager.cpp:10378-10381, 10272-10275
  { cls := "CGdtfFixtureImpl", field := "FixtureThumbnail", need := [], deny := [],
    writes := [("GdtfFixture.fTumbnailName", .arg "value" .same)],
    flag := none, reads := [("value", "GdtfFixture.fTumbnailName")], unset := none, over := [] },
  -- CGdtfFixture.cpp:374-382, 271-276; GDTFManager.cpp:10362-10365, 10252-10255
  { cls := "CGdtfFixtureImpl", field := "FixtureTypeDescription", need := [], deny := [],
    writes := [("GdtfFixture.fFixtureTypeDescription", .arg "value" .same)],
    flag := none, reads := [("value", "GdtfFixture.fFixtureTypeDescription")], unset := none, over := [] },
  -- CGdtfFixture.cpp:2700-2707, 2690-2698; GDTFManager.cpp:12439-12442, 12419-12422
  { cls := "CGdtfFixtureImpl", field := "LegHeight", need := [], deny := [],
    writes := [("GdtfPhysicalDescriptions.fLegHeight", .arg "value" .same)],
    flag := none, reads := [("value", "GdtfPhysicalDescriptions.fLegHeight")], unset := none, over := [] },
  -- CGdtfFixture.cpp:416-424, 287-303; GDTFManager.cpp:10372-10376, 10262-10265
  { cls := "CGdtfFixtureImpl", field := "LinkedFixtureGUID", need := [], deny := [],
    writes := [("GdtfFixture.fHasLinkedGuid", .const (.flag true)), ("GdtfFixture.fLinkedGuid", .arg "value" .same)],
    flag := some "GdtfFixture.fHasLinkedGuid", reads := [("value", "GdtfFixture.fLinkedGuid")], unset := none, over := [] },
  -- CGdtfFixture.cpp:395-404, 257-262; GDTFManager.cpp:10352-10355, 10242-10245
  { cls := "CGdtfFixtureImpl", field := "LongName", need := [], deny := [],
    writes := [("GdtfFixture.fLongName", .arg "value" .same)],
    flag := none, reads := [("value", "GdtfFixture.fLongName")], unset := none, over := [] },
  -- CGdtfFixture.cpp:2662-2669, 2652-2660; GDTFManager.cpp:12429-12432, 12409-12412
  { cls := "CGdtfFixtureImpl", field := "OperatingTemperatureHigh", need := [], deny := [],
    writes := [("GdtfPhysicalDescriptions.fOperatingTemperatureHigh", .arg "value" .same)],
    flag := none, reads := [("value", "GdtfPhysicalDescriptions.fOperatingTemperatureHigh")], unset := none, over := [] },
  -- CGdtfFixture.cpp:2643-2650, 2633-2641; GDTFManager.cpp:12424-12427, 12404-12407
  { cls := "CGdtfFixtureImpl", field := "OperatingTemperatureLow", need := [], deny := [],
    writes := [("GdtfPhysicalDescriptions.fOperatingTemperatureLow", .arg "value" .same)],
    flag := none, reads := [("value", "GdtfPhysicalDescriptions.fOperatingTemperatureLow")], unset := none, over := [] },
  -- CGdtfFixture.cpp:384-393, 250-255; GDTFManager.cpp:10347-10350, 10237-10240
  { cls := "CGdtfFixtureImpl", field := "ShortName", need := [], deny := [],
    writes := [("GdtfFixture.fShortName", .arg "value" .same)],
    flag := none, reads := [("value", "GdtfFixture.fShortName")], unset := none, over := [] },
  -- CGdtfFixture.cpp:347-354, 338-345; GDTFManager.cpp:10383-10386, 10277-10280
  { cls := "CGdtfFixtureImpl", field := "ThumbnailOffsetX", need := [], deny := [],
    writes := [("GdtfFixture.fThumbnailOffsetX", .arg "value" .same)],
    flag := none, reads := [("value", "GdtfFixture.fThumbnailOffsetX")], unset := none, over := [] },
  -- CGdtfFixture.cpp:365-372, 356-363; GDTFManager.cpp:10388-10391, 10282-10285
  { cls := "CGdtfFixtureImpl", field := "ThumbnailOffsetY", need := [], deny := [],
    writes := [("GdtfFixture.fThumbnailOffsetY", .arg "value" .same)],
    flag := none, reads := [("value", "GdtfFixture.fThumbnailOffsetY")], unset := none, over := [] },
  -- CGdtfFixture.cpp:2681-2688, 2671-2679; GDTFManager.cpp:12434-12437, 12414-12417
  { cls := "CGdtfFixtureImpl", field := "Weight", need := [], deny := [],
    writes := [("GdtfPhysicalDescriptions.fWeight", .arg "value" .same)],
    flag := none, reads := [("value", "GdtfPhysicalDescriptions.fWeight")], unset := none, over := [] } ]

/-- The fields of `CGdtfGamutImpl`. -/
def fieldsGdtfGamut : List Field := [
  -- CGdtfGamut.cpp:29-39, 21-27; GDTFManager.cpp:12275-12278, 12265-12268
  { cls := "CGdtfGamutImpl", field := "Name", need := [], deny := [],
    writes := [("GdtfGamut.fUniqueName", .arg "value" .clean)],
    flag := none, reads := [("value", "GdtfGamut.fUniqueName")], unset := none, over := [] } ]

/-- The fields of `CGdtfGeometryImpl`. -/
def fieldsGdtfGeometry : List Field := [
  -- CGdtfGeometry.cpp:639-652, 354-367; GDTFManager.cpp:4458-4461, 4609-4612
  { cls := "CGdtfGeometryImpl", field := "BeamAngle", need := ["eGdtfGeometryLamp"], deny := [],
    writes := [("GdtfGeometryLamp.fBeamAngle", .arg "value" .same)],
    flag := none, reads := [("value", "GdtfGeometryLamp.fBeamAngle")], unset := none, over := [] },
  -- CGdtfGeometry.cpp:1396-1409, 1236-1249; GDTFManager.cpp:3226-3229, 3166-3169
  { cls := "CGdtfGeometryImpl", field := "BeamDiameter", need := ["eGdtfGeometryLaser"], deny := [],
    writes := [("GdtfGeometryLaser.fBeamDiameter", .arg "value" .same)],
    flag := none, reads := [("value", "GdtfGeometryLaser.fBeamDiameter")], unset := none, over := [] },
  -- CGdtfGeometry.cpp:1426-1439, 1266-1279; GDTFManager.cpp:3236-3239, 3176-3179
  { cls := "CGdtfGeometryImpl", field := "BeamDivergenceMax", need := ["eGdtfGeometryLaser"], deny := [],
    writes := [("GdtfGeometryLaser.fBeamDivergenceMax", .arg "value" .same)],
    flag := none, reads := [("value", "GdtfGeometryLaser.fBeamDivergenceMax")], unset := none, over := [] },
  -- CGdtfGeometry.cpp:1411-1424, 1251-1264; GDTFManager.cpp:3231-3234, 3171-3174
  { cls := "CGdtfGeometryImpl", field := "BeamDivergenceMin", need := ["eGdtfGeometryLaser"], deny := [],
    writes := [("GdtfGeometryLaser.fBeamDivergenceMin", .arg "value" .same)],
    flag := none, reads := [("value", "GdtfGeometryLaser.fBeamDivergenceMin")], unset := none, over := [] },
  -- CGdtfGeometry.cpp:669-682, 384-397; GDTFManager.cpp:4468-4471, 4619-4622
  { cls := "CGdtfGeometryImpl", field := "BeamRadius", need := ["eGdtfGeometryLamp"], deny := [],
    writes := [("GdtfGeometryLamp.fBeamRadius", .arg "value" .same)],
    flag := none, reads := [("value", "GdtfGeometryLamp.fBeamRadius")], unset := none, over := [] },
  -- CGdtfGeometry.cpp:714-727, 429-442; GDTFManager.cpp:4483-4486, 4634-4637
  { cls := "CGdtfGeometryImpl", field := "BeamType", need := ["eGdtfGeometryLamp"], deny := [],
    writes := [("GdtfGeometryLamp.fBeamType", .arg "value" .same)],
    flag := none, reads := [("value", "GdtfGeometryLamp.fBeamType")], unset := none, over := [] },
  -- CGdtfGeometry.cpp:2736-2749, 2512-2525; GDTFManager.cpp:4165-4168, 4090-4093
  { cls := "CGdtfGeometryImpl", field := "CapacityX", need := ["eGdtfGeometrySupport"], deny := [],
    writes := [("GdtfGeometrySupport.fCapacityX", .arg "value" .same)],
    flag := none, reads := [("value", "GdtfGeometrySupport.fCapacityX")], unset := none, over := [] },
  -- CGdtfGeometry.cpp:2781-2794, 2557-2570; GDTFManager.cpp:4180-4183, 4105-4108
  { cls := "CGdtfGeometryImpl", field := "CapacityXX", need := ["eGdtfGeometrySupport"], deny := [],
    writes := [("GdtfGeometrySupport.fCapacityXX", .arg "value" .same)],
    flag := none, reads := [("value", "GdtfGeometrySupport.fCapacityXX")], unset := none, over := [] },
  -- CGdtfGeometry.cpp:2751-2764, 2527-2540; GDTFManager.cpp:4170-4173, 4095-4098
  { cls := "CGdtfGeometryImpl", field := "CapacityY", need := ["eGdtfGeometrySupport"], deny := [],
    writes := [("GdtfGeometrySupport.fCapacityY", .arg "value" .same)],
    flag := none, reads := [("value", "GdtfGeometrySupport.fCapacityY")], unset := none, over := [] },
  -- CGdtfGeometry.cpp:2796-2809, 2572-2585; GDTFManager.cpp:4185-4188, 4110-4113
  { cls := "CGdtfGeometryImpl", field := "CapacityYY", need := ["eGdtfGeometrySupport"], deny := [],
    writes := [("GdtfGeometrySupport.fCapacityYY", .arg "value" .same)],
    flag := none, reads := [("value", "GdtfGeometrySupport.fCapacityYY")], unset := none, over := [] },
  -- CGdtfGeometry.cpp:2766-2779, 2542-2555; GDTFManager.cpp:4175-4178, 4100-4103
  { cls := "CGdtfGeometryImpl", field := "CapacityZ", need := ["eGdtfGeometrySupport"], deny := [],
    writes := [("GdtfGeometrySupport.fCapacityZ", .arg "value" .same)],
    flag := none, reads := [("value", "GdtfGeometrySupport.fCapacityZ")], unset := none, over := [] },
  -- CGdtfGeometry.cpp:2811-2824, 2587-2600; GDTFManager.cpp:4190-4193, 4115-4118
  { cls := "CGdtfGeometryImpl", field := "CapacityZZ", need := ["eGdtfGeometrySupport"], deny := [],
    writes := [("GdtfGeometrySupport.fCapacityZZ", .arg "value" .same)],
    flag := none, reads := [("value", "GdtfGeometrySupport.fCapacityZZ")], unset := none, over := [] },
  -- CGdtfGeometry.cpp:729-742, 444-457; GDTFManager.cpp:4488-4491, 4639-4642
  { cls := "CGdtfGeometryImpl", field := "ColorIndex", need := ["eGdtfGeometryLamp"], deny := [],
    writes := [("GdtfGeometryLamp.fColorIndex", .arg "value" .same)],
    flag := none, reads := [("value", "GdtfGeometryLamp.fColorIndex")], unset := none, over := [] },
  -- CGdtfGeometry.cpp:624-637, 339-352; GDTFManager.cpp:4453-4456, 4604-4607
  { cls := "CGdtfGeometryImpl", field := "ColorTemperature", need := ["eGdtfGeometryLamp"], deny := [],
    writes := [("GdtfGeometryLamp.fColorTemperature", .arg "value" .same)],
    flag := none, reads := [("value", "GdtfGeometryLamp.fColorTemperature")], unset := none, over := [] },
  -- CGdtfGeometry.cpp:1326-1339, 1141-1154; GDTFManager.cpp:3206-3209, 3147-3150
  { cls := "CGdtfGeometryImpl", field := "ColorType", need := ["eGdtfGeometryLaser"], deny := [],
    writes := [("GdtfGeometryLaser.fColorType", .arg "value" .same)],
    flag := none, reads := [("value", "GdtfGeometryLaser.fColorType")], unset := none, over := [] },
  -- CGdtfGeometry.cpp:1869-1882, 1620-1633; GDTFManager.cpp:3601-3604, 3511-3514
  { cls := "CGdtfGeometryImpl", field := "ComponentType", need := ["eGdtfGeometryWiringObject"], deny := [],
    writes := [("GdtfGeometryWiringObject.fComponentType", .arg "value" .same)],
    flag := none, reads := [("value", "GdtfGeometryWiringObject.fComponentType")], unset := none, over := [] },
  -- CGdtfGeometry.cpp:1854-1867, 1608-1618; GDTFManager.cpp:3596-3599, 3506-3509
  { cls := "CGdtfGeometryImpl", field := "ConnectorType", need := ["eGdtfGeometryWiringObject"], deny := [],
    writes := [("GdtfGeometryWiringObject.fConnectorType", .arg "value" .same)],
    flag := none, reads := [("value", "GdtfGeometryWiringObject.fConnectorType")], unset := none, over := [] },
  -- CGdtfGeometry.cpp:2034-2047, 1779-1792; GDTFManager.cpp:3656-3659, 3566-3569
  { cls := "CGdtfGeometryImpl", field := "CosPhi", need := ["eGdtfGeometryWiringObject"], deny := [],
    writes := [("GdtfGeometryWiringObject.fCosPhi", .arg "value" .same)],
    flag := none, reads := [("value", "GdtfGeometryWiringObject.fCosPhi")], unset := none, over := [] },
  -- CGdtfGeometry.cpp:2450-2463, 2354-2367; GDTFManager.cpp:3978-3981, 3943-3946
  { cls := "CGdtfGeometryImpl", field := "CrossSectionHeight", need := ["eGdtfGeometryStructure"], deny := [],
    writes := [("GdtfGeometryStructure.fCrossSectionHeight", .arg "value" .same)],
    flag := none, reads := [("value", "GdtfGeometryStructure.fCrossSectionHeight")], unset := none, over := [] },
  -- CGdtfGeometry.cpp:2435-2448, 2339-2352; GDTFManager.cpp:3973-3976, 3938-3941
  { cls := "CGdtfGeometryImpl", field := "CrossSectionType", need := ["eGdtfGeometryStructure"], deny := [],
    writes := [("GdtfGeometryStructure.fCrossSectionType", .arg "value" .same)],
    flag := none, reads := [("value", "GdtfGeometryStructure.fCrossSectionType")], unset := none, over := [] },
  -- CGdtfGeometry.cpp:2465-2478, 2369-2382; GDTFManager.cpp:3983-3986, 3948-3951
  { cls := "CGdtfGeometryImpl", field := "CrossSectionWallThickness", need := ["eGdtfGeometryStructure"], deny := [],
    writes := [("GdtfGeometryStructure.fCrossSectionWallThickness", .arg "value" .same)],
    flag := none, reads := [("value", "GdtfGeometryStructure.fCrossSectionWallThickness")], unset := none, over := [] },
  -- CGdtfGeometry.cpp:1959-1972, 1704-1717; GDTFManager.cpp:3631-3634, 3541-3544
  { cls := "CGdtfGeometryImpl", field := "ElectricalPayLoad", need := ["eGdtfGeometryWiringObject"], deny := [],
    writes := [("GdtfGeometryWiringObject.fElectricalPayLoad", .arg "value" .same)],
    flag := none, reads := [("value", "GdtfGeometryWiringObject.fElectricalPayLoad")], unset := none, over := [] },
  -- CGdtfGeometry.cpp:1371-1394, 1186-1234; GDTFManager.cpp:3221-3224, 3161-3164
  { cls := "CGdtfGeometryImpl", field := "Emitter", need := ["eGdtfGeometryLaser"], deny := [],
    writes := [("GdtfGeometryLaser.fEmitter", .arg "value" .same)],
    flag := none, reads := [("value", "GdtfGeometryLaser.fEmitter")], unset := none, over := [] },
  -- CGdtfGeometry.cpp:744-764, 459-507; GDTFManager.cpp:4493-4496, 4644-4647
  { cls := "CGdtfGeometryImpl", field := "EmitterSpectrum", need := ["eGdtfGeometryLamp"], deny := [],
    writes := [("GdtfGeometryLamp.fEmitterSpectrum", .arg "value" .same)],
    flag := none, reads := [("value", "GdtfGeometryLamp.fEmitterSpectrum")], unset := none, over := [] },
  -- CGdtfGeometry.cpp:654-667, 369-382; GDTFManager.cpp:4463-4466, 4614-4617
  { cls := "CGdtfGeometryImpl", field := "FieldAngle", need := ["eGdtfGeometryLamp"], deny := [],
    writes := [("GdtfGeometryLamp.fFieldAngle", .arg "value" .same)],
    flag := none, reads := [("value", "GdtfGeometryLamp.fFieldAngle")], unset := none, over := [] },
  -- CGdtfGeometry.cpp:2019-2032, 1764-1777; GDTFManager.cpp:3651-3654, 3561-3564
  { cls := "CGdtfGeometryImpl", field := "FrequencyRangeMax", need := ["eGdtfGeometryWiringObject"], deny := [],
    writes := [("GdtfGeometryWiringObject.fFrequencyRangeMax", .arg "value" .same)],
    flag := none, reads := [("value", "GdtfGeometryWiringObject.fFrequencyRangeMax")], unset := none, over := [] },
  -- CGdtfGeometry.cpp:2004-2017, 1749-1762; GDTFManager.cpp:3646-3649, 3556-3559
  { cls := "CGdtfGeometryImpl", field := "FrequencyRangeMin", need := ["eGdtfGeometryWiringObject"], deny := [],
    writes := [("GdtfGeometryWiringObject.fFrequencyRangeMin", .arg "value" .same)],
    flag := none, reads := [("value", "GdtfGeometryWiringObject.fFrequencyRangeMin")], unset := none, over := [] },
  -- CGdtfGeometry.cpp:2079-2092, 1824-1837; GDTFManager.cpp:3671-3674, 3581-3584
  { cls := "CGdtfGeometryImpl", field := "FuseCurrent", need := ["eGdtfGeometryWiringObject"], deny := [],
    writes := [("GdtfGeometryWiringObject.fFuseCurrent", .arg "value" .same)],
    flag := none, reads := [("value", "GdtfGeometryWiringObject.fFuseCurrent")], unset := none, over := [] },
  -- CGdtfGeometry.cpp:2094-2107, 1839-1852; GDTFManager.cpp:3676-3679, 3586-3589
  { cls := "CGdtfGeometryImpl", field := "FuseRating", need := ["eGdtfGeometryWiringObject"], deny := [],
    writes := [("GdtfGeometryWiringObject.fFuseRating", .arg "value" .same)],
    flag := none, reads := [("value", "GdtfGeometryWiringObject.fFuseRating")], unset := none, over := [] },
  -- CGdtfGeometry.cpp:938-959, 886-935; GDTFManager.cpp:4780-4783, 4770-4773
  { cls := "CGdtfGeometryImpl", field := "GeometryReference", need := ["eGdtfGeometryReference"], deny := [],
    writes := [("GdtfGeometryReference.fLinkedGeometry", .arg "value" .same)],
    flag := none, reads := [("value", "GdtfGeometryReference.fLinkedGeometry")], unset := none, over := [] },
  -- CGdtfGeometry.cpp:1028-1040, 1014-1026; GDTFManager.cpp:2982-2985, 2977-2980
  { cls := "CGdtfGeometryImpl", field := "Height", need := ["eGdtfGeometryDisplay"], deny := [],
    writes := [("GdtfGeometryDisplay.fHeight", .arg "value" .same)],
    flag := none, reads := [("value", "GdtfGeometryDisplay.fHeight")], unset := none, over := [] },
  -- CGdtfGeometry.cpp:2256-2269, 2241-2254; GDTFManager.cpp:3855-3858, 3850-3853
  { cls := "CGdtfGeometryImpl", field := "InventoryCount", need := ["eGdtfGeometryInventory"], deny := [],
    writes := [("GdtfGeometryInventory.fCount", .arg "value" .same)],
    flag := none, reads := [("value", "GdtfGeometryInventory.fCount")], unset := none, over := [] },
  -- CGdtfGeometry.cpp:1056-1068, 1042-1054; GDTFManager.cpp:2987-2990, 2992-2995
  { cls := "CGdtfGeometryImpl", field := "IsCurved", need := ["eGdtfGeometryDisplay"], deny := [],
    writes := [("GdtfGeometryDisplay.fIsCurved", .arg "value" .same)],
    flag := none, reads := [("value", "GdtfGeometryDisplay.fIsCurved")], unset := none, over := [] },
  -- CGdtfGeometry.cpp:579-592, 294-307; GDTFManager.cpp:4438-4441, 4589-4592
  { cls := "CGdtfGeometryImpl", field := "LampType", need := ["eGdtfGeometryLamp"], deny := [],
    writes := [("GdtfGeometryLamp.fLampType", .arg "value" .same)],
    flag := none, reads := [("value", "GdtfGeometryLamp.fLampType")], unset := none, over := [] },
  -- CGdtfGeometry.cpp:1341-1354, 1156-1169; GDTFManager.cpp:3211-3214, 3152-3155
  { cls := "CGdtfGeometryImpl", field := "LaserColor", need := ["eGdtfGeometryLaser"], deny := [],
    writes := [("GdtfGeometryLaser.fColor", .arg "value" .same)],
    flag := none, reads := [("value", "GdtfGeometryLaser.fColor")], unset := none, over := [] },
  -- CGdtfGeometry.cpp:609-622, 324-337; GDTFManager.cpp:4448-4451, 4599-4602
  { cls := "CGdtfGeometryImpl", field := "LuminousIntensity", need := ["eGdtfGeometryLamp"], deny := [],
    writes := [("GdtfGeometryLamp.fLuminousIntensity", .arg "value" .same)],
    flag := none, reads := [("value", "GdtfGeometryLamp.fLuminousIntensity")], unset := none, over := [] },
  -- CGdtfGeometry.cpp:2049-2062, 1794-1807; GDTFManager.cpp:3661-3664, 3571-3574
  { cls := "CGdtfGeometryImpl", field := "MaxPayLoad", need := ["eGdtfGeometryWiringObject"], deny := [],
    writes := [("GdtfGeometryWiringObject.fMaxPayLoad", .arg "value" .same)],
    flag := none, reads := [("value", "GdtfGeometryWiringObject.fMaxPayLoad")], unset := none, over := [] },
  -- CGdtfGeometry.cpp:521-563, 45-87; GDTFManager.cpp:2394-2397
  { cls := "CGdtfGeometryImpl", field := "Model", need := [], deny := [],
    writes := [],
    flag := none, reads := [("value", "GdtfGeometry.fModelReference")], unset := none, over := [] },
  -- CGdtfGeometry.cpp:509-519, 37-43; GDTFManager.cpp:2091-2094, 2425-2428
  { cls := "CGdtfGeometryImpl", field := "Name", need := [], deny := [],
    writes := [("GdtfGeometry.fUniqueName", .arg "value" .clean)],
    flag := none, reads := [("value", "GdtfGeometry.fUniqueName")], unset := none, over := [] },
  -- CGdtfGeometry.cpp:1929-1942, 1677-1690; GDTFManager.cpp:3621-3624, 3531-3534
  { cls := "CGdtfGeometryImpl", field := "Orientation", need := ["eGdtfGeometryWiringObject"], deny := [],
    writes := [("GdtfGeometryWiringObject.fOrientation", .arg "value" .same)],
    flag := none, reads := [("value", "GdtfGeometryWiringObject.fOrientation")], unset := none, over := [] },
  -- CGdtfGeometry.cpp:1356-1369, 1171-1184; GDTFManager.cpp:3216-3219, 3156-3159
  { cls := "CGdtfGeometryImpl", field := "OutputStrength", need := ["eGdtfGeometryLaser"], deny := [],
    writes := [("GdtfGeometryLaser.fOutputStrength", .arg "value" .same)],
    flag := none, reads := [("value", "GdtfGeometryLaser.fOutputStrength")], unset := none, over := [] },
  -- CGdtfGeometry.cpp:1899-1912, 1647-1660; GDTFManager.cpp:3611-3614, 3521-3524
  { cls := "CGdtfGeometryImpl", field := "PinCount", need := ["eGdtfGeometryWiringObject"], deny := [],
    writes := [("GdtfGeometryWiringObject.fPinCount", .arg "value" .same)],
    flag := none, reads := [("value", "GdtfGeometryWiringObject.fPinCount")], unset := none, over := [] },
  -- CGdtfGeometry.cpp:594-607, 309-322; GDTFManager.cpp:4443-4446, 4594-4597
  { cls := "CGdtfGeometryImpl", field := "PowerConsumption", need := ["eGdtfGeometryLamp"], deny := [],
    writes := [("GdtfGeometryLamp.fPowerConsuption", .arg "value" .same)],
    flag := none, reads := [("value", "GdtfGeometryLamp.fPowerConsuption")], unset := none, over := [] },
  -- CGdtfGeometry.cpp:699-712, 414-427; GDTFManager.cpp:4478-4481, 4629-4632
  { cls := "CGdtfGeometryImpl", field := "RectangleRatio", need := ["eGdtfGeometryLamp"], deny := [],
    writes := [("GdtfGeometryLamp.fRectangleRatio", .arg "value" .same)],
    flag := none, reads := [("value", "GdtfGeometryLamp.fRectangleRatio")], unset := none, over := [] },
  -- CGdtfGeometry.cpp:2855-2868, 2630-2643; GDTFManager.cpp:4205-4208, 4130-4133
  { cls := "CGdtfGeometryImpl", field := "ResistanceX", need := ["eGdtfGeometrySupport"], deny := [],
    writes := [("GdtfGeometrySupport.fResistanceX", .arg "value" .same)],
    flag := none, reads := [("value", "GdtfGeometrySupport.fResistanceX")], unset := none, over := [] },
  -- CGdtfGeometry.cpp:2900-2913, 2675-2688; GDTFManager.cpp:4220-4223, 4145-4148
  { cls := "CGdtfGeometryImpl", field := "ResistanceXX", need := ["eGdtfGeometrySupport"], deny := [],
    writes := [("GdtfGeometrySupport.fResistanceXX", .arg "value" .same)],
    flag := none, reads := [("value", "GdtfGeometrySupport.fResistanceXX")], unset := none, over := [] },
  -- CGdtfGeometry.cpp:2870-2883, 2645-2658; GDTFManager.cpp:4210-4213, 4135-4138
  { cls := "CGdtfGeometryImpl", field := "ResistanceY", need := ["eGdtfGeometrySupport"], deny := [],
    writes := [("GdtfGeometrySupport.fResistanceY", .arg "value" .same)],
    flag := none, reads := [("value", "GdtfGeometrySupport.fResistanceY")], unset := none, over := [] },
  -- CGdtfGeometry.cpp:2915-2928, 2690-2703; GDTFManager.cpp:4225-4228, 4150-4153
  { cls := "CGdtfGeometryImpl", field := "ResistanceYY", need := ["eGdtfGeometrySupport"], deny := [],
    writes := [("GdtfGeometrySupport.fResistanceYY", .arg "value" .same)],
    flag := none, reads := [("value", "GdtfGeometrySupport.fResistanceYY")], unset := none, over := [] },
  -- CGdtfGeometry.cpp:2885-2898, 2660-2673; GDTFManager.cpp:4215-4218, 4140-4143
  { cls := "CGdtfGeometryImpl", field := "ResistanceZ", need := ["eGdtfGeometrySupport"], deny := [],
    writes := [("GdtfGeometrySupport.fResistanceZ", .arg "value" .same)],
    flag := none, reads := [("value", "GdtfGeometrySupport.fResistanceZ")], unset := none, over := [] },
  -- CGdtfGeometry.cpp:2930-2943, 2705-2718; GDTFManager.cpp:4230-4233, 4155-4158
  { cls := "CGdtfGeometryImpl", field := "ResistanceZZ", need := ["eGdtfGeometrySupport"], deny := [],
    writes := [("GdtfGeometrySupport.fResistanceZZ", .arg "value" .same)],
    flag := none, reads := [("value", "GdtfGeometrySupport.fResistanceZZ")], unset := none, over := [] },
  -- CGdtfGeometry.cpp:2826-2838, 2602-2613; GDTFManager.cpp:4195-4198, 4120-4123
  { cls := "CGdtfGeometryImpl", field := "RopeCrossSection", need := ["eGdtfGeometrySupport"], deny := [],
    writes := [("GdtfGeometrySupport.fRopeCrossSection", .arg "value" .same)],
    flag := none, reads := [("value", "GdtfGeometrySupport.fRopeCrossSection")], unset := none, over := [] },
  -- CGdtfGeometry.cpp:2840-2853, 2615-2628; GDTFManager.cpp:4200-4203, 4125-4128
  { cls := "CGdtfGeometryImpl", field := "RopeOffset", need := ["eGdtfGeometrySupport"], deny := [],
    writes := [("GdtfGeometrySupport.fRopeOffset", .arg "value" .same)],
    flag := none, reads := [("value", "GdtfGeometrySupport.fRopeOffset")], unset := none, over := [] },
  -- CGdtfGeometry.cpp:1441-1454, 1281-1294; GDTFManager.cpp:3241-3244, 3181-3184
  { cls := "CGdtfGeometryImpl", field := "ScanAnglePan", need := ["eGdtfGeometryLaser"], deny := [],
    writes := [("GdtfGeometryLaser.fScanAnglePan", .arg "value" .same)],
    flag := none, reads := [("value", "GdtfGeometryLaser.fScanAnglePan")], unset := none, over := [] },
  -- CGdtfGeometry.cpp:1456-1469, 1296-1309; GDTFManager.cpp:3246-3249, 3186-3189
  { cls := "CGdtfGeometryImpl", field := "ScanAngleTilt", need := ["eGdtfGeometryLaser"], deny := [],
    writes := [("GdtfGeometryLaser.fScanAngleTilt", .arg "value" .same)],
    flag := none, reads := [("value", "GdtfGeometryLaser.fScanAngleTilt")], unset := none, over := [] },
  -- CGdtfGeometry.cpp:1471-1484, 1311-1324; GDTFManager.cpp:3251-3254, 3191-3194
  { cls := "CGdtfGeometryImpl", field := "ScanSpeed", need := ["eGdtfGeometryLaser"], deny := [],
    writes := [("GdtfGeometryLaser.fScanSpeed", .arg "value" .same)],
    flag := none, reads := [("value", "GdtfGeometryLaser.fScanSpeed")], unset := none, over := [] },
  -- CGdtfGeometry.cpp:1914-1927, 1662-1675; GDTFManager.cpp:3616-3619, 3526-3529
  { cls := "CGdtfGeometryImpl", field := "SignalLayer", need := ["eGdtfGeometryWiringObject"], deny := [],
    writes := [("GdtfGeometryWiringObject.fSignalLayer", .arg "value" .same)],
    flag := none, reads := [("value", "GdtfGeometryWiringObject.fSignalLayer")], unset := none, over := [] },
  -- CGdtfGeometry.cpp:1884-1897, 1635-1645; GDTFManager.cpp:3606-3609, 3516-3519
  { cls := "CGdtfGeometryImpl", field := "SignalType", need := ["eGdtfGeometryWiringObject"], deny := [],
    writes := [("GdtfGeometryWiringObject.fSignalType", .arg "value" .same)],
    flag := none, reads := [("value", "GdtfGeometryWiringObject.fSignalType")], unset := none, over := [] },
  -- CGdtfGeometry.cpp:2397-2418, 2274-2322; GDTFManager.cpp:3963-3966, 3928-3931
  { cls := "CGdtfGeometryImpl", field := "StructureLinkedGeometry", need := ["eGdtfGeometryStructure"], deny := [],
    writes := [("GdtfGeometryStructure.fLinkedGeometry", .arg "value" .same)],
    flag := none, reads := [("value", "GdtfGeometryStructure.fLinkedGeometry")], unset := none, over := [] },
  -- CGdtfGeometry.cpp:2420-2433, 2324-2337; GDTFManager.cpp:3968-3971, 3933-3936
  { cls := "CGdtfGeometryImpl", field := "StructureType", need := ["eGdtfGeometryStructure"], deny := [],
    writes := [("GdtfGeometryStructure.fStructureType", .arg "value" .same)],
    flag := none, reads := [("value", "GdtfGeometryStructure.fStructureType")], unset := none, over := [] },
  -- CGdtfGeometry.cpp:2721-2734, 2497-2510; GDTFManager.cpp:4160-4163, 4085-4088
  { cls := "CGdtfGeometryImpl", field := "SupportType", need := ["eGdtfGeometrySupport"], deny := [],
    writes := [("GdtfGeometrySupport.fSupportType", .arg "value" .same)],
    flag := none, reads := [("value", "GdtfGeometrySupport.fSupportType")], unset := none, over := [] },
  -- CGdtfGeometry.cpp:973-984, 961-971; GDTFManager.cpp:2962-2965, 2957-2960
  { cls := "CGdtfGeometryImpl", field := "Texture", need := ["eGdtfGeometryDisplay"], deny := [],
    writes := [("GdtfGeometryDisplay.fTexture", .arg "value" .same)],
    flag := none, reads := [("value", "GdtfGeometryDisplay.fTexture")], unset := none, over := [] },
  -- CGdtfGeometry.cpp:684-697, 399-412; GDTFManager.cpp:4473-4476, 4624-4627
  { cls := "CGdtfGeometryImpl", field := "ThrowRatio", need := ["eGdtfGeometryLamp"], deny := [],
    writes := [("GdtfGeometryLamp.fThrowRatio", .arg "value" .same)],
    flag := none, reads := [("value", "GdtfGeometryLamp.fThrowRatio")], unset := none, over := [] },
  -- CGdtfGeometry.cpp:566-577, 89-101; GDTFManager.cpp:2096-2099, 2399-2402
  { cls := "CGdtfGeometryImpl", field := "TransformMatrix", need := [], deny := [],
    writes := [("GdtfGeometry.fMatrix", .arg "value" .same)],
    flag := none, reads := [("value", "GdtfGeometry.fMatrix")], unset := none, over := [] },
  -- CGdtfGeometry.cpp:2480-2492, 2384-2395; GDTFManager.cpp:3988-3991, 3953-3956
  { cls := "CGdtfGeometryImpl", field := "TrussCrossSection", need := ["eGdtfGeometryStructure"], deny := [],
    writes := [("GdtfGeometryStructure.fTrussCrossSection", .arg "value" .same)],
    flag := none, reads := [("value", "GdtfGeometryStructure.fTrussCrossSection")], unset := none, over := [] },
  -- CGdtfGeometry.cpp:2064-2077, 1809-1822; GDTFManager.cpp:3666-3669, 3576-3579
  { cls := "CGdtfGeometryImpl", field := "Voltage", need := ["eGdtfGeometryWiringObject"], deny := [],
    writes := [("GdtfGeometryWiringObject.fVoltage", .arg "value" .same)],
    flag := none, reads := [("value", "GdtfGeometryWiringObject.fVoltage")], unset := none, over := [] },
  -- CGdtfGeometry.cpp:1989-2002, 1734-1747; GDTFManager.cpp:3641-3644, 3551-3554
  { cls := "CGdtfGeometryImpl", field := "VoltageRangeMax", need := ["eGdtfGeometryWiringObject"], deny := [],
    writes := [("GdtfGeometryWiringObject.fVoltageRangeMax", .arg "value" .same)],
    flag := none, reads := [("value", "GdtfGeometryWiringObject.fVoltageRangeMax")], unset := none, over := [] },
  -- CGdtfGeometry.cpp:1974-1987, 1719-1732; GDTFManager.cpp:3636-3639, 3546-3549
  { cls := "CGdtfGeometryImpl", field := "VoltageRangeMin", need := ["eGdtfGeometryWiringObject"], deny := [],
    writes := [("GdtfGeometryWiringObject.fVoltageRangeMin", .arg "value" .same)],
    flag := none, reads := [("value", "GdtfGeometryWiringObject.fVoltageRangeMin")], unset := none, over := [] },
  -- CGdtfGeometry.cpp:1000-1012, 986-998; GDTFManager.cpp:2972-2975, 2967-2970
  { cls := "CGdtfGeometryImpl", field := "Width", need := ["eGdtfGeometryDisplay"], deny := [],
    writes := [("GdtfGeometryDisplay.fWidth", .arg "value" .same)],
    flag := none, reads := [("value", "GdtfGeometryDisplay.fWidth")], unset := none, over := [] },
  -- CGdtfGeometry.cpp:1944-1957, 1692-1702; GDTFManager.cpp:3626-3629, 3536-3539
  { cls := "CGdtfGeometryImpl", field := "WireGroup", need := ["eGdtfGeometryWiringObject"], deny := [],
    writes := [("GdtfGeometryWiringObject.fWireGroup", .arg "value" .same)],
    flag := none, reads := [("value", "GdtfGeometryWiringObject.fWireGroup")], unset := none, over := [] } ]

/-- The fields of `CGdtfLaserProtocolImpl`. -/
def fieldsGdtfLaserProtocol : List Field := [
  -- CGdtfLaserProtocol.cpp:28-38, 20-26; GDTFManager.cpp:3077-3080, 3072-3075
  { cls := "CGdtfLaserProtocolImpl", field := "Name", need := [], deny := [],
    writes := [("GdtfLaserProtocol.fName", .arg "value" .same)],
    flag := none, reads := [("value", "GdtfLaserProtocol.fName")], unset := none, over := [] } ]

/-- The fields of `CGdtfMacroImpl`. -/
def fieldsGdtfMacro : List Field := [
  -- CGdtfMacro.cpp:88-102, 43-86; GDTFManager.cpp:7702-7705, 7682-7685
  { cls := "CGdtfMacroImpl", field := "ChannelFunction", need := [], deny := [],
    writes := [("GdtfMacro.fChannelFunction", .arg "value" .same)],
    flag := none, reads := [("value", "GdtfMacro.fChannelFunction")], unset := none, over := [] },
  -- CGdtfMacro.cpp:30-41, 23-28; GDTFManager.cpp:7697-7700, 7672-7675
  { cls := "CGdtfMacroImpl", field := "Name", need := [], deny := [],
    writes := [("GdtfMacro.fName", .arg "value" .same)],
    flag := none, reads := [("value", "GdtfMacro.fName")], unset := none, over := [] } ]

/-- The fields of `CGdtfMacroVisualStepImpl`. -/
def fieldsGdtfMacroVisualStep : List Field := [
  -- CGdtfMacroVisualStep.cpp:68-76, 38-46; GDTFManager.cpp:11965-11968, 11950-11953
  { cls := "CGdtfMacroVisualStepImpl", field := "Delay", need := [], deny := [],
    writes := [("GdtfMacroVisualStep.fDelay", .arg "value" .same)],
    flag := none, reads := [("value", "GdtfMacroVisualStep.fDelay")], unset := none, over := [] },
  -- CGdtfMacroVisualStep.cpp:48-56, 17-25; GDTFManager.cpp:11955-11958, 11940-11943
  { cls := "CGdtfMacroVisualStepImpl", field := "Duration", need := [], deny := [],
    writes := [("GdtfMacroVisualStep.fDuration", .arg "value" .same)],
    flag := none, reads := [("value", "GdtfMacroVisualStep.fDuration")], unset := none, over := [] },
  -- CGdtfMacroVisualStep.cpp:58-66, 27-36; GDTFManager.cpp:11960-11963, 11945-11948
  { cls := "CGdtfMacroVisualStepImpl", field := "Fade", need := [], deny := [],
    writes := [("GdtfMacroVisualStep.fFade", .arg "value" .same)],
    flag := none, reads := [("value", "GdtfMacroVisualStep.fFade")], unset := none, over := [] } ]

/-- The fields of `CGdtfMacroVisualValueImpl`. -/
def fieldsGdtfMacroVisualValue : List Field := [
  -- CGdtfMacroVisualValue.cpp:79-98, 27-67; GDTFManager.cpp:12102-12105, 12087-12090
  { cls := "CGdtfMacroVisualValueImpl", field := "DmxChannel", need := [], deny := [],
    writes := [("GdtfMacroVisualValue.fChannelFunctionRef", .arg "value" .same)],
    flag := none, reads := [("value", "GdtfMacroVisualValue.fChannelFunctionRef")], unset := none, over := [] },
  -- CGdtfMacroVisualValue.cpp:69-77, 17-25; GDTFManager.cpp:12092-12095, 12077-12080
  { cls := "CGdtfMacroVisualValueImpl", field := "DmxValue", need := [], deny := [],
    writes := [("GdtfMacroVisualValue.fDmxValue", .arg "value" .same)],
    flag := none, reads := [("value", "GdtfMacroVisualValue.fDmxValue")], unset := none, over := [] } ]

/-- The fields of `CGdtfMapImpl`. -/
def fieldsGdtfMap : List Field := [
  -- CGdtfMap.cpp:39-47, 20-27; GDTFManager.cpp:11286-11289, 11276-11279
  { cls := "CGdtfMapImpl", field := "Key", need := [], deny := [],
    writes := [("GdtfMap.fKey", .arg "value" .same)],
    flag := none, reads := [("value", "GdtfMap.fKey")], unset := none, over := [] },
  -- CGdtfMap.cpp:49-57, 29-36; GDTFManager.cpp:11291-11294, 11281-11284
  { cls := "CGdtfMapImpl", field := "Value", need := [], deny := [],
    writes := [("GdtfMap.fValue", .arg "value" .same)],
    flag := none, reads := [("value", "GdtfMap.fValue")], unset := none, over := [] } ]

/-- The fields of `CGdtfMeasurementImpl`. -/
def fieldsGdtfMeasurement : List Field := [
  -- CGdtfMeasurement.cpp:88-96, 48-56; GDTFManager.cpp:13117-13120, 13092-13095
  { cls := "CGdtfMeasurementImpl", field := "InterpolationTo", need := [], deny := [],
    writes := [("GdtfMeasurement.fInterpolationTo", .arg "value" .same)],
    flag := none, reads := [("value", "GdtfMeasurement.fInterpolationTo")], unset := none, over := [] },
  -- CGdtfMeasurement.cpp:68-76, 28-36; GDTFManager.cpp:13107-13110, 13082-13085
  { cls := "CGdtfMeasurementImpl", field := "LuminousIntensity", need := [], deny := [],
    writes := [("GdtfMeasurement.fLuminousIntensity", .arg "value" .same)],
    flag := none, reads := [("value", "GdtfMeasurement.fLuminousIntensity")], unset := none, over := [] },
  -- CGdtfMeasurement.cpp:58-66, 18-26; GDTFManager.cpp:13102-13105, 13077-13080
  { cls := "CGdtfMeasurementImpl", field := "Physical", need := [], deny := [],
    writes := [("GdtfMeasurement.fPhysical", .arg "value" .same)],
    flag := none, reads := [("value", "GdtfMeasurement.fPhysical")], unset := none, over := [] },
  -- CGdtfMeasurement.cpp:78-86, 38-46; GDTFManager.cpp:13112-13115, 13087-13090
  { cls := "CGdtfMeasurementImpl", field := "Transmission", need := [], deny := [],
    writes := [("GdtfMeasurement.fTransmission", .arg "value" .same)],
    flag := none, reads := [("value", "GdtfMeasurement.fTransmission")], unset := none, over := [] } ]

/-- The fields of `CGdtfMeasurementPointImpl`. -/
def fieldsGdtfMeasurementPoint : List Field := [
  -- CGdtfMeasurementPoint.cpp:70-77, 29-36; GDTFManager.cpp:7746-7749, 7808-7811
  { cls := "CGdtfMeasurementPointImpl", field := "Energy", need := [], deny := [],
    writes := [("GdtfMeasurementPoint.fEngergy", .arg "value" .same)],
    flag := none, reads := [("value", "GdtfMeasurementPoint.fEngergy")], unset := none, over := [] },
  -- CGdtfMeasurementPoint.cpp:61-68, 20-27; GDTFManager.cpp:7741-7744, 7803-7806
  { cls := "CGdtfMeasurementPointImpl", field := "WaveLength", need := [], deny := [],
    writes := [("GdtfMeasurementPoint.fWaveLength", .arg "value" .same)],
    flag := none, reads := [("value", "GdtfMeasurementPoint.fWaveLength")], unset := none, over := [] } ]

/-- The fields of `CGdtfModelImpl`. -/
def fieldsGdtfModel : List Field := [
  -- CGdtfModel.cpp:279-287, 48-56; GDTFManager.cpp:1501-1504, 1980-1983
  { cls := "CGdtfModelImpl", field := "Height", need := [], deny := [],
    writes := [("GdtfModel.fHeight", .arg "value" .same)],
    flag := none, reads := [("value", "GdtfModel.fHeight")], unset := none, over := [] },
  -- CGdtfModel.cpp:259-267, 28-36; GDTFManager.cpp:1491-1494, 1970-1973
  { cls := "CGdtfModelImpl", field := "Length", need := [], deny := [],
    writes := [("GdtfModel.fLength", .arg "value" .same)],
    flag := none, reads := [("value", "GdtfModel.fLength")], unset := none, over := [] },
  -- CGdtfModel.cpp:247-257, 20-26; GDTFManager.cpp:1486-1489, 1965-1968
  { cls := "CGdtfModelImpl", field := "Name", need := [], deny := [],
    writes := [("GdtfModel.fUniqueName", .arg "value" .same)],
    flag := none, reads := [("value", "GdtfModel.fUniqueName")], unset := none, over := [] },
  -- CGdtfModel.cpp:289-297, 58-66; GDTFManager.cpp:1506-1509, 1985-1988
  { cls := "CGdtfModelImpl", field := "PrimitiveType", need := [], deny := [],
    writes := [("GdtfModel.fPrimitiveType", .arg "value" .same)],
    flag := none, reads := [("value", "GdtfModel.fPrimitiveType")], unset := none, over := [] },
  -- CGdtfModel.cpp:380-388, 227-235; GDTFManager.cpp:1575-1578, 2058-2061
  { cls := "CGdtfModelImpl", field := "SVGFrontOffsetX", need := [], deny := [],
    writes := [("GdtfModel.fSVGFrontOffsetX", .arg "value" .same)],
    flag := none, reads := [("value", "GdtfModel.fSVGFrontOffsetX")], unset := none, over := [] },
  -- CGdtfModel.cpp:390-398, 237-245; GDTFManager.cpp:1580-1583, 2063-2066
  { cls := "CGdtfModelImpl", field := "SVGFrontOffsetY", need := [], deny := [],
    writes := [("GdtfModel.fSVGFrontOffsetY", .arg "value" .same)],
    flag := none, reads := [("value", "GdtfModel.fSVGFrontOffsetY")], unset := none, over := [] },
  -- CGdtfModel.cpp:340-348, 187-195; GDTFManager.cpp:1555-1558, 2038-2041
  { cls := "CGdtfModelImpl", field := "SVGOffsetX", need := [], deny := [],
    writes := [("GdtfModel.fSVGOffsetX", .arg "value" .same)],
    flag := none, reads := [("value", "GdtfModel.fSVGOffsetX")], unset := none, over := [] },
  -- CGdtfModel.cpp:350-358, 197-205; GDTFManager.cpp:1560-1563, 2043-2046
  { cls := "CGdtfModelImpl", field := "SVGOffsetY", need := [], deny := [],
    writes := [("GdtfModel.fSVGOffsetY", .arg "value" .same)],
    flag := none, reads := [("value", "GdtfModel.fSVGOffsetY")], unset := none, over := [] },
  -- CGdtfModel.cpp:360-368, 207-215; GDTFManager.cpp:1565-1568, 2048-2051
  { cls := "CGdtfModelImpl", field := "SVGSideOffsetX", need := [], deny := [],
    writes := [("GdtfModel.fSVGSideOffsetX", .arg "value" .same)],
    flag := none, reads := [("value", "GdtfModel.fSVGSideOffsetX")], unset := none, over := [] },
  -- CGdtfModel.cpp:370-378, 217-225; GDTFManager.cpp:1570-1573, 2053-2056
  { cls := "CGdtfModelImpl", field := "SVGSideOffsetY", need := [], deny := [],
    writes := [("GdtfModel.fSVGSideOffsetY", .arg "value" .same)],
    flag := none, reads := [("value", "GdtfModel.fSVGSideOffsetY")], unset := none, over := [] },
  -- CGdtfModel.cpp:269-277, 38-46; GDTFManager.cpp:1496-1499, 1975-1978
  { cls := "CGdtfModelImpl", field := "Width", need := [], deny := [],
    writes := [("GdtfModel.fWidth", .arg "value" .same)],
    flag := none, reads := [("value", "GdtfModel.fWidth")], unset := none, over := [] } ]

/-- The fields of `CGdtfPhysicalEmitterImpl`. -/
def fieldsGdtfPhysicalEmitter : List Field := [
  -- CGdtfPhysicalEmitter.cpp:175-183, 30-41; GDTFManager.cpp:7402-7405, 7519-7522
  { cls := "CGdtfPhysicalEmitterImpl", field := "Color", need := [], deny := [],
    writes := [("GdtfPhysicalEmitter.fColor", .arg "value" .same)],
    flag := none, reads := [("value", "GdtfPhysicalEmitter.fColor")], unset := none, over := [] },
  -- CGdtfPhysicalEmitter.cpp:185-193, 143-150; GDTFManager.cpp:7407-7410, 7534-7537
  { cls := "CGdtfPhysicalEmitterImpl", field := "DiodePart", need := [], deny := [],
    writes := [("GdtfPhysicalEmitter.fDiodePart", .arg "value" .same)],
    flag := none, reads := [("value", "GdtfPhysicalEmitter.fDiodePart")], unset := none, over := [] },
  -- CGdtfPhysicalEmitter.cpp:195-203, 152-160; GDTFManager.cpp:7412-7415, 7539-7542
  { cls := "CGdtfPhysicalEmitterImpl", field := "DominantWaveLength", need := [], deny := [],
    writes := [("GdtfPhysicalEmitter.fDominantWaveLength", .arg "value" .same)],
    flag := none, reads := [("value", "GdtfPhysicalEmitter.fDominantWaveLength")], unset := none, over := [] },
  -- CGdtfPhysicalEmitter.cpp:162-173, 21-28; GDTFManager.cpp:7397-7400, 7514-7517
  { cls := "CGdtfPhysicalEmitterImpl", field := "Name", need := [], deny := [],
    writes := [("GdtfPhysicalEmitter.fName", .arg "value" .clean)],
    flag := none, reads := [("value", "GdtfPhysicalEmitter.fName")], unset := none, over := [] } ]

/-- The fields of `CGdtfPinPatchImpl`. -/
def fieldsGdtfPinPatch : List Field := [
  -- CGdtfPinPatch.cpp:107-115, 65-72; GDTFManager.cpp:3401-3404, 3381-3384
  { cls := "CGdtfPinPatchImpl", field := "FromPin", need := [], deny := [],
    writes := [("GdtfPinPatch.fFromPin", .arg "value" .same)],
    flag := none, reads := [("value", "GdtfPinPatch.fFromPin")], unset := none, over := [] },
  -- CGdtfPinPatch.cpp:83-105, 21-63; GDTFManager.cpp:3396-3399, 3376-3379
  { cls := "CGdtfPinPatchImpl", field := "LinkedWiringObject", need := [], deny := [],
    writes := [("GdtfPinPatch.fToWiringObject", .arg "value" .same)],
    flag := none, reads := [("value", "GdtfPinPatch.fToWiringObject")], unset := none, over := [] },
  -- CGdtfPinPatch.cpp:117-125, 74-81; GDTFManager.cpp:3406-3409, 3386-3389
  { cls := "CGdtfPinPatchImpl", field := "ToPin", need := [], deny := [],
    writes := [("GdtfPinPatch.fToPin", .arg "value" .same)],
    flag := none, reads := [("value", "GdtfPinPatch.fToPin")], unset := none, over := [] } ]

/-- The fields of `CGdtfPointImpl`. -/
def fieldsGdtfPoint : List Field := [
  -- CGdtfPoint.cpp:99-106, 53-60; GDTFManager.cpp:10484-10487, 10458-10461
  { cls := "CGdtfPointImpl", field := "CFC0", need := [], deny := [],
    writes := [("GdtfPoint.fCFC0", .arg "value" .same)],
    flag := none, reads := [("value", "GdtfPoint.fCFC0")], unset := none, over := [] },
  -- CGdtfPoint.cpp:90-97, 44-51; GDTFManager.cpp:10479-10482, 10453-10456
  { cls := "CGdtfPointImpl", field := "CFC1", need := [], deny := [],
    writes := [("GdtfPoint.fCFC1", .arg "value" .same)],
    flag := none, reads := [("value", "GdtfPoint.fCFC1")], unset := none, over := [] },
  -- CGdtfPoint.cpp:81-88, 35-42; GDTFManager.cpp:10474-10477, 10448-10451
  { cls := "CGdtfPointImpl", field := "CFC2", need := [], deny := [],
    writes := [("GdtfPoint.fCFC2", .arg "value" .same)],
    flag := none, reads := [("value", "GdtfPoint.fCFC2")], unset := none, over := [] },
  -- CGdtfPoint.cpp:72-79, 26-33; GDTFManager.cpp:10469-10472, 10443-10446
  { cls := "CGdtfPointImpl", field := "CFC3", need := [], deny := [],
    writes := [("GdtfPoint.fCFC3", .arg "value" .same)],
    flag := none, reads := [("value", "GdtfPoint.fCFC3")], unset := none, over := [] },
  -- CGdtfPoint.cpp:63-70, 17-24; GDTFManager.cpp:10464-10467, 10438-10441
  { cls := "CGdtfPointImpl", field := "DMXPercentage", need := [], deny := [],
    writes := [("GdtfPoint.fDMXPercentage", .arg "value" .same)],
    flag := none, reads := [("value", "GdtfPoint.fDMXPercentage")], unset := none, over := [] } ]

/-- The fields of `CGdtfRevisionImpl`. -/
def fieldsGdtfRevision : List Field := [
  -- CGdtfRevision.cpp:54-62, 28-42; GDTFManager.cpp:7333-7341, 7358-7361
  { cls := "CGdtfRevisionImpl", field := "Date", need := [], deny := [],
    writes := [("GdtfRevision.fDateS", .arg "value" .same)],
    flag := none, reads := [("value", "GdtfRevision.fDateS")], unset := none, over := [] },
  -- CGdtfRevision.cpp:92-100, 84-90; GDTFManager.cpp:7348-7351, 7368-7371
  { cls := "CGdtfRevisionImpl", field := "ModifiedBy", need := [], deny := [],
    writes := [("GdtfRevision.fModifiedBy", .arg "value" .same)],
    flag := none, reads := [("value", "GdtfRevision.fModifiedBy")], unset := none, over := [] },
  -- CGdtfRevision.cpp:44-52, 20-26; GDTFManager.cpp:7328-7331, 7353-7356
  { cls := "CGdtfRevisionImpl", field := "Text", need := [], deny := [],
    writes := [("GdtfRevision.fText", .arg "value" .same)],
    flag := none, reads := [("value", "GdtfRevision.fText")], unset := none, over := [] },
  -- CGdtfRevision.cpp:74-82, 64-72; GDTFManager.cpp:7343-7346, 7363-7366
  { cls := "CGdtfRevisionImpl", field := "UserId", need := [], deny := [],
    writes := [("GdtfRevision.fUserId", .arg "value" .same)],
    flag := none, reads := [("value", "GdtfRevision.fUserId")], unset := none, over := [] } ]

/-- The fields of `CGdtfSoftwareVersionIDImpl`. -/
def fieldsGdtfSoftwareVersionID : List Field := [
  -- CGdtfSoftwareVersionID.cpp:30-38, 19-27; GDTFManager.cpp:12187-12190, 12177-12180
  { cls := "CGdtfSoftwareVersionIDImpl", field := "Value", need := [], deny := [],
    writes := [("GdtfSoftwareVersionID.fValue", .arg "value" .same)],
    flag := none, reads := [("value", "GdtfSoftwareVersionID.fValue")], unset := none, over := [] } ]

/-- The fields of `CGdtfSubPhysicalUnitImpl`. -/
def fieldsGdtfSubPhysicalUnit : List Field := [
  -- CGdtfSubPhysicalUnit.cpp:66-74, 29-36; GDTFManager.cpp:489-492, 468-471
  { cls := "CGdtfSubPhysicalUnitImpl", field := "PhysicalFrom", need := [], deny := [],
    writes := [("GdtfSubPhysicalUnit.fPhysicalFrom", .arg "value" .same)],
    flag := none, reads := [("value", "GdtfSubPhysicalUnit.fPhysicalFrom")], unset := none, over := [] },
  -- CGdtfSubPhysicalUnit.cpp:86-94, 38-45; GDTFManager.cpp:494-497, 473-476
  { cls := "CGdtfSubPhysicalUnitImpl", field := "PhysicalTo", need := [], deny := [],
    writes := [("GdtfSubPhysicalUnit.fPhysicalTo", .arg "value" .same)],
    flag := none, reads := [("value", "GdtfSubPhysicalUnit.fPhysicalTo")], unset := none, over := [] },
  -- CGdtfSubPhysicalUnit.cpp:76-84, 47-54; GDTFManager.cpp:484-487, 463-466
  { cls := "CGdtfSubPhysicalUnitImpl", field := "PhysicalUnit", need := [], deny := [],
    writes := [("GdtfSubPhysicalUnit.fPhysicalUnit", .arg "value" .same)],
    flag := none, reads := [("value", "GdtfSubPhysicalUnit.fPhysicalUnit")], unset := none, over := [] },
  -- CGdtfSubPhysicalUnit.cpp:56-64, 20-27; GDTFManager.cpp:478-482, 458-461
  { cls := "CGdtfSubPhysicalUnitImpl", field := "Type", need := [], deny := [],
    writes := [("GdtfSubPhysicalUnit.fType", .arg "value" .same), ("GdtfSubPhysicalUnit.fPhysicalUnit", .arg "value" .unit)],
    flag := none, reads := [("value", "GdtfSubPhysicalUnit.fType")], unset := none, over := [] } ]

/-- The fields of `CGdtfWheelSlotImpl`. -/
def fieldsGdtfWheelSlot : List Field := [
  -- CGdtfWheelSlot.cpp:68-77, 31-40; GDTFManager.cpp:1193-1196, 1258-1261
  { cls := "CGdtfWheelSlotImpl", field := "Color", need := [], deny := [],
    writes := [("GdtfWheelSlot.fColor", .arg "value" .same)],
    flag := none, reads := [("value", "GdtfWheelSlot.fColor")], unset := none, over := [] },
  -- CGdtfWheelSlot.cpp:406-411, 378-383; GDTFManager.cpp:1424-1424, 1419-1419
  { cls := "CGdtfWheelSlotImpl", field := "Duration", need := [], deny := [],
    writes := [("GdtfWheelSlot.fDuration", .arg "value" .same)],
    flag := none, reads := [("value", "GdtfWheelSlot.fDuration")], unset := none, over := [] },
  -- CGdtfWheelSlot.cpp:427-432, 399-404; GDTFManager.cpp:1427-1427, 1422-1422
  { cls := "CGdtfWheelSlotImpl", field := "FPS", need := [], deny := [],
    writes := [("GdtfWheelSlot.fFPS", .arg "value" .same)],
    flag := none, reads := [("value", "GdtfWheelSlot.fFPS")], unset := none, over := [] },
  -- CGdtfWheelSlot.cpp:360-376, 316-358; GDTFManager.cpp:1198-1201, 1225-1228
  { cls := "CGdtfWheelSlotImpl", field := "Filter", need := [], deny := [],
    writes := [("GdtfWheelSlot.fFilter", .arg "value" .same)],
    flag := none, reads := [("value", "GdtfWheelSlot.fFilter")], unset := none, over := [] },
  -- CGdtfWheelSlot.cpp:79-88, 42-48; GDTFManager.cpp:1188-1191, 1220-1223
  { cls := "CGdtfWheelSlotImpl", field := "Gobo", need := [], deny := [],
    writes := [("GdtfWheelSlot.fGobo", .arg "value" .same)],
    flag := none, reads := [("value", "GdtfWheelSlot.fGobo")], unset := none, over := [] },
  -- CGdtfWheelSlot.cpp:420-425, 392-397; GDTFManager.cpp:1426-1426, 1421-1421
  { cls := "CGdtfWheelSlotImpl", field := "Height", need := [], deny := [],
    writes := [("GdtfWheelSlot.fHeight", .arg "value" .same)],
    flag := none, reads := [("value", "GdtfWheelSlot.fHeight")], unset := none, over := [] },
  -- CGdtfWheelSlot.cpp:58-66, 23-29; GDTFManager.cpp:1183-1186, 1263-1266
  { cls := "CGdtfWheelSlotImpl", field := "Name", need := [], deny := [],
    writes := [("GdtfWheelSlot.fName", .arg "value" .same)],
    flag := none, reads := [("value", "GdtfWheelSlot.fName")], unset := none, over := [] },
  -- CGdtfWheelSlot.cpp:413-418, 385-390; GDTFManager.cpp:1425-1425, 1420-1420
  { cls := "CGdtfWheelSlotImpl", field := "Width", need := [], deny := [],
    writes := [("GdtfWheelSlot.fWidth", .arg "value" .same)],
    flag := none, reads := [("value", "GdtfWheelSlot.fWidth")], unset := none, over := [] } ]

/-- The fields of `CGdtfWheelSlotAnimationSystemImpl`. -/
def fieldsGdtfWheelSlotAnimationSystem : List Field := [
  -- CGdtfWheelSlotAnimationSystem.cpp:89-97, 19-27; GDTFManager.cpp:1060-1063, 1025-1028
  { cls := "CGdtfWheelSlotAnimationSystemImpl", field := "P1_X", need := [], deny := [],
    writes := [("GdtfWheelSlotAnimationSystem.fP1_X", .arg "value" .same)],
    flag := none, reads := [("value", "GdtfWheelSlotAnimationSystem.fP1_X")], unset := none, over := [] },
  -- CGdtfWheelSlotAnimationSystem.cpp:99-107, 29-37; GDTFManager.cpp:1065-1068, 1030-1033
  { cls := "CGdtfWheelSlotAnimationSystemImpl", field := "P1_Y", need := [], deny := [],
    writes := [("GdtfWheelSlotAnimationSystem.fP1_Y", .arg "value" .same)],
    flag := none, reads := [("value", "GdtfWheelSlotAnimationSystem.fP1_Y")], unset := none, over := [] },
  -- CGdtfWheelSlotAnimationSystem.cpp:109-117, 39-47; GDTFManager.cpp:1070-1073, 1035-1038
  { cls := "CGdtfWheelSlotAnimationSystemImpl", field := "P2_X", need := [], deny := [],
    writes := [("GdtfWheelSlotAnimationSystem.fP2_X", .arg "value" .same)],
    flag := none, reads := [("value", "GdtfWheelSlotAnimationSystem.fP2_X")], unset := none, over := [] },
  -- CGdtfWheelSlotAnimationSystem.cpp:119-127, 49-57; GDTFManager.cpp:1075-1078, 1040-1043
  { cls := "CGdtfWheelSlotAnimationSystemImpl", field := "P2_Y", need := [], deny := [],
    writes := [("GdtfWheelSlotAnimationSystem.fP2_Y", .arg "value" .same)],
    flag := none, reads := [("value", "GdtfWheelSlotAnimationSystem.fP2_Y")], unset := none, over := [] },
  -- CGdtfWheelSlotAnimationSystem.cpp:129-137, 59-67; GDTFManager.cpp:1080-1083, 1045-1048
  { cls := "CGdtfWheelSlotAnimationSystemImpl", field := "P3_X", need := [], deny := [],
    writes := [("GdtfWheelSlotAnimationSystem.fP3_X", .arg "value" .same)],
    flag := none, reads := [("value", "GdtfWheelSlotAnimationSystem.fP3_X")], unset := none, over := [] },
  -- CGdtfWheelSlotAnimationSystem.cpp:139-147, 69-77; GDTFManager.cpp:1085-1088, 1050-1053
  { cls := "CGdtfWheelSlotAnimationSystemImpl", field := "P3_Y", need := [], deny := [],
    writes := [("GdtfWheelSlotAnimationSystem.fP3_Y", .arg "value" .same)],
    flag := none, reads := [("value", "GdtfWheelSlotAnimationSystem.fP3_Y")], unset := none, over := [] },
  -- CGdtfWheelSlotAnimationSystem.cpp:149-157, 79-87; GDTFManager.cpp:1090-1093, 1055-1058
  { cls := "CGdtfWheelSlotAnimationSystemImpl", field := "Radius", need := [], deny := [],
    writes := [("GdtfWheelSlotAnimationSystem.fRadius", .arg "value" .same)],
    flag := none, reads := [("value", "GdtfWheelSlotAnimationSystem.fRadius")], unset := none, over := [] } ]

/-- The fields of `CGdtfWheelSlotPrismFacetImpl`. -/
def fieldsGdtfWheelSlotPrismFacet : List Field := [
  -- CGdtfWheelSlotPrismFacet.cpp:42-52, 20-30; GDTFManager.cpp:947-950, 967-970
  { cls := "CGdtfWheelSlotPrismFacetImpl", field := "Color", need := [], deny := [],
    writes := [("GdtfWheelSlotPrismFacet.fColor", .arg "value" .same)],
    flag := none, reads := [("value", "GdtfWheelSlotPrismFacet.fColor")], unset := none, over := [] },
  -- CGdtfWheelSlotPrismFacet.cpp:54-65, 32-40; GDTFManager.cpp:952-955, 972-975
  { cls := "CGdtfWheelSlotPrismFacetImpl", field := "TransformMatrix", need := [], deny := [],
    writes := [("GdtfWheelSlotPrismFacet.fTransform", .arg "value" .same)],
    flag := none, reads := [("value", "GdtfWheelSlotPrismFacet.fTransform")], unset := none, over := [] } ]

/-- The fields of `CMappingDefinitionImpl`. -/
def fieldsMappingDefinition : List Field := [
  -- CMappingDefinitionImpl.cpp:163-173, 116-126; SceneDataExchange.cpp:791-794, 762-765
  { cls := "CMappingDefinitionImpl", field := "ScaleHandling", need := [], deny := [],
    writes := [("SceneDataMappingDefinitionObj.fScaleHandling", .arg "value" .same)],
    flag := none, reads := [("value", "SceneDataMappingDefinitionObj.fScaleHandling")], unset := none, over := [] },
  -- CMappingDefinitionImpl.cpp:128-138, 43-53; SceneDataExchange.cpp:767-770, 747-750
  { cls := "CMappingDefinitionImpl", field := "SizeX", need := [], deny := [],
    writes := [("SceneDataMappingDefinitionObj.fSizeX", .arg "value" .same)],
    flag := none, reads := [("value", "SceneDataMappingDefinitionObj.fSizeX")], unset := none, over := [] },
  -- CMappingDefinitionImpl.cpp:140-150, 55-65; SceneDataExchange.cpp:772-775, 752-755
  { cls := "CMappingDefinitionImpl", field := "SizeY", need := [], deny := [],
    writes := [("SceneDataMappingDefinitionObj.fSizeY", .arg "value" .same)],
    flag := none, reads := [("value", "SceneDataMappingDefinitionObj.fSizeY")], unset := none, over := [] },
  -- CMappingDefinitionImpl.cpp:152-161, 67-114; SceneDataExchange.cpp:777-789
  { cls := "CMappingDefinitionImpl", field := "Source", need := [], deny := [],
    writes := [("SceneDataMappingDefinitionObj.fSource.fValue", .arg "value" .same), ("SceneDataMappingDefinitionObj.fSource.fLinkedGeometry", .arg "linkedGeometry" .same), ("SceneDataMappingDefinitionObj.fSource.fType", .arg "type" .same)],
    flag := none, reads := [("value", "SceneDataMappingDefinitionObj.fSource.fValue"), ("linkedGeometry", "SceneDataMappingDefinitionObj.fSource.fLinkedGeometry"), ("type", "SceneDataMappingDefinitionObj.fSource.fType")], unset := none, over := [] } ]

/-- The fields of `CMappingImpl`. -/
def fieldsMapping : List Field := [
  -- CMappingImpl.cpp:94-104, 22-32; SceneDataExchange.cpp:925-928, 895-898
  { cls := "CMappingImpl", field := "LinkedDefUuid", need := [], deny := [],
    writes := [("SceneDataMappingObj.fLinkedDefUuid", .arg "value" .same)],
    flag := none, reads := [("value", "SceneDataMappingObj.fLinkedDefUuid")], unset := none, over := [] },
  -- CMappingImpl.cpp:130-140, 58-68; SceneDataExchange.cpp:940-943, 910-913
  { cls := "CMappingImpl", field := "Ox", need := [], deny := [],
    writes := [("SceneDataMappingObj.fOx", .arg "value" .same)],
    flag := none, reads := [("value", "SceneDataMappingObj.fOx")], unset := none, over := [] },
  -- CMappingImpl.cpp:142-152, 70-80; SceneDataExchange.cpp:945-948, 915-918
  { cls := "CMappingImpl", field := "Oy", need := [], deny := [],
    writes := [("SceneDataMappingObj.fOy", .arg "value" .same)],
    flag := none, reads := [("value", "SceneDataMappingObj.fOy")], unset := none, over := [] },
  -- CMappingImpl.cpp:154-164, 82-92; SceneDataExchange.cpp:950-953, 920-923
  { cls := "CMappingImpl", field := "Rz", need := [], deny := [],
    writes := [("SceneDataMappingObj.fRz", .arg "value" .same)],
    flag := none, reads := [("value", "SceneDataMappingObj.fRz")], unset := none, over := [] },
  -- CMappingImpl.cpp:106-116, 34-44; SceneDataExchange.cpp:930-933, 900-903
  { cls := "CMappingImpl", field := "Ux", need := [], deny := [],
    writes := [("SceneDataMappingObj.fUx", .arg "value" .same)],
    flag := none, reads := [("value", "SceneDataMappingObj.fUx")], unset := none, over := [] },
  -- CMappingImpl.cpp:118-128, 46-56; SceneDataExchange.cpp:935-938, 905-908
  { cls := "CMappingImpl", field := "Uy", need := [], deny := [],
    writes := [("SceneDataMappingObj.fUy", .arg "value" .same)],
    flag := none, reads := [("value", "SceneDataMappingObj.fUy")], unset := none, over := [] } ]

/-- The fields of `COverwriteImpl`. -/
def fieldsOverwrite : List Field := [
  -- COverwriteImpl.cpp:50-60, 28-36; SceneDataExchange.cpp:1354-1357, 1344-1347
  { cls := "COverwriteImpl", field := "Target", need := [], deny := [],
    writes := [("SceneDataOverwrite.fTarget", .arg "value" .same)],
    flag := none, reads := [("value", "SceneDataOverwrite.fTarget")], unset := none, over := [] },
  -- COverwriteImpl.cpp:38-48, 18-26; SceneDataExchange.cpp:1349-1352, 1339-1342
  { cls := "COverwriteImpl", field := "Universal", need := [], deny := [],
    writes := [("SceneDataOverwrite.fUniversal", .arg "value" .same)],
    flag := none, reads := [("value", "SceneDataOverwrite.fUniversal")], unset := none, over := [] } ]

/-- The fields of `CSceneObjImpl`. -/
def fieldsSceneObj : List Field := [
  -- CSceneObjImpl.cpp:1796-1814, 1285-1302; SceneDataExchange.cpp:2108-2111, 2003-2006
  { cls := "CSceneObjImpl", field := "CastShadow", need := ["Fixture"], deny := [],
    writes := [("SceneDataFixtureObj.fCastShadow", .arg "value" .same)],
    flag := none, reads := [("value", "SceneDataFixtureObj.fCastShadow")], unset := none, over := [] },
  -- CSceneObjImpl.cpp:362-400, 301-360; SceneDataExchange.cpp:1426-1429, 1421-1424
  { cls := "CSceneObjImpl", field := "Class", need := [], deny := ["Group", "Layer"],
    writes := [("SceneDataObjWithMatrix.fClass", .arg "value" .same)],
    flag := none, reads := [("value", "SceneDataObjWithMatrix.fClass")], unset := none, over := [] },
  -- CSceneObjImpl.cpp:1695-1713, 1169-1191; SceneDataExchange.cpp:2068-2071, 1958-1961
  { cls := "CSceneObjImpl", field := "Color", need := ["Fixture"], deny := [],
    writes := [("SceneDataFixtureObj.fColor", .arg "value" .same)],
    flag := none, reads := [("value", "SceneDataFixtureObj.fColor")], unset := none, over := [] },
  -- CSceneObjImpl.cpp:1735-1753, 1212-1229; SceneDataExchange.cpp:2098-2101, 1968-1971
  { cls := "CSceneObjImpl", field := "CustomId", need := ["Fixture"], deny := [],
    writes := [("SceneDataFixtureObj.fCustomId", .arg "value" .same)],
    flag := none, reads := [("value", "SceneDataFixtureObj.fCustomId")], unset := none, over := [] },
  -- CSceneObjImpl.cpp:1816-1834, 1304-1321; SceneDataExchange.cpp:2113-2116, 2028-2031
  { cls := "CSceneObjImpl", field := "DMXInvertPan", need := ["Fixture"], deny := [],
    writes := [("SceneDataFixtureObj.fDMXInvertPan", .arg "value" .same)],
    flag := none, reads := [("value", "SceneDataFixtureObj.fDMXInvertPan")], unset := none, over := [] },
  -- CSceneObjImpl.cpp:1836-1854, 1323-1340; SceneDataExchange.cpp:2118-2121, 2033-2036
  { cls := "CSceneObjImpl", field := "DMXInvertTilt", need := ["Fixture"], deny := [],
    writes := [("SceneDataFixtureObj.fDMXInvertTilt", .arg "value" .same)],
    flag := none, reads := [("value", "SceneDataFixtureObj.fDMXInvertTilt")], unset := none, over := [] },
  -- CSceneObjImpl.cpp:1653-1672, 1123-1138; SceneDataExchange.cpp:2073-2076, 1933-1936
  { cls := "CSceneObjImpl", field := "FixtureId", need := ["Fixture"], deny := [],
    writes := [("SceneDataFixtureObj.fFixtureId", .arg "value" .same)],
    flag := none, reads := [("value", "SceneDataFixtureObj.fFixtureId")], unset := none, over := [] },
  -- CSceneObjImpl.cpp:1674-1692, 1140-1167; SceneDataExchange.cpp:2078-2081, 1938-1941
  { cls := "CSceneObjImpl", field := "FixtureIdNumeric", need := ["Fixture"], deny := [],
    writes := [("SceneDataFixtureObj.fFixtureIdNumeric", .arg "value" .same)],
    flag := none, reads := [("value", "SceneDataFixtureObj.fFixtureIdNumeric")], unset := some (.int 18446744073709551615), over := [] },
  -- CSceneObjImpl.cpp:1715-1733, 1193-1210; SceneDataExchange.cpp:2103-2106, 1963-1966
  { cls := "CSceneObjImpl", field := "FixtureTypeId", need := ["Fixture"], deny := [],
    writes := [("SceneDataFixtureObj.fFixtureTypeId", .arg "value" .same)],
    flag := none, reads := [("value", "SceneDataFixtureObj.fFixtureTypeId")], unset := none, over := [] },
  -- CSceneObjImpl.cpp:1528-1569, 882-945; SceneDataExchange.cpp:2049-2053, 1923-1926
  { cls := "CSceneObjImpl", field := "FocusPoint", need := ["Fixture"], deny := [],
    writes := [("SceneDataFixtureObj.fFocusPoint", .arg "value" .same)],
    flag := none, reads := [("value", "SceneDataFixtureObj.fFocusPoint")], unset := none, over := [] },
  -- CSceneObjImpl.cpp:529-544, 515-527; SceneDataExchange.cpp:150-153, 145-148
  { cls := "CSceneObjImpl", field := "GdtfMode", need := [], deny := ["FocusPoint", "Group", "Layer"],
    writes := [("SceneDataGDTFSpecObj.fGdtfDmxMode", .arg "value" .same)],
    flag := none, reads := [("value", "SceneDataGDTFSpecObj.fGdtfDmxMode")], unset := none, over := [] },
  -- CSceneObjImpl.cpp:498-513, 402-415; SceneDataExchange.cpp:140-143, 135-138
  { cls := "CSceneObjImpl", field := "GdtfName", need := [], deny := ["FocusPoint", "Group", "Layer"],
    writes := [("SceneDataGDTFSpecObj.fGdtfFile", .arg "value" .same)],
    flag := none, reads := [("value", "SceneDataGDTFSpecObj.fGdtfFile")], unset := none, over := [] },
  -- CSceneObjImpl.cpp:1755-1774, 1231-1246; SceneDataExchange.cpp:2088-2091, 1973-1976
  { cls := "CSceneObjImpl", field := "Gobo", need := ["Fixture"], deny := [],
    writes := [("SceneDataFixtureObj.fGobo", .arg "value" .same)],
    flag := none, reads := [("value", "SceneDataFixtureObj.fGobo")], unset := none, over := [] },
  -- CSceneObjImpl.cpp:1776-1794, 1266-1283; SceneDataExchange.cpp:2093-2096, 1998-2001
  { cls := "CSceneObjImpl", field := "GoboRotation", need := ["Fixture"], deny := [],
    writes := [("SceneDataFixtureObj.fGoboRotation", .arg "value" .same)],
    flag := none, reads := [("value", "SceneDataFixtureObj.fGoboRotation")], unset := none, over := [] },
  -- CSceneObjImpl.cpp:61-93, 95-151; SceneDataExchange.cpp:239-242, 244-247
  { cls := "CSceneObjImpl", field := "MultipatchParent", need := [], deny := ["Group", "Layer"],
    writes := [("SceneDataObj.fMultipatchObj", .arg "value" .same)],
    flag := none, reads := [("value", "SceneDataObj.fMultipatchObj")], unset := none, over := [] },
  -- CSceneObjImpl.cpp:1571-1609, 947-1001; SceneDataExchange.cpp:2043-2047, 1928-1931
  { cls := "CSceneObjImpl", field := "Position", need := ["Fixture"], deny := [],
    writes := [("SceneDataFixtureObj.fPosition", .arg "value" .same)],
    flag := none, reads := [("value", "SceneDataFixtureObj.fPosition")], unset := none, over := [] },
  -- CSceneObjImpl.cpp:1989-2006, 2008-2066; SceneDataExchange.cpp:2713-2725
  { cls := "CSceneObjImpl", field := "ProjectorSource", need := ["Projector"], deny := [],
    writes := [("SceneDataProjectorObj.fSource.fValue", .arg "value" .same), ("SceneDataProjectorObj.fSource.fLinkedGeometry", .arg "linkedGeometry" .same), ("SceneDataProjectorObj.fSource.fType", .arg "type" .same)],
    flag := none, reads := [("value", "SceneDataProjectorObj.fSource.fValue"), ("linkedGeometry", "SceneDataProjectorObj.fSource.fLinkedGeometry"), ("type", "SceneDataProjectorObj.fSource.fType")], unset := none, over := [] },
  -- CSceneObjImpl.cpp:2068-2085, 2087-2108; SceneDataExchange.cpp:2727-2730, 2708-2711
  { cls := "CSceneObjImpl", field := "ScaleHandling", need := ["Projector"], deny := [],
    writes := [("SceneDataProjectorObj.fScaleHandling", .arg "value" .same)],
    flag := none, reads := [("value", "SceneDataProjectorObj.fScaleHandling")], unset := none, over := [] },
  -- CSceneObjImpl.cpp:1633-1651, 1104-1121; SceneDataExchange.cpp:2083-2086, 1953-1956
  { cls := "CSceneObjImpl", field := "UnitNumber", need := ["Fixture"], deny := [],
    writes := [("SceneDataFixtureObj.fUnitNumber", .arg "value" .same)],
    flag := none, reads := [("value", "SceneDataFixtureObj.fUnitNumber")], unset := none, over := [] },
  -- CSceneObjImpl.cpp:1908-1925, 1927-1985; SceneDataExchange.cpp:2631-2644
  { cls := "CSceneObjImpl", field := "VideoScreenSource", need := ["VideoScreen"], deny := [],
    writes := [("SceneDataVideoScreenObj.fSource.fValue", .arg "value" .same), ("SceneDataVideoScreenObj.fSource.fLinkedGeometry", .arg "linkedGeometry" .same), ("SceneDataVideoScreenObj.fSource.fType", .arg "type" .same)],
    flag := none, reads := [("value", "SceneDataVideoScreenObj.fSource.fValue"), ("linkedGeometry", "SceneDataVideoScreenObj.fSource.fLinkedGeometry"), ("type", "SceneDataVideoScreenObj.fSource.fType")], unset := none, over := [] } ]

/-- The fields of `CSourceImpl`. -/
def fieldsSource : List Field := [
  -- CSourceImpl.cpp:62-71, 30-37; SceneDataExchange.cpp:674-677, 659-662
  { cls := "CSourceImpl", field := "LinkedGeometry", need := [], deny := [],
    writes := [("SceneDataSourceObj.fLinkedGeometry", .arg "value" .same)],
    flag := none, reads := [("value", "SceneDataSourceObj.fLinkedGeometry")], unset := none, over := [] },
  -- CSourceImpl.cpp:73-83, 39-49; SceneDataExchange.cpp:679-682, 664-667
  { cls := "CSourceImpl", field := "Type", need := [], deny := [],
    writes := [("SceneDataSourceObj.fType", .arg "value" .same)],
    flag := none, reads := [("value", "SceneDataSourceObj.fType")], unset := none, over := [] },
  -- CSourceImpl.cpp:51-60, 21-28; SceneDataExchange.cpp:669-672, 654-657
  { cls := "CSourceImpl", field := "Value", need := [], deny := [],
    writes := [("SceneDataSourceObj.fValue", .arg "value" .same)],
    flag := none, reads := [("value", "SceneDataSourceObj.fValue")], unset := none, over := [] } ]

/-- All fields, by class. -/
def fieldsByClass : List (List Field) := [
  fieldsAlignment,
  fieldsConnection,
  fieldsCustomCommand,
  fieldsGdtfAttribute,
  fieldsGdtfBreak,
  fieldsGdtfCRI,
  fieldsGdtfCRIGroup,
  fieldsGdtfColorSpace,
  fieldsGdtfConnector,
  fieldsGdtfDMXPersonality,
  fieldsGdtfDmxChannel,
  fieldsGdtfDmxChannelFunction,
  fieldsGdtfDmxChannelSet,
  fieldsGdtfDmxLogicalChannel,
  fieldsGdtfDmxMode,
  fieldsGdtfDMXProfile,
  fieldsGdtfDmxSubChannelSet,
  fieldsGdtfFTRDM,
  fieldsGdtfFeature,
  fieldsGdtfFeatureGroup,
  fieldsGdtfFilter,
  fieldsGdtfFixture,
  fieldsGdtfGamut,
  fieldsGdtfGeometry,
  fieldsGdtfLaserProtocol,
  fieldsGdtfMacro,
  fieldsGdtfMacroVisualStep,
  fieldsGdtfMacroVisualValue,
  fieldsGdtfMap,
  fieldsGdtfMeasurement,
  fieldsGdtfMeasurementPoint,
  fieldsGdtfModel,
  fieldsGdtfPhysicalEmitter,
  fieldsGdtfPinPatch,
  fieldsGdtfPoint,
  fieldsGdtfRevision,
  fieldsGdtfSoftwareVersionID,
  fieldsGdtfSubPhysicalUnit,
  fieldsGdtfWheelSlot,
  fieldsGdtfWheelSlotAnimationSystem,
  fieldsGdtfWheelSlotPrismFacet,
  fieldsMappingDefinition,
  fieldsMapping,
  fieldsOverwrite,
  fieldsSceneObj,
  fieldsSource ]

/-- All fields. -/
def fields : List Field := fieldsByClass.flatten

/-- `GdtfModel`: the buffers of a model file, GDTFManager.h:691-696, and whether one is allocated. -/
structure Buffers where
  b3ds : Option (List (BitVec 8))
  svg : Option (List (BitVec 8))
  gltf : Option (List (BitVec 8))
  deriving DecidableEq, Repr

/-- GDTFManager.cpp:1516-1527 `GdtfModel::SetBuffer3DS`. -/
def Buffers.set3DS (b : Buffers) (data : List (BitVec 8)) : Buffers := { b with b3ds := some data }
/-- GDTFManager.cpp:1529-1540 `GdtfModel::SetBufferSVG`. -/
def Buffers.setSVG (b : Buffers) (data : List (BitVec 8)) : Buffers := { b with svg := some data }
/-- GDTFManager.cpp:1542-1553 `GdtfModel::SetBufferGLTF`. -/
def Buffers.setGLTF (b : Buffers) (data : List (BitVec 8)) : Buffers := { b with gltf := some data }

/-- GDTFManager.cpp:1990-2004 `GdtfModel::GetBuffer3DS` behind CGdtfModel.cpp:148-159: returns at once if
there is a buffer, otherwise allocates as many bytes as there are, which is none.  `none` = "not set". -/
def Buffers.get3DS (b : Buffers) : Option (List (BitVec 8)) :=
  match b.b3ds with
  | some _ => none
  | none => some []

/-- GDTFManager.cpp:2006-2020 `GdtfModel::GetBufferSVG` behind CGdtfModel.cpp:161-172. -/
def Buffers.getSVG (b : Buffers) : Option (List (BitVec 8)) :=
  match b.svg with
  | some _ => none
  | none => some []

/-- GDTFManager.cpp:2022-2036 `GdtfModel::GetBufferGLTF` behind CGdtfModel.cpp:174-185. -/
def Buffers.getGLTF (b : Buffers) : Option (List (BitVec 8)) :=
  match b.gltf with
  | none => none
  | some d => some d

/-- The functions that take the name of a new object, and whether the name is cleaned before it is
handed on: src/Implementation, lines as listed. -/
def creators : List (String × String × Bool) := [
  ("CGdtfDmxChannelFunctionImpl", "CreateDmxChannelSet", true),      -- CGdtfDmxChannelFunction.cpp:741
  ("CGdtfDmxChannelFunctionImpl", "CreateDmxSubChannelSet", true),   -- CGdtfDmxChannelFunction.cpp:843
  ("CGdtfFeatureGroupImpl", "CreateFeature", true),                  -- CGdtfFeatureGroup.cpp:105
  ("CGdtfFixtureImpl", "CreateActivationGroup", true),               -- CGdtfFixture.cpp:482
  ("CGdtfFixtureImpl", "CreateWheel", true),                         -- CGdtfFixture.cpp:794
  ("CGdtfFixtureImpl", "CreateDmxMode", true),                       -- CGdtfFixture.cpp:1146
  ("CGdtfGeometryImpl", "CreateGeometry", true),                     -- CGdtfGeometry.cpp:205
  ("CGdtfGeometryImpl", "CreateLaserProtocol", true),                -- CGdtfGeometry.cpp:1553
  ("CGdtfWheelImpl", "CreateWheelSlot", true),                       -- CGdtfWheel.cpp:88
  ("CGdtfDmxLogicalChannelImpl", "CreateDmxFunction", false),        -- CGdtfDmxLogicalChannel.cpp:229
  ("CGdtfDmxModeImpl", "CreateDmxRelation", false),                  -- CGdtfDmxMode.cpp:282
  ("CGdtfDmxModeImpl", "CreateDmxMacro", false),                     -- CGdtfDmxMode.cpp:410
  ("CGdtfFixtureImpl", "CreateFeatureGroup", false),                 -- CGdtfFixture.cpp:586
  ("CGdtfFixtureImpl", "CreateAttribute", false),                    -- CGdtfFixture.cpp:690
  ("CGdtfFixtureImpl", "CreateModel", false),                        -- CGdtfFixture.cpp:897
  ("CGdtfFixtureImpl", "CreateGeometry", false),                     -- CGdtfFixture.cpp:1000
  ("CGdtfFixtureImpl", "CreateAdditionalColorSpace", false),         -- CGdtfFixture.cpp:1763
  ("CGdtfFixtureImpl", "CreateGamut", false),                        -- CGdtfFixture.cpp:1865
  ("CGdtfFixtureImpl", "CreateEmitter", false),                      -- CGdtfFixture.cpp:1971
  ("CGdtfFixtureImpl", "CreateFilter", false),                       -- CGdtfFixture.cpp:2076
  ("CGdtfFixtureImpl", "CreateConnector", false) ]                   -- CGdtfFixture.cpp:2588

/-- The name the new object gets. -/
def createdName (cleaned : Bool) (name : List (BitVec 16)) : List (BitVec 16) :=
  if cleaned then (Name.cleanName (name.length + 1) name).getD name else name

end Verif.Api
