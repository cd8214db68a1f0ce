import Verif.Text.Model

/-!
# Enumeration texts (`/repo/src/XmlFileHelper.cpp`, constants in `/repo/src/Prefix/CommonPrefix.h`, enumerations in
`/repo/src/Include/GDTFPrefix.h`)

One block per enumeration, transcribed from the source: the type with all its enumerators, the writing `switch`, and the
reading `if ... else if` chain as a list of (text, value) in source order.
-/

namespace Verif.Enum
open Verif.Str Verif.Text

/-- A reader: the `if (value == text) out = v; else if ...` chain, the value assigned for the empty text (`none`: there is
no such branch), the value assigned for an unknown text (`none`: the output is left alone), and whether an unknown text
adds a parsing error. -/
structure Reader (E : Type) where
  table : List (String × E)
  empty : Option E
  unknown : Option E
  reports : Bool

/-- The `if`/`else if` chain; comparison is case-insensitive (`TXString::operator==`). -/
def Reader.run {E : Type} (r : Reader E) (s : List Char) (old : E) : Conv E :=
  match r.table.find? (fun p => eqNoCase s p.1.toList) with
  | some p => ⟨true, false, p.2⟩
  | none =>
    match (if s = [] then r.empty else none) with
    | some e => ⟨true, false, e⟩
    | none => ⟨true, r.reports, r.unknown.getD old⟩

/-! ## EGdtfModel_PrimitiveType -/

/-- Include/GDTFPrefix.h:240-255 `EGdtfModel_PrimitiveType`. -/
inductive PrimitiveType where
  | cUndefined
  | cCube
  | cCylinder
  | cSphere
  | cBase
  | cYoke
  | cHead
  | cScanner
  | cConventional
  | cPigtail
  | cBase1_1
  | cScanner1_1
  | cConventional1_1
  deriving DecidableEq, Repr

/-- XmlFileHelper.cpp:791-827 `ConvertPrimitiveType(EGdtfModel_PrimitiveType)`. -/
def writePrimitiveType : PrimitiveType → List Char
  | .cUndefined => "Undefined".toList
  | .cCube => "Cube".toList
  | .cCylinder => "Cylinder".toList
  | .cSphere => "Sphere".toList
  | .cBase => "Base".toList
  | .cYoke => "Yoke".toList
  | .cHead => "Head".toList
  | .cScanner => "Scanner".toList
  | .cConventional => "Conventional".toList
  | .cPigtail => "Pigtail".toList
  | .cBase1_1 => "Base1_1".toList
  | .cScanner1_1 => "Scanner1_1".toList
  | .cConventional1_1 => "Conventional1_1".toList

/-- XmlFileHelper.cpp:830-855 `ConvertPrimitiveType(text, node, EGdtfModel_PrimitiveType&)`. -/
def readPrimitiveType : Reader PrimitiveType where
  table := [
    ("Cube", .cCube),
    ("Sphere", .cSphere),
    ("Cylinder", .cCylinder),
    ("Base", .cBase),
    ("Head", .cHead),
    ("Yoke", .cYoke),
    ("Scanner", .cScanner),
    ("Conventional", .cConventional),
    ("Undefined", .cUndefined),
    ("Pigtail", .cPigtail),
    ("Base1_1", .cBase1_1),
    ("Scanner1_1", .cScanner1_1),
    ("Conventional1_1", .cConventional1_1)]
  empty := some .cUndefined
  unknown := some .cUndefined
  reports := true

/-! ## EGdtfSpecial -/

/-- Include/GDTFPrefix.h:221-238 `EGdtfSpecial`. -/
inductive Special where
  | cNone
  | cDimmer
  | cPan
  | cTilt
  | cX
  | cY
  | cZ
  | cRGB
  | cHue
  | cSaturation
  | cBrightness
  | cColorWheel
  | cFocus
  | cZoom
  | cDummy
  deriving DecidableEq, Repr

/-- XmlFileHelper.cpp:857-883 `ConvertSpecialAttrEnum(EGdtfSpecial)`. -/
def writeSpecial : Special → List Char
  | .cNone => "None".toList
  | .cDimmer => "Dimmer".toList
  | .cPan => "Pan".toList
  | .cTilt => "Tilt".toList
  | .cX => "X".toList
  | .cY => "Y".toList
  | .cZ => "Z".toList
  | .cRGB => "RGB".toList
  | .cHue => "Hue".toList
  | .cSaturation => "Saturation".toList
  | .cBrightness => "Brightness".toList
  | .cColorWheel => "ColorWheel".toList
  | .cFocus => "Focus".toList
  | .cZoom => "Zoom".toList
  | .cDummy => "Dummy".toList

/-- XmlFileHelper.cpp:885-912 `ConvertSpecialAttrEnum(text, node, EGdtfSpecial&)`. -/
def readSpecial : Reader Special where
  table := [
    ("None", .cNone),
    ("Dimmer", .cDimmer),
    ("Pan", .cPan),
    ("Tilt", .cTilt),
    ("X", .cX),
    ("Y", .cY),
    ("Z", .cZ),
    ("RGB", .cRGB),
    ("Hue", .cHue),
    ("Saturation", .cSaturation),
    ("Brightness", .cBrightness),
    ("ColorWheel", .cColorWheel),
    ("Focus", .cFocus),
    ("Zoom", .cZoom),
    ("Dummy", .cDummy)]
  empty := some .cNone
  unknown := some .cNone
  reports := true

/-! ## EGdtfPhysicalUnit -/

/-- Include/GDTFPrefix.h:195-219 `EGdtfPhysicalUnit`. -/
inductive PhysicalUnit where
  | cNone
  | cPercent
  | cLength
  | cMass
  | cTime
  | cTemperatur
  | cLuminousItensity
  | cAngle
  | cForce
  | cFrequeny
  | cCurrent
  | cVoltage
  | cPower
  | cEnergy
  | cArea
  | cVolume
  | cSpeed
  | cAcceleration
  | cAngularSpeed
  | cAngularAccc
  | cWaveLength
  | cColorComponent
  deriving DecidableEq, Repr

/-- XmlFileHelper.cpp:914-946 `ConvertPhysicalUnitEnum(EGdtfPhysicalUnit)`. -/
def writePhysicalUnit : PhysicalUnit → List Char
  | .cNone => "None".toList
  | .cPercent => "Percent".toList
  | .cLength => "Length".toList
  | .cMass => "Mass".toList
  | .cTime => "Time".toList
  | .cTemperatur => "Temperature".toList
  | .cLuminousItensity => "LuminousIntensity".toList
  | .cAngle => "Angle".toList
  | .cForce => "Force".toList
  | .cFrequeny => "Frequency".toList
  | .cCurrent => "Current".toList
  | .cVoltage => "Voltage".toList
  | .cPower => "Power".toList
  | .cEnergy => "Energy".toList
  | .cArea => "Area".toList
  | .cVolume => "Volume".toList
  | .cSpeed => "Speed".toList
  | .cAcceleration => "Acceleration".toList
  | .cAngularSpeed => "AngularSpeed".toList
  | .cAngularAccc => "AngularAccc".toList
  | .cWaveLength => "WaveLength".toList
  | .cColorComponent => "ColorComponent".toList

/-- XmlFileHelper.cpp:948-982 `ConvertPhysicalUnitEnum(text, node, EGdtfPhysicalUnit&)`. -/
def readPhysicalUnit : Reader PhysicalUnit where
  table := [
    ("None", .cNone),
    ("Percent", .cPercent),
    ("Length", .cLength),
    ("Mass", .cMass),
    ("Time", .cTime),
    ("Temperature", .cTemperatur),
    ("LuminousIntensity", .cLuminousItensity),
    ("Angle", .cAngle),
    ("Force", .cForce),
    ("Frequency", .cFrequeny),
    ("Current", .cCurrent),
    ("Voltage", .cVoltage),
    ("Power", .cPower),
    ("Energy", .cEnergy),
    ("Area", .cArea),
    ("Volume", .cVolume),
    ("Speed", .cSpeed),
    ("Acceleration", .cAcceleration),
    ("AngularSpeed", .cAngularSpeed),
    ("AngularAccc", .cAngularAccc),
    ("WaveLength", .cWaveLength),
    ("ColorComponent", .cColorComponent)]
  empty := some .cNone
  unknown := some .cNone
  reports := true

/-! ## EGdtfBeamType -/

/-- Include/GDTFPrefix.h:265-274 `EGdtfBeamType`. -/
inductive BeamType where
  | cWash
  | cSpot
  | cNone
  | cRectangle
  | cPC
  | cFresnel
  | cGlow
  deriving DecidableEq, Repr

/-- XmlFileHelper.cpp:1004-1021 `ConvertBeamType(EGdtfBeamType)`. -/
def writeBeamType : BeamType → List Char
  | .cWash => "Wash".toList
  | .cSpot => "Spot".toList
  | .cNone => "None".toList
  | .cRectangle => "Rectangle".toList
  | .cPC => "PC".toList
  | .cFresnel => "Fresnel".toList
  | .cGlow => "Glow".toList

/-- XmlFileHelper.cpp:983-1002 `ConvertBeamType(text, node, EGdtfBeamType&)`. -/
def readBeamType : Reader BeamType where
  table := [
    ("Wash", .cWash),
    ("Spot", .cSpot),
    ("None", .cNone),
    ("Rectangle", .cRectangle),
    ("PC", .cPC),
    ("Fresnel", .cFresnel),
    ("Glow", .cGlow)]
  empty := some .cWash
  unknown := some .cWash
  reports := true

/-! ## EGdtfLampType -/

/-- Include/GDTFPrefix.h:257-263 `EGdtfLampType`. -/
inductive LampType where
  | cDischange
  | cTungsten
  | cHalogen
  | cLED
  deriving DecidableEq, Repr

/-- XmlFileHelper.cpp:1301-1319 `ConvertLampeType(EGdtfLampType)`. -/
def writeLampType : LampType → List Char
  | .cDischange => "Discharge".toList
  | .cTungsten => "Tungsten".toList
  | .cHalogen => "Halogen".toList
  | .cLED => "LED".toList

/-- XmlFileHelper.cpp:1321-1337 `ConvertLampeType(text, node, EGdtfLampType&)`. -/
def readLampType : Reader LampType where
  table := [
    ("Discharge", .cDischange),
    ("Halogen", .cHalogen),
    ("Tungsten", .cTungsten),
    ("LED", .cLED)]
  empty := some .cDischange
  unknown := some .cDischange
  reports := true

/-! ## EGdtfDmxSnap -/

/-- Include/GDTFPrefix.h:284-290 `EGdtfDmxSnap`. -/
inductive DmxSnap where
  | cYes
  | cNo
  | cOn
  | cOff
  deriving DecidableEq, Repr

/-- XmlFileHelper.cpp:1339-1353 `ConvertSnapEnum(EGdtfDmxSnap)`. -/
def writeDmxSnap : DmxSnap → List Char
  | .cYes => "Yes".toList
  | .cNo => "No".toList
  | .cOn => "On".toList
  | .cOff => "Off".toList

/-- XmlFileHelper.cpp:1355-1372 `ConvertSnapEnum(text, node, EGdtfDmxSnap&)`. -/
def readDmxSnap : Reader DmxSnap where
  table := [
    ("No", .cNo),
    ("On", .cOn),
    ("Off", .cOff),
    ("Yes", .cYes)]
  empty := some .cNo
  unknown := some .cNo
  reports := true

/-! ## EGdtfDmxMaster -/

/-- Include/GDTFPrefix.h:276-282 `EGdtfDmxMaster`. -/
inductive DmxMaster where
  | cNone
  | cGrand
  | cGroup
  deriving DecidableEq, Repr

/-- XmlFileHelper.cpp:1374-1386 `ConvertMasterEnum(EGdtfDmxMaster)`. -/
def writeDmxMaster : DmxMaster → List Char
  | .cNone => "None".toList
  | .cGrand => "Grand".toList
  | .cGroup => "Group".toList

/-- XmlFileHelper.cpp:1388-1404 `ConvertMasterEnum(text, node, EGdtfDmxMaster&)`. -/
def readDmxMaster : Reader DmxMaster where
  table := [
    ("None", .cNone),
    ("Grand", .cGrand),
    ("Group", .cGroup)]
  empty := some .cNone
  unknown := some .cNone
  reports := true

/-! ## EGdtfDmxRelationType -/

/-- Include/GDTFPrefix.h:299-303 `EGdtfDmxRelationType`. -/
inductive DmxRelationType where
  | cMultiply
  | cOverride
  deriving DecidableEq, Repr

/-- XmlFileHelper.cpp:1406-1417 `ConvertRelationEnum(EGdtfDmxRelationType)`. -/
def writeDmxRelationType : DmxRelationType → List Char
  | .cMultiply => "Multiply".toList
  | .cOverride => "Override".toList

/-- XmlFileHelper.cpp:1419-1435 `ConvertRelationEnum(text, node, EGdtfDmxRelationType&)`. -/
def readDmxRelationType : Reader DmxRelationType where
  table := [
    ("Multiply", .cMultiply),
    ("Override", .cOverride)]
  empty := some .cOverride
  unknown := some .cOverride
  reports := true

/-! ## EGdtfColorSample -/

/-- Include/GDTFPrefix.h:527-628 `EGdtfColorSample`. -/
inductive ColorSample where
  | cCES_01
  | cCES_02
  | cCES_03
  | cCES_04
  | cCES_05
  | cCES_06
  | cCES_07
  | cCES_08
  | cCES_09
  | cCES_10
  | cCES_11
  | cCES_12
  | cCES_13
  | cCES_14
  | cCES_15
  | cCES_16
  | cCES_17
  | cCES_18
  | cCES_19
  | cCES_20
  | cCES_21
  | cCES_22
  | cCES_23
  | cCES_24
  | cCES_25
  | cCES_26
  | cCES_27
  | cCES_28
  | cCES_29
  | cCES_30
  | cCES_31
  | cCES_32
  | cCES_33
  | cCES_34
  | cCES_35
  | cCES_36
  | cCES_37
  | cCES_38
  | cCES_39
  | cCES_40
  | cCES_41
  | cCES_42
  | cCES_43
  | cCES_44
  | cCES_45
  | cCES_46
  | cCES_47
  | cCES_48
  | cCES_49
  | cCES_50
  | cCES_51
  | cCES_52
  | cCES_53
  | cCES_54
  | cCES_55
  | cCES_56
  | cCES_57
  | cCES_58
  | cCES_59
  | cCES_60
  | cCES_61
  | cCES_62
  | cCES_63
  | cCES_64
  | cCES_65
  | cCES_66
  | cCES_67
  | cCES_68
  | cCES_69
  | cCES_70
  | cCES_71
  | cCES_72
  | cCES_73
  | cCES_74
  | cCES_75
  | cCES_76
  | cCES_77
  | cCES_78
  | cCES_79
  | cCES_80
  | cCES_81
  | cCES_82
  | cCES_83
  | cCES_84
  | cCES_85
  | cCES_86
  | cCES_87
  | cCES_88
  | cCES_89
  | cCES_90
  | cCES_91
  | cCES_92
  | cCES_93
  | cCES_94
  | cCES_95
  | cCES_96
  | cCES_97
  | cCES_98
  | cCES_99
  deriving DecidableEq, Repr

/-- XmlFileHelper.cpp:1489-1597 `ConvertEGdtfColorSampleEnum(EGdtfColorSample)`. -/
def writeColorSample : ColorSample → List Char
  | .cCES_01 => "CES01".toList
  | .cCES_02 => "CES02".toList
  | .cCES_03 => "CES03".toList
  | .cCES_04 => "CES04".toList
  | .cCES_05 => "CES05".toList
  | .cCES_06 => "CES06".toList
  | .cCES_07 => "CES07".toList
  | .cCES_08 => "CES08".toList
  | .cCES_09 => "CES09".toList
  | .cCES_10 => "CES10".toList
  | .cCES_11 => "CES11".toList
  | .cCES_12 => "CES12".toList
  | .cCES_13 => "CES13".toList
  | .cCES_14 => "CES14".toList
  | .cCES_15 => "CES15".toList
  | .cCES_16 => "CES16".toList
  | .cCES_17 => "CES17".toList
  | .cCES_18 => "CES18".toList
  | .cCES_19 => "CES19".toList
  | .cCES_20 => "CES20".toList
  | .cCES_21 => "CES21".toList
  | .cCES_22 => "CES22".toList
  | .cCES_23 => "CES23".toList
  | .cCES_24 => "CES24".toList
  | .cCES_25 => "CES25".toList
  | .cCES_26 => "CES26".toList
  | .cCES_27 => "CES27".toList
  | .cCES_28 => "CES28".toList
  | .cCES_29 => "CES29".toList
  | .cCES_30 => "CES30".toList
  | .cCES_31 => "CES31".toList
  | .cCES_32 => "CES32".toList
  | .cCES_33 => "CES33".toList
  | .cCES_34 => "CES34".toList
  | .cCES_35 => "CES35".toList
  | .cCES_36 => "CES36".toList
  | .cCES_37 => "CES37".toList
  | .cCES_38 => "CES38".toList
  | .cCES_39 => "CES39".toList
  | .cCES_40 => "CES40".toList
  | .cCES_41 => "CES41".toList
  | .cCES_42 => "CES42".toList
  | .cCES_43 => "CES43".toList
  | .cCES_44 => "CES44".toList
  | .cCES_45 => "CES45".toList
  | .cCES_46 => "CES46".toList
  | .cCES_47 => "CES47".toList
  | .cCES_48 => "CES48".toList
  | .cCES_49 => "CES49".toList
  | .cCES_50 => "CES50".toList
  | .cCES_51 => "CES51".toList
  | .cCES_52 => "CES52".toList
  | .cCES_53 => "CES53".toList
  | .cCES_54 => "CES54".toList
  | .cCES_55 => "CES55".toList
  | .cCES_56 => "CES56".toList
  | .cCES_57 => "CES57".toList
  | .cCES_58 => "CES58".toList
  | .cCES_59 => "CES59".toList
  | .cCES_60 => "CES60".toList
  | .cCES_61 => "CES61".toList
  | .cCES_62 => "CES62".toList
  | .cCES_63 => "CES63".toList
  | .cCES_64 => "CES64".toList
  | .cCES_65 => "CES65".toList
  | .cCES_66 => "CES66".toList
  | .cCES_67 => "CES67".toList
  | .cCES_68 => "CES68".toList
  | .cCES_69 => "CES69".toList
  | .cCES_70 => "CES70".toList
  | .cCES_71 => "CES71".toList
  | .cCES_72 => "CES72".toList
  | .cCES_73 => "CES73".toList
  | .cCES_74 => "CES74".toList
  | .cCES_75 => "CES75".toList
  | .cCES_76 => "CES76".toList
  | .cCES_77 => "CES77".toList
  | .cCES_78 => "CES78".toList
  | .cCES_79 => "CES79".toList
  | .cCES_80 => "CES80".toList
  | .cCES_81 => "CES81".toList
  | .cCES_82 => "CES82".toList
  | .cCES_83 => "CES83".toList
  | .cCES_84 => "CES84".toList
  | .cCES_85 => "CES85".toList
  | .cCES_86 => "CES86".toList
  | .cCES_87 => "CES87".toList
  | .cCES_88 => "CES88".toList
  | .cCES_89 => "CES89".toList
  | .cCES_90 => "CES90".toList
  | .cCES_91 => "CES91".toList
  | .cCES_92 => "CES92".toList
  | .cCES_93 => "CES93".toList
  | .cCES_94 => "CES94".toList
  | .cCES_95 => "CES95".toList
  | .cCES_96 => "CES96".toList
  | .cCES_97 => "CES97".toList
  | .cCES_98 => "CES98".toList
  | .cCES_99 => "CES99".toList

/-- XmlFileHelper.cpp:1599-1708 `ConvertEGdtfColorSampleEnum(text, node, EGdtfColorSample&)`. -/
def readColorSample : Reader ColorSample where
  table := [
    ("CES01", .cCES_01),
    ("CES02", .cCES_02),
    ("CES03", .cCES_03),
    ("CES04", .cCES_04),
    ("CES05", .cCES_05),
    ("CES06", .cCES_06),
    ("CES07", .cCES_07),
    ("CES08", .cCES_08),
    ("CES09", .cCES_09),
    ("CES10", .cCES_10),
    ("CES11", .cCES_11),
    ("CES12", .cCES_12),
    ("CES13", .cCES_13),
    ("CES14", .cCES_14),
    ("CES15", .cCES_15),
    ("CES16", .cCES_16),
    ("CES17", .cCES_17),
    ("CES18", .cCES_18),
    ("CES19", .cCES_19),
    ("CES20", .cCES_20),
    ("CES21", .cCES_21),
    ("CES22", .cCES_22),
    ("CES23", .cCES_23),
    ("CES24", .cCES_24),
    ("CES25", .cCES_25),
    ("CES26", .cCES_26),
    ("CES27", .cCES_27),
    ("CES28", .cCES_28),
    ("CES29", .cCES_29),
    ("CES30", .cCES_30),
    ("CES31", .cCES_31),
    ("CES32", .cCES_32),
    ("CES33", .cCES_33),
    ("CES34", .cCES_34),
    ("CES35", .cCES_35),
    ("CES36", .cCES_36),
    ("CES37", .cCES_37),
    ("CES38", .cCES_38),
    ("CES39", .cCES_39),
    ("CES40", .cCES_40),
    ("CES41", .cCES_41),
    ("CES42", .cCES_42),
    ("CES43", .cCES_43),
    ("CES44", .cCES_44),
    ("CES45", .cCES_45),
    ("CES46", .cCES_46),
    ("CES47", .cCES_47),
    ("CES48", .cCES_48),
    ("CES49", .cCES_49),
    ("CES50", .cCES_50),
    ("CES51", .cCES_51),
    ("CES52", .cCES_52),
    ("CES53", .cCES_53),
    ("CES54", .cCES_54),
    ("CES55", .cCES_55),
    ("CES56", .cCES_56),
    ("CES57", .cCES_57),
    ("CES58", .cCES_58),
    ("CES59", .cCES_59),
    ("CES60", .cCES_60),
    ("CES61", .cCES_61),
    ("CES62", .cCES_62),
    ("CES63", .cCES_63),
    ("CES64", .cCES_64),
    ("CES65", .cCES_65),
    ("CES66", .cCES_66),
    ("CES67", .cCES_67),
    ("CES68", .cCES_68),
    ("CES69", .cCES_69),
    ("CES70", .cCES_70),
    ("CES71", .cCES_71),
    ("CES72", .cCES_72),
    ("CES73", .cCES_73),
    ("CES74", .cCES_74),
    ("CES75", .cCES_75),
    ("CES76", .cCES_76),
    ("CES77", .cCES_77),
    ("CES78", .cCES_78),
    ("CES79", .cCES_79),
    ("CES80", .cCES_80),
    ("CES81", .cCES_81),
    ("CES82", .cCES_82),
    ("CES83", .cCES_83),
    ("CES84", .cCES_84),
    ("CES85", .cCES_85),
    ("CES86", .cCES_86),
    ("CES87", .cCES_87),
    ("CES88", .cCES_88),
    ("CES89", .cCES_89),
    ("CES90", .cCES_90),
    ("CES91", .cCES_91),
    ("CES92", .cCES_92),
    ("CES93", .cCES_93),
    ("CES94", .cCES_94),
    ("CES95", .cCES_95),
    ("CES96", .cCES_96),
    ("CES97", .cCES_97),
    ("CES98", .cCES_98),
    ("CES99", .cCES_99)]
  empty := none
  unknown := none
  reports := true

/-! ## EGdtfColorSpace -/

/-- Include/GDTFPrefix.h:630-636 `EGdtfColorSpace`. -/
inductive ColorSpace where
  | csRGB
  | cCustom
  | cProPhoto
  | cANSI
  deriving DecidableEq, Repr

/-- XmlFileHelper.cpp:1710-1723 `ConvertEGdtfColorSpace(EGdtfColorSpace)`. -/
def writeColorSpace : ColorSpace → List Char
  | .csRGB => "sRGB".toList
  | .cCustom => "Custom".toList
  | .cProPhoto => "ProPhoto".toList
  | .cANSI => "ANSI".toList

/-- XmlFileHelper.cpp:1725-1739 `ConvertEGdtfColorSpace(text, node, EGdtfColorSpace&)`. -/
def readColorSpace : Reader ColorSpace where
  table := [
    ("sRGB", .csRGB),
    ("Custom", .cCustom),
    ("ProPhoto", .cProPhoto),
    ("ANSI", .cANSI)]
  empty := none
  unknown := none
  reports := true

/-! ## EGdtfInterpolationTo -/

/-- Include/GDTFPrefix.h:638-643 `EGdtfInterpolationTo`. -/
inductive InterpolationTo where
  | cLinear
  | cStep
  | cLog
  deriving DecidableEq, Repr

/-- XmlFileHelper.cpp:1741-1754 `ConvertEGdtfInterpolationTo(EGdtfInterpolationTo)`. -/
def writeInterpolationTo : InterpolationTo → List Char
  | .cLinear => "Linear".toList
  | .cStep => "Step".toList
  | .cLog => "Log".toList

/-- XmlFileHelper.cpp:1757-1773 `ConvertEGdtfInterpolationTo(text, node, EGdtfInterpolationTo&)`. -/
def readInterpolationTo : Reader InterpolationTo where
  table := [
    ("Linear", .cLinear),
    ("Step", .cStep),
    ("Log", .cLog)]
  empty := some .cLinear
  unknown := some .cLinear
  reports := true

/-! ## ESourceType -/

/-- Include/GDTFPrefix.h:645-651 `ESourceType`. -/
inductive SourceType where
  | cNDI
  | cFile
  | cCITP
  | cCaptureDevice
  deriving DecidableEq, Repr

/-- XmlFileHelper.cpp:1841-1854 `ConvertESourceType(ESourceType)`. -/
def writeSourceType : SourceType → List Char
  | .cNDI => "NDI".toList
  | .cFile => "File".toList
  | .cCITP => "CITP".toList
  | .cCaptureDevice => "CaptureDevice".toList

/-- XmlFileHelper.cpp:1857-1871 `ConvertESourceType(text, node, ESourceType&)`. -/
def readSourceType : Reader SourceType where
  table := [
    ("NDI", .cNDI),
    ("File", .cFile),
    ("CITP", .cCITP),
    ("CaptureDevice", .cCaptureDevice)]
  empty := some .cNDI
  unknown := some .cNDI
  reports := false

/-! ## EScaleHandlingType -/

/-- Include/GDTFPrefix.h:653-658 `EScaleHandlingType`. -/
inductive ScaleHandlingType where
  | cScaleKeepRatio
  | cScaleIgnoreRatio
  | cKeepSizeCenter
  deriving DecidableEq, Repr

/-- XmlFileHelper.cpp:1873-1885 `ConvertEScaleHandlingType(EScaleHandlingType)`. -/
def writeScaleHandlingType : ScaleHandlingType → List Char
  | .cScaleKeepRatio => "ScaleKeepRatio".toList
  | .cScaleIgnoreRatio => "ScaleIgnoreRatio".toList
  | .cKeepSizeCenter => "KeepSizeCenter".toList

/-- XmlFileHelper.cpp:1888-1901 `ConvertEScaleHandlingType(text, node, EScaleHandlingType&)`. -/
def readScaleHandlingType : Reader ScaleHandlingType where
  table := [
    ("ScaleKeepRatio", .cScaleKeepRatio),
    ("ScaleIgnoreRatio", .cScaleIgnoreRatio),
    ("KeepSizeCenter", .cKeepSizeCenter)]
  empty := some .cScaleKeepRatio
  unknown := some .cScaleKeepRatio
  reports := false

/-! ## EGdtfLaserColorType -/

/-- Include/GDTFPrefix.h:660-664 `EGdtfLaserColorType`. -/
inductive LaserColorType where
  | cRGB
  | cSingleWaveLength
  deriving DecidableEq, Repr

/-- XmlFileHelper.cpp:1904-1915 `ConvertLaserColorTypeEnum(EGdtfLaserColorType)`. -/
def writeLaserColorType : LaserColorType → List Char
  | .cRGB => "RGB".toList
  | .cSingleWaveLength => "SingleWaveLength".toList

/-- XmlFileHelper.cpp:1917-1929 `ConvertLaserColorTypeEnum(text, node, EGdtfLaserColorType&)`. -/
def readLaserColorType : Reader LaserColorType where
  table := [
    ("RGB", .cRGB),
    ("SingleWaveLength", .cSingleWaveLength)]
  empty := some .cRGB
  unknown := some .cRGB
  reports := false

/-! ## EGdtfComponentType -/

/-- Include/GDTFPrefix.h:666-677 `EGdtfComponentType`. -/
inductive ComponentType where
  | cInput
  | cOutput
  | cPowerSource
  | cConsumer
  | cFuse
  | cNetworkProvider
  | cNetworkInput
  | cNetworkOutput
  | cNetworkInOut
  deriving DecidableEq, Repr

/-- XmlFileHelper.cpp:1932-1950 `ConvertComponentTypeEnum(EGdtfComponentType)`. -/
def writeComponentType : ComponentType → List Char
  | .cInput => "Input".toList
  | .cOutput => "Output".toList
  | .cPowerSource => "PowerSource".toList
  | .cConsumer => "Consumer".toList
  | .cFuse => "Fuse".toList
  | .cNetworkProvider => "NetworkProvider".toList
  | .cNetworkInput => "NetworkInput".toList
  | .cNetworkOutput => "NetworkOutput".toList
  | .cNetworkInOut => "NetworkInOut".toList

/-- XmlFileHelper.cpp:1952-1971 `ConvertComponentTypeEnum(text, node, EGdtfComponentType&)`. -/
def readComponentType : Reader ComponentType where
  table := [
    ("Input", .cInput),
    ("Output", .cOutput),
    ("PowerSource", .cPowerSource),
    ("Consumer", .cConsumer),
    ("Fuse", .cFuse),
    ("NetworkProvider", .cNetworkProvider),
    ("NetworkInput", .cNetworkInput),
    ("NetworkOutput", .cNetworkOutput),
    ("NetworkInOut", .cNetworkInOut)]
  empty := some .cInput
  unknown := some .cInput
  reports := false

/-! ## EGdtfOrientation -/

/-- Include/GDTFPrefix.h:679-685 `EGdtfOrientation`. -/
inductive Orientation where
  | cLeft
  | cRight
  | cTop
  | cBottom
  deriving DecidableEq, Repr

/-- XmlFileHelper.cpp:1974-1987 `ConvertOrientationEnum(EGdtfOrientation)`. -/
def writeOrientation : Orientation → List Char
  | .cLeft => "Left".toList
  | .cRight => "Right".toList
  | .cTop => "Top".toList
  | .cBottom => "Bottom".toList

/-- XmlFileHelper.cpp:1989-2004 `ConvertOrientationEnum(text, node, EGdtfOrientation&)`. -/
def readOrientation : Reader Orientation where
  table := [
    ("Left", .cLeft),
    ("Right", .cRight),
    ("Top", .cTop),
    ("Bottom", .cBottom)]
  empty := some .cLeft
  unknown := some .cLeft
  reports := false

/-! ## EGdtfFuseRating -/

/-- Include/GDTFPrefix.h:687-694 `EGdtfFuseRating`. -/
inductive FuseRating where
  | cB
  | cC
  | cD
  | cK
  | cZ
  deriving DecidableEq, Repr

/-- XmlFileHelper.cpp:2007-2021 `ConvertFuseRatingEnum(EGdtfFuseRating)`. -/
def writeFuseRating : FuseRating → List Char
  | .cB => "B".toList
  | .cC => "C".toList
  | .cD => "D".toList
  | .cK => "K".toList
  | .cZ => "Z".toList

/-- XmlFileHelper.cpp:2023-2039 `ConvertFuseRatingEnum(text, node, EGdtfFuseRating&)`. -/
def readFuseRating : Reader FuseRating where
  table := [
    ("B", .cB),
    ("C", .cC),
    ("D", .cD),
    ("K", .cK),
    ("Z", .cZ)]
  empty := some .cB
  unknown := some .cB
  reports := false

/-! ## EGdtfStructureType -/

/-- Include/GDTFPrefix.h:696-700 `EGdtfStructureType`. -/
inductive StructureType where
  | cCenterLineBased
  | cDetail
  deriving DecidableEq, Repr

/-- XmlFileHelper.cpp:2041-2052 `ConvertStructureTypeEnum(EGdtfStructureType)`. -/
def writeStructureType : StructureType → List Char
  | .cCenterLineBased => "CenterLineBased".toList
  | .cDetail => "Detail".toList

/-- XmlFileHelper.cpp:2054-2067 `ConvertStructureTypeEnum(text, node, EGdtfStructureType&)`. -/
def readStructureType : Reader StructureType where
  table := [
    ("CenterLineBased", .cCenterLineBased),
    ("Detail", .cDetail)]
  empty := some .cCenterLineBased
  unknown := some .cCenterLineBased
  reports := false

/-! ## EGdtfCrossSectionType -/

/-- Include/GDTFPrefix.h:702-706 `EGdtfCrossSectionType`. -/
inductive CrossSectionType where
  | cTrussFramework
  | cTube
  deriving DecidableEq, Repr

/-- XmlFileHelper.cpp:2069-2080 `ConvertCrossSectionTypeEnum(EGdtfCrossSectionType)`. -/
def writeCrossSectionType : CrossSectionType → List Char
  | .cTrussFramework => "TrussFramework".toList
  | .cTube => "Tube".toList

/-- XmlFileHelper.cpp:2082-2095 `ConvertCrossSectionTypeEnum(text, node, EGdtfCrossSectionType&)`. -/
def readCrossSectionType : Reader CrossSectionType where
  table := [
    ("TrussFramework", .cTrussFramework),
    ("Tube", .cTube)]
  empty := some .cTrussFramework
  unknown := some .cTrussFramework
  reports := false

/-! ## EGdtfSupportType -/

/-- Include/GDTFPrefix.h:708-712 `EGdtfSupportType`. -/
inductive SupportType where
  | cRope
  | cGroundSupport
  deriving DecidableEq, Repr

/-- XmlFileHelper.cpp:2097-2108 `ConvertSupportTypeEnum(EGdtfSupportType)`. -/
def writeSupportType : SupportType → List Char
  | .cRope => "Rope".toList
  | .cGroundSupport => "GroundSupport".toList

/-- XmlFileHelper.cpp:2110-2123 `ConvertSupportTypeEnum(text, node, EGdtfSupportType&)`. -/
def readSupportType : Reader SupportType where
  table := [
    ("Rope", .cRope),
    ("GroundSupport", .cGroundSupport)]
  empty := some .cRope
  unknown := some .cRope
  reports := false

/-! ## EGdtfSubPhysicalUnitType -/

/-- Include/GDTFPrefix.h:714-727 `EGdtfSubPhysicalUnitType`. -/
inductive SubPhysicalUnitType where
  | cPlacementOffset
  | cAmplitude
  | cAmplitudeMin
  | cAmplitudeMax
  | cDuration
  | cDutyCycle
  | cTimeOffset
  | cMinimumOpening
  | cValue
  | cRatioHorizontal
  | cRatioVertical
  deriving DecidableEq, Repr

/-- XmlFileHelper.cpp:2125-2145 `ConvertSubPhysicalUnitTypeEnum(EGdtfSubPhysicalUnitType)`. -/
def writeSubPhysicalUnitType : SubPhysicalUnitType → List Char
  | .cPlacementOffset => "PlacementOffset".toList
  | .cAmplitude => "Amplitude".toList
  | .cAmplitudeMin => "AmplitudeMin".toList
  | .cAmplitudeMax => "AmplitudeMax".toList
  | .cDuration => "Duration".toList
  | .cDutyCycle => "DutyCycle".toList
  | .cTimeOffset => "TimeOffset".toList
  | .cMinimumOpening => "MinimumOpening".toList
  | .cValue => "Value".toList
  | .cRatioHorizontal => "RatioHorizontal".toList
  | .cRatioVertical => "RatioVertical".toList

/-- XmlFileHelper.cpp:2147-2169 `ConvertSubPhysicalUnitTypeEnum(text, node, EGdtfSubPhysicalUnitType&)`. -/
def readSubPhysicalUnitType : Reader SubPhysicalUnitType where
  table := [
    ("PlacementOffset", .cPlacementOffset),
    ("Amplitude", .cAmplitude),
    ("AmplitudeMin", .cAmplitudeMin),
    ("AmplitudeMax", .cAmplitudeMax),
    ("Duration", .cDuration),
    ("DutyCycle", .cDutyCycle),
    ("TimeOffset", .cTimeOffset),
    ("MinimumOpening", .cMinimumOpening),
    ("Value", .cValue),
    ("RatioHorizontal", .cRatioHorizontal),
    ("RatioVertical", .cRatioVertical)]
  empty := some .cPlacementOffset
  unknown := some .cPlacementOffset
  reports := false

/-! ## ETransmissionType -/

/-- Include/GDTFPrefix.h:729-735 `ETransmissionType`. -/
inductive TransmissionType where
  | cUnicast
  | cMulticast
  | cBroadcast
  | cAnycast
  deriving DecidableEq, Repr

/-- XmlFileHelper.cpp:2171-2199 `ConvertTransmissionTypeEnum(ETransmissionType)`. -/
def writeTransmissionType : TransmissionType → List Char
  | .cUnicast => "Unicast".toList
  | .cMulticast => "Multicast".toList
  | .cBroadcast => "Broadcast".toList
  | .cAnycast => "Anycast".toList

/-- XmlFileHelper.cpp:2201-2229 `ConvertTransmissionTypeEnum(text, node, ETransmissionType&)`. -/
def readTransmissionType : Reader TransmissionType where
  table := [
    ("Anycast", .cAnycast),
    ("Multicast", .cMulticast),
    ("Unicast", .cUnicast),
    ("Broadcast", .cBroadcast)]
  empty := some .cAnycast
  unknown := some .cAnycast
  reports := false

end Verif.Enum
