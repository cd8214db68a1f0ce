import Verif.Gdtf.Table
import Verif.Node.Table
import Verif.Dmx.Model
import Verif.Real.Model
import Verif.Text.Model
import Verif.Enum.Props
import Verif.Uuid.Model

/-!
# Model: the values of the objects of a GDTF description, with the converters of the code

`Verif.Node` and `Verif.Gdtf` work with any converters; here are those that the code uses, for every member of every class.

Simplifications.  Pointers to other objects are given by the text that `GetNodeReference` returns for their target; they are resolved
after reading, which is modelled in `Verif.Link`.  The numbers of a mode master and of a macro, which are read as texts and converted
when the links are resolved, are texts here.  What reading a channel function or a channel set does to its neighbours (first function not
at 0, sets of a virtual channel, ends) is modelled in `Verif.Chan`.  An attribute that is not there is an empty text for every converter,
except in the six places that skip the converter in this case (`skips`).
-/

namespace Verif.Gdtf

open Verif.Lookup (Txt)
open Verif.Real Verif.Text Verif.Dmx Verif.Enum

/-- The types of members that are converted by `ConvertInteger`: `Sint32`, `Uint8`, `Uint32`, `size_t`. -/
inductive Width where
  | s32
  | u8
  | u32
  | size
  deriving DecidableEq, Repr

/-- The value of a member. -/
inductive Val where
  /-- `TXString`. -/
  | text (t : Txt)
  /-- A pointer to another object: the reference of the target. -/
  | link (l : Option Txt)
  | real (x : Dbl)
  | int (w : Width) (i : Int)
  | matrix (m : Mat)
  | rotation (m : Mat)
  | color (c : V3)
  | colors (cs : List V3)
  | point (x y : Dbl)
  | vec (v : V3)
  /-- `DmxValue`. -/
  | dmx (v : Nat)
  /-- `DmxValue` with the flag for "None". -/
  | high (v : Nat) (none : Bool)
  /-- The text of a `DmxValue`. -/
  | raw (t : Txt)
  /-- The text of a `DmxValue` or "None". -/
  | rawHigh (t : Txt)
  | hex (v : Nat)
  | uuid (u : List Byte)
  | offset (o : Offset)
  | brk (i : Int)
  | date (t : Time)
  | address (a : Nat)
  | flag (b : Bool)
  | primitive (v : PrimitiveType)
  | unit (v : PhysicalUnit)
  | beam (v : BeamType)
  | lamp (v : LampType)
  | snap (v : DmxSnap)
  | master (v : DmxMaster)
  | relation (v : DmxRelationType)
  | sample (v : ColorSample)
  | space (v : ColorSpace)
  | interpolation (v : InterpolationTo)
  | laser (v : LaserColorType)
  | component (v : ComponentType)
  | orientation (v : Orientation)
  | fuse (v : FuseRating)
  | truss (v : StructureType)
  | section_ (v : CrossSectionType)
  | support (v : SupportType)
  | subUnit (v : SubPhysicalUnitType)
  | canHave (v : Bool)
  /-- The behaviour of the converter is undefined. -/
  | undef
  deriving DecidableEq

/-- The converters of `GdtfConverter` that the classes use. -/
inductive Cv where
  | text | link | real | int | matrix | rotation | color | colors | point | vec | dmx | hex | uuid | offset | brk | date | address | flag
  | primitive | unit | beam | lamp | snap | master | relation | sample | space | interpolation | laser | component | orientation | fuse | truss | section_ | support | subUnit | canHave
  deriving DecidableEq, Repr

/-- Their names. -/
def cvNames : List (String × Cv) :=
  [("ConvertDouble", .real), ("ConvertInteger", .int), ("ConvertMatrix", .matrix), ("ConvertRotation", .rotation), ("ConvertColor", .color),
   ("ConvertColorArray", .colors), ("Convert2DPoint", .point), ("ConvertVector3", .vec), ("ConvertDMXValue", .dmx),
   ("ConvertHexValue", .hex), ("ConvertUUID", .uuid), ("ConvertDmxOffset", .offset), ("ConvertDmxBreak", .brk), ("ConvertDate", .date),
   ("ConvertDMXAdress", .address), ("ConvertBool", .flag),
   ("ConvertPrimitiveType", .primitive),
   ("ConvertPhysicalUnitEnum", .unit),
   ("ConvertBeamType", .beam),
   ("ConvertLampeType", .lamp),
   ("ConvertSnapEnum", .snap),
   ("ConvertMasterEnum", .master),
   ("ConvertRelationEnum", .relation),
   ("ConvertEGdtfColorSampleEnum", .sample),
   ("ConvertEGdtfColorSpace", .space),
   ("ConvertEGdtfInterpolationTo", .interpolation),
   ("ConvertLaserColorTypeEnum", .laser),
   ("ConvertComponentTypeEnum", .component),
   ("ConvertOrientationEnum", .orientation),
   ("ConvertFuseRatingEnum", .fuse),
   ("ConvertStructureTypeEnum", .truss),
   ("ConvertCrossSectionTypeEnum", .section_),
   ("ConvertSupportTypeEnum", .support),
   ("ConvertSubPhysicalUnitTypeEnum", .subUnit),
   ("ConvertEGdtfCanHaveChildren", .canHave)]

/-- The converter of a statement. -/
def cvOf : Node.Codec → Option Cv
  | .text => some .text
  | .ref => some .link
  | .blank => none
  | .val n => (cvNames.find? (fun p => p.1 == n)).map (·.2)

/-- A text of characters as a `TXString`. -/
def toTxt (s : List Char) : Txt := s.map (fun c => BitVec.ofNat 16 c.toNat)

/-- A `TXString` as characters. -/
def toChars (t : Txt) : List Char := t.map (fun u => Char.ofNat u.toNat)

/-- The text that is written for a value; the same cases as `dec`. -/
def enc : Cv → Val → Txt
  | .text, .text t => t
  | .link, .link (some t) => t
  | .real, .real x => toTxt (printReal x)
  | .int, .int _ i => toTxt (writeInteger i)
  | .matrix, .matrix m => toTxt (writeMatrixGdtf m)
  | .rotation, .rotation m => toTxt (writeRotation m)
  | .color, .color c => toTxt (writeColor c)
  | .colors, .colors cs => toTxt (writeColors cs)
  | .point, .point x y => toTxt (writePoint2 x y)
  | .vec, .vec v => toTxt (writeVector v)
  | .dmx, .raw t => t
  | .dmx, .rawHigh t => t
  | .hex, .hex v => toTxt (writeHex v)
  | .uuid, .uuid u => toTxt (Uuid.convertToText u)
  | .offset, .offset o => toTxt (writeOffset o)
  | .brk, .brk i => toTxt (writeBreak i)
  | .date, .date t => toTxt (writeDate t)
  | .address, .address a => toTxt (writeAddress a)
  | .flag, .flag b => toTxt (writeBool b)
  | .primitive, .primitive v => toTxt (writePrimitiveType v)
  | .unit, .unit v => toTxt (writePhysicalUnit v)
  | .beam, .beam v => toTxt (writeBeamType v)
  | .lamp, .lamp v => toTxt (writeLampType v)
  | .snap, .snap v => toTxt (writeDmxSnap v)
  | .master, .master v => toTxt (writeDmxMaster v)
  | .relation, .relation v => toTxt (writeDmxRelationType v)
  | .sample, .sample v => toTxt (writeColorSample v)
  | .space, .space v => toTxt (writeColorSpace v)
  | .interpolation, .interpolation v => toTxt (writeInterpolationTo v)
  | .laser, .laser v => toTxt (writeLaserColorType v)
  | .component, .component v => toTxt (writeComponentType v)
  | .orientation, .orientation v => toTxt (writeOrientation v)
  | .fuse, .fuse v => toTxt (writeFuseRating v)
  | .truss, .truss v => toTxt (writeStructureType v)
  | .section_, .section_ v => toTxt (writeCrossSectionType v)
  | .support, .support v => toTxt (writeSupportType v)
  | .subUnit, .subUnit v => toTxt (writeSubPhysicalUnitType v)
  | .canHave, .canHave v => toTxt (writeCanHaveChildren v)
  | _, _ => []

/-- What a converter leaves in the member. -/
def result {α : Type} (f : α → Val) : Option (Conv α) → Val
  | none => .undef
  | some c => f c.val

/-- `ConvertInteger`, by the type of the member. -/
def readInt (s : List Char) : Width → Int → Val
  | .s32, i => result (.int .s32) (readSigned 32 s i)
  | .u8, i => result (fun n : Nat => .int .u8 n) (readUnsigned 8 s i.toNat)
  | .u32, i => result (fun n : Nat => .int .u32 n) (readUnsigned 32 s i.toNat)
  | .size, i => result (fun n : Nat => .int .size n) (readUnsigned 64 s i.toNat)

/-- The value of a member after reading the text; the member had the value `old` before, which also tells its type. -/
def dec (F : Fl) (cv : Cv) (t : Option Txt) (old : Val) : Val :=
  let s := toChars (t.getD [])
  match cv, old with
  | .text, old => match t with
    | some t => .text t
    | none => old
  | .link, old => old
  | .real, .real x => if s = [] then .real x else .real (atof F s)
  | .int, .int w i => readInt s w i
  | .matrix, .matrix m => result .matrix (readMatrix F s m)
  | .rotation, .rotation m => result .rotation (readRotation F s m)
  | .color, .color _ => result .color (readColor F white s)
  | .colors, .colors _ => result .colors (readColors F s)
  | .point, .point _ _ => result (fun p => .point p.1 p.2) (readPoint2 F s)
  | .vec, .vec v => result .vec (readVector F s v)
  | .dmx, .high _ _ => .rawHigh (t.getD [])
  | .dmx, .dmx _ => .raw (t.getD [])
  | .hex, .hex _ => .hex (readHex s).val
  | .uuid, .uuid u => .uuid (Uuid.convertFromText s u).value
  | .offset, .offset _ => result .offset (readOffset s)
  | .brk, .brk i => result .brk (readBreak s i)
  | .date, .date _ => result .date (readDate s)
  | .address, .address _ => result .address (readAddress s)
  | .flag, .flag _ => .flag (readBool s).2
  | .primitive, .primitive v => .primitive (readPrimitiveType.run s v).val
  | .unit, .unit v => .unit (readPhysicalUnit.run s v).val
  | .beam, .beam v => .beam (readBeamType.run s v).val
  | .lamp, .lamp v => .lamp (readLampType.run s v).val
  | .snap, .snap v => .snap (readDmxSnap.run s v).val
  | .master, .master v => .master (readDmxMaster.run s v).val
  | .relation, .relation v => .relation (readDmxRelationType.run s v).val
  | .sample, .sample v => .sample (readColorSample.run s v).val
  | .space, .space v => .space (readColorSpace.run s v).val
  | .interpolation, .interpolation v => .interpolation (readInterpolationTo.run s v).val
  | .laser, .laser v => .laser (readLaserColorType.run s v).val
  | .component, .component v => .component (readComponentType.run s v).val
  | .orientation, .orientation v => .orientation (readOrientation.run s v).val
  | .fuse, .fuse v => .fuse (readFuseRating.run s v).val
  | .truss, .truss v => .truss (readStructureType.run s v).val
  | .section_, .section_ v => .section_ (readCrossSectionType.run s v).val
  | .support, .support v => .support (readSupportType.run s v).val
  | .subUnit, .subUnit v => .subUnit (readSubPhysicalUnitType.run s v).val
  | .canHave, .canHave v => .canHave (readCanHaveChildren.run s v).val
  | _, old => old

/-- The converters, for `Verif.Node`. -/
def conv (F : Fl) : Node.Conv Val where
  enc c v := match cvOf c with
    | some cv => enc cv v
    | none => []
  dec c t old := match cvOf c with
    | some cv => dec F cv t old
    | none => old

/-- The members of an object. -/
abbrev Members := String → Val

/-- A pointer is not null, a flag is set. -/
def set? : Val → Bool
  | .link l => l.isSome
  | .flag b => b
  | _ => false

/-- A number is not zero, a text not empty. -/
def nonzero : Val → Bool
  | .real x => x.mag != 0
  | .int _ i => i != 0
  | .text t => t != []
  | _ => false

/-- The conditions around the statements of `OnPrintToFile` and `OnReadFromNode`, in the words of the code. -/
def cond (o : Members) (c : String) : Bool :=
  if c = "fColorSpace == EGdtfColorSpace::Custom" then o "fColorSpace" == .space .cCustom
  else if c = "fDuration != 0.0" then nonzero (o "fDuration")
  else if c = "fWidth != 0" then nonzero (o "fWidth")
  else if c = "fHeight != 0" then nonzero (o "fHeight")
  else if c = "fFPS != 0" then nonzero (o "fFPS")
  else if c = "fGobo != \"\"" then nonzero (o "fGobo")
  else set? (o c)

/-- `OnReadFromNode`: the statements one after the other; a condition looks at the members as they are then. -/
def readNow (F : Fl) (l : List Node.Item) (node : Attrs) (o : Members) : Members :=
  l.foldl (fun o i => if i.guard.holds (cond o) then fun f => if f = i.field then (conv F).dec i.codec (Node.getAttr node i.attr) (o f) else o f
    else o) o

/-- A member is assigned. -/
def put (o : Members) (f : String) (v : Val) : Members := fun g => if g = f then v else o g

/-- GDTFManager.cpp:9582: `fName.Replace("/", "_")`. -/
def slashes (t : Txt) : Txt := t.map (fun u => if u = 47 then 95 else u)

/-- The name of a fixture without slashes. -/
def renamed : Val → Val
  | .text t => .text (slashes t)
  | v => v

/-- What else `OnReadFromNode` does with members that are written: GDTFManager.cpp:671-675 (attribute), 6875-6877 (channel set), 9582 and
9599 (fixture). -/
def after (cls : String) (node : Attrs) (o : Members) : Members :=
  if cls = "GdtfAttribute" then (if (Node.getAttr node "Color").isSome then put o "fHasColor" (.flag true) else o)
  else if cls = "GdtfDmxChannelSet" then
    put o "fSetPhysical" (.flag (decide ((Node.getAttr node "PhysicalTo").getD [] ≠ []) && decide ((Node.getAttr node "PhysicalFrom").getD [] ≠ [])))
  else if cls = "GdtfFixture" then
    put (put o "fName" (renamed (o "fName"))) "fHasLinkedGuid"
      (.flag (Uuid.convertFromText (toChars ((Node.getAttr node "RefFT").getD [])) []).ok)
  else o

/-- The members for which the converter is called only if the attribute is there (class, attribute, member): GDTFManager.cpp:671-675
(attribute), 1312-1315 (wheel slot), 5550-5553, 5557-5560, 5565-5568 (channel), 13032-13035 (filter). -/
def skips : List (String × String × String) :=
  [("GdtfAttribute", "Color", "fColor"), ("GdtfWheelSlot", "Color", "fColor"),
   ("GdtfDmxChannel", "Offset", "fCoarse+fFine+fUltra+fUber"), ("GdtfDmxChannel", "Default", "fDefaultValue_old"),
   ("GdtfDmxChannel", "Highlight", "fHeighlight+fHeighlightNone"), ("GdtfFilter", "Color", "fColor")]

/-- These members keep what the constructor left in them if the attribute is not there.  (No other statement depends on them, so that they
can be put back after all statements.  An empty colour of a wheel slot or of a filter is skipped as well, GDTFManager.cpp:1314 and 13034;
the converter would assign what the constructor has left.) -/
def unread (cls : String) (node : Attrs) (init o : Members) : Members := fun f =>
  if skips.any (fun s => s.1 == cls && s.2.2 == f && (Node.getAttr node s.2.1).isNone) then init f else o f

/-- The classes with their attributes; `init` is what the constructors leave in the members. -/
def valueSchema (F : Fl) (init : String → Members) (fresh : String → Obj Members) : Schema Members where
  classes := classes
  enc := fun cls d => match Node.kinds.find? (fun k => k.name == cls) with
    | some k => k.write (conv F) (cond d) d
    | none => []
  dec := fun cls a => match Node.kinds.find? (fun k => k.name == cls) with
    | some k => after cls a (unread cls a (init cls) (readNow F k.reads a (init cls)))
    | none => init cls
  fresh := fresh

/-- GDTFManager.cpp:5740-5748 `GdtfDmxChannel::GetChannelBitResolution`: the number of bytes. -/
def bytes : Val → Nat
  | .offset o => if o.coarse = 0 then 2 else if o.fine = 0 then 1 else if o.ultra = 0 then 2 else if o.uber = 0 then 3 else 4
  | _ => 2

/-- The resolution with which an object converts its numbers: that of the channel it is, or that it belongs to (GDTFManager.cpp:5522, 5567,
6137, 6266, 6840, 6866). -/
def reso (n : Nat) (cls : String) (d : Members) : Nat := if cls = "GdtfDmxChannel" then bytes (d "fCoarse+fFine+fUltra+fUber") else n

mutual
/-- The tree with the members of each object replaced, knowing the resolution. -/
def walk (f : Nat → Members → Members) (n : Nat) : Obj Members → Obj Members
  | .mk cls d ks => .mk cls (f (reso n cls d) d) (walkAll f (reso n cls d) ks)

/-- All members with objects. -/
def walkAll (f : Nat → Members → Members) (n : Nat) : List (List (Obj Members)) → List (List (Obj Members))
  | [] => []
  | k :: ks => walkList f n k :: walkAll f n ks

/-- One of them. -/
def walkList (f : Nat → Members → Members) (n : Nat) : List (Obj Members) → List (Obj Members)
  | [] => []
  | o :: os => walk f n o :: walkList f n os
end

/-- XmlFileHelper.cpp:462-474: a number becomes a text, with the resolution of the channel. -/
def dmxText (n : Nat) : Val → Val
  | .dmx v => .raw (toTxt (writeDmx v n))
  | .high v b => .rawHigh (toTxt (writeDmx v n b))
  | v => v

/-- XmlFileHelper.cpp:680-773, 775-789: a text becomes a number, with the resolution of the channel. -/
def dmxValue (F : Fl) (n : Nat) : Val → Val
  | .raw t => result .dmx (readDmx F n (toChars t) 0)
  | .rawHigh t => result (fun p => .high p.1 p.2) (readDmxNone F n (toChars t) 0)
  | v => v

/-- `WriteToNode` of a whole description. -/
def writeValues (F : Fl) (init : String → Members) (fresh : String → Obj Members) (o : Obj Members) : Elem :=
  write (valueSchema F init fresh) (walk (fun n d f => dmxText n (d f)) 2 o)

/-- `ReadFromNode` of a whole description. -/
def readValues (F : Fl) (init : String → Members) (fresh : String → Obj Members) (cls : String) (e : Elem) : Obj Members :=
  walk (fun n d f => dmxValue F n (d f)) 2 (read (valueSchema F init fresh) cls e)

end Verif.Gdtf
