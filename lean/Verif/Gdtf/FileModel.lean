import Verif.Gdtf.ValueModel
import Verif.Xml.Model
import Verif.Unicode.Spec

/-!
# Model of the text of a GDTF description

`GdtfFixture::ExportToFile` and the end of `GdtfFixture::ImportFromZip` (/repo/src/GDTFManager.cpp): the objects of `ValueModel` become the
elements of `Verif.Xml` and the bytes of `description.xml`, and the other way round. `Verif.Pack` models how these bytes get into the
package. The conversions between `TXString` and bytes are those of the Linux build.

Simplifications: all attributes of an element are converted when it is read (the code converts those it asks for); the errors that are
collected while reading, the resolution of the references (`Verif.Link`) and the resources are not part of this model.
-/

namespace Verif.Gdtf

open Verif.Lookup (Txt)
open Verif.Str (isHigh isLow)
open Verif.Dmx Verif.UnicodeSpec

/-! ## `TXString` and bytes -/

/-- The code points of UTF-16 text, as `std::codecvt_utf8_utf16` sees them; `none`: a surrogate without its partner, for which the
conversion throws `std::range_error`. Simplification: some versions of the C++ library drop such a surrogate at the very end of a text
instead. -/
def points : Txt → Option (List Nat)
  | [] => some []
  | u :: t =>
    if isHigh u then
      match t with
      | [] => none
      | v :: t => if isLow v then (points t).map ((0x10000 + (u.toNat - 0xD800) * 1024 + (v.toNat - 0xDC00)) :: ·) else none
    else if isLow u then none
    else (points t).map (u.toNat :: ·)

/-- GSString.cpp:2410-2416 `PrepareCharBuffer`: the bytes, up to the first null, which ends a C string. -/
def toBytes (t : Txt) : Option (List Byte) := (points t).map (fun cs => (cs.flatMap utf8).takeWhile (· ≠ 0))

/-- The code point that the first bytes stand for, and the number of these bytes; `none`: not the bytes of a character. -/
def firstPoint (s : List Byte) : Option (Nat × Nat) :=
  let ok (c n : Nat) : Option (Nat × Nat) :=
    if c ≤ 0x10FFFF ∧ ¬ (0xD800 ≤ c ∧ c ≤ 0xDFFF) ∧ utf8 c = s.take n then some (c, n) else none
  match s with
  | [] => none
  | a :: t =>
    if a.toNat < 0x80 then ok a.toNat 1
    else match t with
      | [] => none
      | b :: t =>
        if a.toNat < 0xE0 then ok ((a.toNat - 0xC0) * 64 + (b.toNat - 0x80)) 2
        else match t with
          | [] => none
          | c :: t =>
            if a.toNat < 0xF0 then ok ((a.toNat - 0xE0) * 4096 + (b.toNat - 0x80) * 64 + (c.toNat - 0x80)) 3
            else match t with
              | [] => none
              | d :: _ => ok ((a.toNat - 0xF0) * 262144 + (b.toNat - 0x80) * 4096 + (c.toNat - 0x80) * 64 + (d.toNat - 0x80)) 4

/-- GSString.cpp:2527-2529 `SetStdUStrFromCharBuffer`, with enough fuel; `none`: the bytes are not UTF-8, the conversion throws
`std::range_error`. -/
def fromBytes : Nat → List Byte → Option Txt
  | _, [] => some []
  | 0, _ => none
  | fuel + 1, s => (firstPoint s).bind (fun (c, n) => (fromBytes fuel (s.drop n)).map (utf16 c ++ ·))

/-- The bytes of a buffer as the characters of `Verif.Xml`. -/
def charsOf (b : List Byte) : Xml.Str := b.map (fun x => Char.ofNat x.toNat)

/-- And back. -/
def bytesOf (s : Xml.Str) : List Byte := s.map (fun c => BitVec.ofNat 8 c.toNat)

/-- `SetNodeAttributeValue`, rapidxmlsupport/XMLFileNodeImpl.cpp:102-110: the text of an attribute. -/
def attrOut (t : Txt) : Option Xml.Str := (toBytes t).map charsOf

/-- `GetNodeAttributeValue`, rapidxmlsupport/XMLFileNodeImpl.cpp:87-100. -/
def attrIn (s : Xml.Str) : Option Txt := fromBytes s.length (bytesOf s)

/-! ## The elements -/

/-- The attributes of an element are written one after the other. -/
def attrsOut : Attrs → Option (List (Xml.Str × Xml.Str))
  | [] => some []
  | (a, t) :: r => do
    let v ← attrOut t
    let r ← attrsOut r
    some ((a.toList, v) :: r)

/-- And read. -/
def attrsIn : List (Xml.Str × Xml.Str) → Option Attrs
  | [] => some []
  | (a, v) :: r => do
    let t ← attrIn v
    let r ← attrsIn r
    some ((String.ofList a, t) :: r)

mutual
/-- `WriteToNode`, GDTFManager.cpp:29-41: the element in the document. -/
def elemOut : Elem → Option Scene.Xml
  | .mk n as ks => do
    let a ← attrsOut as
    let k ← elemsOut ks
    some (.elem n.toList a [] k)

/-- All of a list. -/
def elemsOut : List Elem → Option (List Scene.Xml)
  | [] => some []
  | e :: r => do
    let x ← elemOut e
    let r ← elemsOut r
    some (x :: r)
end

mutual
/-- The element as the reading functions see it; a text inside is not looked at. -/
def elemIn : Scene.Xml → Option Elem
  | .elem n as _ ks => do
    let a ← attrsIn as
    let k ← elemsIn ks
    some (.mk (String.ofList n) a k)

/-- All of a list. -/
def elemsIn : List Scene.Xml → Option (List Elem)
  | [] => some []
  | x :: r => do
    let e ← elemIn x
    let r ← elemsIn r
    some (e :: r)
end

/-! ## Writing -/

/-- GDTFManager.cpp:9858-9882 `ExportToFile`: the bytes of the description; `none`: an exception. The names are those of
Prefix/CommonPrefix.h:265-269. -/
def writeDescription (F : Fl) (init : String → Members) (fresh : String → Obj Members) (o : Obj Members) : Option (List Byte) :=
  (elemOut (writeValues F init fresh o)).map fun x =>
    bytesOf (Xml.writeXmlText (.elem "GDTF".toList [("DataVersion".toList, "1.2".toList)] [] [x]))

/-! ## The version -/

/-- `std::stoi` of a wide string: white space, a sign, digits; what follows is ignored. `none`: it throws `std::invalid_argument` (no
digit) or `std::out_of_range` (not an `int`). -/
def stoi (s : List Nat) : Option Int :=
  let s := s.dropWhile (fun c => (9 ≤ c && c ≤ 13) || c == 32)
  let (neg, s) := match s with
    | 45 :: t => (true, t)
    | 43 :: t => (false, t)
    | s => (false, s)
  let ds := s.takeWhile (fun c => 48 ≤ c && c ≤ 57)
  if ds = [] then none
  else
    let n : Nat := ds.foldl (fun n c => n * 10 + (c - 48)) 0
    let i : Int := if neg then -n else n
    if -2 ^ 31 ≤ i ∧ i < 2 ^ 31 then some i else none

/-- GDTFManager.cpp:7980-7993: the two numbers of the version; both are zero if one is not a number or there is no dot. `npos` as length
of `Mid` is the length of the text here. -/
def versionOf (t : Txt) : Int × Int :=
  match Str.find t [46] with
  | none => (0, 0)
  | some dot =>
    match (points (Str.mid t 0 dot)).bind stoi, (points (Str.mid t (dot + 1) t.length)).bind stoi with
    | some a, some b => (a, b)
    | _, _ => (0, 0)

/-! ## Reading -/

/-- The fixture after reading: `IsReaded`, the version, and the values (`none`: they are as the constructors leave them). -/
structure Reading where
  readed : Bool
  major : Int
  minor : Int
  fixture : Option (Obj Members)

/-- The value of an attribute of a node, empty if there is none. -/
def rootAttr (x : Scene.Xml) (a : String) : Option Txt :=
  match x with
  | .elem _ as _ _ => match as.find? (fun p => p.1 == a.toList) with
    | some p => attrIn p.2
    | none => some []

/-- `GetChildNode`, rapidxmlsupport/XMLFileNodeImpl.cpp:151-164. -/
def childOf (x : Scene.Xml) (n : String) : Option Scene.Xml :=
  match x with
  | .elem _ _ _ ks => ks.find? (fun | .elem m _ _ _ => m == n.toList)

/-- GDTFManager.cpp:7951-8014, the end of `ImportFromZip`; `desc` is the content of `description.xml` (`none`: not in the package). The
result `none` is an exception. -/
def readDescription (F : Fl) (init : String → Members) (fresh : String → Obj Members) (desc : Option (List Byte)) : Option Reading :=
  match desc with
  | none => some ⟨false, 0, 0, none⟩
  | some b =>
    match Xml.readBuffer (charsOf b) with
    | none => some ⟨true, 0, 0, none⟩
    | some root => do
      let v ← rootAttr root "DataVersion"
      match childOf root "FixtureType" with
      | none => some ⟨true, (versionOf v).1, (versionOf v).2, none⟩
      | some x => do
        let e ← elemIn x
        some ⟨true, (versionOf v).1, (versionOf v).2, some (readValues F init fresh "GdtfFixture" e)⟩

/-- What `GetGDTFVersion` returns. -/
inductive Status
  | noError | failed
  deriving DecidableEq, Repr

/-- Implementation/CGdtfFixture.cpp:222-241 `GetGDTFVersion`, after reading. -/
def Reading.version (r : Reading) : Status × Int × Int :=
  if r.major ≤ 0 ∨ r.minor ≤ 0 then (.failed, 0, 0) else (.noError, r.major, r.minor)

/-- Implementation/CGdtfFixture.cpp:199-220 `ReadFromFile` and 2442-2472 `FromBuffer`: whether reading is reported to have succeeded. -/
def Reading.reported (r : Reading) : Bool := r.readed

end Verif.Gdtf
