import Verif.Str.Model

/-!
# Model of `/repo/src/UUID.cpp` (`VWUUID`) and of the UUID converters in `/repo/src/XmlFileHelper.cpp`

`fData[16]` is a list of 16 bytes.  Texts are lists of characters; simplification: for texts with
non-ASCII characters `FromString` indexes the UTF-8 bytes, here the characters.
`THROW_VWFC_EXCEPTION` is defined in Prefix/StdAfx.h:39 as a debug print: it does *not* throw.
-/

namespace Verif.Uuid
open Verif.Str

/-- UUID.cpp:116-126 `GetPieceAsChar`. -/
def getPieceAsChar (piece : Byte) : Char :=
  if piece ≤ 9 then Char.ofNat (48 + piece.toNat) else Char.ofNat (65 + (piece - 0x0A).toNat)

/-- UUID.cpp:128-137 `GetPieceAsText`. -/
def getPieceAsText (piece : Byte) : List Char :=
  [getPieceAsChar (piece >>> 4), getPieceAsChar (piece &&& 0x0F)]

/-- UUID.cpp:139-150 `GetDigitForChar`; a bad character gives 0 (the exception macro only prints). -/
def getDigitForChar (ch : Char) : Byte :=
  if '0' ≤ ch ∧ ch ≤ '9' then BitVec.ofNat 8 (ch.toNat - 48)
  else if 'A' ≤ ch ∧ ch ≤ 'F' then 0x0A + BitVec.ofNat 8 (ch.toNat - 65)
  else if 'a' ≤ ch ∧ ch ≤ 'f' then 0x0A + BitVec.ofNat 8 (ch.toNat - 97)
  else 0

/-- `GetAt`, GSString.cpp:703-715: 0 when out of range; also the terminating 0 of a C string. -/
def getAt (s : List Char) (i : Nat) : Char := s.getD i (Char.ofNat 0)

/-- UUID.cpp:152-162 `GetDigitForPiece(pString + i)`. -/
def getDigitForPiece (s : List Char) (i : Nat) : Byte :=
  let a := getDigitForChar (getAt s i)
  let b := getDigitForChar (getAt s (i+1))
  (a <<< 4) ||| (b &&& 0x0F)

/-- UUID.cpp:171-200 `ToString(includeBrackets)`; `d` is `fData`. -/
def toText (d : List Byte) (includeBrackets : Bool) : List Char :=
  let p := fun i => getPieceAsText (d.getD i 0)
  List.flatten [if includeBrackets then ['{'] else [], p 0, p 1, p 2, p 3, ['-'], p 4, p 5, ['-'],
    p 6, p 7, ['-'], p 8, p 9, ['-'], p 10, p 11, p 12, p 13, p 14, p 15,
    if includeBrackets then ['}'] else []]

/-- UUID.cpp:202-270 `FromString`: returns the success flag and the new `fData` (`old` = before). -/
def fromString (old : List Byte) (s : List Char) (includeBrackets : Bool := true) : Bool × List Byte :=
  let b := decide (s.length = if includeBrackets then 38 else 36)
  let b := if b then
      if includeBrackets then
        getAt s 0 == '{' && getAt s 9 == '-' && getAt s 14 == '-' && getAt s 19 == '-' &&
        getAt s 24 == '-' && getAt s 37 == '}'
      else getAt s 8 == '-' && getAt s 13 == '-' && getAt s 18 == '-' && getAt s 23 == '-'
    else b
  let data := if b then
      if includeBrackets then
        [1, 3, 5, 7, 10, 12, 15, 17, 20, 22, 25, 27, 29, 31, 33, 35].map (getDigitForPiece s)
      else
        [0, 2, 4, 6, 9, 11, 14, 16, 19, 21, 24, 26, 28, 30, 32, 34].map (getDigitForPiece s)
    else old
  (b, data)

/-- UUID.cpp:284-288 `VWUUID()`. -/
def zero : List Byte := List.replicate 16 0

/-- UUID.cpp:272-282 `VWUUID(const TXString&)`: the zero UUID when the text is refused. -/
def ofText (s : List Char) (junk : List Byte) : List Byte :=
  let r := fromString junk s
  if r.1 then r.2 else zero

/-- UUID.cpp:34-52 `VWUUID(a,b,c,d)`. -/
def ofWord (a : BitVec 32) : List Byte :=
  [(a &&& 0xFF).setWidth 8, ((a >>> 8) &&& 0xFF).setWidth 8, ((a >>> 16) &&& 0xFF).setWidth 8,
   ((a >>> 24) &&& 0xFF).setWidth 8]
def ofWords (a b c d : BitVec 32) : List Byte := ofWord a ++ ofWord b ++ ofWord c ++ ofWord d

/-- UUID.cpp:366-372 `GetUUID(out1..out4)`.  The arithmetic is in `int`, converted to `Uint32`; two's
complement wrap-around is assumed for `fData[3] * 16777216` (signed overflow above 127). -/
def word4 (a b c d : Byte) : BitVec 32 :=
  BitVec.ofNat 32 (a.toNat + b.toNat * 256 + c.toNat * 65536 + d.toNat * 16777216)
def getWord (d : List Byte) (i : Nat) : BitVec 32 :=
  word4 (d.getD i 0) (d.getD (i+1) 0) (d.getD (i+2) 0) (d.getD (i+3) 0)
def getWords (d : List Byte) : BitVec 32 × BitVec 32 × BitVec 32 × BitVec 32 :=
  (getWord d 0, getWord d 4, getWord d 8, getWord d 12)

/-- UUID.cpp:54-60 `VWUUID(pArray, size)`. -/
def ofArray (p : List Byte) : List Byte := (List.range 16).map fun i => if i < p.length then p.getD i 0 else 0

/-- UUID.cpp:374-382 `GetUUID(pArray, size)`. -/
def getArray (d : List Byte) (size : Nat) : List Byte :=
  (List.range size).map fun i => if 16 ≤ i then 0 else d.getD i 0

/-- A `VWIID`. -/
structure IID where
  data1 : BitVec 32
  data2 : BitVec 16
  data3 : BitVec 16
  data4 : List Byte
deriving DecidableEq

/-- UUID.cpp:62-83 `VWUUID(const VWIID&)`. -/
def ofIID (x : IID) : List Byte :=
  [((x.data1 >>> 24) &&& 0xFF).setWidth 8, ((x.data1 >>> 16) &&& 0xFF).setWidth 8,
   ((x.data1 >>> 8) &&& 0xFF).setWidth 8, (x.data1 &&& 0xFF).setWidth 8,
   ((x.data2 >>> 8) &&& 0xFF).setWidth 8, (x.data2 &&& 0xFF).setWidth 8,
   ((x.data3 >>> 8) &&& 0xFF).setWidth 8, (x.data3 &&& 0xFF).setWidth 8] ++
  (List.range 8).map fun i => x.data4.getD i 0

/-- UUID.cpp:384-397 `GetUUID(VWIID&)`. -/
def getIID (d : List Byte) : IID :=
  { data1 := word4 (d.getD 3 0) (d.getD 2 0) (d.getD 1 0) (d.getD 0 0)
    data2 := BitVec.ofNat 16 ((d.getD 5 0).toNat + (d.getD 4 0).toNat * 256)
    data3 := BitVec.ofNat 16 ((d.getD 7 0).toNat + (d.getD 6 0).toNat * 256)
    data4 := (List.range 8).map fun i => d.getD (8 + i) 0 }

/-- XmlFileHelper.cpp:18-34 `GdtfConverter::ConvertUUID(uuid)`. -/
def convertToText (d : List Byte) : List Char := toText d false

/-- XmlFileHelper.cpp:36-83 the two accepted lengths; `some t` is `uuidForRead`, `none` = other length. -/
def uuidForRead (s : List Char) : Option (List Char) :=
  if s.length = 47 then
    let v := s.filter (· ≠ ' ')       -- `value.Replace(" ", "")`, see `Str.replace_single` below
    let c := fun i n => (List.range n).map fun k => getAt v (i + k)
    some (List.flatten [['{'], c 0 8, ['-'], c 8 4, ['-'], c 12 4, ['-'], c 16 4, ['-'], c 20 12, ['}']])
  else if s.length = 36 then some (['{'] ++ s ++ ['}'])
  else none

/-- Result of a reading converter: return value, whether a parsing error was recorded, the value. -/
structure Res (α : Type) where
  ok : Bool
  errorAdded : Bool
  value : α
deriving DecidableEq

/-- XmlFileHelper.cpp:36-106 `ConvertUUID(inValue, node, VWUUID& uuid)`. -/
def convertFromText (s : List Char) (old : List Byte) : Res (List Byte) :=
  match uuidForRead s with
  | some t => { ok := true, errorAdded := false, value := ofText t [] }
  | none =>
    if s.length = 0 then { ok := false, errorAdded := false, value := old }
    else { ok := true, errorAdded := true, value := ofText [] [] }

/-- XmlFileHelper.cpp:111-182 `ConvertUUID(inValue, MvrUUID&)`; the result is the four words. -/
def convertFromTextMvr (s : List Char) (old : BitVec 32 × BitVec 32 × BitVec 32 × BitVec 32) :
    Res (BitVec 32 × BitVec 32 × BitVec 32 × BitVec 32) :=
  if s.length = 0 then { ok := false, errorAdded := false, value := old }
  else
    let r := fromString zero ((uuidForRead s).getD [])
    { ok := r.1, errorAdded := false, value := getWords r.2 }

end Verif.Uuid
