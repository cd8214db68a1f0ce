import Verif.Str.Model

/-!
# Model of the number-to-text converters of `GdtfConverter` (`/repo/src/XmlFileHelper.cpp`)

Texts are `List Char`. `Conv` is what the caller can observe: the returned `bool`, whether a parsing error was
added to the error list, and the value of the output parameter afterwards. `none` around it stands for undefined
behaviour (`::atoi` on a number outside `int`).
-/

namespace Verif.Text
open Verif.Str

/-- Observable outcome of a reading converter. -/
structure Conv (α : Type) where
  ok : Bool
  err : Bool
  val : α
  deriving DecidableEq, Repr

/-- The failure is visible to the caller: the call returned false or a parsing error was recorded. -/
def Conv.reported {α : Type} (c : Conv α) : Prop := c.ok = false ∨ c.err = true

/-- Conversion of an `int` to `Uint16`, `Uint8`, `Uint32`, `size_t` (modulo 2^w). -/
def toUint (w : Nat) (i : Int) : Nat := (i % (2 ^ w : Int)).toNat

/-- Conversion of an `int` to a signed `w`-bit integer (two's complement). -/
def toSint (w : Nat) (i : Int) : Int :=
  let m := i % (2 ^ w : Int)
  if m < 2 ^ (w - 1) then m else m - 2 ^ w

/-! ### Integers -/

/-- XmlFileHelper.cpp:394-409, 569-575 `ConvertInteger(value)`. -/
def writeInteger (v : Int) : List Char := intText v

/-- XmlFileHelper.cpp:420-459 `ConvertInteger(text, node, T& out)` for a signed `w`-bit `T`. -/
def readSigned (w : Nat) (s : List Char) (old : Int) : Option (Conv Int) :=
  if s = [] then some ⟨false, false, old⟩
  else (atoi s).map fun i => ⟨true, false, toSint w i⟩

/-- The same for an unsigned `w`-bit `T` (`Uint8`, `Uint32`, `size_t`). -/
def readUnsigned (w : Nat) (s : List Char) (old : Nat) : Option (Conv Nat) :=
  if s = [] then some ⟨false, false, old⟩
  else (atoi s).map fun i => ⟨true, false, toUint w i⟩

/-- XmlFileHelper.cpp:577-586 `ConvertDmxBreak(value)`. -/
def writeBreak (v : Int) : List Char := if v = 0 then "Overwrite".toList else intText v

/-- XmlFileHelper.cpp:411-418 `ConvertDmxBreak(text)`. -/
def readBreak (s : List Char) (old : Int) : Option (Conv Int) :=
  if s = [] then some ⟨false, false, old⟩
  else if eqNoCase s "Overwrite".toList then some ⟨true, false, 0⟩
  else (atoi s).map fun i => ⟨true, false, i⟩

/-- XmlFileHelper.cpp:476-484 `ConvertInteger(value, noneValue)`. -/
def writeIntegerOrNone (v : Int) (none : Bool) : List Char := if none then "None".toList else intText v

/-- XmlFileHelper.cpp:598-605 `ConvertInteger(text, node, value, noneValue)`: value and `noneValue`. -/
def readIntegerOrNone (s : List Char) (old : Int) : Option (Conv (Int × Bool)) :=
  if eqNoCase s "None".toList then some ⟨true, false, (0, true)⟩
  else (readSigned 32 s old).map fun c => ⟨c.ok, c.err, (c.val, false)⟩

/-! ### DMX addresses -/

/-- XmlFileHelper.cpp:588-596 `ConvertDMXAdress(DMXAddress)` (`Uint16` promoted to `Sint32`). -/
def writeAddress (a : Nat) : List Char := intText a

/-- XmlFileHelper.cpp:607-648 `ConvertDMXAdress(text)`. -/
def readAddress (s : List Char) : Option (Conv Nat) :=
  if s = [] then some ⟨false, false, 1⟩
  else match findCh s '.' with
    | some (p+1) =>
      match atoi (leftC s (p+1)), atoi (rightC s (s.length - (p+1) - 1)) with
      | some ui, some ai =>
        let univ := toUint 16 ui
        let address := toUint 16 ai
        let value := toUint 16 (((univ : Int) - 1) * 512 + address)
        if univ = 0 ∨ address = 0 ∨ address > 512 then some ⟨false, true, value⟩
        else some ⟨true, false, value⟩
      | _, _ => none
    | _ =>
      match atoi s with
      | some i => let v := toUint 16 i
                  if v = 0 then some ⟨false, true, v⟩ else some ⟨true, false, v⟩
      | none => none

/-- SceneDataExchange.cpp:1821-1831 `SceneDataDmxAdress(univ, address, breakId)`: `fAbsuluteAdress`. -/
def absAddress (univ address : Nat) : Nat :=
  (((if univ ≠ 0 then univ - 1 else univ) * 512) + address) % 2^64

/-- SceneDataExchange.cpp:1846-1853 `GetUniverse`: the loop `while (abs > univ * 512) univ++`;
`none` = still running after `fuel` rounds. -/
def getUniverseFrom (abs : Nat) : Nat → Nat → Option Nat
  | 0, _ => none
  | fuel+1, univ => if abs > (univ * 512) % 2^64 then getUniverseFrom abs fuel ((univ + 1) % 2^64)
    else some univ

def getUniverse (abs fuel : Nat) : Option Nat := getUniverseFrom abs fuel 1

/-- SceneDataExchange.cpp:1837-1844 `GetAdress`. -/
def getAddress (abs fuel : Nat) : Option Nat :=
  (getUniverse abs fuel).map fun u => (abs + 2^64 - (512 * ((u + 2^64 - 1) % 2^64)) % 2^64) % 2^64

/-! ### Lists -/

/-- XmlFileHelper.cpp:2309-2371 `Deserialize`: the fields cut off by the loop
`while ((pos = Find(sep)) > 0) { push(first pos characters); Delete(0, pos + 1); } push(rest)`.
`none` = still running after `fuel` rounds. -/
def fields (sep : Char) : Nat → List Char → Option (List (List Char))
  | 0, _ => none
  | fuel+1, s => match findCh s sep with
    | some (p+1) => (fields sep fuel (delete s 0 (p+2))).map (s.take (p+1) :: ·)
    | _ => some [s]

/-- All results, or `none` if one is undefined. -/
def allSome {β : Type} : List (Option β) → Option (List β)
  | [] => some []
  | none :: _ => none
  | some b :: t => (allSome t).map (b :: ·)

/-- XmlFileHelper.cpp:2345-2371 `Deserialize(value, node, TSint32Array&, separator)`. -/
def deserializeInts (sep : Char) (s : List Char) : Option (List Int) :=
  match fields sep (s.length + 1) s with
  | none => none
  | some fs => allSome (fs.map atoi)

/-- XmlFileHelper.cpp:486-510 `ConvertIntegerArray(values, includeBrackets)`: the loop appends "," after every
element but the last. -/
def joinComma : List (List Char) → List Char
  | [] => []
  | [a] => a
  | a :: b :: t => a ++ ',' :: joinComma (b :: t)

def writeInts (vs : List Int) (brackets : Bool) : List Char :=
  (if brackets then ['{'] else []) ++ joinComma (vs.map intText) ++ (if brackets then ['}'] else [])

/-- XmlFileHelper.cpp:512-525 `ConvertIntegerArray(text, node, array)`: the array is appended to, starting empty here.
The two `Replace` calls remove every brace (`Str.replace_single`). -/
def readInts (s : List Char) : Option (Conv (List Int)) :=
  if s = [] then some ⟨false, false, []⟩
  else (deserializeInts ',' ((s.filter (· ≠ '{')).filter (· ≠ '}'))).map fun l => ⟨true, false, l⟩

/-- The four address parts of a DMX channel: coarse, fine, ultra, uber (`Uint16`, 0 = absent). -/
structure Offset where
  coarse : Nat
  fine : Nat
  ultra : Nat
  uber : Nat
  deriving DecidableEq, Repr

/-- XmlFileHelper.cpp:1437-1447 `ConvertDmxOffset(coarse, fine, ultra, uber)`. -/
def writeOffset (o : Offset) : List Char :=
  let c0 := decide (o.coarse > 0)
  let c1 := c0 && decide (o.fine > 0)
  let c2 := c1 && decide (o.ultra > 0)
  let c3 := c2 && decide (o.uber > 0)
  writeInts ((if c0 then [(o.coarse : Int)] else []) ++ (if c1 then [(o.fine : Int)] else [])
    ++ (if c2 then [(o.ultra : Int)] else []) ++ (if c3 then [(o.uber : Int)] else [])) false

/-- XmlFileHelper.cpp:1449-1471 `ConvertDmxOffset(text)`. -/
def readOffset (s : List Char) : Option (Conv Offset) :=
  match readInts s with
  | none => none
  | some c =>
    if c.ok then
      let at' (i : Nat) : Nat := match c.val[i]? with | some v => toUint 16 v | none => 0
      some ⟨true, false, ⟨at' 0, at' 1, at' 2, at' 3⟩⟩
    else some ⟨false, false, ⟨0, 0, 0, 0⟩⟩

/-! ### Dates -/

/-- IMediaRessourceVectorInterface.h:35-43 `STime` (six `Uint16`). -/
structure Time where
  year : Nat
  month : Nat
  day : Nat
  hour : Nat
  minute : Nat
  second : Nat
  deriving DecidableEq, Repr

/-- XmlFileHelper.cpp:182-194 `IntToString2Digits`. -/
def twoDigits (v : Nat) : List Char := if v < 10 then '0' :: intText v else intText v

/-- XmlFileHelper.cpp:196-216 `ConvertDate(date)`. -/
def writeDate (t : Time) : List Char :=
  intText t.year ++ '-' :: (twoDigits t.month ++ '-' :: (twoDigits t.day ++ 'T' ::
    (twoDigits t.hour ++ ':' :: (twoDigits t.minute ++ ':' :: twoDigits t.second))))

/-- XmlFileHelper.cpp:2373-2413 `DeserializeUTC_Date`. -/
def deserializeDate (s : List Char) : Option (List Int) :=
  match findCh s 'T' with
  | some (p+1) =>
    match deserializeInts '-' (s.take (p+1)), deserializeInts ':' (s.drop (p+2)) with
    | some cal, some time => if time.length = 3 ∧ cal.length = 3 then some (cal ++ time) else some []
    | _, _ => none
  | _ => some []

/-- XmlFileHelper.cpp:218-251 `ConvertDate(text)`. -/
def readDate (s : List Char) : Option (Conv Time) :=
  if s = [] then some ⟨true, false, ⟨0, 0, 0, 0, 0, 0⟩⟩
  else match deserializeDate s with
    | none => none
    | some [y, mo, d, h, mi, sec] =>
      some ⟨true, false, ⟨toUint 16 y, toUint 16 mo, toUint 16 d, toUint 16 h, toUint 16 mi, toUint 16 sec⟩⟩
    | some _ => some ⟨false, true, ⟨0, 0, 0, 0, 0, 0⟩⟩

/-! ### Hexadecimal identifiers -/

/-- XmlFileHelper.cpp:2658-2681: the `switch` over the upper-cased digit. -/
def hexVal (c : Char) : Option Nat :=
  if c = '0' then some 0 else if c = '1' then some 1 else if c = '2' then some 2 else if c = '3' then some 3
  else if c = '4' then some 4 else if c = '5' then some 5 else if c = '6' then some 6 else if c = '7' then some 7
  else if c = '8' then some 8 else if c = '9' then some 9 else if c = 'A' then some 10 else if c = 'B' then some 11
  else if c = 'C' then some 12 else if c = 'D' then some 13 else if c = 'E' then some 14 else if c = 'F' then some 15
  else none

/-- XmlFileHelper.cpp:2651-2684: the loop over the digits (`size_t` wraps); `Sum.inr` = left with an error,
carrying the output so far. -/
def hexLoop (acc : Nat) : List Char → Nat ⊕ Nat
  | [] => .inl acc
  | c :: t => match hexVal c with
    | some f => hexLoop ((acc * 16 + f) % 2^64) t
    | none => .inr ((acc * 16) % 2^64)

/-- XmlFileHelper.cpp:2646-2701 `ConvertHexValue(text, node, out)`. -/
def readHex (s : List Char) : Conv Nat :=
  let afterPrefix : Nat ⊕ Nat := if leftC s 2 = "0x".toList then hexLoop 0 (makeUpper (midC s 2 npos)) else .inl 0
  match afterPrefix with
  | .inr v => ⟨false, true, v⟩
  | .inl v =>
    let err := decide (leftC s 2 ≠ "0x".toList) && !s.isEmpty
    if v > 65535 then ⟨false, true, 65535⟩ else ⟨true, err, v⟩

/-- XmlFileHelper.cpp:2718-2740: the digit table. -/
def hexChar (d : Nat) : Char :=
  match d with
  | 0 => '0' | 1 => '1' | 2 => '2' | 3 => '3' | 4 => '4' | 5 => '5' | 6 => '6' | 7 => '7' | 8 => '8' | 9 => '9'
  | 10 => 'A' | 11 => 'B' | 12 => 'C' | 13 => 'D' | 14 => 'E' | 15 => 'F' | _ => '0'

/-- XmlFileHelper.cpp:2714-2742: the loop `while (value > 0)` inserting digits at position 2. -/
def writeHexLoop : Nat → Nat → List Char → List Char
  | 0, _, s => s
  | fuel+1, v, s => if v > 0 then writeHexLoop fuel ((v - v % 16) / 16) (insert s 2 [hexChar (v % 16)]) else s

/-- XmlFileHelper.cpp:2703-2744 `ConvertHexValue(value)`. The fuel `value` suffices: the value shrinks every round. -/
def writeHex (v : Nat) : List Char :=
  if v > 65535 then "0xFFFF".toList
  else if v = 0 then "0x0".toList
  else writeHexLoop v v "0x".toList

end Verif.Text
