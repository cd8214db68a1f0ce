import Verif.Dmx.Float
import Verif.Text.Model

/-!
# Model of reading and writing DMX values (`/repo/src/XmlFileHelper.cpp:462-474, 680-789, 2503-2519`)
-/

namespace Verif.Dmx
open Verif.Str Verif.Text

/-- XmlFileHelper.cpp:2503-2519 `GetChannelMaxDmx`: for an unknown resolution `maxVal` stays 0 and `maxVal - 1` wraps. -/
def chanMax (r : Int) : Nat :=
  if r = 1 then 256 - 1 else if r = 2 then 256 * 256 - 1 else if r = 3 then 256 * 256 * 256 - 1
  else if r = 4 then 4294967296 - 1 else 2^64 - 1

/-- XmlFileHelper.cpp:462-474 `ConvertDMXValue(value, resolution, noneValue)`. `itoa` takes `Sint64`; modelled for
values below 2^63. -/
def writeDmx (value : Nat) (reso : Nat) (noneValue : Bool := false) : List Char :=
  if noneValue then "None".toList else natText value ++ '/' :: natText reso

/-- Conversion of a `double` to `Uint64`: truncation; `none` = out of range, undefined behaviour. -/
def castU64 (x : ℚ) : Option Nat := if -1 < x ∧ x < 2^64 then some ⌊x⌋.toNat else none

/-- XmlFileHelper.cpp:706-711: cut off a trailing `s`. -/
def cutShift (second : List Char) : List Char × Bool :=
  if second.getLast? = some 's' then (second.dropLast, true) else (second, false)

/-- XmlFileHelper.cpp:713-722: the two numbers, replaced by 0 and 1 if one is not a complete number; the last
component tells whether an error was added. `none`: `::atoi` is undefined. `::atof` of a digit string is the rounded
decimal value. -/
def numbers (F : Fl) (first second : List Char) : Option (ℚ × Int × Bool) :=
  match atoi second with
  | none => none
  | some spec =>
    if isCompleteNumber first && isCompleteNumber second then some (F.fl (digitsVal 0 first), spec, false)
    else some (0, 1, true)

/-- XmlFileHelper.cpp:727-741: byte shifting. `none` = undefined shift. -/
def shifted (v : Nat) (spec : Int) (reso : Nat) : Option Nat :=
  if spec ≠ reso then
    let shift : Int := 8 * ((reso : Int) - spec)
    if shift < -2147483648 then none
    else if 0 ≤ shift then (if shift < 64 then some ((v <<< shift.toNat) % 2^64) else none)
    else (if -shift < 64 then some (v >>> (-shift).toNat) else none)
  else some v

/-- XmlFileHelper.cpp:742-764: scaling in `double`. -/
def scaled (F : Fl) (raw : ℚ) (spec : Int) (reso : Nat) : Option Nat :=
  if spec ≠ reso then
    let percentage := F.fl (raw / F.fl (chanMax spec))
    let result := F.fl (percentage * F.fl (chanMax reso))
    (castU64 (F.fl (result + 1/2))).map fun v => if v > chanMax reso then chanMax reso else v
  else castU64 raw

/-- XmlFileHelper.cpp:680-773 `ConvertDMXValue(text, node, resolution, out)`; `old` is the previous value of `out`. -/
def readDmx (F : Fl) (reso : Nat) (s : List Char) (old : Nat) : Option (Conv Nat) :=
  if s = [] then some ⟨true, false, 0⟩
  else match find s "/".toList with
    | none => some ⟨false, true, old⟩
    | some p =>
      let second := cutShift (s.drop (p+1))
      match numbers F (s.take p) second.1 with
      | none => none
      | some (raw, spec, err) =>
        match castU64 raw with
        | none => none
        | some v0 =>
          match (if second.2 then shifted v0 spec reso else scaled F raw spec reso) with
          | none => none
          | some v => if v > chanMax reso then some ⟨false, true, v⟩ else some ⟨true, err, v⟩

/-- XmlFileHelper.cpp:775-789: the variant that knows "None"; value, `noneValue`. -/
def readDmxNone (F : Fl) (reso : Nat) (s : List Char) (old : Nat) : Option (Conv (Nat × Bool)) :=
  if eqNoCase s "None".toList then some ⟨true, false, (old, true)⟩
  else (readDmx F reso s old).map fun c => ⟨true, c.err, (c.val, false)⟩

end Verif.Dmx
