import Verif.Basic

/-!
# Model of the UTF-8 / UTF-16 / UTF-32 conversions of `TXString`

Models `/repo/src/GSString.cpp:2493-2516, 2586-2736` (the library's own converters, used on Windows and macOS;
on Linux the library delegates to `std::codecvt`, which is not modelled).

Memory: a `char*` is modelled by the list of bytes that may be read from it; reading past the end is `none`
(undefined behaviour).
-/

namespace Verif.Unicode

/-- UTF-16 code unit (`TXChar`). -/
abbrev Unit16 := BitVec 16

/-- GSString.cpp:2586-2608 `utf32ToTXCharBuffer`: the contents of `output`, including the terminating 0.
`LEAD_OFFSET = 0xD800 - (0x10000 >> 10)`. -/
def utf32ToTXChar (input : Nat) : List Unit16 :=
  if input ≤ 0xFFFF then [BitVec.ofNat 16 input, 0]
  else if input ≤ 0x10FFFF then
    [BitVec.ofNat 16 (0xD7C0 + (input >>> 10)), BitVec.ofNat 16 (0xDC00 + (input &&& 0x3FF)), 0]
  else [0x3F, 0]

/-- GSString.cpp:2695-2696 `*output++ = u[0]; if (u[1]) *output++ = u[1];` -/
def emit (u : List Unit16) : List Unit16 :=
  match u with
  | a :: b :: _ => if b ≠ 0 then [a, b] else [a]
  | _ => []

/-- Outcome of one iteration of the decoding loop. -/
inductive Step
  | brk
  | next (units : List Unit16) (consumed : Nat)

/-- GSString.cpp:2682-2728: the body of the `while` loop of `utf8BufferToTXCharBuffer`. `none` = read outside `input`. -/
def decodeStep (input : List Byte) (inputLen i : Nat) : Option Step :=
  match input[i]? with
  | none => none
  | some b0 =>
    if b0 &&& 0x80 = 0 then some (.next [b0.setWidth 16] 1)
    else if b0 &&& 0xE0 = 0xC0 then
      if i + 1 ≥ inputLen then some .brk
      else match input[i+1]? with
        | some b1 => some (.next (emit (utf32ToTXChar (((b0 &&& 0x1F).toNat <<< 6) + (b1 &&& 0x3F).toNat))) 2)
        | none => none
    else if b0 &&& 0xF0 = 0xE0 then
      if i + 2 ≥ inputLen then some .brk
      else match input[i+1]?, input[i+2]? with
        | some b1, some b2 => some (.next (emit (utf32ToTXChar
            (((b0 &&& 0x0F).toNat <<< 12) + ((b1 &&& 0x3F).toNat <<< 6) + (b2 &&& 0x3F).toNat))) 3)
        | _, _ => none
    else if b0 &&& 0xF8 = 0xF0 then
      if i + 3 ≥ inputLen then some .brk
      else match input[i+1]?, input[i+2]?, input[i+3]? with
        | some b1, some b2, some b3 => some (.next (emit (utf32ToTXChar
            (((b0 &&& 0x07).toNat <<< 18) + ((b1 &&& 0x3F).toNat <<< 12) + ((b2 &&& 0x3F).toNat <<< 6)
              + (b3 &&& 0x3F).toNat))) 4)
        | _, _, _ => none
    else some (.next [0x3F] 1)

/-- GSString.cpp:2675-2736 `utf8BufferToTXCharBuffer`: the units written to `output` (without the final 0).
`none` = read outside the buffer, or fuel exhausted. -/
def decode (input : List Byte) (inputLen : Nat) : Nat → Nat → List Unit16 → Option (List Unit16)
  | 0, _, _ => none
  | fuel+1, i, out =>
    if i < inputLen then
      match decodeStep input inputLen i with
      | none => none
      | some (.next u k) => decode input inputLen fuel (i + k) (out ++ u)
      | some .brk => some (out ++ List.replicate (inputLen - i) 0x3F)
    else some out

/-- GSString.cpp:2500-2502: `while (strLen < srcLenToUse && src[strLen] != 0) ++strLen;` `none` = read outside. -/
def scanLen (src : List Byte) : Nat → Option Nat
  | 0 => some 0
  | n+1 => match src with
    | [] => none
    | b :: t => if b = 0 then some 0 else (scanLen t n).map (· + 1)

/-- GSString.cpp:2508 `stdUStr = txChars.get()`: the units up to the first 0 (the decoder writes one at the end). -/
def cstr (u : List Unit16) : List Unit16 := u.takeWhile (· ≠ 0)

/-- Result of importing a buffer. `written` is the number of units stored in the scratch array of
`strLen + 1` units, not counting the terminating 0. -/
structure Import where
  text : List Unit16
  strLen : Nat
  written : Nat
  deriving DecidableEq

/-- GSString.cpp:2493-2509 `SetStdUStrFromCharBuffer` for `eUTF8` (Windows and macOS branches). -/
def setFromUtf8 (src : List Byte) (srcLenToUse : Nat) : Option Import :=
  if srcLenToUse = 0 then some ⟨[], 0, 0⟩
  else match src with
    | [] => none
    | b :: _ =>
      if b = 0 then some ⟨[], 0, 0⟩
      else match scanLen src srcLenToUse with
        | none => none
        | some strLen =>
          match decode src strLen (strLen + 1) 0 [] with
          | none => none
          | some u => some ⟨cstr u, strLen, u.length⟩

/-- GSString.cpp:2612-2632 `utf32BufferToTXCharBuffer` (units written, without the final 0). -/
def fromUtf32 : List Nat → List Unit16
  | [] => []
  | c :: t => if c = 0 then [] else
      (if c ≤ 0xFFFF then [BitVec.ofNat 16 c]
       else if c ≤ 0x10FFFF then
         [BitVec.ofNat 16 (0xD7C0 + (c >>> 10)), BitVec.ofNat 16 (0xDC00 + (c &&& 0x3FF))]
       else [0x3F]) ++ fromUtf32 t

/-- GSString.cpp:2636 `SURROGATE_OFFSET` as `char32_t`. -/
def surrogateOffset : Nat := 2^32 + 0x10000 - (0xD800 <<< 10) - 0xDC00

/-- GSString.cpp:2638-2670 `txCharBufferToUtf32Buffer`: `len` is `bufElemNum - 1`; `none` = read outside. -/
def toUtf32 : List Unit16 → Nat → Option (List Nat)
  | _, 0 => some []
  | [], _+1 => none
  | u :: t, n+1 =>
    if u = 0 then some []
    else if u.toNat < 0xD800 ∨ u.toNat > 0xDFFF then (toUtf32 t n).map (u.toNat :: ·)
    else if u.toNat < 0xDC00 then
      match t with
      | [] => none
      | v :: t' =>
        if v.toNat ≥ 0xDC00 ∧ v.toNat ≤ 0xDFFF then
          (toUtf32 t' n).map (((u.toNat <<< 10) + v.toNat + surrogateOffset) % 2^32 :: ·)
        else (toUtf32 (v :: t') n).map (0x3F :: ·)
    else (toUtf32 t n).map (0x3F :: ·)

end Verif.Unicode
