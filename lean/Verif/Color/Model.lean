import Mathlib.Analysis.SpecialFunctions.Pow.Real
import Mathlib.Algebra.Order.Round

/-!
# Model of the colour classes

`/repo/src/RGBColor.cpp`, `/repo/src/CieColor.cpp`.
-/

namespace Verif.Color

/-- RGBColor.h: three `Sint32` components. -/
structure Rgb where
  red : BitVec 32
  green : BitVec 32
  blue : BitVec 32
  deriving DecidableEq, Repr

/-- RGBColor.cpp:74-77 `SetRed`. -/
def setRed (c : Rgb) (v : BitVec 32) : Rgb := { c with red := v }

/-- RGBColor.cpp:84-87 `SetGreen`: `(green << 8) | green` (the shift of a negative number or beyond 31 bits, which
C++17 leaves undefined, is taken as a shift of the bit pattern). -/
def setGreen (c : Rgb) (v : BitVec 32) : Rgb := { c with green := (v <<< 8) ||| v }

/-- RGBColor.cpp:94-97 `SetBlue`. -/
def setBlue (c : Rgb) (v : BitVec 32) : Rgb := { c with blue := v }

/-- RGBColor.cpp:69-92 `GetRed`, `GetGreen`, `GetBlue`. -/
def getRed (c : Rgb) : BitVec 32 := c.red
def getGreen (c : Rgb) : BitVec 32 := c.green
def getBlue (c : Rgb) : BitVec 32 := c.blue

/-- RGBColor.cpp:106-111 `SetColor`. -/
def setColor (_c : Rgb) (r g b : BitVec 32) : Rgb := ⟨r, g, b⟩

/-- RGBColor.cpp:99-104 `GetColor`. -/
def getColor (c : Rgb) : BitVec 32 × BitVec 32 × BitVec 32 := (c.red, c.green, c.blue)

/-- RGBColor.cpp:56-67 `operator==`. -/
def eq (a b : Rgb) : Bool := a.red == b.red && a.green == b.green && a.blue == b.blue

/-- Conversion of a real number to an integer: towards zero. -/
noncomputable def trunc (x : ℝ) : Int := if 0 ≤ x then ⌊x⌋ else ⌈x⌉

/-- RGBColor.cpp:34-43, one component of the gradient constructor (exact arithmetic). -/
noncomputable def gradient (left right : Int) (percent : ℝ) : Int :=
  trunc (((right - left : Int) : ℝ) * (percent / 100) + left)

/-- CieColor.h: x, y and luminance. -/
structure Cie where
  x : ℝ
  y : ℝ
  Y : ℝ

/-- CieColor.cpp:31-60 constructor from an RGB colour (exact arithmetic). -/
noncomputable def ofRgb (R G B : Int) : Cie :=
  let r : ℝ := R / 255
  let g : ℝ := G / 255
  let b : ℝ := B / 255
  let x := 0.412424 * r + 0.357579 * g + 0.180464 * b
  let y := 0.212656 * r + 0.715158 * g + 0.0721856 * b
  let z := 0.0193324 * r + 0.119193 * g + 0.950444 * b
  if |x| < 0.000001 ∨ |y| < 0.000001 ∨ |z| < 0.000001 then ⟨0, 0, 0⟩
  else ⟨x / (x + y + z), y / (x + y + z), y * 100⟩

/-- CieColor.cpp:108-113: the sRGB transfer function. -/
noncomputable def gamma (v : ℝ) : ℝ := if v > 0.0031308 then 1.055 * v ^ ((1 : ℝ) / 2.4) - 0.055 else 12.92 * v

/-- CieColor.cpp:117-119: clamp between 0 and 1. -/
noncomputable def clamp (v : ℝ) : ℝ :=
  let v := if v < 0 then 0 else v
  if v > 1 then 1 else v

/-- CieColor.cpp:83-129 `GetRGBColor` (exact arithmetic). -/
noncomputable def toRgb (c : Cie) : Int × Int × Int :=
  let xyz : ℝ × ℝ × ℝ :=
    if |c.y| < 0.000001 then (0, 0, 0)
    else
      let Ys := c.Y / 100
      ((c.x * Ys) / c.y, Ys, ((1 - c.x - c.y) * Ys) / c.y)
  let r := xyz.1 * 3.24071 + xyz.2.1 * (-1.53726) + xyz.2.2 * (-0.498571)
  let g := xyz.1 * (-0.969258) + xyz.2.1 * 1.87599 + xyz.2.2 * 0.0415557
  let b := xyz.1 * 0.0556352 + xyz.2.1 * (-0.203996) + xyz.2.2 * 1.05707
  (trunc (clamp (gamma r) * 255), trunc (clamp (gamma g) * 255), trunc (clamp (gamma b) * 255))

end Verif.Color
