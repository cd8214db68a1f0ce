import Verif.Dmx.Float
import Verif.Text.Model

/-!
# Model of real numbers in text: numbers, lists, colours, vectors, matrices

`/repo/src/GSString.cpp:991-994, 2037-2040`, `/repo/src/XmlFileHelper.cpp:250-374, 530-567, 1023-1299, 1798-1818, 2309-2343`.
-/

namespace Verif.Real
open Verif.Str Verif.Text Verif.Dmx

/-- A finite `double`: sign and magnitude (so that -0.0 is different from 0.0). -/
structure Dbl where
  neg : Bool
  mag : ℚ
  deriving DecidableEq, Repr

/-- `printf("%f")`: the magnitude in millionths, rounded to nearest (ties to even). -/
def micro (x : Dbl) : Nat := (rne (x.mag * 1000000)).toNat

/-- Six decimal digits with leading zeros. -/
def pad6 (n : Nat) : List Char :=
  [Char.ofNat (48 + n / 100000 % 10), Char.ofNat (48 + n / 10000 % 10), Char.ofNat (48 + n / 1000 % 10),
   Char.ofNat (48 + n / 100 % 10), Char.ofNat (48 + n / 10 % 10), Char.ofNat (48 + n % 10)]

/-- GSString.cpp:991-994 `operator<<(double)`: `std::to_string`, i.e. `%f` with six decimals ("C" locale). -/
def printReal (x : Dbl) : List Char :=
  (if x.neg then ['-'] else []) ++ natText (micro x / 1000000) ++ '.' :: pad6 (micro x % 1000000)

/-- The power of ten an exponent stands for: "e" or "E", a sign or none, digits.  (Without digits it is no exponent: the power is 1.) -/
def scale : List Char → ℚ
  | [] => 1
  | c :: t => if c = 'e' ∨ c = 'E' then
      match t with
      | '-' :: d => 1 / 10 ^ digitsVal 0 d
      | '+' :: d => 10 ^ digitsVal 0 d
      | d => 10 ^ digitsVal 0 d
    else 1

/-- Digits, optionally followed by a point and digits, optionally followed by an exponent. (Without digits the result is 0.) -/
def decimalVal (t : List Char) : ℚ :=
  match t.dropWhile isDigit with
  | '.' :: r => (digitsVal 0 (t.takeWhile isDigit ++ r.takeWhile isDigit) : ℚ) / 10 ^ (r.takeWhile isDigit).length * scale (r.dropWhile isDigit)
  | r => (digitsVal 0 (t.takeWhile isDigit) : ℚ) * scale r

/-- GSString.cpp:2037-2040 `atof`: blanks, sign, decimal number, correctly rounded. Simplification: hexadecimal numbers, "inf" and "nan" are
not recognised (the number ends there), and there are no numbers above or below the range of `double` (`Fl`). -/
def atof (F : Fl) (s : List Char) : Dbl :=
  match s.dropWhile isSpace with
  | '-' :: t => ⟨true, F.fl (decimalVal t)⟩
  | '+' :: t => ⟨false, F.fl (decimalVal t)⟩
  | t => ⟨false, F.fl (decimalVal t)⟩

/-- XmlFileHelper.cpp:2309-2343 `Deserialize(text, node, doubles)`: the numbers, and whether the error "no comma" was
added. (`none`: loop not finished; does not happen, `Props.fields_finish`.) -/
def deserialize (F : Fl) (s : List Char) : Option (List Dbl × Bool) :=
  (fields ',' (s.length + 1) s).map fun fs => (fs.map (atof F), decide (find s ",".toList = none))

/-- XmlFileHelper.cpp:530-552 `ConvertDoubleArray(values, includeBrackets)`. -/
def writeReals (vs : List Dbl) (brackets : Bool) : List Char :=
  (if brackets then ['{'] else []) ++ joinComma (vs.map printReal) ++ (if brackets then ['}'] else [])

/-- XmlFileHelper.cpp:554-567 `ConvertDoubleArray(text, node, array)` (array starts empty). -/
def readReals (F : Fl) (s : List Char) : Option (Conv (List Dbl)) :=
  if s = [] then some ⟨false, false, []⟩
  else (deserialize F ((s.filter (· ≠ '{')).filter (· ≠ '}'))).map fun r => ⟨true, r.2, r.1⟩

/-- A point or vector. -/
structure V3 where
  x : Dbl
  y : Dbl
  z : Dbl
  deriving DecidableEq, Repr

def zero : Dbl := ⟨false, 0⟩
def one : Dbl := ⟨false, 1⟩

/-- CieColor.cpp:15-21 `CCieColor()`. -/
def white : V3 := ⟨⟨false, 31273 / 100000⟩, ⟨false, 32902 / 100000⟩, ⟨false, 100⟩⟩

/-- XmlFileHelper.cpp:253-256 `ConvertColor`. -/
def writeColor (c : V3) : List Char := printReal c.x ++ ',' :: (printReal c.y ++ ',' :: printReal c.z)

/-- XmlFileHelper.cpp:258-288 `ConvertColor(text, node, color)`; `dflt` is `CCieColor()`. -/
def readColor (F : Fl) (dflt : V3) (s : List Char) : Option (Conv V3) :=
  if s = [] then some ⟨true, false, dflt⟩
  else match deserialize F s with
    | none => none
    | some ([a, b, c], err) => some ⟨true, err, ⟨a, b, c⟩⟩
    | some _ => some ⟨false, true, dflt⟩

/-- One "{a,b,...}" group. -/
def group (fs : List (List Char)) : List Char := '{' :: (joinComma fs ++ ['}'])

/-- XmlFileHelper.cpp:290-303 `ConvertColorArray(colors)`. -/
def writeColors (cs : List V3) : List Char :=
  (cs.map fun c => group [printReal c.x, printReal c.y, printReal c.z]).flatten

/-- The first bracket is removed; `true`: it was missing, an error is added (e.g. XmlFileHelper.cpp:1046-1051). -/
def stripOpen (s : List Char) : List Char × Bool :=
  match s with
  | '{' :: t => (t, false)
  | _ => (s, true)

/-- The last bracket is removed (e.g. XmlFileHelper.cpp:1054-1060). -/
def stripClose (s : List Char) : List Char × Bool :=
  if s.getLast? = some '}' then (s.dropLast, false) else (s, true)

/-- The loop `while ((pos = Find("}{")) > 0) {...}` (e.g. XmlFileHelper.cpp:1132-1150). -/
def groups : Nat → List Char → Option (List (List Char))
  | 0, _ => none
  | fuel+1, s => match find s "}{".toList with
    | some (p+1) => (groups fuel (delete s 0 (p+3))).map (s.take (p+1) :: ·)
    | _ => some [s]

/-- XmlFileHelper.cpp:356-371: one line of the colour array is appended if it has three numbers. -/
def colorLines (F : Fl) : List (List Char) → List V3 × Bool → Option (List V3 × Bool)
  | [], st => some st
  | l :: t, (cs, err) => match deserialize F l with
    | none => none
    | some ([a, b, c], e) => colorLines F t (cs ++ [⟨a, b, c⟩], err || e)
    | some _ => colorLines F t (cs, true)

/-- XmlFileHelper.cpp:303-374 `ConvertColorArray(text, node, array)` (array starts empty). -/
def readColors (F : Fl) (s : List Char) : Option (Conv (List V3)) :=
  if s = [] then some ⟨true, false, []⟩
  else
    let (s1, e1) := stripOpen s
    let (s2, e2) := stripClose s1
    match groups (s2.length + 1) s2 with
    | none => none
    | some ls => (colorLines F ls ([], e1 || e2)).map fun r => ⟨true, r.2, r.1⟩

/-- XmlFileHelper.cpp:1023-1028 `ConvertVector3(vector)`. -/
def writeVector (v : V3) : List Char := group [printReal v.x, printReal v.y, printReal v.z]

/-- XmlFileHelper.cpp:1030-1077 `ConvertVector3(text, node, vector)`. -/
def readVector (F : Fl) (s : List Char) (old : V3) : Option (Conv V3) :=
  if s = [] then some ⟨true, false, ⟨zero, zero, zero⟩⟩
  else
    let (s1, e1) := stripOpen s
    let (s2, e2) := stripClose s1
    match deserialize F s2 with
    | none => none
    | some ([a, b, c], e) => some ⟨true, e1 || e2 || e, ⟨a, b, c⟩⟩
    | some _ => some ⟨false, true, old⟩

/-- `TransformMatrix`: `mat[4][3]`, the rows u, v, w and the offset. -/
structure Mat where
  u : V3
  v : V3
  w : V3
  o : V3
  deriving DecidableEq, Repr

/-- VWTransformMatrix.cpp:70-76: the identity. -/
def Mat.identity : Mat := ⟨⟨one, zero, zero⟩, ⟨zero, one, zero⟩, ⟨zero, zero, one⟩, ⟨zero, zero, zero⟩⟩

/-- XmlFileHelper.cpp:1079-1101 `ConvertMatrix(matrix, fourLines = true)`: GDTF. -/
def writeMatrixGdtf (m : Mat) : List Char :=
  [group [printReal m.u.x, printReal m.u.y, printReal m.u.z, printReal m.o.x],
   group [printReal m.v.x, printReal m.v.y, printReal m.v.z, printReal m.o.y],
   group [printReal m.w.x, printReal m.w.y, printReal m.w.z, printReal m.o.z],
   group ["0".toList, "0".toList, "0".toList, "1".toList]].flatten

/-- XmlFileHelper.cpp:1079-1101 `ConvertMatrix(matrix, fourLines = false)`: MVR. -/
def writeMatrixMvr (m : Mat) : List Char :=
  [group [printReal m.u.x, printReal m.u.y, printReal m.u.z],
   group [printReal m.v.x, printReal m.v.y, printReal m.v.z],
   group [printReal m.w.x, printReal m.w.y, printReal m.w.z],
   group [printReal m.o.x, printReal m.o.y, printReal m.o.z]].flatten

/-- `mat[i][0..2] = ...` -/
def Mat.setRow (m : Mat) (i : Nat) (r : V3) : Mat :=
  match i with
  | 0 => { m with u := r }
  | 1 => { m with v := r }
  | 2 => { m with w := r }
  | _ => { m with o := r }

/-- `mat[3][i] = a` for i < 3. -/
def Mat.setOff (m : Mat) (i : Nat) (a : Dbl) : Mat :=
  match i with
  | 0 => { m with o := { m.o with x := a } }
  | 1 => { m with o := { m.o with y := a } }
  | _ => { m with o := { m.o with z := a } }

/-- XmlFileHelper.cpp:1163-1202: the loop over the lines, starting with line `i`. -/
def matrixLines (F : Fl) : List (List Char) → Nat → Mat × Bool → Option (Mat × Bool)
  | [], _, st => some st
  | l :: t, i, (m, err) => match deserialize F l with
    | none => none
    | some ([a, b, c], e) => matrixLines F t (i+1) (m.setRow i ⟨a, b, c⟩, err || e)
    | some ([a, b, c, d], e) =>
      matrixLines F t (i+1) (if i < 3 then (m.setRow i ⟨a, b, c⟩).setOff i d else m, err || e)
    | some _ => matrixLines F t (i+1) (m, true)

/-- XmlFileHelper.cpp:1103-1205 `ConvertMatrix(text, node, matrix)`. -/
def readMatrix (F : Fl) (s : List Char) (old : Mat) : Option (Conv Mat) :=
  if s = [] then some ⟨true, false, .identity⟩
  else
    let (s1, e1) := stripOpen s
    let (s2, e2) := stripClose s1
    match groups (s2.length + 1) s2 with
    | none => none
    | some ls =>
      if ls.length ≠ 4 then some ⟨false, true, old⟩
      else (matrixLines F ls 0 (old, e1 || e2)).map fun r => ⟨true, r.2, r.1⟩

/-- XmlFileHelper.cpp:1207-1215 `ConvertRotation(matrix)`. -/
def writeRotation (m : Mat) : List Char :=
  [group [printReal m.u.x, printReal m.u.y, printReal m.u.z],
   group [printReal m.v.x, printReal m.v.y, printReal m.v.z],
   group [printReal m.w.x, printReal m.w.y, printReal m.w.z]].flatten

/-- XmlFileHelper.cpp:1273-1295: the loop over the lines; only lines of three numbers. -/
def rotationLines (F : Fl) : List (List Char) → Nat → Mat × Bool → Option (Mat × Bool)
  | [], _, st => some st
  | l :: t, i, (m, err) => match deserialize F l with
    | none => none
    | some ([a, b, c], e) => rotationLines F t (i+1) (m.setRow i ⟨a, b, c⟩, err || e)
    | some _ => rotationLines F t (i+1) (m, true)

/-- XmlFileHelper.cpp:1220-1299 `ConvertRotation(text, node, matrix)`. -/
def readRotation (F : Fl) (s : List Char) (old : Mat) : Option (Conv Mat) :=
  let (s1, e1) := stripOpen s
  let (s2, e2) := stripClose s1
  match groups (s2.length + 1) s2 with
  | none => none
  | some ls =>
    if ls.length ≠ 3 then some ⟨false, true, old⟩
    else (rotationLines F ls 0 (old, e1 || e2)).map fun r => ⟨true, r.2, r.1⟩

/-- XmlFileHelper.cpp:1798-1803 `Convert2DPoint(x, y)`. -/
def writePoint2 (x y : Dbl) : List Char := writeReals [x, y] false

/-- XmlFileHelper.cpp:1806-1822 `Convert2DPoint(text, node, x, y)`. -/
def readPoint2 (F : Fl) (s : List Char) : Option (Conv (Dbl × Dbl)) :=
  match readReals F s with
  | none => none
  | some c => match c.ok, c.val with
    | true, a :: b :: _ => some ⟨true, c.err, (a, b)⟩
    | _, _ => some ⟨false, c.err, (zero, zero)⟩

end Verif.Real
