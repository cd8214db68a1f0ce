import Mathlib.Algebra.Order.Field.Basic
import Mathlib.Algebra.Order.Group.Abs

/-!
# Model of the transformation matrices

`/repo/src/VWTransformMatrix.cpp`, `/repo/src/VWPoint3D.cpp:246-326`.  Numbers are elements of an arbitrary
linearly ordered field `K` (exact arithmetic; rounding is not modelled).  Functions that take an angle in degrees
take its cosine and sine instead (`ang = angleDeg * kRadiansPerDegree; c = cos(ang); s = sin(ang)` is the common
prefix of all of them).
-/

namespace Verif.Mtx

/-- VWPoint3D: three coordinates. -/
structure P3 (K : Type) where
  x : K
  y : K
  z : K
  deriving DecidableEq, Repr

/-- VWPoint2D: two coordinates. -/
structure P2 (K : Type) where
  x : K
  y : K
  deriving DecidableEq, Repr

/-- TransformMatrix `mat[4][3]`: `aij` is `mat[i][j]`; rows 0-2 are the u, v, w vectors, row 3 the offset. -/
structure M (K : Type) where
  a00 : K
  a01 : K
  a02 : K
  a10 : K
  a11 : K
  a12 : K
  a20 : K
  a21 : K
  a22 : K
  a30 : K
  a31 : K
  a32 : K
  deriving DecidableEq, Repr

/-- Utility.cpp:31-51 / GDTFPrefix STransformMatrix: the public matrix structure. -/
structure SMat (K : Type) where
  ux : K
  uy : K
  uz : K
  vx : K
  vy : K
  vz : K
  wx : K
  wy : K
  wz : K
  ox : K
  oy : K
  oz : K
  deriving DecidableEq, Repr

section
variable {K : Type}

/-- Utility.cpp:31-40 `ConvertMatrix(STransformMatrix, VWTransformMatrix)`. -/
def ofS (m : SMat K) : M K :=
  ⟨m.ux, m.uy, m.uz, m.vx, m.vy, m.vz, m.wx, m.wy, m.wz, m.ox, m.oy, m.oz⟩

/-- Utility.cpp:42-51 `ConvertMatrix(VWTransformMatrix, STransformMatrix)`. -/
def toS (m : M K) : SMat K :=
  { ux := m.a00, uy := m.a01, uz := m.a02, vx := m.a10, vy := m.a11, vz := m.a12,
    wx := m.a20, wy := m.a21, wz := m.a22, ox := m.a30, oy := m.a31, oz := m.a32 }

/-- VWTransformMatrix.cpp:234-282 `GetUVector` … `GetOffset`. -/
def M.u (m : M K) : P3 K := ⟨m.a00, m.a01, m.a02⟩
def M.v (m : M K) : P3 K := ⟨m.a10, m.a11, m.a12⟩
def M.w (m : M K) : P3 K := ⟨m.a20, m.a21, m.a22⟩
def M.off (m : M K) : P3 K := ⟨m.a30, m.a31, m.a32⟩

/-- VWTransformMatrix.cpp:203-217 `SetMatrix(u, v, w, offset, bTransponse)`. -/
def setMatrix (u v w o : P3 K) (transpose : Bool) : M K :=
  if !transpose then ⟨u.x, u.y, u.z, v.x, v.y, v.z, w.x, w.y, w.z, o.x, o.y, o.z⟩
  else ⟨u.x, v.x, w.x, u.y, v.y, w.y, u.z, v.z, w.z, o.x, o.y, o.z⟩

end

section
variable {K : Type} [Field K]

/-- VWTransformMatrix.cpp:70-76 `SetIdentity`. -/
def identity : M K := ⟨1, 0, 0, 0, 1, 0, 0, 0, 1, 0, 0, 0⟩

/-- VWTransformMatrix.cpp:219-223 `SetMatrix(offset)`. -/
def setOffset (o : P3 K) : M K := { (identity : M K) with a30 := o.x, a31 := o.y, a32 := o.z }

/-- VWTransformMatrix.cpp:225-231 `SetMatrix(scaleX, scaleY, scaleZ)`. -/
def setScale (sx sy sz : K) : M K := ⟨sx, 0, 0, 0, sy, 0, 0, 0, sz, 0, 0, 0⟩

/-- VWTransformMatrix.cpp:715-734 `operator*=` (and 709-713 `operator*`): `t *= m`. -/
def mul (t m : M K) : M K :=
  { a00 := m.a00 * t.a00 + m.a10 * t.a01 + m.a20 * t.a02
    a01 := m.a01 * t.a00 + m.a11 * t.a01 + m.a21 * t.a02
    a02 := m.a02 * t.a00 + m.a12 * t.a01 + m.a22 * t.a02
    a10 := m.a00 * t.a10 + m.a10 * t.a11 + m.a20 * t.a12
    a11 := m.a01 * t.a10 + m.a11 * t.a11 + m.a21 * t.a12
    a12 := m.a02 * t.a10 + m.a12 * t.a11 + m.a22 * t.a12
    a20 := m.a00 * t.a20 + m.a10 * t.a21 + m.a20 * t.a22
    a21 := m.a01 * t.a20 + m.a11 * t.a21 + m.a21 * t.a22
    a22 := m.a02 * t.a20 + m.a12 * t.a21 + m.a22 * t.a22
    a30 := m.a00 * t.a30 + m.a10 * t.a31 + m.a20 * t.a32 + m.a30
    a31 := m.a01 * t.a30 + m.a11 * t.a31 + m.a21 * t.a32 + m.a31
    a32 := m.a02 * t.a30 + m.a12 * t.a31 + m.a22 * t.a32 + m.a32 }

/-- VWTransformMatrix.cpp:568-575 `PointTransform(VWPoint3D)` (same formulas: 623-631 `TransformPoint`,
702-707 `operator*`). -/
def pointTransform (m : M K) (p : P3 K) : P3 K :=
  { x := p.x * m.a00 + p.y * m.a10 + p.z * m.a20 + m.a30
    y := p.x * m.a01 + p.y * m.a11 + p.z * m.a21 + m.a31
    z := p.x * m.a02 + p.y * m.a12 + p.z * m.a22 + m.a32 }

/-- VWTransformMatrix.cpp:559-566 `PointTransform(VWPoint2D)`. -/
def pointTransform2 (m : M K) (p : P2 K) : P2 K :=
  { x := p.x * m.a00 + p.y * m.a10 + 0 * m.a20 + m.a30
    y := p.x * m.a01 + p.y * m.a11 + 0 * m.a21 + m.a31 }

/-- VWTransformMatrix.cpp:613-621 `TransformPoint(VWPoint2D&)`: the point is changed in place, the first
coordinate being saved before. -/
def transformPoint2 (m : M K) (p : P2 K) : P2 K :=
  let inPtX := p.x
  let p := { p with x := inPtX * m.a00 + p.y * m.a10 + m.a30 }
  { p with y := inPtX * m.a01 + p.y * m.a11 + m.a31 }

/-- VWTransformMatrix.cpp:623-631 `TransformPoint(VWPoint3D&)`: in place, with the saved coordinates. -/
def transformPoint (m : M K) (p : P3 K) : P3 K :=
  let inPtX := p.x
  let inPtY := p.y
  let p := { p with x := inPtX * m.a00 + inPtY * m.a10 + p.z * m.a20 + m.a30 }
  let p := { p with y := inPtX * m.a01 + inPtY * m.a11 + p.z * m.a21 + m.a31 }
  { p with z := inPtX * m.a02 + inPtY * m.a12 + p.z * m.a22 + m.a32 }

/-- VWTransformMatrix.cpp:595-611 `InversePointTransform(VWPoint3D)` (648-662 `InverseTransformPoint`). -/
def inversePointTransform (m : M K) (p : P3 K) : P3 K :=
  let dx := p.x - m.a30
  let dy := p.y - m.a31
  let dz := p.z - m.a32
  { x := dx * m.a00 + dy * m.a01 + dz * m.a02
    y := dx * m.a10 + dy * m.a11 + dz * m.a12
    z := dx * m.a20 + dy * m.a21 + dz * m.a22 }

/-- VWTransformMatrix.cpp:664-680 `PointsTransform`: every point in turn. -/
def pointsTransform (m : M K) (ps : List (P3 K)) : List (P3 K) := ps.map (transformPoint m)

/-- VWTransformMatrix.cpp:682-698 `InversePointsTransform`. -/
def inversePointsTransform (m : M K) (ps : List (P3 K)) : List (P3 K) := ps.map (inversePointTransform m)

/-- VWTransformMatrix.cpp:381-386 `TranslateAfter`. -/
def translateAfter (m : M K) (x y z : K) : M K :=
  { m with a30 := m.a30 + x, a31 := m.a31 + y, a32 := m.a32 + z }

/-- VWTransformMatrix.cpp:393-398 `TranslateBefore`. -/
def translateBefore (m : M K) (x y z : K) : M K :=
  { m with
    a30 := m.a30 + (m.a00 * x + m.a10 * y + m.a20 * z)
    a31 := m.a31 + (m.a01 * x + m.a11 * y + m.a21 * z)
    a32 := m.a32 + (m.a02 * x + m.a12 * y + m.a22 * z) }

/-- VWTransformMatrix.cpp:405-425 `RotateXAfter`. -/
def rotateXAfter (m : M K) (c s : K) : M K :=
  { m with
    a01 := m.a01 * c - m.a02 * s, a11 := m.a11 * c - m.a12 * s
    a21 := m.a21 * c - m.a22 * s, a31 := m.a31 * c - m.a32 * s
    a02 := m.a01 * s + m.a02 * c, a12 := m.a11 * s + m.a12 * c
    a22 := m.a21 * s + m.a22 * c, a32 := m.a31 * s + m.a32 * c }

/-- VWTransformMatrix.cpp:427-447 `RotateYAfter`. -/
def rotateYAfter (m : M K) (c s : K) : M K :=
  { m with
    a00 := m.a00 * c + m.a02 * s, a10 := m.a10 * c + m.a12 * s
    a20 := m.a20 * c + m.a22 * s, a30 := m.a30 * c + m.a32 * s
    a02 := -m.a00 * s + m.a02 * c, a12 := -m.a10 * s + m.a12 * c
    a22 := -m.a20 * s + m.a22 * c, a32 := -m.a30 * s + m.a32 * c }

/-- VWTransformMatrix.cpp:449-469 `RotateZAfter`. -/
def rotateZAfter (m : M K) (c s : K) : M K :=
  { m with
    a00 := m.a00 * c - m.a01 * s, a10 := m.a10 * c - m.a11 * s
    a20 := m.a20 * c - m.a21 * s, a30 := m.a30 * c - m.a31 * s
    a01 := m.a00 * s + m.a01 * c, a11 := m.a10 * s + m.a11 * c
    a21 := m.a20 * s + m.a21 * c, a31 := m.a30 * s + m.a31 * c }

/-- VWTransformMatrix.cpp:471-492 `RotateXBefore`. -/
def rotateXBefore (m : M K) (c s : K) : M K :=
  { m with
    a10 := m.a10 * c + m.a20 * s, a11 := m.a11 * c + m.a21 * s, a12 := m.a12 * c + m.a22 * s
    a20 := -m.a10 * s + m.a20 * c, a21 := -m.a11 * s + m.a21 * c, a22 := -m.a12 * s + m.a22 * c }

/-- VWTransformMatrix.cpp:494-515 `RotateYBefore`. -/
def rotateYBefore (m : M K) (c s : K) : M K :=
  { m with
    a00 := m.a00 * c - m.a20 * s, a01 := m.a01 * c - m.a21 * s, a02 := m.a02 * c - m.a22 * s
    a20 := m.a00 * s + m.a20 * c, a21 := m.a01 * s + m.a21 * c, a22 := m.a02 * s + m.a22 * c }

/-- VWTransformMatrix.cpp:517-534 `RotateZBefore`. -/
def rotateZBefore (m : M K) (c s : K) : M K :=
  { m with
    a00 := m.a00 * c + m.a10 * s, a01 := m.a01 * c + m.a11 * s, a02 := m.a02 * c + m.a12 * s
    a10 := -m.a00 * s + m.a10 * c, a11 := -m.a01 * s + m.a11 * c, a12 := -m.a02 * s + m.a12 * c }

/-- VWTransformMatrix.cpp:536-541 `ScaleAfter`. -/
def scaleAfter (m : M K) (sx sy sz : K) : M K :=
  { a00 := m.a00 * sx, a10 := m.a10 * sx, a20 := m.a20 * sx, a30 := m.a30 * sx
    a01 := m.a01 * sy, a11 := m.a11 * sy, a21 := m.a21 * sy, a31 := m.a31 * sy
    a02 := m.a02 * sz, a12 := m.a12 * sz, a22 := m.a22 * sz, a32 := m.a32 * sz }

/-- VWTransformMatrix.cpp:543-550 `RotateRoundPoint`. -/
def rotateRoundPoint (m : M K) (p : P3 K) (cx sx cy sy cz sz : K) : M K :=
  let m := translateAfter m (-p.x) (-p.y) (-p.z)
  let m := rotateXAfter m cx sx
  let m := rotateYAfter m cy sy
  let m := rotateZAfter m cz sz
  translateAfter m p.x p.y p.z

/-- VWTransformMatrix.cpp:552-557 `ScaleWithCenter`. -/
def scaleWithCenter (m : M K) (p : P3 K) (sx sy sz : K) : M K :=
  let m := translateAfter m (-p.x) (-p.y) (-p.z)
  let m := scaleAfter m sx sy sz
  translateAfter m p.x p.y p.z

/-- VWPoint3D.cpp:302-307 `Cross`. -/
def cross (a b : P3 K) : P3 K :=
  ⟨a.y * b.z - a.z * b.y, a.z * b.x - a.x * b.z, a.x * b.y - a.y * b.x⟩

/-- VWPoint3D.cpp:310-313 `DotProduct`. -/
def dot (a b : P3 K) : K := a.x * b.x + a.y * b.y + a.z * b.z

/-- VWTransformMatrix.cpp:372-379 `FlipMatrix`. -/
def flipMatrix (m : M K) : M K :=
  { m with a00 := m.a10, a01 := m.a11, a02 := m.a12, a10 := m.a00, a11 := m.a01, a12 := m.a02 }

/-- VWTransformMatrix.cpp:100-132 `SetRotation(angle, axis)` after the axis has been normalised: `n` the unit
axis, `c`, `s` cosine and sine of half the angle. -/
def setRotationUnit (n : P3 K) (c s : K) : M K :=
  let dA := n.x * s
  let dM := n.y * s
  let dN := n.z * s
  let dR := c
  { a00 := dA * dA - dM * dM - dN * dN + dR * dR
    a11 := dM * dM - dA * dA - dN * dN + dR * dR
    a22 := dN * dN - dM * dM - dA * dA + dR * dR
    a01 := 2 * (dA * dM - dN * dR)
    a10 := 2 * (dA * dM + dN * dR)
    a02 := 2 * (dA * dN + dM * dR)
    a20 := 2 * (dA * dN - dM * dR)
    a12 := 2 * (dN * dM - dA * dR)
    a21 := 2 * (dN * dM + dA * dR)
    a30 := 0, a31 := 0, a32 := 0 }

end

section
variable {K : Type} [Field K] [LinearOrder K]

/-- VWPoint3D.cpp:316-326 `Normalize`, `len` standing for `Magnitude()` = √(x²+y²+z²). -/
def normalize (len : K) (p : P3 K) : P3 K :=
  if len > 0 then ⟨p.x / len, p.y / len, p.z / len⟩ else p

/-- VWTransformMatrix.cpp:100-152 `SetRotation(angle, axis)`. -/
def setRotation (len : K) (axis : P3 K) (c s : K) : M K := setRotationUnit (normalize len axis) c s

/-- VWTransformMatrix.cpp:300-310: one term of the determinant is added to the positive or the negative sum. -/
def addTerm (pn : K × K) (t : K) : K × K := if t ≥ 0 then (pn.1 + t, pn.2) else (pn.1, pn.2 + t)

/-- VWTransformMatrix.cpp:303-309: the six terms. -/
def terms (m : M K) : List K :=
  [m.a00 * m.a11 * m.a22, m.a01 * m.a12 * m.a20, m.a02 * m.a10 * m.a21,
   -(m.a20 * m.a11 * m.a02), -(m.a21 * m.a12 * m.a00), -(m.a22 * m.a10 * m.a01)]

/-- VWTransformMatrix.cpp:315-318, 323-327: the 3x3 part is transposed, the offset stays. -/
def byeBye (m : M K) : M K :=
  { m with a01 := m.a10, a10 := m.a01, a02 := m.a20, a20 := m.a02, a21 := m.a12, a12 := m.a21 }

/-- VWTransformMatrix.cpp:298-349 `Invert`. -/
def invert (m : M K) : M K :=
  let pn := (terms m).foldl addTerm (0, 0)
  let det := pn.1 + pn.2
  let mag := pn.1 - pn.2
  if |mag| < 1 / 100000000 then byeBye m
  else
    if |det / mag| < 1 / 100000000 then byeBye m
    else
      let d00 := (m.a11 * m.a22 - m.a21 * m.a12) / det
      let d01 := -((m.a01 * m.a22 - m.a21 * m.a02) / det)
      let d02 := (m.a01 * m.a12 - m.a11 * m.a02) / det
      let d10 := -((m.a10 * m.a22 - m.a20 * m.a12) / det)
      let d11 := (m.a00 * m.a22 - m.a20 * m.a02) / det
      let d12 := -((m.a00 * m.a12 - m.a10 * m.a02) / det)
      let d20 := (m.a10 * m.a21 - m.a20 * m.a11) / det
      let d21 := -((m.a00 * m.a21 - m.a20 * m.a01) / det)
      let d22 := (m.a00 * m.a11 - m.a10 * m.a01) / det
      ⟨d00, d01, d02, d10, d11, d12, d20, d21, d22,
       -(m.a30 * d00 + m.a31 * d10 + m.a32 * d20),
       -(m.a30 * d01 + m.a31 * d11 + m.a32 * d21),
       -(m.a30 * d02 + m.a31 * d12 + m.a32 * d22)⟩

/-- VWTransformMatrix.cpp:363-370 `IsFlipped`. -/
def isFlipped (m : M K) : Bool := dot m.u (cross m.v m.w) < 1 / 10000

/-- VWTransformMatrix.cpp:78-98: the `EQUAL` macro. -/
def equalish (a b : K) : Bool := |a - b| < 1 / 10000

/-- VWTransformMatrix.cpp:90-98 `IsEqual` (and `operator==`, 64-68). -/
def isEqual (m n : M K) : Bool :=
  equalish m.a00 n.a00 && equalish m.a01 n.a01 && equalish m.a02 n.a02 &&
  equalish m.a10 n.a10 && equalish m.a11 n.a11 && equalish m.a12 n.a12 &&
  equalish m.a20 n.a20 && equalish m.a21 n.a21 && equalish m.a22 n.a22 &&
  equalish m.a30 n.a30 && equalish m.a31 n.a31 && equalish m.a32 n.a32

/-- VWTransformMatrix.cpp:78-88 `IsIdentity`. -/
def isIdentity (m : M K) : Bool :=
  equalish m.a00 1 && equalish m.a01 0 && equalish m.a02 0 &&
  equalish m.a10 0 && equalish m.a11 1 && equalish m.a12 0 &&
  equalish m.a20 0 && equalish m.a21 0 && equalish m.a22 1 &&
  equalish m.a30 0 && equalish m.a31 0 && equalish m.a32 0

end

end Verif.Mtx
