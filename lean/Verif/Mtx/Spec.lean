import Verif.Mtx.Model
import Mathlib.LinearAlgebra.Matrix.Notation
import Mathlib.LinearAlgebra.Matrix.NonsingularInverse

/-!
# Specification: transformations as homogeneous 4x4 matrices

Textbook linear algebra, from Mathlib.  Points are row vectors `(x, y, z, 1)` multiplied from the left, as in the
GDTF/MVR file format.
-/

namespace Verif.Mtx
open Matrix

variable {K : Type} [Field K]

/-- The homogeneous matrix of a transformation: rows u, v, w, offset. -/
def hom (m : M K) : Matrix (Fin 4) (Fin 4) K :=
  !![m.a00, m.a01, m.a02, 0;
     m.a10, m.a11, m.a12, 0;
     m.a20, m.a21, m.a22, 0;
     m.a30, m.a31, m.a32, 1]

/-- The linear part. -/
def lin (m : M K) : Matrix (Fin 3) (Fin 3) K :=
  !![m.a00, m.a01, m.a02; m.a10, m.a11, m.a12; m.a20, m.a21, m.a22]

/-- The homogeneous row vector of a point. -/
def row (p : P3 K) : Fin 4 → K := ![p.x, p.y, p.z, 1]

/-- Translation by (x, y, z). -/
def T (x y z : K) : Matrix (Fin 4) (Fin 4) K :=
  !![1, 0, 0, 0; 0, 1, 0, 0; 0, 0, 1, 0; x, y, z, 1]

/-- Scaling. -/
def S (x y z : K) : Matrix (Fin 4) (Fin 4) K :=
  !![x, 0, 0, 0; 0, y, 0, 0; 0, 0, z, 0; 0, 0, 0, 1]

/-- Rotation by the angle with cosine `c`, sine `s` about the X axis, for row vectors: (0,1,0) ↦ (0,c,s). -/
def RX (c s : K) : Matrix (Fin 4) (Fin 4) K :=
  !![1, 0, 0, 0; 0, c, s, 0; 0, -s, c, 0; 0, 0, 0, 1]

/-- Rotation about the Y axis: (0,0,1) ↦ (s,0,c). -/
def RY (c s : K) : Matrix (Fin 4) (Fin 4) K :=
  !![c, 0, -s, 0; 0, 1, 0, 0; s, 0, c, 0; 0, 0, 0, 1]

/-- Rotation about the Z axis: (1,0,0) ↦ (c,s,0). -/
def RZ (c s : K) : Matrix (Fin 4) (Fin 4) K :=
  !![c, s, 0, 0; -s, c, 0, 0; 0, 0, 1, 0; 0, 0, 0, 1]

/-- A matrix is a rotation (no scaling, no mirroring). -/
def IsRotation (m : M K) : Prop := lin m * (lin m)ᵀ = 1 ∧ (lin m).det = 1

end Verif.Mtx
