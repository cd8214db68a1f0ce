import Verif.Mtx.Spec
import Mathlib.Tactic.Ring
import Mathlib.Tactic.FieldSimp
import Mathlib.Tactic.Linarith
import Mathlib.Tactic.LinearCombination
import Mathlib.Tactic.FinCases
import Mathlib.Tactic.NormNum
import Mathlib.LinearAlgebra.Matrix.Determinant.Basic
import Mathlib.Analysis.SpecialFunctions.Trigonometric.Basic

/-!
# C35: matrix algebra
-/

namespace Verif.Mtx
open Matrix

set_option linter.unusedSectionVars false

variable {K : Type} [Field K]

/-! ### The homogeneous representation is faithful -/

theorem hom_injective {a b : M K} (h : hom a = hom b) : a = b := by
  cases a; cases b
  have e := fun i j => congrFun (congrFun h i) j
  have h00 := e 0 0; have h01 := e 0 1; have h02 := e 0 2
  have h10 := e 1 0; have h11 := e 1 1; have h12 := e 1 2
  have h20 := e 2 0; have h21 := e 2 1; have h22 := e 2 2
  have h30 := e 3 0; have h31 := e 3 1; have h32 := e 3 2
  simp [hom] at h00 h01 h02 h10 h11 h12 h20 h21 h22 h30 h31 h32
  simp_all

theorem row_injective {a b : P3 K} (h : row a = row b) : a = b := by
  cases a; cases b
  have h0 := congrFun h 0; have h1 := congrFun h 1; have h2 := congrFun h 2
  simp [row] at h0 h1 h2
  simp_all

/-- The determinant of the linear part, written out. -/
theorem det_lin (m : M K) : (lin m).det =
    m.a00 * m.a11 * m.a22 - m.a00 * m.a12 * m.a21 - m.a01 * m.a10 * m.a22 + m.a01 * m.a12 * m.a20 +
    m.a02 * m.a10 * m.a21 - m.a02 * m.a11 * m.a20 := by
  rw [Matrix.det_fin_three]
  simp [lin]

macro "mtx" : tactic =>
  `(tactic| (ext i j; fin_cases i <;> fin_cases j <;> simp [hom, lin, T, S, RX, RY, RZ, Matrix.mul_apply, Fin.sum_univ_succ] <;> ring))

/-! ### Products and points -/

/-- The product of two transformations is the product of their homogeneous matrices. -/
theorem C35_product (a b : M K) : hom (mul a b) = hom a * hom b := by
  unfold mul; mtx

/-- Transforming a point multiplies its row vector with the matrix. -/
theorem C35_point (m : M K) (p : P3 K) : row (pointTransform m p) = row p ᵥ* hom m := by
  ext i
  fin_cases i <;> simp [row, hom, pointTransform, Matrix.vecMul, dotProduct, Fin.sum_univ_succ] <;> ring

/-- Transforming by a product is transforming by the first factor and then by the second. -/
theorem C35_compose (a b : M K) (p : P3 K) :
    pointTransform (mul a b) p = pointTransform b (pointTransform a p) := by
  apply row_injective
  rw [C35_point, C35_point, C35_point, C35_product, Matrix.vecMul_vecMul]

/-- Products are associative and the identity matrix is neutral. -/
theorem C35_monoid (a b c : M K) :
    mul (mul a b) c = mul a (mul b c) ∧ mul identity a = a ∧ mul a identity = a := by
  refine ⟨hom_injective ?_, hom_injective ?_, hom_injective ?_⟩
  · rw [C35_product, C35_product, C35_product, C35_product, Matrix.mul_assoc]
  · have : hom (identity : M K) = 1 := by unfold identity; mtx
    rw [C35_product, this, Matrix.one_mul]
  · have : hom (identity : M K) = 1 := by unfold identity; mtx
    rw [C35_product, this, Matrix.mul_one]

/-- The two ways to transform points agree, in three and in two dimensions, and lists are transformed point by
point. -/
theorem C35_in_place (m : M K) (p : P3 K) (q : P2 K) (ps : List (P3 K)) :
    transformPoint m p = pointTransform m p ∧ transformPoint2 m q = pointTransform2 m q ∧
    pointsTransform m ps = ps.map (pointTransform m) := by
  refine ⟨rfl, ?_, rfl⟩
  simp [transformPoint2, pointTransform2]

/-- Transforming a plane point is transforming the space point with z = 0 and looking at it from above. -/
theorem C35_point2 (m : M K) (q : P2 K) :
    pointTransform2 m q = ⟨(pointTransform m ⟨q.x, q.y, 0⟩).x, (pointTransform m ⟨q.x, q.y, 0⟩).y⟩ := rfl

example : pointTransform (⟨2, 0, 0, 0, 3, 0, 0, 0, 4, 10, 20, 30⟩ : M ℚ) ⟨1, 1, 1⟩ = ⟨12, 23, 34⟩ := by
  norm_num [pointTransform]

/-! ### Translate, scale and rotate -/

/-- `TranslateAfter`/`TranslateBefore` multiply with the translation on the right / left. -/
theorem C35_translate (m : M K) (x y z : K) :
    hom (translateAfter m x y z) = hom m * T x y z ∧ hom (translateBefore m x y z) = T x y z * hom m := by
  constructor
  · unfold translateAfter; mtx
  · unfold translateBefore; mtx

/-- `ScaleAfter` multiplies with the scaling on the right. -/
theorem C35_scale (m : M K) (x y z : K) : hom (scaleAfter m x y z) = hom m * S x y z := by
  unfold scaleAfter; mtx

/-- `RotateX/Y/ZAfter` multiply with the rotation on the right. -/
theorem C35_rotate_after (m : M K) (c s : K) :
    hom (rotateXAfter m c s) = hom m * RX c s ∧ hom (rotateYAfter m c s) = hom m * RY c s ∧
    hom (rotateZAfter m c s) = hom m * RZ c s := by
  refine ⟨?_, ?_, ?_⟩
  · unfold rotateXAfter; mtx
  · unfold rotateYAfter; mtx
  · unfold rotateZAfter; mtx

/-- `RotateX/Y/ZBefore` multiply with the rotation on the left. -/
theorem C35_rotate_before (m : M K) (c s : K) :
    hom (rotateXBefore m c s) = RX c s * hom m ∧ hom (rotateYBefore m c s) = RY c s * hom m ∧
    hom (rotateZBefore m c s) = RZ c s * hom m := by
  refine ⟨?_, ?_, ?_⟩
  · unfold rotateXBefore; mtx
  · unfold rotateYBefore; mtx
  · unfold rotateZBefore; mtx

/-- Setting a translation or a scaling. -/
theorem C35_set (x y z : K) : hom (setOffset ⟨x, y, z⟩) = T x y z ∧ hom (setScale x y z) = S x y z := by
  constructor
  · unfold setOffset identity; mtx
  · unfold setScale; mtx

/-- Rotating about a point is moving it to the origin, rotating about X, Y, Z and moving back; the point itself
stays where it was. -/
theorem C35_rotate_round (m : M K) (p : P3 K) (cx sx cy sy cz sz : K) :
    hom (rotateRoundPoint m p cx sx cy sy cz sz) =
      hom m * T (-p.x) (-p.y) (-p.z) * RX cx sx * RY cy sy * RZ cz sz * T p.x p.y p.z ∧
    pointTransform (rotateRoundPoint identity p cx sx cy sy cz sz) p = p := by
  constructor
  · unfold rotateRoundPoint
    simp only []
    rw [(C35_translate _ _ _ _).1, (C35_rotate_after _ _ _).2.2, (C35_rotate_after _ _ _).2.1,
      (C35_rotate_after _ _ _).1, (C35_translate _ _ _ _).1]
  · cases p
    simp [rotateRoundPoint, translateAfter, rotateXAfter, rotateYAfter, rotateZAfter, identity, pointTransform]
    refine ⟨?_, ?_, ?_⟩ <;> ring

/-- Scaling with a centre leaves the centre where it was. -/
theorem C35_scale_center (m : M K) (p : P3 K) (sx sy sz : K) :
    hom (scaleWithCenter m p sx sy sz) = hom m * T (-p.x) (-p.y) (-p.z) * S sx sy sz * T p.x p.y p.z ∧
    pointTransform (scaleWithCenter identity p sx sy sz) p = p := by
  constructor
  · unfold scaleWithCenter
    simp only []
    rw [(C35_translate _ _ _ _).1, C35_scale, (C35_translate _ _ _ _).1]
  · cases p
    simp [scaleWithCenter, translateAfter, scaleAfter, identity, pointTransform]

example : rotateZAfter (identity : M ℚ) (3/5) (4/5) = ⟨3/5, 4/5, 0, -4/5, 3/5, 0, 0, 0, 1, 0, 0, 0⟩ := by
  norm_num [rotateZAfter, identity]

/-- In degrees over the reals: turning by `a` and then by `b` about the same axis is turning by `a + b`, and
turning back undoes it. -/
theorem C35_rotate_angles (m : M ℝ) (a b : ℝ) :
    rotateZAfter (rotateZAfter m (Real.cos a) (Real.sin a)) (Real.cos b) (Real.sin b) =
      rotateZAfter m (Real.cos (a + b)) (Real.sin (a + b)) ∧
    rotateXAfter (rotateXAfter m (Real.cos a) (Real.sin a)) (Real.cos b) (Real.sin b) =
      rotateXAfter m (Real.cos (a + b)) (Real.sin (a + b)) ∧
    rotateYAfter (rotateYAfter m (Real.cos a) (Real.sin a)) (Real.cos b) (Real.sin b) =
      rotateYAfter m (Real.cos (a + b)) (Real.sin (a + b)) ∧
    rotateZAfter m (Real.cos 0) (Real.sin 0) = m := by
  refine ⟨?_, ?_, ?_, ?_⟩
  · rw [Real.cos_add, Real.sin_add]; unfold rotateZAfter; simp only [M.mk.injEq]; refine ⟨?_, ?_, ?_, ?_, ?_, ?_, ?_, ?_, ?_, ?_, ?_, ?_⟩ <;> first | rfl | trivial | ring
  · rw [Real.cos_add, Real.sin_add]; unfold rotateXAfter; simp only [M.mk.injEq]; refine ⟨?_, ?_, ?_, ?_, ?_, ?_, ?_, ?_, ?_, ?_, ?_, ?_⟩ <;> first | rfl | trivial | ring
  · rw [Real.cos_add, Real.sin_add]; unfold rotateYAfter; simp only [M.mk.injEq]; refine ⟨?_, ?_, ?_, ?_, ?_, ?_, ?_, ?_, ?_, ?_, ?_, ?_⟩ <;> first | rfl | trivial | ring
  · simp [rotateZAfter]

/-! ### Rotation about an axis -/

/-- `SetRotation` about a unit axis gives a rotation that keeps the axis fixed and does not move the origin. -/
theorem C35_setRotation (n : P3 K) (c s : K) (hn : n.x * n.x + n.y * n.y + n.z * n.z = 1) (hc : c * c + s * s = 1) :
    IsRotation (setRotationUnit n c s) ∧ pointTransform (setRotationUnit n c s) n = n ∧
    (setRotationUnit n c s).off = ⟨0, 0, 0⟩ := by
  obtain ⟨x, y, z⟩ := n
  simp only at hn
  have hq : (x * s) * (x * s) + (y * s) * (y * s) + (z * s) * (z * s) + c * c = 1 := by
    linear_combination s * s * hn + hc
  refine ⟨?_, ?_, rfl⟩
  · unfold setRotationUnit IsRotation
    simp only
    generalize x * s = A at *
    generalize y * s = B at *
    generalize z * s = N at *
    have h2 : (A * A + B * B + N * N + c * c) * (A * A + B * B + N * N + c * c) = 1 := by rw [hq]; ring
    have h3 : (A * A + B * B + N * N + c * c) * ((A * A + B * B + N * N + c * c) * (A * A + B * B + N * N + c * c)) = 1 := by
      rw [hq]; ring
    constructor
    · ext i j
      fin_cases i <;> fin_cases j <;> simp [lin, Matrix.mul_apply, Fin.sum_univ_succ] <;>
        first
        | ring1
        | linear_combination h2
    · rw [Matrix.det_fin_three]
      simp [lin]
      linear_combination h3
  · unfold setRotationUnit pointTransform
    simp only [P3.mk.injEq]
    refine ⟨?_, ?_, ?_⟩
    · linear_combination x * s * s * hn + x * hc
    · linear_combination y * s * s * hn + y * hc
    · linear_combination z * s * s * hn + z * hc

example : IsRotation (setRotationUnit ⟨2/3, 1/3, 2/3⟩ (3/5) (4/5) : M ℚ) :=
  (C35_setRotation ⟨2/3, 1/3, 2/3⟩ (3/5) (4/5) (by norm_num) (by norm_num)).1

/-- Over the reals, for every axis that is not zero and every angle. -/
theorem C35_setRotation_real (p : P3 ℝ) (a : ℝ) (hp : p ≠ ⟨0, 0, 0⟩) :
    IsRotation (setRotation (Real.sqrt (p.x * p.x + p.y * p.y + p.z * p.z)) p (Real.cos (a / 2)) (Real.sin (a / 2))) ∧
    pointTransform (setRotation (Real.sqrt (p.x * p.x + p.y * p.y + p.z * p.z)) p (Real.cos (a / 2)) (Real.sin (a / 2))) p = p := by
  obtain ⟨x, y, z⟩ := p
  have hpos : 0 < x * x + y * y + z * z := by
    rcases eq_or_ne x 0 with hx | hx
    · rcases eq_or_ne y 0 with hy | hy
      · rcases eq_or_ne z 0 with hz | hz
        · exact absurd (by rw [hx, hy, hz]) hp
        · have := mul_self_pos.2 hz; nlinarith [mul_self_nonneg x, mul_self_nonneg y]
      · have := mul_self_pos.2 hy; nlinarith [mul_self_nonneg x, mul_self_nonneg z]
    · have := mul_self_pos.2 hx; nlinarith [mul_self_nonneg y, mul_self_nonneg z]
  simp only
  have hl : 0 < Real.sqrt (x * x + y * y + z * z) := Real.sqrt_pos.2 hpos
  have hl2 : Real.sqrt (x * x + y * y + z * z) * Real.sqrt (x * x + y * y + z * z) = x * x + y * y + z * z :=
    Real.mul_self_sqrt hpos.le
  generalize Real.sqrt (x * x + y * y + z * z) = l at *
  have hn : (x / l) * (x / l) + (y / l) * (y / l) + (z / l) * (z / l) = 1 := by
    field_simp
    linarith [hl2]
  have hc : Real.cos (a / 2) * Real.cos (a / 2) + Real.sin (a / 2) * Real.sin (a / 2) = 1 := by
    have := Real.cos_sq_add_sin_sq (a / 2)
    nlinarith [this]
  have h := C35_setRotation ⟨x / l, y / l, z / l⟩ (Real.cos (a / 2)) (Real.sin (a / 2)) hn hc
  unfold setRotation normalize
  rw [if_pos hl]
  refine ⟨h.1, ?_⟩
  have h2 := h.2.1
  generalize setRotationUnit (⟨x / l, y / l, z / l⟩ : P3 ℝ) (Real.cos (a / 2)) (Real.sin (a / 2)) = r at *
  have h3 := h.2.2
  have e0 : r.a30 = 0 := congrArg P3.x h3
  have e1 : r.a31 = 0 := congrArg P3.y h3
  have e2 : r.a32 = 0 := congrArg P3.z h3
  unfold pointTransform at h2 ⊢
  simp only [P3.mk.injEq, e0, e1, e2] at h2 ⊢
  have hne : l ≠ 0 := hl.ne'
  refine ⟨?_, ?_, ?_⟩
  · have := h2.1; field_simp at this; linarith
  · have := h2.2.1; field_simp at this; linarith
  · have := h2.2.2; field_simp at this; linarith

example : (⟨1, 2, 3⟩ : P3 ℝ) ≠ ⟨0, 0, 0⟩ := fun h => one_ne_zero (congrArg P3.x h)

/-- The two ways to rotate turn in opposite directions: `SetRotation(a, Z axis)` is `RotateZ(-a)` applied to the
identity (`SetRotation` is written for column vectors, everything else for row vectors). -/
theorem C35_setRotation_direction (a : ℝ) :
    setRotationUnit ⟨0, 0, 1⟩ (Real.cos (a / 2)) (Real.sin (a / 2)) =
      rotateZAfter identity (Real.cos (-a)) (Real.sin (-a)) := by
  have hcos : Real.cos a = Real.cos (a / 2) * Real.cos (a / 2) - Real.sin (a / 2) * Real.sin (a / 2) := by
    rw [← Real.cos_add]; congr 1; ring
  have hsin : Real.sin a = 2 * (Real.sin (a / 2) * Real.cos (a / 2)) := by
    rw [← mul_assoc, ← Real.sin_two_mul]; congr 1; ring
  have h1 : Real.cos (a / 2) ^ 2 + Real.sin (a / 2) ^ 2 = 1 := Real.cos_sq_add_sin_sq (a / 2)
  rw [Real.cos_neg, Real.sin_neg, hcos, hsin]
  unfold setRotationUnit rotateZAfter identity
  simp only [M.mk.injEq]
  refine ⟨?_, ?_, ?_, ?_, ?_, ?_, ?_, ?_, ?_, ?_, ?_, ?_⟩ <;> first | trivial | ring1 | linear_combination h1

/-- A rotation about a vector of length zero is not a rotation: it scales by cos²(a/2). -/
theorem C35_setRotation_zero_violated :
    setRotation (0 : ℚ) ⟨0, 0, 0⟩ (3/5) (4/5) = setScale (9/25) (9/25) (9/25) ∧
    ¬ IsRotation (setRotation (0 : ℚ) ⟨0, 0, 0⟩ (3/5) (4/5)) := by
  have h : setRotation (0 : ℚ) ⟨0, 0, 0⟩ (3/5) (4/5) = setScale (9/25) (9/25) (9/25) := by
    norm_num [setRotation, normalize, setRotationUnit, setScale]
  refine ⟨h, ?_⟩
  rw [h]
  rintro ⟨-, hd⟩
  rw [det_lin] at hd
  norm_num [setScale] at hd

/-! ### Inverse -/

section
variable [LinearOrder K] [IsStrictOrderedRing K]

theorem addTerm_sum (l : List K) (pn : K × K) :
    ((l.foldl addTerm pn).1 + (l.foldl addTerm pn).2 = pn.1 + pn.2 + l.sum) ∧
    ((l.foldl addTerm pn).1 - (l.foldl addTerm pn).2 = pn.1 - pn.2 + (l.map (fun t => |t|)).sum) := by
  induction l generalizing pn with
  | nil => simp
  | cons t l ih =>
    rw [List.foldl_cons]
    refine ⟨(ih _).1.trans ?_, (ih _).2.trans ?_⟩
    · unfold addTerm
      split <;> simp only [List.sum_cons] <;> ring
    · unfold addTerm
      split
      · next h => rw [List.map_cons, List.sum_cons, abs_of_nonneg h]; ring
      · next h => rw [List.map_cons, List.sum_cons, abs_of_neg (not_le.1 h)]; ring

/-- The size of the determinant's terms: the sum of their absolute values. -/
def magnitude (m : M K) : K :=
  |m.a00 * m.a11 * m.a22| + |m.a01 * m.a12 * m.a20| + |m.a02 * m.a10 * m.a21| +
  |m.a20 * m.a11 * m.a02| + |m.a21 * m.a12 * m.a00| + |m.a22 * m.a10 * m.a01|

theorem terms_sum (m : M K) : (terms m).sum = (lin m).det := by
  rw [Matrix.det_fin_three]
  simp [terms, lin]
  ring

theorem terms_abs (m : M K) : ((terms m).map (fun t => |t|)).sum = magnitude m := by
  simp only [terms, List.map_cons, List.map_nil, List.sum_cons, List.sum_nil, abs_neg, magnitude]
  ring

theorem det_hom (m : M K) : (hom m).det = (lin m).det := by
  rw [Matrix.det_fin_three, Matrix.det_succ_row_zero]
  simp [hom, lin, Fin.sum_univ_succ, Matrix.det_fin_three, Fin.succAbove]
  ring

/-- Inverting a matrix whose determinant is not small compared with its terms, and whose terms are not tiny, gives
the inverse matrix. -/
theorem C35_invert_partial (m : M K) (hmag : 1 / 100000000 ≤ magnitude m)
    (hdet : 1 / 100000000 * magnitude m ≤ |(lin m).det|) :
    hom (invert m) = (hom m)⁻¹ ∧ mul m (invert m) = identity ∧ mul (invert m) m = identity := by
  have hpos : 0 < magnitude m := lt_of_lt_of_le (by norm_num) hmag
  have hd : (lin m).det ≠ 0 := by
    intro h0
    rw [h0, abs_zero] at hdet
    have : 0 < 1 / 100000000 * magnitude m := by positivity
    linarith
  have h1 := (addTerm_sum (terms m) (0, 0)).1
  have h2 := (addTerm_sum (terms m) (0, 0)).2
  rw [terms_sum] at h1
  rw [terms_abs] at h2
  simp only [add_zero, zero_add, sub_zero, sub_self] at h1 h2
  have hinv : mul m (invert m) = identity := by
    unfold invert
    simp only []
    rw [h1, h2, if_neg, if_neg]
    · rw [det_lin] at hd ⊢
      generalize hD : m.a00 * m.a11 * m.a22 - m.a00 * m.a12 * m.a21 - m.a01 * m.a10 * m.a22 + m.a01 * m.a12 * m.a20 + m.a02 * m.a10 * m.a21 - m.a02 * m.a11 * m.a20 = D at *
      unfold mul identity
      simp only [M.mk.injEq]
      refine ⟨?_, ?_, ?_, ?_, ?_, ?_, ?_, ?_, ?_, ?_, ?_, ?_⟩ <;> field_simp <;> first | ring1 | linear_combination hD
    · rw [not_lt, abs_div, abs_of_pos hpos, le_div_iff₀ hpos]
      exact hdet
    · rw [not_lt, abs_of_pos hpos]
      exact hmag
  have hone : hom (identity : M K) = 1 := by unfold identity; mtx
  have hmul : hom m * hom (invert m) = 1 := by rw [← C35_product, hinv, hone]
  have hi : hom (invert m) = (hom m)⁻¹ := (Matrix.inv_eq_right_inv hmul).symm
  refine ⟨hi, hinv, hom_injective ?_⟩
  rw [C35_product, hone]
  exact mul_eq_one_comm.1 hmul

/-- … and so inverting undoes the transformation of every point, in both orders. -/
theorem C35_invert_points (m : M K) (p : P3 K) (hmag : 1 / 100000000 ≤ magnitude m)
    (hdet : 1 / 100000000 * magnitude m ≤ |(lin m).det|) :
    pointTransform (invert m) (pointTransform m p) = p ∧ pointTransform m (pointTransform (invert m) p) = p := by
  obtain ⟨-, h1, h2⟩ := C35_invert_partial m hmag hdet
  have hid : pointTransform (identity : M K) p = p := by
    cases p; simp [pointTransform, identity]
  rw [← C35_compose, ← C35_compose, h1, h2]
  exact ⟨hid, hid⟩

example : pointTransform (invert (⟨2, 1, 0, 0, 3, 0, 0, 5, 4, 10, 20, 30⟩ : M ℚ)) (pointTransform ⟨2, 1, 0, 0, 3, 0, 0, 5, 4, 10, 20, 30⟩ ⟨7, 8, 9⟩) = ⟨7, 8, 9⟩ :=
  (C35_invert_points _ _ (by norm_num [magnitude]) (by rw [det_lin]; norm_num [magnitude, abs_of_pos])).1

theorem abs_det_le (m : M K) : |(lin m).det| ≤ magnitude m := by
  rw [← terms_sum, ← terms_abs]
  generalize terms m = l
  induction l with
  | nil => simp
  | cons t l ih =>
    rw [List.sum_cons, List.map_cons, List.sum_cons]
    exact (abs_add_le _ _).trans (by linarith)

/-- Every row of a rotation has length one, so its entries are at most one. -/
theorem rows_of_orthonormal (m : M K) (h : lin m * (lin m)ᵀ = 1) :
    (m.a00 * m.a00 + m.a01 * m.a01 + m.a02 * m.a02 = 1 ∧ m.a10 * m.a10 + m.a11 * m.a11 + m.a12 * m.a12 = 1 ∧
      m.a20 * m.a20 + m.a21 * m.a21 + m.a22 * m.a22 = 1) ∧
    (m.a00 * m.a10 + m.a01 * m.a11 + m.a02 * m.a12 = 0 ∧ m.a00 * m.a20 + m.a01 * m.a21 + m.a02 * m.a22 = 0 ∧
      m.a10 * m.a20 + m.a11 * m.a21 + m.a12 * m.a22 = 0) := by
  have e := fun i j => congrFun (congrFun h i) j
  have h00 := e 0 0; have h11 := e 1 1; have h22 := e 2 2
  have h01 := e 0 1; have h02 := e 0 2; have h12 := e 1 2
  simp [lin, Matrix.mul_apply, Fin.sum_univ_succ] at h00 h11 h22 h01 h02 h12
  refine ⟨⟨?_, ?_, ?_⟩, ?_, ?_, ?_⟩ <;> linarith

theorem abs_le_one_of_row {a b c : K} (h : a * a + b * b + c * c = 1) : |a| ≤ 1 ∧ |b| ≤ 1 ∧ |c| ≤ 1 := by
  refine ⟨?_, ?_, ?_⟩
  · rw [← abs_one, ← sq_le_sq]; nlinarith [mul_self_nonneg b, mul_self_nonneg c]
  · rw [← abs_one, ← sq_le_sq]; nlinarith [mul_self_nonneg a, mul_self_nonneg c]
  · rw [← abs_one, ← sq_le_sq]; nlinarith [mul_self_nonneg a, mul_self_nonneg b]

theorem abs_mul3_le {a b c : K} (ha : |a| ≤ 1) (hb : |b| ≤ 1) (hc : |c| ≤ 1) : |a * b * c| ≤ 1 := by
  rw [abs_mul, abs_mul]
  have := mul_le_one₀ ha (abs_nonneg b) hb
  exact mul_le_one₀ this (abs_nonneg c) hc

/-- Rotations, with any offset, are inverted. -/
theorem C35_invert_rotation (m : M K) (h : IsRotation m) : hom (invert m) = (hom m)⁻¹ := by
  have hmag : 1 ≤ magnitude m := by
    have := abs_det_le m
    rwa [h.2, abs_one] at this
  obtain ⟨⟨r0, r1, r2⟩, -⟩ := rows_of_orthonormal m h.1
  obtain ⟨h00, h01, h02⟩ := abs_le_one_of_row r0
  obtain ⟨h10, h11, h12⟩ := abs_le_one_of_row r1
  obtain ⟨h20, h21, h22⟩ := abs_le_one_of_row r2
  have hmax : magnitude m ≤ 6 := by
    unfold magnitude
    linarith [abs_mul3_le h00 h11 h22, abs_mul3_le h01 h12 h20, abs_mul3_le h02 h10 h21,
      abs_mul3_le h20 h11 h02, abs_mul3_le h21 h12 h00, abs_mul3_le h22 h10 h01]
  refine (C35_invert_partial m (by linarith) ?_).1
  rw [h.2, abs_one]
  linarith

example : IsRotation (⟨3/5, 4/5, 0, -4/5, 3/5, 0, 0, 0, 1, 1, 2, 3⟩ : M ℚ) := by
  constructor
  · ext i j
    fin_cases i <;> fin_cases j <;> norm_num [lin, Matrix.mul_apply, Fin.sum_univ_succ]
  · rw [det_lin]; norm_num

/-- A matrix that is not singular but small is *not* inverted: scaling by 1/1000 (millimetres to metres) is
"inverted" to itself. -/
theorem C35_invert_small_violated :
    let m : M ℚ := setScale (1/1000) (1/1000) (1/1000)
    IsUnit (hom m).det ∧ invert m = m ∧ mul m (invert m) ≠ identity := by
  have h : invert (setScale (1/1000) (1/1000) (1/1000) : M ℚ) = setScale (1/1000) (1/1000) (1/1000) := by
    have := (addTerm_sum (terms (setScale (1/1000) (1/1000) (1/1000) : M ℚ)) (0, 0)).2
    rw [terms_abs] at this
    unfold invert
    simp only []
    rw [this, if_pos]
    · simp [byeBye, setScale]
    · norm_num [magnitude, setScale, abs_of_pos]
  refine ⟨?_, h, ?_⟩
  · rw [det_hom, det_lin]; norm_num [setScale]
  · rw [h]
    intro hm
    have := congrArg M.a00 hm
    norm_num [mul, setScale, identity] at this

/-- What inverting a singular matrix gives: the 3x3 part transposed, the offset unchanged. -/
theorem C35_invert_singular (m : M K) (h : (lin m).det = 0) : invert m = byeBye m := by
  have h1 := (addTerm_sum (terms m) (0, 0)).1
  rw [terms_sum, h] at h1
  simp only [add_zero] at h1
  unfold invert
  simp only [h1]
  split
  · rfl
  · rw [if_pos]
    simp

/-! ### Inverse transformation of points -/

/-- `InversePointTransform` undoes `PointTransform` for every point exactly when the u, v, w vectors are orthonormal. -/
theorem C35_inverse_point_iff (m : M K) :
    (∀ p, inversePointTransform m (pointTransform m p) = p) ↔ lin m * (lin m)ᵀ = 1 := by
  constructor
  · intro h
    have hx := h ⟨1, 0, 0⟩
    have hy := h ⟨0, 1, 0⟩
    have hz := h ⟨0, 0, 1⟩
    simp [inversePointTransform, pointTransform] at hx hy hz
    ext i j
    fin_cases i <;> fin_cases j <;> simp [lin, Matrix.mul_apply, Fin.sum_univ_succ] <;> linarith [hx.1, hx.2.1, hx.2.2, hy.1, hy.2.1, hy.2.2, hz.1, hz.2.1, hz.2.2]
  · intro h p
    obtain ⟨⟨r0, r1, r2⟩, s01, s02, s12⟩ := rows_of_orthonormal m h
    obtain ⟨x, y, z⟩ := p
    simp only [inversePointTransform, pointTransform, P3.mk.injEq]
    refine ⟨?_, ?_, ?_⟩
    · linear_combination x * r0 + y * s01 + z * s02
    · linear_combination x * s01 + y * r1 + z * s12
    · linear_combination x * s02 + y * s12 + z * r2

/-- So for a scaled matrix it does not undo the transformation. -/
theorem C35_inverse_point_violated :
    inversePointTransform (setScale 2 2 2 : M ℚ) (pointTransform (setScale 2 2 2) ⟨1, 0, 0⟩) = ⟨4, 0, 0⟩ := by
  norm_num [inversePointTransform, pointTransform, setScale]

/-- For rotations `InversePointTransform` is `PointTransform` with the inverted matrix. -/
theorem C35_inverse_point_invert (m : M K) (h : IsRotation m) (p : P3 K) :
    inversePointTransform m p = pointTransform (invert m) p := by
  have hu : pointTransform m (pointTransform (invert m) p) = p := by
    apply row_injective
    rw [C35_point, C35_point, C35_invert_rotation m h, Matrix.vecMul_vecMul, Matrix.nonsing_inv_mul, Matrix.vecMul_one]
    rw [det_hom, h.2]
    exact isUnit_one
  conv_lhs => rw [← hu]
  exact (C35_inverse_point_iff m).2 h.1 _

/-! ### Mirroring, comparison, conversion -/

/-- `IsFlipped` compares the determinant with 0.0001. -/
theorem C35_isFlipped (m : M K) : isFlipped m = true ↔ (lin m).det < 1 / 10000 := by
  have : dot m.u (cross m.v m.w) = (lin m).det := by
    rw [det_lin]; unfold dot cross M.u M.v M.w; ring
  unfold isFlipped
  rw [this, decide_eq_true_iff]

/-- … so a matrix that mirrors is always recognised; rotations are never taken for mirrored … -/
theorem C35_isFlipped_partial (m : M K) :
    ((lin m).det < 0 → isFlipped m = true) ∧ (IsRotation m → isFlipped m = false) := by
  constructor
  · intro h
    exact (C35_isFlipped m).2 (by linarith [show (0 : K) < 1 / 10000 by norm_num])
  · intro h
    rw [Bool.eq_false_iff]
    intro hf
    have := (C35_isFlipped m).1 hf
    rw [h.2] at this
    norm_num at this

/-- … but a small scaling is reported as mirrored. -/
theorem C35_isFlipped_violated :
    isFlipped (setScale (1/100) (1/100) (1/100) : M ℚ) = true ∧ 0 < (lin (setScale (1/100) (1/100) (1/100) : M ℚ)).det := by
  constructor
  · rw [C35_isFlipped, det_lin]; norm_num [setScale]
  · rw [det_lin]; norm_num [setScale]

omit [LinearOrder K] [IsStrictOrderedRing K] in
/-- Flipping exchanges u and v: the determinant changes sign, and flipping twice changes nothing. -/
theorem C35_flip (m : M K) : (lin (flipMatrix m)).det = -(lin m).det ∧ flipMatrix (flipMatrix m) = m := by
  refine ⟨?_, rfl⟩
  rw [det_lin, det_lin]
  unfold flipMatrix
  ring

/-- Two matrices compare equal exactly when every one of the twelve entries differs by less than 0.0001. -/
theorem C35_equal (m n : M K) :
    isEqual m n = true ↔ ∀ i j, |hom m i j - hom n i j| < 1 / 10000 := by
  have h0 : |(0 : K)| < 1 / 10000 := by rw [abs_zero]; norm_num
  unfold isEqual equalish
  simp only [Bool.and_eq_true, decide_eq_true_eq]
  constructor
  · rintro ⟨⟨⟨⟨⟨⟨⟨⟨⟨⟨⟨h00, h01⟩, h02⟩, h10⟩, h11⟩, h12⟩, h20⟩, h21⟩, h22⟩, h30⟩, h31⟩, h32⟩ i j
    have h1 : |(1 : K) - 1| < 1 / 10000 := by rw [sub_self]; exact h0
    have h0 : |(0 : K) - 0| < 1 / 10000 := by rw [sub_self]; exact h0
    fin_cases i <;> fin_cases j <;>
      first
      | exact h00 | exact h01 | exact h02 | exact h10 | exact h11 | exact h12 | exact h20 | exact h21 | exact h22
      | exact h30 | exact h31 | exact h32 | exact h0 | exact h1
  · intro h
    refine ⟨⟨⟨⟨⟨⟨⟨⟨⟨⟨⟨?_, ?_⟩, ?_⟩, ?_⟩, ?_⟩, ?_⟩, ?_⟩, ?_⟩, ?_⟩, ?_⟩, ?_⟩, ?_⟩
    · exact h 0 0
    · exact h 0 1
    · exact h 0 2
    · exact h 1 0
    · exact h 1 1
    · exact h 1 2
    · exact h 2 0
    · exact h 2 1
    · exact h 2 2
    · exact h 3 0
    · exact h 3 1
    · exact h 3 2

omit [IsStrictOrderedRing K] in
/-- `IsIdentity` is comparison with the identity. -/
theorem C35_isIdentity (m : M K) : isIdentity m = isEqual m identity := rfl

/-- The comparison is reflexive and symmetric, but not transitive. -/
theorem C35_equal_not_transitive :
    (∀ m n : M K, isEqual m m = true ∧ (isEqual m n = isEqual n m)) ∧
    ∃ a b c : M ℚ, isEqual a b = true ∧ isEqual b c = true ∧ isEqual a c = false := by
  constructor
  · intro m n
    constructor
    · rw [C35_equal]; intro i j; rw [sub_self, abs_zero]; norm_num
    · rw [Bool.eq_iff_iff, C35_equal, C35_equal]
      constructor <;> intro h i j <;> rw [abs_sub_comm] <;> exact h i j
  · refine ⟨identity, { identity with a30 := 6/100000 }, { identity with a30 := 12/100000 }, ?_, ?_, ?_⟩ <;>
      norm_num [isEqual, equalish, identity, abs_of_pos, abs_of_neg]

end

omit [Field K] in
/-- The conversion to and from the matrix structure of the public interface loses nothing. -/
theorem C35_convert (m : M K) (s : SMat K) : ofS (toS m) = m ∧ toS (ofS s) = s := ⟨rfl, rfl⟩

/-- Setting the vectors sets the rows; with the transpose flag it sets the columns. -/
theorem C35_setMatrix (u v w o : P3 K) :
    lin (setMatrix u v w o true) = (lin (setMatrix u v w o false))ᵀ ∧
    (setMatrix u v w o false).u = u ∧ (setMatrix u v w o false).v = v ∧ (setMatrix u v w o false).w = w ∧
    (setMatrix u v w o false).off = o ∧ (setMatrix u v w o true).off = o := by
  refine ⟨?_, rfl, rfl, rfl, rfl, rfl⟩
  ext i j
  fin_cases i <;> fin_cases j <;> rfl

end Verif.Mtx
