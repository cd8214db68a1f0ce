import Verif.Color.Model
import Mathlib.Tactic.Linarith
import Mathlib.Tactic.NormNum
import Mathlib.Tactic.Positivity
import Mathlib.Tactic.FieldSimp
import Mathlib.Tactic.Ring

/-!
# C40 (colour components) and C48 (RGB and CIE colours)
-/

namespace Verif.Color

/-! ### C40 -/

/-- Setting red or blue and reading it back gives the value set, and leaves the other components alone. -/
theorem C40_red_blue_partial (c : Rgb) (v : BitVec 32) :
    getRed (setRed c v) = v ∧ getGreen (setRed c v) = getGreen c ∧ getBlue (setRed c v) = getBlue c ∧
    getBlue (setBlue c v) = v ∧ getRed (setBlue c v) = getRed c ∧ getGreen (setBlue c v) = getGreen c ∧
    getRed (setGreen c v) = getRed c ∧ getBlue (setGreen c v) = getBlue c :=
  ⟨rfl, rfl, rfl, rfl, rfl, rfl, rfl, rfl⟩

/-- Setting all three components together and reading them back gives the values set, together or one by one. -/
theorem C40_all (c : Rgb) (r g b : BitVec 32) :
    getColor (setColor c r g b) = (r, g, b) ∧ getRed (setColor c r g b) = r ∧ getGreen (setColor c r g b) = g ∧
    getBlue (setColor c r g b) = b := ⟨rfl, rfl, rfl, rfl⟩

/-- Setting green to *any* value from 1 to 255 and reading it back gives 257 times the value. -/
theorem C40_green_violated (c : Rgb) (v : BitVec 8) :
    (getGreen (setGreen c (v.setWidth 32))).toNat = 257 * v.toNat ∧
    (v ≠ 0 → getGreen (setGreen c (v.setWidth 32)) ≠ v.setWidth 32) := by
  have h : ∀ v : BitVec 8, ((v.setWidth 32 <<< 8) ||| v.setWidth 32).toNat = 257 * v.toNat := by decide +kernel
  have h2 : ∀ v : BitVec 8, v ≠ 0 → ((v.setWidth 32 <<< 8) ||| v.setWidth 32) ≠ v.setWidth 32 := by decide +kernel
  exact ⟨h v, h2 v⟩

/-- Exactly which values survive setting and reading green. -/
theorem C40_green_iff (c : Rgb) (v : BitVec 32) :
    getGreen (setGreen c v) = v ↔ (v <<< 8) &&& ~~~v = 0 := by
  unfold getGreen setGreen
  constructor
  · intro h
    apply BitVec.eq_of_getLsbD_eq
    intro i hi
    have := congrArg (fun x => x.getLsbD i) h
    simp only [BitVec.getLsbD_or] at this
    simp only [BitVec.getLsbD_and, BitVec.getLsbD_not, hi, decide_true, Bool.true_and]
    cases h1 : (v <<< 8).getLsbD i <;> cases h2 : v.getLsbD i <;> simp_all
  · intro h
    apply BitVec.eq_of_getLsbD_eq
    intro i hi
    have := congrArg (fun x => x.getLsbD i) h
    simp only [BitVec.getLsbD_and, BitVec.getLsbD_not, hi, decide_true, Bool.true_and] at this
    simp only [BitVec.getLsbD_or]
    cases h1 : (v <<< 8).getLsbD i <;> cases h2 : v.getLsbD i <;> simp_all

example : getGreen (setGreen ⟨1, 2, 3⟩ 200) = 51400 := by decide

/-- Colours compare equal exactly when they are equal. -/
theorem C40_eq (a b : Rgb) : eq a b = true ↔ a = b := by
  cases a; cases b; simp [eq, and_assoc]

/-! ### Gradients -/

/-- 0 % is the left colour, 100 % the right colour, and everything between stays between. -/
theorem C48_gradient (l r : Int) (hl : 0 ≤ l) (hr : 0 ≤ r) (p : ℝ) (h0 : 0 ≤ p) (h1 : p ≤ 100) :
    gradient l r 0 = l ∧ gradient l r 100 = r ∧
    min l r ≤ gradient l r p ∧ gradient l r p ≤ max l r := by
  have hl' : (0 : ℝ) ≤ l := by exact_mod_cast hl
  have hr' : (0 : ℝ) ≤ r := by exact_mod_cast hr
  have key : ∀ v : ℝ, ((min l r : Int) : ℝ) ≤ v → v ≤ ((max l r : Int) : ℝ) → min l r ≤ trunc v ∧ trunc v ≤ max l r := by
    intro v hv1 hv2
    have hmin : (0 : ℝ) ≤ ((min l r : Int) : ℝ) := by exact_mod_cast le_min hl hr
    unfold trunc
    rw [if_pos (le_trans hmin hv1)]
    exact ⟨Int.le_floor.2 hv1, Int.cast_le.1 (le_trans (Int.floor_le v) hv2)⟩
  refine ⟨?_, ?_, ?_⟩
  · unfold gradient trunc
    rw [zero_div, mul_zero, zero_add, if_pos hl', Int.floor_intCast]
  · unfold gradient trunc
    have : ((r - l : Int) : ℝ) * (100 / 100) + l = (r : ℝ) := by push_cast; ring
    rw [this, if_pos hr', Int.floor_intCast]
  · unfold gradient
    apply key
    · rcases le_total l r with h | h
      · rw [min_eq_left h]
        have : (0 : ℝ) ≤ ((r - l : Int) : ℝ) := by exact_mod_cast sub_nonneg.2 h
        have : (0 : ℝ) ≤ ((r - l : Int) : ℝ) * (p / 100) := by positivity
        linarith
      · rw [min_eq_right h]
        have h2 : ((r - l : Int) : ℝ) ≤ 0 := by exact_mod_cast sub_nonpos.2 h
        have h3 : p / 100 ≤ 1 := by linarith
        have h4 : ((r - l : Int) : ℝ) ≤ ((r - l : Int) : ℝ) * (p / 100) := by nlinarith
        push_cast at h4 ⊢
        linarith
    · rcases le_total l r with h | h
      · rw [max_eq_right h]
        have h2 : 0 ≤ ((r - l : Int) : ℝ) := by exact_mod_cast sub_nonneg.2 h
        have h3 : p / 100 ≤ 1 := by linarith
        have h4 : ((r - l : Int) : ℝ) * (p / 100) ≤ ((r - l : Int) : ℝ) := by nlinarith
        push_cast at h4 ⊢
        linarith
      · rw [max_eq_left h]
        have h2 : ((r - l : Int) : ℝ) ≤ 0 := by exact_mod_cast sub_nonpos.2 h
        have h3 : 0 ≤ p / 100 := by positivity
        have h4 : ((r - l : Int) : ℝ) * (p / 100) ≤ 0 := by nlinarith
        linarith

example : min 10 200 ≤ gradient 10 200 37.5 := (C48_gradient 10 200 (by norm_num) (by norm_num) 37.5 (by norm_num) (by norm_num)).2.2.1

/-! ### CIE colours -/

theorem clamp_bounds (v : ℝ) : 0 ≤ clamp v ∧ clamp v ≤ 1 := by
  unfold clamp
  simp only
  split <;> split <;> constructor <;> linarith

theorem trunc_byte (v : ℝ) (h0 : 0 ≤ v) (h1 : v ≤ 1) : 0 ≤ trunc (v * 255) ∧ trunc (v * 255) ≤ 255 := by
  have hp : 0 ≤ v * 255 := by positivity
  unfold trunc
  rw [if_pos hp]
  refine ⟨Int.floor_nonneg.2 hp, ?_⟩
  have h := Int.floor_le (v * 255)
  have : ((⌊v * 255⌋ : Int) : ℝ) ≤ ((255 : Int) : ℝ) := by push_cast; linarith
  exact Int.cast_le.1 this

/-- Whatever the CIE colour, the RGB components it converts to are between 0 and 255. -/
theorem C48_in_range (c : Cie) :
    (0 ≤ (toRgb c).1 ∧ (toRgb c).1 ≤ 255) ∧ (0 ≤ (toRgb c).2.1 ∧ (toRgb c).2.1 ≤ 255) ∧
    (0 ≤ (toRgb c).2.2 ∧ (toRgb c).2.2 ≤ 255) := by
  unfold toRgb
  exact ⟨trunc_byte _ (clamp_bounds _).1 (clamp_bounds _).2, trunc_byte _ (clamp_bounds _).1 (clamp_bounds _).2,
    trunc_byte _ (clamp_bounds _).1 (clamp_bounds _).2⟩

/-- Every RGB colour with components from 0 to 255 gives chromaticities in the unit triangle and a luminance of at
most 100. -/
theorem C48_chromaticity (R G B : Int) (hR : 0 ≤ R ∧ R ≤ 255) (hG : 0 ≤ G ∧ G ≤ 255) (hB : 0 ≤ B ∧ B ≤ 255) :
    0 ≤ (ofRgb R G B).x ∧ 0 ≤ (ofRgb R G B).y ∧ (ofRgb R G B).x + (ofRgb R G B).y ≤ 1 ∧
    0 ≤ (ofRgb R G B).Y ∧ (ofRgb R G B).Y ≤ 100 := by
  have r0 : (0 : ℝ) ≤ (R : ℝ) / 255 := by have : (0 : ℝ) ≤ R := by exact_mod_cast hR.1
                                          positivity
  have g0 : (0 : ℝ) ≤ (G : ℝ) / 255 := by have : (0 : ℝ) ≤ G := by exact_mod_cast hG.1
                                          positivity
  have b0 : (0 : ℝ) ≤ (B : ℝ) / 255 := by have : (0 : ℝ) ≤ B := by exact_mod_cast hB.1
                                          positivity
  have r1 : (R : ℝ) / 255 ≤ 1 := by have : (R : ℝ) ≤ 255 := by exact_mod_cast hR.2
                                    linarith
  have g1 : (G : ℝ) / 255 ≤ 1 := by have : (G : ℝ) ≤ 255 := by exact_mod_cast hG.2
                                    linarith
  have b1 : (B : ℝ) / 255 ≤ 1 := by have : (B : ℝ) ≤ 255 := by exact_mod_cast hB.2
                                    linarith
  unfold ofRgb
  simp only
  split
  · norm_num
  · next h =>
    generalize (R : ℝ) / 255 = r at *
    generalize (G : ℝ) / 255 = g at *
    generalize (B : ℝ) / 255 = b at *
    have hx : 0 ≤ 0.412424 * r + 0.357579 * g + 0.180464 * b := by positivity
    have hy : 0 ≤ 0.212656 * r + 0.715158 * g + 0.0721856 * b := by positivity
    have hz : 0 ≤ 0.0193324 * r + 0.119193 * g + 0.950444 * b := by positivity
    rw [abs_of_nonneg hx, abs_of_nonneg hy, abs_of_nonneg hz] at h
    simp only [not_or, not_lt] at h
    have hs : 0 < 0.412424 * r + 0.357579 * g + 0.180464 * b + (0.212656 * r + 0.715158 * g + 0.0721856 * b) +
        (0.0193324 * r + 0.119193 * g + 0.950444 * b) := by norm_num at h ⊢; linarith [h.1]
    refine ⟨by positivity, by positivity, ?_, by positivity, ?_⟩
    · rw [← add_div, div_le_one hs]; linarith
    · norm_num; linarith

/-- Black stays black. -/
theorem C48_black : toRgb (ofRgb 0 0 0) = (0, 0, 0) := by
  have h : ofRgb 0 0 0 = ⟨0, 0, 0⟩ := by
    unfold ofRgb; simp only; rw [if_pos]; left; norm_num
  rw [h]
  have hg : gamma 0 = 0 := by unfold gamma; rw [if_neg] <;> norm_num
  have hc : clamp 0 = 0 := by unfold clamp; norm_num
  have ht : trunc 0 = 0 := by unfold trunc; norm_num
  unfold toRgb
  simp [hg, hc, ht]

/-- Converting grey of level `k` (not black) to CIE and back recovers the linear value up to the rounding of the matrix coefficients: the red component returned is the transfer function of 0.9999999637466 k. -/
theorem grey_red (n : Int) (hn : 1 ≤ n) :
    (toRgb (ofRgb n n n)).1 = trunc (clamp (gamma (0.9999999637466 * ((n : ℝ) / 255))) * 255) := by
  have hk : (1 : ℝ) / 255 ≤ (n : ℝ) / 255 := by
    have : (1 : ℝ) ≤ n := by exact_mod_cast hn
    linarith
  generalize hkk : (n : ℝ) / 255 = k at *
  have k0 : 0 < k := by linarith [show (0 : ℝ) < 1 / 255 by norm_num]
  unfold toRgb ofRgb
  simp only [hkk]
  have hx : 0.412424 * k + 0.357579 * k + 0.180464 * k = 0.950467 * k := by ring
  have hy : 0.212656 * k + 0.715158 * k + 0.0721856 * k = 0.9999996 * k := by ring
  have hz : 0.0193324 * k + 0.119193 * k + 0.950444 * k = 1.0889694 * k := by ring
  rw [hx, hy, hz]
  have hs : 0.950467 * k + 0.9999996 * k + 1.0889694 * k = 3.039436 * k := by ring
  rw [hs]
  have hcond : ¬ (|0.950467 * k| < 0.000001 ∨ |0.9999996 * k| < 0.000001 ∨ |1.0889694 * k| < 0.000001) := by
    rw [abs_of_pos (by positivity), abs_of_pos (by positivity), abs_of_pos (by positivity)]
    norm_num at hk ⊢
    refine ⟨?_, ?_, ?_⟩ <;> linarith
  have e1 : 0.950467 * k / (3.039436 * k) = 0.950467 / 3.039436 := by field_simp
  have e2 : 0.9999996 * k / (3.039436 * k) = 0.9999996 / 3.039436 := by field_simp
  have hcond2 : ¬ (|(0.9999996 / 3.039436 : ℝ)| < 0.000001) := by
    rw [abs_of_pos (by norm_num)]; norm_num
  rw [if_neg hcond]
  simp only [e1, e2]
  rw [if_neg hcond2]
  congr 4
  norm_num
  ring

/-- Converting RGB to CIE and back does *not* give the colour back: medium grey (128,128,128) comes back at least 46
steps brighter, because only one direction applies the sRGB transfer function. -/
theorem C48_roundtrip_violated : 174 ≤ (toRgb (ofRgb 128 128 128)).1 := by
  rw [grey_red 128 (by norm_num)]
  have hv : (0.501 : ℝ) ≤ 0.9999999637466 * (((128 : Int) : ℝ) / 255) := by norm_num
  generalize 0.9999999637466 * (((128 : Int) : ℝ) / 255) = v at *
  have hp : (0.7 : ℝ) ≤ v ^ ((1 : ℝ) / 2.4) := by
    rw [one_div, Real.le_rpow_inv_iff_of_pos (by norm_num) (by linarith) (by norm_num)]
    calc (0.7 : ℝ) ^ (2.4 : ℝ) ≤ 0.7 ^ (2 : ℝ) :=
          Real.rpow_le_rpow_of_exponent_ge (by norm_num) (by norm_num) (by norm_num)
      _ = 0.49 := by rw [Real.rpow_two]; norm_num
      _ ≤ v := by linarith
  have hg : 0.6835 ≤ gamma v := by
    unfold gamma
    rw [if_pos (by linarith)]
    linarith
  have hc : 0.6835 ≤ clamp (gamma v) := by
    unfold clamp
    simp only
    split <;> split <;> linarith
  unfold trunc
  rw [if_pos (by linarith)]
  rw [Int.le_floor]
  push_cast
  linarith

/-- Not even white (255,255,255) comes back: the red component is at most 254. -/
theorem C48_white_violated : (toRgb (ofRgb 255 255 255)).1 ≤ 254 := by
  rw [grey_red 255 (by norm_num)]
  have e : (0.9999999637466 : ℝ) * (((255 : Int) : ℝ) / 255) = 0.9999999637466 := by norm_num
  rw [e]
  have hp : (0.9999999637466 : ℝ) ^ ((1 : ℝ) / 2.4) < 1 := Real.rpow_lt_one (by norm_num) (by norm_num) (by norm_num)
  have hg : gamma 0.9999999637466 < 1 := by
    unfold gamma
    rw [if_pos (by norm_num)]
    linarith
  have hc : 0 ≤ clamp (gamma 0.9999999637466) ∧ clamp (gamma 0.9999999637466) < 1 := by
    unfold clamp
    simp only
    split <;> split <;> constructor <;> linarith
  unfold trunc
  rw [if_pos (by linarith [hc.1])]
  have : ⌊clamp (gamma 0.9999999637466) * 255⌋ < 255 := by
    rw [Int.floor_lt]; push_cast; linarith [hc.2]
  omega

end Verif.Color
