import Verif.Color.Props

/-!
C48: what the conversion to CIE and back does to the primary colours.
-/

namespace Verif.Color

/-- One channel: transfer function, clamping, scaling to 0 … 255. -/
noncomputable abbrev channel (v : ℝ) : Int := trunc (clamp (gamma v) * 255)

theorem toRgb_ofXyz (x y z : ℝ) (hy : 0.000001 ≤ y / (x + y + z)) :
    toRgb ⟨x / (x + y + z), y / (x + y + z), y * 100⟩ =
      (channel (x * 3.24071 + y * (-1.53726) + z * (-0.498571)),
       channel (x * (-0.969258) + y * 1.87599 + z * 0.0415557),
       channel (x * 0.0556352 + y * (-0.203996) + z * 1.05707)) := by
  have hp : 0 < y / (x + y + z) := lt_of_lt_of_le (by norm_num) hy
  have hs : x + y + z ≠ 0 := by rintro h; rw [h] at hp; simp at hp
  have hy0 : y ≠ 0 := by rintro rfl; simp at hp
  unfold toRgb
  simp only
  rw [if_neg (by rw [abs_of_pos hp]; linarith)]
  have e1 : x / (x + y + z) * y / (y / (x + y + z)) = x := by field_simp
  have e2 : (1 - x / (x + y + z) - y / (x + y + z)) * y / (y / (x + y + z)) = z := by
    field_simp; ring
  rw [show y * 100 / 100 = y by ring, e1, e2]

/-- Nearly black channels become 0. -/
theorem channel_small (v : ℝ) (h : v ≤ 0.0003) : channel v = 0 := by
  have hg : gamma v ≤ 0.0039 := by
    unfold gamma
    rw [if_neg (by norm_num at h ⊢; linarith)]
    norm_num at h ⊢; linarith
  have hc : 0 ≤ clamp (gamma v) ∧ clamp (gamma v) ≤ 0.0039 := by
    refine ⟨(clamp_bounds _).1, ?_⟩
    unfold clamp
    simp only
    split <;> split <;> norm_num at * <;> linarith
  unfold channel trunc
  rw [if_pos (by linarith [hc.1])]
  rw [Int.floor_eq_zero_iff]
  constructor
  · linarith [hc.1]
  · norm_num at hc ⊢; linarith [hc.2]

/-- The transfer function brightens. -/
theorem gamma_ge (v : ℝ) (h0 : 0.0031308 < v) (h1 : v ≤ 1) : v ≤ gamma v := by
  unfold gamma
  rw [if_pos h0]
  have hv0 : 0 < v := by linarith
  have hpow : v ^ ((1 : ℝ) / 2) ≤ v ^ ((1 : ℝ) / 2.4) :=
    Real.rpow_le_rpow_of_exponent_ge hv0 h1 (by norm_num)
  rw [← Real.sqrt_eq_rpow] at hpow
  have hs := Real.sq_sqrt hv0.le
  have hs0 := Real.sqrt_nonneg v
  have hs1 : Real.sqrt v ≤ 1 := by
    rw [Real.sqrt_le_left (by norm_num)]; norm_num; exact h1
  have hs2 : 0.055 ≤ Real.sqrt v := by
    apply Real.le_sqrt_of_sq_le; norm_num at h0 ⊢; linarith
  generalize Real.sqrt v = s at *
  have : (s - 1) * (s - 0.055) ≤ 0 := mul_nonpos_of_nonpos_of_nonneg (by linarith) (by linarith)
  nlinarith

theorem channel_ge (n : Int) (hn : 1 ≤ n) (hn2 : n ≤ 255) (c : ℝ) (hc : 0.99999 ≤ c) (hc1 : c ≤ 1.00001) :
    n - 1 ≤ channel (c * (n / 255)) := by
  have h1 : (1 : ℝ) ≤ n := by exact_mod_cast hn
  have h2 : (n : ℝ) ≤ 255 := by exact_mod_cast hn2
  have hclamp : 0.99999 * ((n : ℝ) / 255) ≤ clamp (gamma (c * (n / 255))) := by
    by_cases hle : c * ((n : ℝ) / 255) ≤ 1
    · have hg := gamma_ge (c * (n / 255)) (by norm_num at hc ⊢; nlinarith) hle
      have : 0.99999 * ((n : ℝ) / 255) ≤ gamma (c * (n / 255)) := by nlinarith
      have : 0.99999 * ((n : ℝ) / 255) ≤ 1 := by norm_num; linarith
      unfold clamp
      simp only
      split <;> split <;> nlinarith
    · have hgt : 1 ≤ gamma (c * (n / 255)) := by
        unfold gamma
        rw [if_pos (by norm_num at hle ⊢; linarith)]
        have := Real.one_le_rpow (x := c * ((n : ℝ) / 255)) (z := 1 / 2.4) (by linarith) (by norm_num)
        linarith
      have : 0.99999 * ((n : ℝ) / 255) ≤ 1 := by norm_num; linarith
      unfold clamp
      simp only
      split <;> split <;> linarith
  unfold channel trunc
  rw [if_pos (by have := (clamp_bounds (gamma (c * (n / 255)))).1; linarith), Int.le_floor]
  push_cast
  norm_num at hclamp
  linarith

theorem ofRgb_xyz (R G B : Int) (x y z : ℝ)
    (hx : 0.412424 * ((R : ℝ) / 255) + 0.357579 * ((G : ℝ) / 255) + 0.180464 * ((B : ℝ) / 255) = x)
    (hy : 0.212656 * ((R : ℝ) / 255) + 0.715158 * ((G : ℝ) / 255) + 0.0721856 * ((B : ℝ) / 255) = y)
    (hz : 0.0193324 * ((R : ℝ) / 255) + 0.119193 * ((G : ℝ) / 255) + 0.950444 * ((B : ℝ) / 255) = z)
    (h : 0.000001 ≤ x ∧ 0.000001 ≤ y ∧ 0.000001 ≤ z) :
    ofRgb R G B = ⟨x / (x + y + z), y / (x + y + z), y * 100⟩ := by
  unfold ofRgb
  simp only [hx, hy, hz]
  have p : (0 : ℝ) < 0.000001 := by norm_num
  rw [if_neg]
  rw [abs_of_pos (by linarith [h.1]), abs_of_pos (by linarith [h.2.1]), abs_of_pos (by linarith [h.2.2])]
  rintro (h' | h' | h') <;> linarith [h.1, h.2.1, h.2.2]

/-- **C48**, pure red of every level: it comes back as pure red, at most one step darker. -/
theorem C48_pure_red (n : Int) (hn : 1 ≤ n) (hn2 : n ≤ 255) :
    ∃ m, toRgb (ofRgb n 0 0) = (m, 0, 0) ∧ n - 1 ≤ m := by
  have h1 : (1 : ℝ) / 255 ≤ (n : ℝ) / 255 := by
    have : (1 : ℝ) ≤ n := by exact_mod_cast hn
    linarith
  have h2 : (n : ℝ) / 255 ≤ 1 := by
    have : (n : ℝ) ≤ 255 := by exact_mod_cast hn2
    linarith
  have hc := channel_ge n hn hn2 (0.412424 * 3.24071 + 0.212656 * (-1.53726) + 0.0193324 * (-0.498571))
    (by norm_num) (by norm_num)
  generalize hk : (n : ℝ) / 255 = k at *
  have hp : 0 < k := lt_of_lt_of_le (by norm_num) h1
  rw [ofRgb_xyz n 0 0 (0.412424 * k) (0.212656 * k) (0.0193324 * k) (by rw [hk]; norm_num) (by rw [hk]; norm_num)
    (by rw [hk]; norm_num) (by norm_num at h1 ⊢; refine ⟨?_, ?_, ?_⟩ <;> linarith),
    toRgb_ofXyz _ _ _ (by rw [le_div_iff₀ (by positivity)]; norm_num; linarith)]
  refine ⟨_, ?_, hc⟩
  rw [channel_small (0.412424 * k * (-0.969258) + _ + _) (by norm_num; linarith),
    channel_small (0.412424 * k * 0.0556352 + _ + _) (by norm_num; linarith)]
  congr 2
  ring

/-- **C48**, pure green of every level: it comes back as pure green, at most one step darker. -/
theorem C48_pure_green (n : Int) (hn : 1 ≤ n) (hn2 : n ≤ 255) :
    ∃ m, toRgb (ofRgb 0 n 0) = (0, m, 0) ∧ n - 1 ≤ m := by
  have h1 : (1 : ℝ) / 255 ≤ (n : ℝ) / 255 := by
    have : (1 : ℝ) ≤ n := by exact_mod_cast hn
    linarith
  have h2 : (n : ℝ) / 255 ≤ 1 := by
    have : (n : ℝ) ≤ 255 := by exact_mod_cast hn2
    linarith
  have hc := channel_ge n hn hn2 (0.357579 * (-0.969258) + 0.715158 * 1.87599 + 0.119193 * 0.0415557)
    (by norm_num) (by norm_num)
  generalize hk : (n : ℝ) / 255 = k at *
  have hp : 0 < k := lt_of_lt_of_le (by norm_num) h1
  rw [ofRgb_xyz 0 n 0 (0.357579 * k) (0.715158 * k) (0.119193 * k) (by rw [hk]; norm_num) (by rw [hk]; norm_num)
    (by rw [hk]; norm_num) (by norm_num at h1 ⊢; refine ⟨?_, ?_, ?_⟩ <;> linarith),
    toRgb_ofXyz _ _ _ (by rw [le_div_iff₀ (by positivity)]; norm_num; linarith)]
  refine ⟨_, ?_, hc⟩
  rw [channel_small (0.357579 * k * 3.24071 + _ + _) (by norm_num; linarith),
    channel_small (0.357579 * k * 0.0556352 + _ + _) (by norm_num; linarith)]
  congr 3
  ring

/-- **C48**, pure blue of every level: it comes back as pure blue, at most one step darker. -/
theorem C48_pure_blue (n : Int) (hn : 1 ≤ n) (hn2 : n ≤ 255) :
    ∃ m, toRgb (ofRgb 0 0 n) = (0, 0, m) ∧ n - 1 ≤ m := by
  have h1 : (1 : ℝ) / 255 ≤ (n : ℝ) / 255 := by
    have : (1 : ℝ) ≤ n := by exact_mod_cast hn
    linarith
  have h2 : (n : ℝ) / 255 ≤ 1 := by
    have : (n : ℝ) ≤ 255 := by exact_mod_cast hn2
    linarith
  have hc := channel_ge n hn hn2 (0.180464 * 0.0556352 + 0.0721856 * (-0.203996) + 0.950444 * 1.05707)
    (by norm_num) (by norm_num)
  generalize hk : (n : ℝ) / 255 = k at *
  have hp : 0 < k := lt_of_lt_of_le (by norm_num) h1
  rw [ofRgb_xyz 0 0 n (0.180464 * k) (0.0721856 * k) (0.950444 * k) (by rw [hk]; norm_num) (by rw [hk]; norm_num)
    (by rw [hk]; norm_num) (by norm_num at h1 ⊢; refine ⟨?_, ?_, ?_⟩ <;> linarith),
    toRgb_ofXyz _ _ _ (by rw [le_div_iff₀ (by positivity)]; norm_num; linarith)]
  refine ⟨_, ?_, hc⟩
  rw [channel_small (0.180464 * k * 3.24071 + _ + _) (by norm_num; linarith),
    channel_small (0.180464 * k * (-0.969258) + _ + _) (by norm_num; linarith)]
  congr 3
  ring

example : ∃ m, toRgb (ofRgb 0 200 0) = (0, m, 0) ∧ 199 ≤ m := C48_pure_green 200 (by norm_num) (by norm_num)

end Verif.Color
