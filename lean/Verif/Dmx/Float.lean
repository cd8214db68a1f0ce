import Mathlib.Data.Rat.Floor
import Mathlib.Algebra.Order.Floor.Ring
import Mathlib.Data.Int.Log
import Mathlib.Tactic.Linarith
import Mathlib.Tactic.FieldSimp
import Mathlib.Tactic.Ring
import Mathlib.Tactic.NormNum
import Mathlib.Tactic.Positivity

/-!
# Double precision rounding

`double` arithmetic is modelled as exact rational arithmetic followed by a rounding. `Fl` collects the facts about
the rounding that are used; `ieee` shows that IEEE 754 round-half-even with 53 significant bits has them (exponent
range unbounded: no overflow or subnormals, which cannot occur for the magnitudes at hand).
-/

namespace Verif.Dmx

/-- A rounding to double precision. -/
structure Fl where
  fl : ℚ → ℚ
  /-- rounding is monotone -/
  mono : ∀ x y, x ≤ y → fl x ≤ fl y
  /-- numbers with at most 53 significant bits are unchanged -/
  exact : ∀ (m k : ℤ), |m| ≤ 2^53 → fl (m * 2^k) = m * 2^k
  /-- relative error at most 2^-53 -/
  err : ∀ x, |fl x - x| ≤ |x| / 2^53

/-- Round to the nearest integer, ties to even. -/
def rne (x : ℚ) : ℤ :=
  if Int.fract x < 1/2 then ⌊x⌋ else if 1/2 < Int.fract x then ⌊x⌋ + 1
  else if ⌊x⌋ % 2 = 0 then ⌊x⌋ else ⌊x⌋ + 1

theorem rne_bounds (x : ℚ) : ⌊x⌋ ≤ rne x ∧ rne x ≤ ⌊x⌋ + 1 := by
  unfold rne; split_ifs <;> constructor <;> omega

theorem rne_mono {x y : ℚ} (h : x ≤ y) : rne x ≤ rne y := by
  have hf : ⌊x⌋ ≤ ⌊y⌋ := Int.floor_mono h
  rcases lt_or_eq_of_le hf with hlt | heq
  · have := rne_bounds x; have := rne_bounds y; omega
  · have hx := Int.floor_add_fract x
    have hy := Int.floor_add_fract y
    have hfr : Int.fract x ≤ Int.fract y := by
      rw [heq] at hx; linarith
    unfold rne
    rw [heq]
    split_ifs <;> first | omega | (exfalso; linarith)

theorem rne_int (n : ℤ) : rne (n : ℚ) = n := by
  unfold rne
  simp

theorem rne_err (x : ℚ) : |(rne x : ℚ) - x| ≤ 1/2 := by
  have h := Int.floor_add_fract x
  have h0 := Int.fract_nonneg x
  have h1 := Int.fract_lt_one x
  rw [abs_le]
  unfold rne
  split_ifs <;> push_cast <;> constructor <;> linarith

/-- Rounding of a positive number: scale so that the integer part has 53 bits, round, scale back. -/
def flPos (x : ℚ) : ℚ := (rne (x / 2^(Int.log 2 x - 52)) : ℚ) * 2^(Int.log 2 x - 52)

/-- IEEE 754 round-half-even to 53 bits (unbounded exponent). -/
def ieeeFl (x : ℚ) : ℚ := if 0 < x then flPos x else if x < 0 then - flPos (-x) else 0

theorem two_zpow_pos (k : ℤ) : (0:ℚ) < 2^k := zpow_pos (by norm_num) k

theorem log_le (x : ℚ) (hx : 0 < x) : (2:ℚ)^(Int.log 2 x) ≤ x := by
  have := Int.zpow_log_le_self (b := 2) (r := x) (by norm_num) hx
  exact_mod_cast this

theorem lt_log (x : ℚ) : x < (2:ℚ)^(Int.log 2 x + 1) := by
  have := Int.lt_zpow_succ_log_self (b := 2) (by norm_num) x
  exact_mod_cast this

theorem flPos_ge (x : ℚ) (hx : 0 < x) : (2:ℚ)^(Int.log 2 x) ≤ flPos x := by
  unfold flPos
  have hp := two_zpow_pos (Int.log 2 x - 52)
  have h1 : ((2^52 : ℤ) : ℚ) ≤ x / 2^(Int.log 2 x - 52) := by
    rw [le_div_iff₀ hp]
    push_cast
    calc (2:ℚ)^52 * 2^(Int.log 2 x - 52) = 2^((52:ℤ)) * 2^(Int.log 2 x - 52) := by norm_cast
      _ = 2^(Int.log 2 x) := by rw [← zpow_add₀ (by norm_num)]; congr 1; ring
      _ ≤ x := log_le x hx
  have h2 := rne_mono h1
  rw [rne_int] at h2
  have h3 : ((2^52 : ℤ) : ℚ) ≤ (rne (x / 2^(Int.log 2 x - 52)) : ℚ) := by exact_mod_cast h2
  calc (2:ℚ)^(Int.log 2 x) = ((2^52 : ℤ) : ℚ) * 2^(Int.log 2 x - 52) := by
        rw [show ((2^52 : ℤ) : ℚ) = 2^((52:ℤ)) by norm_num, ← zpow_add₀ (by norm_num)]; congr 1; ring
    _ ≤ _ := mul_le_mul_of_nonneg_right h3 hp.le

theorem flPos_le (x : ℚ) : flPos x ≤ (2:ℚ)^(Int.log 2 x + 1) := by
  unfold flPos
  have hp := two_zpow_pos (Int.log 2 x - 52)
  have h1 : x / 2^(Int.log 2 x - 52) ≤ ((2^53 : ℤ) : ℚ) := by
    rw [div_le_iff₀ hp]
    push_cast
    calc x ≤ 2^(Int.log 2 x + 1) := (lt_log x).le
      _ = 2^((53:ℤ)) * 2^(Int.log 2 x - 52) := by rw [← zpow_add₀ (by norm_num)]; congr 1; ring
      _ = (2:ℚ)^53 * 2^(Int.log 2 x - 52) := by norm_cast
  have h2 := rne_mono h1
  rw [rne_int] at h2
  have h3 : (rne (x / 2^(Int.log 2 x - 52)) : ℚ) ≤ ((2^53 : ℤ) : ℚ) := by exact_mod_cast h2
  calc _ ≤ ((2^53 : ℤ) : ℚ) * 2^(Int.log 2 x - 52) := mul_le_mul_of_nonneg_right h3 hp.le
    _ = 2^(Int.log 2 x + 1) := by
        rw [show ((2^53 : ℤ) : ℚ) = 2^((53:ℤ)) by norm_num, ← zpow_add₀ (by norm_num)]; congr 1; ring

theorem flPos_pos (x : ℚ) (hx : 0 < x) : 0 < flPos x := lt_of_lt_of_le (two_zpow_pos _) (flPos_ge x hx)

theorem flPos_mono (x y : ℚ) (hx : 0 < x) (h : x ≤ y) : flPos x ≤ flPos y := by
  have hlog : Int.log 2 x ≤ Int.log 2 y := Int.log_mono_right hx h
  rcases lt_or_eq_of_le hlog with hlt | heq
  · calc flPos x ≤ 2^(Int.log 2 x + 1) := flPos_le x
      _ ≤ 2^(Int.log 2 y) := zpow_le_zpow_right₀ (by norm_num) (by omega)
      _ ≤ flPos y := flPos_ge y (lt_of_lt_of_le hx h)
  · unfold flPos
    rw [heq]
    have hp := two_zpow_pos (Int.log 2 y - 52)
    apply mul_le_mul_of_nonneg_right _ hp.le
    exact_mod_cast rne_mono (div_le_div_of_nonneg_right h hp.le)

theorem flPos_err (x : ℚ) (hx : 0 < x) : |flPos x - x| ≤ x / 2^53 := by
  unfold flPos
  have hp := two_zpow_pos (Int.log 2 x - 52)
  have e : (rne (x / 2^(Int.log 2 x - 52)) : ℚ) * 2^(Int.log 2 x - 52) - x
      = ((rne (x / 2^(Int.log 2 x - 52)) : ℚ) - x / 2^(Int.log 2 x - 52)) * 2^(Int.log 2 x - 52) := by
    field_simp
  rw [e, abs_mul, abs_of_pos hp]
  have h1 := rne_err (x / 2^(Int.log 2 x - 52))
  calc _ ≤ 1/2 * 2^(Int.log 2 x - 52) := mul_le_mul_of_nonneg_right h1 hp.le
    _ = 2^(Int.log 2 x) / 2^53 := by
        rw [zpow_sub₀ (by norm_num)]; norm_num; ring
    _ ≤ x / 2^53 := div_le_div_of_nonneg_right (log_le x hx) (by positivity)

theorem flPos_exact (m k : ℤ) (hm : 0 < m) (h : m ≤ 2^53) : flPos (m * 2^k) = m * 2^k := by
  have hk := two_zpow_pos k
  have hm' : (0:ℚ) < m := by exact_mod_cast hm
  have hx : (0:ℚ) < m * 2^k := mul_pos hm' hk
  have key : ∃ n : ℤ, (m * 2^k : ℚ) / 2^(Int.log 2 ((m:ℚ) * 2^k) - 52) = n := by
    rcases lt_or_eq_of_le h with hlt | heq
    · have hl : Int.log 2 ((m:ℚ) * 2^k) < 53 + k := by
        have h1 := log_le _ hx
        have h2 : (m * 2^k : ℚ) < 2^(53 + k) := by
          rw [zpow_add₀ (by norm_num)]
          apply mul_lt_mul_of_pos_right _ hk
          have : ((m : ℤ) : ℚ) < ((2^53 : ℤ) : ℚ) := by exact_mod_cast hlt
          rw [show ((2^53 : ℤ) : ℚ) = 2^((53:ℤ)) by norm_num] at this
          exact this
        have := lt_of_le_of_lt h1 h2
        exact (zpow_lt_zpow_iff_right₀ (by norm_num)).1 this
      obtain ⟨d, hd⟩ : ∃ d : ℕ, k - (Int.log 2 ((m:ℚ) * 2^k) - 52) = d := Int.eq_ofNat_of_zero_le (by omega)
      refine ⟨m * 2^d, ?_⟩
      rw [mul_div_assoc, ← zpow_sub₀ (by norm_num), hd]
      push_cast
      norm_cast
    · subst heq
      have hx2 : (((2^53 : ℤ) : ℚ) * 2^k) = ((2:ℕ):ℚ)^(53 + k) := by
        push_cast
        rw [zpow_add₀ (by norm_num)]
        norm_cast
      rw [hx2, Int.log_zpow (by norm_num)]
      refine ⟨2^52, ?_⟩
      push_cast
      rw [← zpow_sub₀ (by norm_num), show (53 + k - (53 + k - 52) : ℤ) = 52 by ring]
      norm_cast
  obtain ⟨n, hn⟩ := key
  unfold flPos
  rw [hn, rne_int, ← hn]
  field_simp

/-- IEEE double rounding has the required properties. -/
def ieee : Fl where
  fl := ieeeFl
  mono := by
    intro x y h
    unfold ieeeFl
    split_ifs with h1 h2 h3 h4 h5 h6
    · exact flPos_mono x y h1 h
    · linarith
    · linarith
    · have := flPos_pos (-x) (by linarith); have := flPos_pos y (by assumption); linarith
    · have := flPos_mono (-y) (-x) (by linarith) (by linarith); linarith
    · have := flPos_pos (-x) (by linarith); linarith
    · have := flPos_pos y (by assumption); linarith
    · exfalso; linarith
    · exact le_refl _
  exact := by
    intro m k h
    have hk := two_zpow_pos k
    unfold ieeeFl
    rcases lt_trichotomy m 0 with hm | hm | hm
    · have hm' : (m:ℚ) < 0 := by exact_mod_cast hm
      have hx : (m * 2^k : ℚ) < 0 := mul_neg_of_neg_of_pos hm' hk
      rw [if_neg (by linarith), if_pos hx]
      have := flPos_exact (-m) k (by omega) (by rw [abs_of_neg hm] at h; exact h)
      push_cast at this
      rw [← neg_mul, this]; ring
    · subst hm; simp
    · have hm' : (0:ℚ) < m := by exact_mod_cast hm
      rw [if_pos (mul_pos hm' hk)]
      exact flPos_exact m k hm (by rw [abs_of_pos hm] at h; exact h)
  err := by
    intro x
    unfold ieeeFl
    split_ifs with h1 h2
    · rw [abs_of_pos h1]; exact flPos_err x h1
    · have := flPos_err (-x) (by linarith)
      rw [abs_of_neg h2]
      rw [show -flPos (-x) - x = -(flPos (-x) - -x) by ring, abs_neg]
      exact this
    · have : x = 0 := by linarith
      subst this; simp

namespace Fl
variable (F : Fl)

theorem nat (n : ℕ) (h : n ≤ 2^53) : F.fl n = n := by
  have := F.exact n 0 (by rw [abs_of_nonneg (by positivity)]; exact_mod_cast h)
  simpa using this

theorem half (n : ℕ) (h : 2 * n + 1 ≤ 2^53) : F.fl (n + 1/2) = n + 1/2 := by
  have := F.exact (2 * n + 1) (-1) (by rw [abs_of_nonneg (by positivity)]; exact_mod_cast h)
  push_cast at this
  have e : ((2 * n + 1) * 2^(-1:ℤ) : ℚ) = n + 1/2 := by
    rw [zpow_neg_one]; ring
  rw [e] at this
  exact this

theorem zero : F.fl 0 = 0 := by simpa using F.nat 0 (by norm_num)
theorem one : F.fl 1 = 1 := by simpa using F.nat 1 (by norm_num)
theorem nonneg (x : ℚ) (h : 0 ≤ x) : 0 ≤ F.fl x := by rw [← F.zero]; exact F.mono _ _ h

end Fl

end Verif.Dmx
