import Verif.Dmx.Model
import Verif.Str.Lemmas
import Mathlib.Tactic.IntervalCases

/-!
# C11, C12: DMX values

All theorems hold for every rounding `F` with the properties of `Fl`, in particular for IEEE doubles (`ieee`).
-/

namespace Verif.Dmx
open Verif.Str Verif.Text

/-- Specification: the largest value of a channel of `n` bytes. -/
def maxOf (n : Nat) : Nat := 256 ^ n - 1

/-- A channel resolution: 1 to 4 bytes. -/
def IsReso (n : Nat) : Prop := 1 ≤ n ∧ n ≤ 4

theorem chanMax_eq (n : Nat) (h : IsReso n) : chanMax n = maxOf n := by
  obtain ⟨h1, h2⟩ := h
  interval_cases n <;> decide

theorem maxOf_pos (n : Nat) (h : IsReso n) : 255 ≤ maxOf n ∧ maxOf n < 2^32 := by
  obtain ⟨h1, h2⟩ := h
  interval_cases n <;> decide

theorem castU64_nat (n : Nat) (h : n < 2^64) : castU64 (n : ℚ) = some n := by
  unfold castU64
  rw [if_pos ⟨by linarith [show (0:ℚ) ≤ n from Nat.cast_nonneg n], by exact_mod_cast h⟩]
  simp

theorem castU64_half (n : Nat) (h : n < 2^32) : castU64 ((n : ℚ) + 1/2) = some n := by
  unfold castU64
  have h0 : (0:ℚ) ≤ n := Nat.cast_nonneg n
  have h1 : (n:ℚ) < 2^32 := by exact_mod_cast h
  rw [if_pos ⟨by linarith, by have h64 : (2:ℚ)^32 + 1 < 2^64 := (by norm_num); linarith⟩]
  have : ⌊(n:ℚ) + 1/2⌋ = n := by
    rw [Int.floor_eq_iff]
    constructor <;> push_cast <;> linarith
  rw [this]; simp

theorem natText_getLast (n : Nat) : (natText n).getLast? ≠ some 's' := by
  intro h
  have := natText_digits n 's' (List.mem_of_getLast? h)
  exact absurd this (by decide)

theorem find_slash (a b : List Char) (h : '/' ∉ a) : find (a ++ '/' :: b) "/".toList = some a.length := by
  have : "/".toList = ['/'] := rfl
  rw [this, find_single, findCh_split '/' a b h]

/-- What reading `v/n` does, before looking at ranges. -/
theorem readDmx_plain (F : Fl) (m v n old : Nat) (hv : v ≤ 2^53) (hn : n ≤ 2147483647) :
    readDmx F m (natText v ++ '/' :: natText n) old =
      match scaled F v n m with
      | none => none
      | some w => if w > chanMax m then some ⟨false, true, w⟩ else some ⟨true, false, w⟩ := by
  unfold readDmx
  rw [if_neg (by simp), find_slash _ _ (natText_not_mem v '/' (by decide))]
  have ht : (natText v ++ '/' :: natText n).take (natText v).length = natText v := List.take_left
  have hd : (natText v ++ '/' :: natText n).drop ((natText v).length + 1) = natText n := by
    rw [List.drop_length_add_append]; rfl
  simp only [ht, hd]
  have hc : cutShift (natText n) = (natText n, false) := by
    unfold cutShift; rw [if_neg (natText_getLast n)]
  rw [hc]
  unfold numbers
  rw [atoi_natText n hn, natText_complete, natText_complete, digitsVal_natText, F.nat v hv]
  simp only [Bool.and_self, if_true]
  rw [castU64_nat v (by omega)]
  simp only [Bool.false_eq_true, if_false]
  cases scaled F v n m <;> rfl

/-- What reading `v/ns` does. -/
theorem readDmx_shift (F : Fl) (m v n old : Nat) (hv : v ≤ 2^53) (hn : n ≤ 2147483647) :
    readDmx F m (natText v ++ '/' :: (natText n ++ ['s'])) old =
      match shifted v n m with
      | none => none
      | some w => if w > chanMax m then some ⟨false, true, w⟩ else some ⟨true, false, w⟩ := by
  unfold readDmx
  rw [if_neg (by simp), find_slash _ _ (natText_not_mem v '/' (by decide))]
  have ht : (natText v ++ '/' :: (natText n ++ ['s'])).take (natText v).length = natText v := List.take_left
  have hd : (natText v ++ '/' :: (natText n ++ ['s'])).drop ((natText v).length + 1) = natText n ++ ['s'] := by
    rw [List.drop_length_add_append]; rfl
  simp only [ht, hd]
  have hc : cutShift (natText n ++ ['s']) = (natText n, true) := by
    unfold cutShift; rw [if_pos (by simp)]; simp
  rw [hc]
  unfold numbers
  rw [atoi_natText n hn, natText_complete, natText_complete, digitsVal_natText, F.nat v hv]
  simp only [Bool.and_self, if_true]
  rw [castU64_nat v (by omega)]
  simp only
  cases shifted v n m <;> rfl

/-- **C11**: every value of every channel resolution survives writing and reading. -/
theorem C11_roundtrip (F : Fl) (n v old : Nat) (hn : IsReso n) (hv : v ≤ maxOf n) :
    readDmx F n (writeDmx v n) old = some ⟨true, false, v⟩ := by
  have hm := maxOf_pos n hn
  have h4 := hn.2
  unfold writeDmx
  simp only [Bool.false_eq_true, if_false]
  rw [readDmx_plain F n v n old (by omega) (by omega)]
  have : scaled F v n n = some v := by
    unfold scaled
    rw [if_neg (by simp), castU64_nat v (by omega)]
  rw [this, chanMax_eq n hn]
  simp only
  rw [if_neg (by omega)]

/-- The text of a DMX value is not "None". -/
theorem writeDmx_not_none (v n : Nat) : eqNoCase (natText v ++ '/' :: natText n) "None".toList = false := by
  unfold eqNoCase
  rw [decide_eq_false_iff_not]
  intro h
  have hm : '/' ∈ makeUpper (natText v ++ '/' :: natText n) := by
    unfold makeUpper
    exact List.mem_map.2 ⟨'/', by simp, by decide⟩
  rw [h] at hm
  revert hm; decide

/-- **C11** for values that may be absent: "None" survives and leaves the value alone, values survive. -/
theorem C11_none (F : Fl) (n v old : Nat) (hn : IsReso n) (hv : v ≤ maxOf n) :
    readDmxNone F n (writeDmx v n true) old = some ⟨true, false, (old, true)⟩ ∧
    readDmxNone F n (writeDmx v n false) old = some ⟨true, false, (v, false)⟩ := by
  constructor
  · unfold readDmxNone writeDmx
    rw [if_pos rfl, if_pos (by decide)]
  · have := C11_roundtrip F n v old hn hv
    unfold readDmxNone
    unfold writeDmx at this ⊢
    simp only [Bool.false_eq_true, if_false] at this ⊢
    rw [writeDmx_not_none, if_neg Bool.false_ne_true, this]
    rfl

example : IsReso 2 ∧ 65535 ≤ maxOf 2 ∧ writeDmx 65535 2 = "65535/2".toList := by
  refine ⟨⟨by decide, by decide⟩, by decide, by decide +kernel⟩

/-! ### C12 -/

/-- The number that scaling computes before truncation. -/
def scaleResult (F : Fl) (N M v : Nat) : ℚ := F.fl (F.fl ((v : ℚ) / N) * M)

theorem scaled_eq (F : Fl) (n m v : Nat) (hn : IsReso n) (hm : IsReso m) (hne : n ≠ m) :
    scaled F v n m = (castU64 (F.fl (scaleResult F (maxOf n) (maxOf m) v + 1/2))).map
      fun w => if w > maxOf m then maxOf m else w := by
  have h1 := maxOf_pos n hn
  have h2 := maxOf_pos m hm
  unfold scaled scaleResult
  rw [if_pos (by exact_mod_cast hne), chanMax_eq n hn, chanMax_eq m hm, F.nat (maxOf n) (by omega), F.nat (maxOf m) (by omega)]

theorem scale_bounds (F : Fl) (N M v : Nat) (hN : 0 < N) (hM : M < 2^32) (hv : v ≤ N) :
    0 ≤ scaleResult F N M v ∧ scaleResult F N M v ≤ M := by
  have hN' : (0:ℚ) < N := by exact_mod_cast hN
  have hv' : (v:ℚ) ≤ N := by exact_mod_cast hv
  have hM0 : (0:ℚ) ≤ M := Nat.cast_nonneg M
  have p0 : 0 ≤ F.fl ((v:ℚ) / N) := F.nonneg _ (by positivity)
  have p1 : F.fl ((v:ℚ) / N) ≤ 1 := by
    rw [← F.one]; apply F.mono; rw [div_le_one hN']; exact hv'
  constructor
  · exact F.nonneg _ (mul_nonneg p0 hM0)
  · have : F.fl (F.fl ((v:ℚ) / N) * M) ≤ F.fl M := F.mono _ _ (by nlinarith)
    rw [F.nat M (by omega)] at this
    exact this

theorem scaleResult_zero (F : Fl) (N M : Nat) : scaleResult F N M 0 = 0 := by
  unfold scaleResult
  simp [F.zero]

theorem scaleResult_full (F : Fl) (N M : Nat) (hN : 0 < N) (hM : M < 2^32) : scaleResult F N M N = M := by
  have hN' : (N:ℚ) ≠ 0 := by exact_mod_cast hN.ne'
  unfold scaleResult
  rw [div_self hN', F.one, one_mul, F.nat M (by omega)]

theorem scaleResult_mono (F : Fl) (N M v w : Nat) (h : v ≤ w) : scaleResult F N M v ≤ scaleResult F N M w := by
  unfold scaleResult
  apply F.mono
  apply mul_le_mul_of_nonneg_right _ (Nat.cast_nonneg M)
  apply F.mono
  apply div_le_div_of_nonneg_right _ (Nat.cast_nonneg N)
  exact_mod_cast h

/-- The integer obtained from the scaled number. -/
theorem cast_scaled (F : Fl) (M : Nat) (hM : M < 2^32) (r : ℚ) (h0 : 0 ≤ r) (h1 : r ≤ M) :
    castU64 (F.fl (r + 1/2)) = some ⌊F.fl (r + 1/2)⌋.toNat ∧ 0 ≤ ⌊F.fl (r + 1/2)⌋ ∧ ⌊F.fl (r + 1/2)⌋.toNat ≤ M := by
  have hM' : (M:ℚ) < 2^32 := by exact_mod_cast hM
  have b0 : 0 ≤ F.fl (r + 1/2) := F.nonneg _ (by linarith)
  have b1 : F.fl (r + 1/2) ≤ M + 1/2 := by
    rw [← F.half M (by omega)]; exact F.mono _ _ (by linarith)
  have f0 : 0 ≤ ⌊F.fl (r + 1/2)⌋ := Int.floor_nonneg.2 b0
  have f1 : ⌊F.fl (r + 1/2)⌋ ≤ M := by
    have : ⌊F.fl (r + 1/2)⌋ < (M:ℤ) + 1 := by
      rw [Int.floor_lt]; push_cast; linarith
    omega
  refine ⟨?_, f0, by omega⟩
  unfold castU64
  rw [if_pos ⟨by linarith, by have h64 : (2:ℚ)^32 + 1 < 2^64 := (by norm_num); linarith⟩]

/-- The value read for `v/n` on a channel of `m` bytes. -/
def rescaled (F : Fl) (n m v : Nat) : Nat :=
  if n = m then v else ⌊F.fl (scaleResult F (maxOf n) (maxOf m) v + 1/2)⌋.toNat

theorem read_rescaled (F : Fl) (n m v old : Nat) (hn : IsReso n) (hm : IsReso m) (hv : v ≤ maxOf n) :
    readDmx F m (natText v ++ '/' :: natText n) old = some ⟨true, false, rescaled F n m v⟩ ∧
      rescaled F n m v ≤ maxOf m := by
  have h1 := maxOf_pos n hn
  have h2 := maxOf_pos m hm
  have h4 := hn.2
  by_cases hne : n = m
  · subst hne
    have := C11_roundtrip F n v old hn hv
    unfold writeDmx at this
    simp only [Bool.false_eq_true, if_false] at this
    refine ⟨?_, ?_⟩
    · rw [this]; simp [rescaled]
    · simp [rescaled, hv]
  · obtain ⟨b0, b1⟩ := scale_bounds F (maxOf n) (maxOf m) v (by omega) h2.2 hv
    obtain ⟨c0, c1, c2⟩ := cast_scaled F (maxOf m) h2.2 _ b0 b1
    have e : rescaled F n m v = ⌊F.fl (scaleResult F (maxOf n) (maxOf m) v + 1/2)⌋.toNat := by
      unfold rescaled; rw [if_neg hne]
    rw [e]
    refine ⟨?_, c2⟩
    rw [readDmx_plain F m v n old (by omega) (by omega), scaled_eq F n m v hn hm hne, c0]
    simp only [Option.map_some]
    rw [chanMax_eq m hm, if_neg (by omega : ¬ ⌊F.fl (scaleResult F (maxOf n) (maxOf m) v + 1/2)⌋.toNat > maxOf m), if_neg (by omega)]

/-- **C12**, in range: a value of `n` bytes read for a channel of `m` bytes is accepted and inside the channel's range. -/
theorem C12_in_range (F : Fl) (n m v old : Nat) (hn : IsReso n) (hm : IsReso m) (hv : v ≤ maxOf n) :
    ∃ w, readDmx F m (natText v ++ '/' :: natText n) old = some ⟨true, false, w⟩ ∧ w ≤ maxOf m :=
  ⟨_, (read_rescaled F n m v old hn hm hv).1, (read_rescaled F n m v old hn hm hv).2⟩

/-- **C12**: 0 is read as 0. -/
theorem C12_zero (F : Fl) (n m old : Nat) (hn : IsReso n) (hm : IsReso m) :
    readDmx F m (natText 0 ++ '/' :: natText n) old = some ⟨true, false, 0⟩ := by
  rw [(read_rescaled F n m 0 old hn hm (Nat.zero_le _)).1]
  congr 2
  unfold rescaled
  split
  · rfl
  · rw [scaleResult_zero]
    have := F.half 0 (by norm_num)
    simp only [Nat.cast_zero] at this
    rw [this]
    norm_num

/-- **C12**: full is read as full. -/
theorem C12_full (F : Fl) (n m old : Nat) (hn : IsReso n) (hm : IsReso m) :
    readDmx F m (natText (maxOf n) ++ '/' :: natText n) old = some ⟨true, false, maxOf m⟩ := by
  have h1 := maxOf_pos n hn
  have h2 := maxOf_pos m hm
  rw [(read_rescaled F n m (maxOf n) old hn hm (Nat.le_refl _)).1]
  congr 2
  unfold rescaled
  split
  · rename_i h; rw [h]
  · rw [scaleResult_full F _ _ (by omega) h2.2, F.half _ (by omega)]
    have : ⌊((maxOf m : Nat) : ℚ) + 1/2⌋ = (maxOf m : ℤ) := by
      rw [Int.floor_eq_iff]; constructor <;> push_cast <;> linarith
    rw [this]; simp

/-- **C12**: reading is monotone. -/
theorem C12_monotone (F : Fl) (n m v v' old w w' : Nat) (hn : IsReso n) (hm : IsReso m) (h : v ≤ v') (hv : v' ≤ maxOf n)
    (hw : readDmx F m (natText v ++ '/' :: natText n) old = some ⟨true, false, w⟩)
    (hw' : readDmx F m (natText v' ++ '/' :: natText n) old = some ⟨true, false, w'⟩) : w ≤ w' := by
  rw [(read_rescaled F n m v old hn hm (by omega)).1] at hw
  rw [(read_rescaled F n m v' old hn hm hv).1] at hw'
  have e1 : rescaled F n m v = w := by simpa using hw
  have e2 : rescaled F n m v' = w' := by simpa using hw'
  rw [← e1, ← e2]
  unfold rescaled
  split
  · exact h
  · apply Int.toNat_le_toNat
    apply Int.floor_mono
    apply F.mono
    have := scaleResult_mono F (maxOf n) (maxOf m) v v' h
    linarith

theorem scale_err (F : Fl) (N M v : Nat) (hN : 0 < N) (hM : M < 2^32) (hv : v ≤ N) :
    |scaleResult F N M v - (v:ℚ) * M / N| ≤ 1 / 2^20 := by
  have hN' : (0:ℚ) < N := by exact_mod_cast hN
  have hv' : (v:ℚ) ≤ N := by exact_mod_cast hv
  have hv0 : (0:ℚ) ≤ v := Nat.cast_nonneg v
  have hM0 : (0:ℚ) ≤ M := Nat.cast_nonneg M
  have hM' : (M:ℚ) < 2^32 := by exact_mod_cast hM
  have q0 : 0 ≤ (v:ℚ)/N := by positivity
  have q1 : (v:ℚ)/N ≤ 1 := by rw [div_le_one hN']; exact hv'
  have e1 := F.err ((v:ℚ)/N)
  rw [abs_of_nonneg q0] at e1
  generalize hq : (v:ℚ)/N = q at *
  have hp0 : 0 ≤ F.fl q := F.nonneg _ q0
  have hp1 : F.fl q ≤ 1 := by rw [← F.one]; exact F.mono _ _ q1
  have e2 := F.err (F.fl q * M)
  rw [abs_of_nonneg (mul_nonneg hp0 hM0)] at e2
  have e3 : (v:ℚ) * M / N = q * M := by rw [← hq]; field_simp
  rw [e3]
  unfold scaleResult
  rw [hq]
  have e4 : |F.fl q * M - q * M| ≤ M / 2^53 := by
    rw [← sub_mul, abs_mul, abs_of_nonneg hM0]
    calc |F.fl q - q| * M ≤ q / 2^53 * M := mul_le_mul_of_nonneg_right e1 hM0
      _ ≤ 1 / 2^53 * M := mul_le_mul_of_nonneg_right (div_le_div_of_nonneg_right q1 (by positivity)) hM0
      _ = M / 2^53 := by ring
  have e5 : F.fl q * M / 2^53 ≤ M / 2^53 := div_le_div_of_nonneg_right (by nlinarith) (by positivity)
  calc |F.fl (F.fl q * M) - q * M| = |(F.fl (F.fl q * M) - F.fl q * M) + (F.fl q * M - q * M)| := by ring_nf
    _ ≤ |F.fl (F.fl q * M) - F.fl q * M| + |F.fl q * M - q * M| := abs_add_le _ _
    _ ≤ M / 2^53 + M / 2^53 := by linarith
    _ ≤ 2^32 / 2^53 + 2^32 / 2^53 := by
        have : (M:ℚ) / 2^53 ≤ 2^32 / 2^53 := div_le_div_of_nonneg_right hM'.le (by positivity)
        linarith
    _ = 1 / 2^20 := by norm_num

/-- **C12**, accuracy: the value read is the proportional value `v * max(m) / max(n)` rounded to the nearest integer, up to
a tolerance of 2^-19. -/
theorem C12_accuracy (F : Fl) (n m v old w : Nat) (hn : IsReso n) (hm : IsReso m) (hv : v ≤ maxOf n)
    (hw : readDmx F m (natText v ++ '/' :: natText n) old = some ⟨true, false, w⟩) :
    |(w:ℚ) - (v:ℚ) * maxOf m / maxOf n| ≤ 1/2 + 1/2^19 := by
  have h1 := maxOf_pos n hn
  have h2 := maxOf_pos m hm
  rw [(read_rescaled F n m v old hn hm hv).1] at hw
  have e1 : rescaled F n m v = w := by simpa using hw
  by_cases hne : n = m
  · subst hne
    have : w = v := by rw [← e1]; simp [rescaled]
    subst this
    have hN' : ((maxOf n : Nat) : ℚ) ≠ 0 := by
      have : 0 < maxOf n := by omega
      exact_mod_cast this.ne'
    rw [mul_div_assoc, div_self hN', mul_one, sub_self, abs_zero]
    norm_num
  · have he := scale_err F (maxOf n) (maxOf m) v (by omega) h2.2 hv
    obtain ⟨b0, b1⟩ := scale_bounds F (maxOf n) (maxOf m) v (by omega) h2.2 hv
    obtain ⟨_, c1, _⟩ := cast_scaled F (maxOf m) h2.2 _ b0 b1
    have e2 : w = ⌊F.fl (scaleResult F (maxOf n) (maxOf m) v + 1/2)⌋.toNat := by
      rw [← e1]; unfold rescaled; rw [if_neg hne]
    generalize hr : scaleResult F (maxOf n) (maxOf m) v = r at *
    have hM' : ((maxOf m : Nat):ℚ) < 2^32 := by exact_mod_cast h2.2
    have e3 := F.err (r + 1/2)
    rw [abs_of_nonneg (show 0 ≤ r + 1/2 by linarith)] at e3
    have e4 : (r + 1/2) / 2^53 ≤ 1/2^20 := by
      rw [div_le_div_iff₀ (by positivity) (by positivity)]
      have h64 : ((2:ℚ)^32 + 1) * 2^20 < 2^53 := by norm_num
      have : (r + 1/2) * 2^20 ≤ (2^32 + 1) * 2^20 := mul_le_mul_of_nonneg_right (by linarith) (by positivity)
      linarith
    have hwf : (w:ℚ) = (⌊F.fl (r + 1/2)⌋ : ℚ) := by
      rw [e2]
      have : ((⌊F.fl (r + 1/2)⌋.toNat : ℤ)) = ⌊F.fl (r + 1/2)⌋ := Int.toNat_of_nonneg c1
      exact_mod_cast congrArg (fun z : ℤ => (z : ℚ)) this
    have f1 := Int.floor_le (F.fl (r + 1/2))
    have f2 := Int.lt_floor_add_one (F.fl (r + 1/2))
    rw [hwf]
    rw [abs_le] at he e3 ⊢
    have : (1:ℚ)/2^19 = 1/2^20 + 1/2^20 := by norm_num
    constructor <;> linarith

/-- **C12**, exactness: when the proportional value is an integer, exactly this integer is read. -/
theorem C12_exact (F : Fl) (n m v old t : Nat) (hn : IsReso n) (hm : IsReso m) (hv : v ≤ maxOf n)
    (ht : v * maxOf m = t * maxOf n) :
    readDmx F m (natText v ++ '/' :: natText n) old = some ⟨true, false, t⟩ := by
  obtain ⟨w, hw, _⟩ := C12_in_range F n m v old hn hm hv
  have hacc := C12_accuracy F n m v old w hn hm hv hw
  have h1 := maxOf_pos n hn
  have hN : ((maxOf n : Nat) : ℚ) ≠ 0 := by
    have : 0 < maxOf n := by omega
    exact_mod_cast this.ne'
  have e : (v:ℚ) * maxOf m / maxOf n = t := by
    rw [div_eq_iff hN]; exact_mod_cast ht
  rw [e] at hacc
  have hlt : |((w:ℤ) - (t:ℤ) : ℤ)| < 1 := by
    have : |((w:ℚ) - t)| < 1 := lt_of_le_of_lt hacc (by norm_num)
    have h' : ((|((w:ℤ) - (t:ℤ) : ℤ)| : ℤ) : ℚ) < ((1:ℤ):ℚ) := by push_cast; exact this
    exact_mod_cast h'
  have : (w:ℤ) = t := by
    rw [Int.abs_lt_one_iff] at hlt; omega
  have : w = t := by exact_mod_cast this
  rw [hw, this]

/-- An 8-bit value read for a 16-bit channel is `v * 257`, and reading that value for an 8-bit channel gives `v` back. -/
theorem C12_8_16_8 (F : Fl) (v old : Nat) (hv : v ≤ 255) :
    readDmx F 2 (natText v ++ '/' :: natText 1) old = some ⟨true, false, v * 257⟩ ∧
    readDmx F 1 (natText (v * 257) ++ '/' :: natText 2) old = some ⟨true, false, v⟩ := by
  have r1 : IsReso 1 := ⟨by decide, by decide⟩
  have r2 : IsReso 2 := ⟨by decide, by decide⟩
  have m1 : maxOf 1 = 255 := by decide
  have m2 : maxOf 2 = 65535 := by decide
  exact ⟨C12_exact F 1 2 v old (v * 257) r1 r2 (by omega) (by rw [m1, m2]; ring),
    C12_exact F 2 1 (v * 257) old v r2 r1 (by omega) (by rw [m1, m2]; ring)⟩

/-- **C12**, byte shifting up: `v/ns` for a channel of `m ≥ n` bytes is `v * 256^(m-n)`. -/
theorem C12_shift_up (F : Fl) (n m v old : Nat) (hn : IsReso n) (hm : IsReso m) (hv : v ≤ maxOf n) (hle : n ≤ m) :
    readDmx F m (natText v ++ '/' :: (natText n ++ ['s'])) old = some ⟨true, false, v * 256^(m-n)⟩ := by
  have h1 := maxOf_pos n hn
  have h4 := hn.2
  rw [readDmx_shift F m v n old (by omega) (by omega), chanMax_eq m hm]
  have hs : shifted v n m = some (v * 256^(m-n)) ∧ v * 256^(m-n) ≤ maxOf m := by
    have hb : v * 256^(m-n) ≤ maxOf m := by
      have h1 : v + 1 ≤ 256^n := by
        have : 0 < 256^n := by positivity
        unfold maxOf at hv; omega
      have h2 : (v+1) * 256^(m-n) ≤ 256^n * 256^(m-n) := Nat.mul_le_mul_right _ h1
      rw [← Nat.pow_add, show n + (m-n) = m by omega, Nat.add_mul] at h2
      have : 0 < 256^(m-n) := by positivity
      unfold maxOf; omega
    refine ⟨?_, hb⟩
    have h2 := maxOf_pos m hm
    have h5 := hm.2
    unfold shifted
    by_cases e : n = m
    · subst e; simp
    · rw [if_pos (by exact_mod_cast e)]
      simp only
      rw [if_neg (by omega), if_pos (by omega), if_pos (by omega),
        show (8 * ((m:Int) - n)).toNat = 8 * (m-n) by omega, Nat.shiftLeft_eq, Nat.pow_mul, show (2:Nat)^8 = 256 from rfl,
        Nat.mod_eq_of_lt (by omega)]
  rw [hs.1]
  simp only
  rw [if_neg (by omega)]

/-- **C12**, byte shifting down: `v/ns` for a channel of `m < n` bytes keeps the upper `m` bytes. -/
theorem C12_shift_down (F : Fl) (n m v old : Nat) (hn : IsReso n) (hm : IsReso m) (hv : v ≤ maxOf n) (hlt : m < n) :
    readDmx F m (natText v ++ '/' :: (natText n ++ ['s'])) old = some ⟨true, false, v / 256^(n-m)⟩ := by
  have h1 := maxOf_pos n hn
  have h4 := hn.2
  rw [readDmx_shift F m v n old (by omega) (by omega), chanMax_eq m hm]
  have hs : shifted v n m = some (v / 256^(n-m)) ∧ v / 256^(n-m) ≤ maxOf m := by
    have hb : v / 256^(n-m) ≤ maxOf m := by
      have h1 : v < 256^m * 256^(n-m) := by
        rw [← Nat.pow_add, show m + (n-m) = n by omega]
        have : 0 < 256^n := by positivity
        unfold maxOf at hv; omega
      have h2 := (Nat.div_lt_iff_lt_mul (by positivity)).2 h1
      unfold maxOf; omega
    refine ⟨?_, hb⟩
    unfold shifted
    rw [if_pos (by omega)]
    simp only
    rw [if_neg (by omega), if_neg (by omega), if_pos (by omega),
      show (-(8 * ((m:Int) - n))).toNat = 8 * (n-m) by omega, Nat.shiftRight_eq_div_pow, Nat.pow_mul]
  rw [hs.1]
  simp only
  rw [if_neg (by omega)]

/-- The hypotheses are met, also by a rounding that really rounds. -/
example : readDmx ieee 2 "128/1".toList 7 = some ⟨true, false, 32896⟩ := by
  have := (C12_8_16_8 ieee 128 7 (by decide)).1
  have e : natText 128 ++ '/' :: natText 1 = "128/1".toList := by decide +kernel
  rw [e] at this
  exact this

/-- A value outside the range of its own resolution is refused if the channel has this resolution. -/
theorem C12_too_big (F : Fl) (n v old : Nat) (hn : IsReso n) (hv : maxOf n < v) (hv2 : v ≤ 2^53) :
    readDmx F n (natText v ++ '/' :: natText n) old = some ⟨false, true, v⟩ := by
  have h4 := hn.2
  rw [readDmx_plain F n v n old hv2 (by omega)]
  have : scaled F v n n = some v := by
    unfold scaled
    rw [if_neg (by simp), castU64_nat v (by omega)]
  rw [this, chanMax_eq n hn]
  simp only
  rw [if_pos hv]

/-- A text without slash is refused and the value untouched; the "None" variant hides the failure from its caller. -/
theorem C12_no_slash (F : Fl) (m old : Nat) (s : List Char) (hs : s ≠ []) (h : '/' ∉ s) :
    readDmx F m s old = some ⟨false, true, old⟩ ∧
    (eqNoCase s "None".toList = false → readDmxNone F m s old = some ⟨true, true, (old, false)⟩) := by
  have e : readDmx F m s old = some ⟨false, true, old⟩ := by
    unfold readDmx
    rw [if_neg hs]
    have : "/".toList = ['/'] := rfl
    rw [this, find_single, findCh_none '/' s h]
  refine ⟨e, fun hn => ?_⟩
  unfold readDmxNone
  rw [hn, if_neg Bool.false_ne_true, e]
  rfl

/-- **C12 is violated** for byte counts outside 1..4: any such text, e.g. "200/0" or "200/5", is silently read as 0 for
values up to 2^20 on a channel of one byte (the maximum of the unknown resolution is taken as 2^64 - 1). -/
theorem C12_bad_resolution_violated (F : Fl) (n v old : Nat) (hn : n = 0 ∨ 5 ≤ n) (hn2 : n ≤ 2147483647) (hv : v ≤ 2^20) :
    readDmx F 1 (natText v ++ '/' :: natText n) old = some ⟨true, false, 0⟩ := by
  have hne : ((n:Nat):Int) ≠ ((1:Nat):Int) := by omega
  have hmax : chanMax n = 2^64 - 1 := by
    unfold chanMax
    rw [if_neg (by omega), if_neg (by omega), if_neg (by omega), if_neg (by omega)]
  rw [readDmx_plain F 1 v n old (by omega) hn2]
  have hs : scaled F v n 1 = some 0 := by
    unfold scaled
    rw [if_pos hne, hmax, show chanMax ((1:Nat):Int) = 255 by decide, F.nat 255 (by norm_num)]
    have hN : (2:ℚ)^63 ≤ F.fl ((2^64 - 1 : Nat) : ℚ) := by
      have h2 := F.exact 1 63 (by norm_num)
      have e63 : (((1:ℤ):ℚ) * 2^(63:ℤ)) = 2^63 := by norm_num
      rw [e63] at h2
      rw [← h2]
      apply F.mono
      norm_num
    have hv0 : (0:ℚ) ≤ v := Nat.cast_nonneg v
    have hv' : (v:ℚ) ≤ 2^20 := by exact_mod_cast hv
    generalize F.fl ((2^64 - 1 : Nat) : ℚ) = D at *
    have hD : (0:ℚ) < D := lt_of_lt_of_le (by norm_num) hN
    have q0 : 0 ≤ (v:ℚ)/D := by positivity
    have q1 : (v:ℚ)/D ≤ 1 / 2^40 := by
      rw [div_le_div_iff₀ hD (by positivity)]
      have : (v:ℚ) * 2^40 ≤ 2^20 * 2^40 := mul_le_mul_of_nonneg_right hv' (by positivity)
      have h64 : (2:ℚ)^20 * 2^40 < 2^63 := by norm_num
      linarith
    have p0 := F.nonneg _ q0
    have p1 : F.fl ((v:ℚ)/D) ≤ 1/2^40 := by
      have h2 := F.exact 1 (-40) (by norm_num)
      have e40 : (((1:ℤ):ℚ) * 2^(-40:ℤ)) = 1/2^40 := by norm_num
      rw [e40] at h2
      rw [← h2]; exact F.mono _ _ q1
    have r0 : 0 ≤ F.fl (F.fl ((v:ℚ)/D) * (255:ℕ)) := F.nonneg _ (by positivity)
    have r1 : F.fl (F.fl ((v:ℚ)/D) * (255:ℕ)) ≤ 1/4 := by
      have h2 := F.exact 1 (-2) (by norm_num)
      have e2 : (((1:ℤ):ℚ) * 2^(-2:ℤ)) = 1/4 := by norm_num
      rw [e2] at h2
      rw [← h2]; apply F.mono
      push_cast
      norm_num at p1 ⊢; linarith
    simp only
    generalize F.fl (F.fl ((v:ℚ)/D) * (255:ℕ)) = r at *
    have s0 : 0 ≤ F.fl (r + 1/2) := F.nonneg _ (by linarith)
    have s1 : F.fl (r + 1/2) ≤ 3/4 := by
      have h2 := F.exact 3 (-2) (by norm_num)
      have e2 : (((3:ℤ):ℚ) * 2^(-2:ℤ)) = 3/4 := by norm_num
      rw [e2] at h2
      rw [← h2]; apply F.mono; linarith
    have hc : castU64 (F.fl (r + 1/2)) = some 0 := by
      unfold castU64
      rw [if_pos ⟨by linarith, by norm_num; linarith⟩]
      have : ⌊F.fl (r + 1/2)⌋ = 0 := by
        rw [Int.floor_eq_iff]; constructor <;> push_cast <;> linarith
      rw [this]
      rfl
    rw [hc]
    rfl
  rw [hs]
  rfl

end Verif.Dmx
