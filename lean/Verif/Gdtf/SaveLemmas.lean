import Verif.Gdtf.SaveModel
import Verif.Gdtf.SaveSpec
import Verif.Gdtf.SpellProps
import Verif.Mvr.SaveLemmas

/-!
# What reading a GDTF description leaves in the members
-/

namespace Verif.Gdtf

open Spec
open Verif.Lookup (Txt)
open Verif.Str Verif.Real Verif.Text Verif.Dmx Verif.Enum
open Verif.Node (Item Kind kinds getAttr)
open Verif.Mvr (atoi_whole digits_short atof_nonneg deserialize_nonneg vector_good color_good matrix_good setRow_good guid_length)

/-! ### Numbers -/

theorem digitsVal_take : ∀ (t : List Char) (acc : Nat), digitsVal acc t = digitsVal acc (t.takeWhile isDigit)
  | [], _ => rfl
  | c :: t, acc => by
    by_cases h : isDigit c = true
    · rw [List.takeWhile_cons_of_pos h, digitsVal, digitsVal, if_pos h, if_pos h]
      exact digitsVal_take t _
    · rw [List.takeWhile_cons_of_neg h]
      simp only [digitsVal, if_neg h]

theorem digit_range {c : Char} (h : isDigit c = true) : 48 ≤ c.toNat ∧ c.toNat ≤ 57 := by
  unfold isDigit at h
  simp only [Bool.and_eq_true, decide_eq_true_eq] at h
  exact ⟨h.1, h.2⟩

theorem nine_infix {s t : List Char} (h : NineDigits s) (ht : t <:+: s) : NineDigits t := fun d hd hc => h d (hd.trans ht) hc

theorem nine_value {t : List Char} (h : NineDigits t) : digitsVal 0 t ≤ 999999999 := by
  rw [digitsVal_take]
  apply digits_short
  exact h _ (List.takeWhile_prefix _).isInfix (fun c hc => digit_range (List.all_eq_true.1 List.all_takeWhile c hc))

theorem nine_sign {t : List Char} (h : NineDigits t) : -999999999 ≤ signVal t ∧ signVal t ≤ 999999999 ∧ ('-' ∉ t → 0 ≤ signVal t) := by
  unfold signVal
  split
  · rename_i r
    have := nine_value (nine_infix h (List.suffix_cons _ r).isInfix)
    refine ⟨by omega, by omega, fun hm => by simp at hm⟩
  · rename_i r
    have := nine_value (nine_infix h (List.suffix_cons _ r).isInfix)
    omega
  · have := nine_value h
    omega

theorem atoi_nine {s : List Char} (h : NineDigits s) : ∃ i, atoi s = some i ∧ -999999999 ≤ i ∧ i ≤ 999999999 ∧ ('-' ∉ s → 0 ≤ i) := by
  obtain ⟨h1, h2, h3⟩ := nine_sign (nine_infix h (List.dropWhile_suffix isSpace).isInfix)
  refine ⟨_, ?_, h1, h2, fun hm => h3 (fun hx => hm ((List.dropWhile_suffix _).subset hx))⟩
  unfold atoi
  rw [if_pos (by omega)]

theorem int_good {s : List Char} {w : Width} {i : Int} (h : NineDigits s) (hc : w = .u32 ∨ w = .size → '-' ∉ s) (hi : s = [] → InType w i) :
    ∃ j, readInt s w i = .int w j ∧ InType w j := by
  obtain ⟨v, hv, v1, v2, v3⟩ := atoi_nine h
  by_cases he : s = []
  · subst he
    have := hi rfl
    cases w <;> simp only [readInt, readSigned, readUnsigned, result, if_true] <;> refine ⟨_, rfl, ?_⟩ <;> unfold InType at * <;> simp only at * <;> omega
  · cases w with
    | s32 =>
      simp only [readInt, readSigned, if_neg he, hv, Option.map_some, result]
      refine ⟨_, rfl, ?_⟩
      unfold toSint
      simp only [InType]
      split <;> omega
    | u8 =>
      simp only [readInt, readUnsigned, if_neg he, hv, Option.map_some, result]
      refine ⟨_, rfl, ?_⟩
      unfold toUint
      simp only [InType]
      omega
    | u32 =>
      simp only [readInt, readUnsigned, if_neg he, hv, Option.map_some, result]
      refine ⟨_, rfl, ?_⟩
      have := v3 (hc (.inl rfl))
      unfold toUint
      simp only [InType]
      omega
    | size =>
      simp only [readInt, readUnsigned, if_neg he, hv, Option.map_some, result]
      refine ⟨_, rfl, ?_⟩
      have := v3 (hc (.inr rfl))
      unfold toUint
      simp only [InType]
      omega

theorem break_good {s : List Char} {i : Int} (h : NineDigits s) (hi : -2 ^ 31 ≤ i ∧ i < 2 ^ 31) :
    ∃ c, readBreak s i = some c ∧ -2 ^ 31 ≤ c.val ∧ c.val < 2 ^ 31 := by
  obtain ⟨v, hv, v1, v2, v3⟩ := atoi_nine h
  unfold readBreak
  split
  · exact ⟨_, rfl, hi⟩
  · split
    · exact ⟨_, rfl, by norm_num, by norm_num⟩
    · rw [hv]
      exact ⟨_, rfl, by simp only; omega, by simp only; omega⟩

/-! ### Dates -/

theorem delete_suffix (s : List Char) (p : Nat) : Str.delete s 0 p <:+ s := by
  unfold Str.delete
  split
  · simp
    exact List.drop_suffix _ _
  · simp

theorem fields_infix (sep : Char) : ∀ (n : Nat) (s : List Char) (l : List (List Char)), fields sep n s = some l → ∀ t ∈ l, t <:+: s := by
  intro n
  induction n with
  | zero => intro s l h; cases h
  | succ n ih =>
    intro s l h t ht
    rw [fields] at h
    split at h
    · rename_i p _
      cases hf : fields sep n (Str.delete s 0 (p + 2)) with
      | none => rw [hf] at h; cases h
      | some l' =>
        rw [hf] at h
        have h := Option.some.inj h
        subst h
        rcases List.mem_cons.1 ht with rfl | ht
        · exact (List.take_prefix _ _).isInfix
        · exact (ih _ _ hf t ht).trans (delete_suffix s _).isInfix
    · have h := Option.some.inj h
      subst h
      rw [List.mem_singleton.1 ht]

theorem allSome_of {l : List (List Char)} (h : ∀ t ∈ l, ∃ i, atoi t = some i) : ∃ r, allSome (l.map atoi) = some r := by
  induction l with
  | nil => exact ⟨[], rfl⟩
  | cons a l ih =>
    obtain ⟨i, hi⟩ := h a (by simp)
    obtain ⟨r, hr⟩ := ih (fun t ht => h t (by simp [ht]))
    exact ⟨i :: r, by simp [allSome, hi, hr]⟩

theorem ints_defined (sep : Char) {s : List Char} (h : NineDigits s) : ∃ l, deserializeInts sep s = some l := by
  obtain ⟨fs, hf⟩ := fields_finish sep (s.length + 1) s (by omega)
  unfold deserializeInts
  rw [hf]
  apply allSome_of
  intro t ht
  obtain ⟨i, hi, -⟩ := atoi_nine (nine_infix h (fields_infix sep _ _ _ hf t ht))
  exact ⟨i, hi⟩

theorem toUint_lt (i : Int) : toUint 16 i < 65536 := by
  unfold toUint
  omega

theorem date_good {s : List Char} (h : NineDigits s) : ∃ c, readDate s = some c ∧ c.val.Fits := by
  have zero : (⟨0, 0, 0, 0, 0, 0⟩ : Time).Fits := by unfold Time.Fits; simp
  unfold readDate
  split
  · exact ⟨_, rfl, zero⟩
  · have : ∃ l, deserializeDate s = some l := by
      unfold deserializeDate
      split
      · obtain ⟨a, ha⟩ := ints_defined '-' (nine_infix h (List.take_prefix _ s).isInfix)
        obtain ⟨b, hb⟩ := ints_defined ':' (nine_infix h (List.drop_suffix _ s).isInfix)
        rw [ha, hb]
        simp only
        split <;> exact ⟨_, rfl⟩
      · exact ⟨_, rfl⟩
    obtain ⟨l, hl⟩ := this
    rw [hl]
    split
    · rename_i hx; cases hx
    · exact ⟨_, rfl, toUint_lt _, toUint_lt _, toUint_lt _, toUint_lt _, toUint_lt _, toUint_lt _⟩
    · exact ⟨_, rfl, zero⟩

/-! ### Identifiers -/

theorem hexVal_lt {c : Char} {f : Nat} (h : hexVal c = some f) : f ≤ 15 := by
  have key : ∀ (p : Prop) [Decidable p] (a : Nat) (x : Option Nat), (if p then some a else x) = some f → a ≤ 15 → (x = some f → f ≤ 15) → f ≤ 15 := by
    intro p _ a x h1 h2 h3
    split at h1
    · have := Option.some.inj h1; omega
    · exact h3 h1
  unfold hexVal at h
  iterate 16 (refine key _ _ _ h (by decide) ?_; clear h; intro h)
  cases h

theorem hexLoop_small : ∀ (t : List Char) (acc j : Nat), acc < 16 ^ j → j + t.length ≤ 4 →
    (∀ v, hexLoop acc t = .inl v → v ≤ 65535) ∧ (∀ v, hexLoop acc t = .inr v → v ≤ 65535) := by
  intro t
  induction t with
  | nil =>
    intro acc j ha hj
    have : 16 ^ j ≤ 16 ^ 4 := Nat.pow_le_pow_right (by omega) (by simpa using hj)
    refine ⟨fun v h => ?_, fun v h => by cases h⟩
    rw [hexLoop] at h
    have := Sum.inl.inj h
    omega
  | cons c t ih =>
    intro acc j ha hj
    rw [List.length_cons] at hj
    have hp : 16 ^ (j + 1) ≤ 16 ^ 4 := Nat.pow_le_pow_right (by omega) (by omega)
    have hs : 16 ^ (j + 1) = 16 ^ j * 16 := Nat.pow_succ _ _
    rw [hexLoop]
    cases hc : hexVal c with
    | none =>
      simp only
      refine ⟨fun v h => (by cases h), fun v h => ?_⟩
      have := Sum.inr.inj h
      have := Nat.mod_le (acc * 16) (2 ^ 64)
      omega
    | some f =>
      have := hexVal_lt hc
      have hm := Nat.mod_le (acc * 16 + f) (2 ^ 64)
      exact ih _ (j + 1) (by omega) (by omega)

theorem hex_good {s : List Char} (h : s.length ≤ 6) : (readHex s).val ≤ 65535 := by
  have hl : (makeUpper (midC s 2 npos)).length ≤ 4 := by
    unfold makeUpper
    rw [List.length_map]
    unfold midC
    split
    · simp
    · rw [List.length_take, List.length_drop]
      omega
  obtain ⟨h1, h2⟩ := hexLoop_small (makeUpper (midC s 2 npos)) 0 0 (by simp) (by omega)
  unfold readHex
  simp only
  split
  · rename_i v hv
    split at hv
    · exact h2 v hv
    · cases hv
  · rename_i v hv
    split <;> simp only <;> omega

/-! ### Channel values -/

theorem shift_left_le {v k n : Nat} (hv : v < 256 ^ k) (hk : 1 ≤ k) (hkn : k ≤ n) (hn : n ≤ 4) : (v <<< (8 * (n - k))) % 2 ^ 64 < 256 ^ n := by
  rw [Nat.shiftLeft_eq]
  apply Nat.lt_of_le_of_lt (Nat.mod_le _ _)
  have : 2 ^ (8 * (n - k)) = 256 ^ (n - k) := by rw [Nat.pow_mul]
  rw [this]
  calc v * 256 ^ (n - k) < 256 ^ k * 256 ^ (n - k) := Nat.mul_lt_mul_of_pos_right hv (by positivity)
    _ = 256 ^ n := by rw [← Nat.pow_add]; congr 1; omega

theorem shift_right_le {v k n : Nat} (hv : v < 256 ^ k) (hkn : n ≤ k) : v >>> (8 * (k - n)) < 256 ^ n := by
  rw [Nat.shiftRight_eq_div_pow]
  have : 2 ^ (8 * (k - n)) = 256 ^ (k - n) := by rw [Nat.pow_mul]
  rw [this, Nat.div_lt_iff_lt_mul (by positivity), ← Nat.pow_add]
  have : n + (k - n) = k := by omega
  rw [this]
  exact hv

theorem shifted_good {v k n : Nat} (hv : v < 256 ^ k) (hk : IsReso k) (hn : IsReso n) : ∃ w, shifted v k n = some w ∧ w ≤ 256 ^ n - 1 := by
  obtain ⟨k1, k4⟩ := hk
  obtain ⟨n1, n4⟩ := hn
  unfold shifted
  by_cases he : k = n
  · subst he
    rw [if_neg (by simp)]
    exact ⟨_, rfl, by omega⟩
  · rw [if_pos (by omega)]
    simp only
    rw [if_neg (by omega)]
    by_cases hle : k ≤ n
    · rw [if_pos (by omega), if_pos (by omega)]
      have e : (8 * ((n : Int) - (k : Int))).toNat = 8 * (n - k) := by omega
      rw [e]
      have := shift_left_le hv k1 hle n4
      exact ⟨_, rfl, by omega⟩
    · rw [if_neg (by omega), if_pos (by omega)]
      have e : (-(8 * ((n : Int) - (k : Int)))).toNat = 8 * (k - n) := by omega
      rw [e]
      have := shift_right_le hv (show n ≤ k by omega)
      exact ⟨_, rfl, by omega⟩

theorem scaled_good (F : Fl) {v k n : Nat} (hv : v < 256 ^ k) (hk : IsReso k) (hn : IsReso n) : ∃ w, scaled F (v : ℚ) k n = some w ∧ w ≤ 256 ^ n - 1 := by
  have hv' : v ≤ maxOf k := by unfold maxOf; omega
  by_cases he : k = n
  · subst he
    unfold scaled
    rw [if_neg (by simp), castU64_nat v (by have := maxOf_pos k hk; omega)]
    exact ⟨v, rfl, hv'⟩
  · rw [scaled_eq F k n v hk hn he]
    have h1 := maxOf_pos k hk
    have h2 := maxOf_pos n hn
    obtain ⟨b1, b2⟩ := scale_bounds F (maxOf k) (maxOf n) v (by omega) h2.2 hv'
    obtain ⟨c1, -, c2⟩ := cast_scaled F (maxOf n) h2.2 _ b1 b2
    rw [c1]
    refine ⟨_, rfl, ?_⟩
    show (if _ > maxOf n then maxOf n else _) ≤ maxOf n
    split <;> omega

theorem complete_digits {s : List Char} (h : isCompleteNumber s = true) : Digits s := by
  unfold isCompleteNumber at h
  rw [Bool.and_eq_true] at h
  refine ⟨?_, fun c hc => digit_range (List.all_eq_true.1 h.2 c hc)⟩
  rintro rfl
  cases h.1

theorem dmx_good (F : Fl) {n : Nat} (hn : IsReso n) {s : List Char} (h : Limit.value.Meets s) : ∃ c, readDmx F n s 0 = some c ∧ c.val ≤ 256 ^ n - 1 := by
  have hfin : ∀ w (e : Bool), w ≤ 256 ^ n - 1 → ∃ c, (if w > chanMax n then some (⟨false, true, w⟩ : Conv Nat) else some ⟨true, e, w⟩) = some c ∧
      c.val ≤ 256 ^ n - 1 := by
    intro w e hw
    split <;> exact ⟨_, rfl, hw⟩
  by_cases hs : '/' ∈ s
  · obtain ⟨a, b, k, hab, ha, k1, k4, hb, hd⟩ := h hs
    by_cases hda : isCompleteNumber a = true
    · have hd := hd (complete_digits hda)
      have hna : NatText (decimal a) a := ⟨complete_digits hda, rfl⟩
      have h53 : decimal a ≤ 2 ^ 53 := by
        have : 256 ^ k ≤ 256 ^ 4 := Nat.pow_le_pow_right (by omega) k4
        omega
      rcases hab with rfl | rfl
      · rw [(readDmx_same F n 0 hna hb k4).1, readDmx_plain F n _ k 0 h53 (by omega)]
        obtain ⟨w, hw, hle⟩ := scaled_good F hd ⟨k1, k4⟩ hn
        rw [hw]
        exact hfin w false hle
      · rw [(readDmx_same F n 0 hna hb k4).2, readDmx_shift F n _ k 0 h53 (by omega)]
        obtain ⟨w, hw, hle⟩ := shifted_good hd ⟨k1, k4⟩ hn
        rw [hw]
        exact hfin w false hle
    · have hnum : numbers F a b = some (0, 1, true) := by
        unfold numbers
        rw [(atoi_whole (nat_whole hb) (by omega)).1]
        simp only [hda, Bool.false_and, Bool.false_eq_true, if_false]
      have h0 : castU64 (0 : ℚ) = some 0 := by
        have := castU64_nat 0 (by omega)
        simpa using this
      rcases hab with rfl | rfl
      · rw [readDmx_parts F n 0 a _ ha, (nat_cut hb).1, hnum]
        simp only [h0, Bool.false_eq_true, if_false]
        obtain ⟨w, hw, hle⟩ := scaled_good F (v := 0) (k := 1) (n := n) (by omega) ⟨by omega, by omega⟩ hn
        have hw : scaled F 0 1 n = some w := by simpa using hw
        rw [hw]
        exact hfin w true hle
      · rw [readDmx_parts F n 0 a _ ha, (nat_cut hb).2, hnum]
        simp only [h0, if_true]
        obtain ⟨w, hw, hle⟩ := shifted_good (v := 0) (k := 1) (n := n) (by omega) ⟨by omega, by omega⟩ hn
        have hw : shifted 0 1 n = some w := hw
        rw [hw]
        exact hfin w true hle
  · unfold readDmx
    split
    · exact ⟨_, rfl, by simp⟩
    · have : find s "/".toList = none := by
        rw [show "/".toList = ['/'] from rfl, find_single]
        exact findCh_none '/' s hs
      rw [this]
      exact ⟨_, rfl, by simp⟩

theorem high_good (F : Fl) {n : Nat} (hn : IsReso n) {s : List Char} (h : Limit.value.Meets s) :
    ∃ c, readDmxNone F n s 0 = some c ∧ (c.val.2 = true ∨ c.val.1 ≤ 256 ^ n - 1) := by
  unfold readDmxNone
  split
  · exact ⟨_, rfl, .inl rfl⟩
  · obtain ⟨c, hc, hle⟩ := dmx_good F hn h
    rw [hc]
    exact ⟨_, rfl, .inr hle⟩

theorem offset_good {s : List Char} (h : Limit.offset.Meets s) : ∃ c, readOffset s = some c ∧ c.val.Valid := by
  rcases h with rfl | ⟨o, ho, hm⟩
  · exact ⟨⟨false, false, ⟨0, 0, 0, 0⟩⟩, rfl, by unfold Offset.Valid; simp⟩
  · obtain ⟨ok, e⟩ := offset_means hm ho
    exact ⟨_, e, ho⟩

theorem address_good {s : List Char} (h : Limit.address.Meets s) : ∃ c, readAddress s = some c ∧ 1 ≤ c.val ∧ c.val ≤ 65535 := by
  rcases h with rfl | ⟨a, h1, h2, hm⟩
  · exact ⟨⟨false, false, 1⟩, rfl, by simp, by simp⟩
  · exact ⟨_, address_means hm h1 h2, h1, h2⟩

/-! ### Numbers with decimals -/

theorem point_good (F : Fl) (s : List Char) : ∃ c, readPoint2 F s = some c ∧ Good c.val.1 ∧ Good c.val.2 := by
  have hz : Good zero := by unfold Good zero; simp
  have hr : ∃ c, readReals F s = some c ∧ ∀ x ∈ c.val, Good x := by
    unfold readReals
    split
    · exact ⟨_, rfl, by simp⟩
    · obtain ⟨l, e, h, hl⟩ := deserialize_nonneg F ((s.filter (· ≠ '{')).filter (· ≠ '}'))
      rw [h]
      exact ⟨_, rfl, hl⟩
  obtain ⟨⟨ok, err, l⟩, hc, hl⟩ := hr
  unfold readPoint2
  rw [hc]
  simp only at hl ⊢
  split
  · exact ⟨_, rfl, hl _ (by simp), hl _ (by simp)⟩
  · exact ⟨_, rfl, hz, hz⟩

theorem colorLines_good (F : Fl) : ∀ (ls : List (List Char)) (st : List V3 × Bool), (∀ v ∈ st.1, GoodV v) →
    ∃ r, colorLines F ls st = some r ∧ ∀ v ∈ r.1, GoodV v
  | [], st, h => ⟨st, rfl, h⟩
  | l :: t, (cs, err), h => by
    obtain ⟨fs, e, hd, hl⟩ := deserialize_nonneg F l
    unfold colorLines
    rw [hd]
    split
    · simp_all
    · rename_i a b c e' heq
      simp only [Option.some.injEq, Prod.mk.injEq] at heq
      obtain ⟨rfl, -⟩ := heq
      apply colorLines_good F t
      intro v hv
      rcases List.mem_append.1 hv with hv | hv
      · exact h v hv
      · rw [List.mem_singleton.1 hv]
        exact ⟨hl a (by simp), hl b (by simp), hl c (by simp)⟩
    · exact colorLines_good F t _ h

theorem colors_good (F : Fl) (s : List Char) : ∃ c, readColors F s = some c ∧ ∀ v ∈ c.val, GoodV v := by
  unfold readColors
  split
  · exact ⟨_, rfl, by simp⟩
  · obtain ⟨ls, hls⟩ := groups_finish ((stripClose (stripOpen s).1).1.length + 1) (stripClose (stripOpen s).1).1 (by omega)
    simp only
    rw [hls]
    obtain ⟨r, hr, hg⟩ := colorLines_good F ls ([], (stripOpen s).2 || (stripClose (stripOpen s).1).2) (by simp)
    exact ⟨_, by simp only; rw [hr]; rfl, hg⟩

/-- Three axes. -/
def GoodR (m : Mat) : Prop := GoodV m.u ∧ GoodV m.v ∧ GoodV m.w

theorem setRow_turn {m : Mat} {i : Nat} {r : V3} (hm : GoodR m) (hr : GoodV r) : GoodR (m.setRow i r) := by
  obtain ⟨h1, h2, h3⟩ := hm
  unfold Mat.setRow
  split <;> exact ⟨by first | exact hr | exact h1, by first | exact hr | exact h2, by first | exact hr | exact h3⟩

theorem rotationLines_good (F : Fl) : ∀ (ls : List (List Char)) (i : Nat) (st : Mat × Bool), GoodR st.1 →
    ∃ r, rotationLines F ls i st = some r ∧ GoodR r.1
  | [], _, st, h => ⟨st, rfl, h⟩
  | l :: t, i, (m, err), h => by
    obtain ⟨fs, e, hd, hl⟩ := deserialize_nonneg F l
    unfold rotationLines
    rw [hd]
    split
    · simp_all
    · rename_i a b c e' heq
      simp only [Option.some.injEq, Prod.mk.injEq] at heq
      obtain ⟨rfl, -⟩ := heq
      exact rotationLines_good F t _ _ (setRow_turn h ⟨hl a (by simp), hl b (by simp), hl c (by simp)⟩)
    · exact rotationLines_good F t _ _ h

theorem rotation_good (F : Fl) (s : List Char) {old : Mat} (ho : GoodR old) : ∃ c, readRotation F s old = some c ∧ GoodR c.val := by
  unfold readRotation
  obtain ⟨ls, hls⟩ := groups_finish ((stripClose (stripOpen s).1).1.length + 1) (stripClose (stripOpen s).1).1 (by omega)
  simp only
  rw [hls]
  simp only
  split
  · exact ⟨_, rfl, ho⟩
  · obtain ⟨r, hr, hg⟩ := rotationLines_good F ls 0 (old, (stripOpen s).2 || (stripClose (stripOpen s).1).2) ho
    exact ⟨_, by rw [hr]; rfl, hg⟩

end Verif.Gdtf
