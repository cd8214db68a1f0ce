import Verif.Gdtf.SpellSpec
import Verif.Gdtf.FormatLemmas
import Verif.Gdtf.AbsentProps
import Verif.Mvr.SpellLemmas
import Mathlib.Tactic.IntervalCases
import Mathlib.Tactic.NormNum

/-!
# Lemmas: the converters of a GDTF description read every spelling
-/

namespace Verif.Gdtf

open Spec
open Verif.Lookup (Txt)
open Verif.Str Verif.Real Verif.Text Verif.Dmx Verif.Enum
open Verif.Node (Item Kind kinds getAttr)
open Verif.Mvr.Spec (Num Whole Alike' AnyWord RoundedNum RoundedV upper Spaces)
open Verif.Mvr (atoi_whole atof_num num_rounded num_chars num_no listed_join listed_three three_fields three_plain color_means vector_means
  row_group line_three guid_means alike_eq flag_means same_text digits_all decimal_digits digit_not digits_cons)

theorem spelled_chars {t : Txt} {s : List Char} (h : Spelled t s) : toChars t = s := by
  unfold Spelled at h
  unfold toChars
  rw [show (fun u : BitVec 16 => Char.ofNat u.toNat) = Char.ofNat ∘ BitVec.toNat from rfl, ← List.map_map, h, List.map_map]
  rw [List.map_congr_left (g := id)]
  · exact List.map_id s
  · intro c _
    exact Char.ofNat_toNat c

/-! ### Channel values -/

theorem nat_whole {n : Nat} {s : List Char} (h : NatText n s) : Whole n s :=
  ⟨false, [], [], s, [], by simp [Spaces], .inl ⟨rfl, rfl⟩, h.1, by simp [Spaces], by simp, by simp [h.2]⟩

theorem nat_complete {n : Nat} {s : List Char} (h : NatText n s) : isCompleteNumber s = true := by
  unfold isCompleteNumber
  rw [Bool.and_eq_true]
  refine ⟨?_, List.all_eq_true.2 (digits_all h.1)⟩
  cases s with
  | nil => exact absurd rfl h.1.1
  | cons _ _ => rfl

theorem nat_value {n : Nat} {s : List Char} (h : NatText n s) : digitsVal 0 s = n := by
  rw [decimal_digits (digits_all h.1), h.2]

theorem nat_no {n : Nat} {s : List Char} (h : NatText n s) {c : Char} (hc : isDigit c = false) : c ∉ s := by
  intro hm
  rw [digits_all h.1 c hm] at hc
  cases hc

/-- Leading zeros do not matter. -/
theorem numbers_same (F : Fl) {v k : Nat} {a b : List Char} (ha : NatText v a) (hb : NatText k b) (hk : k ≤ 4) :
    numbers F a b = numbers F (natText v) (natText k) := by
  have hk' := nat_says k
  have hv' := nat_says v
  unfold numbers
  rw [(atoi_whole (nat_whole hb) (by omega)).1, (atoi_whole (nat_whole hk') (by omega)).1, nat_complete ha, nat_complete hb, nat_complete hk',
    nat_complete hv', nat_value ha, nat_value hv']

theorem nat_cut {n : Nat} {s : List Char} (h : NatText n s) : cutShift s = (s, false) ∧ cutShift (s ++ ['s']) = (s, true) := by
  unfold cutShift
  constructor
  · rw [if_neg]
    intro e
    exact nat_no h (c := 's') (by decide) (List.mem_of_getLast? e)
  · rw [if_pos (by simp)]
    simp

theorem readDmx_parts (F : Fl) (m old : Nat) (a r : List Char) (ha : '/' ∉ a) : readDmx F m (a ++ '/' :: r) old =
    match numbers F a (cutShift r).1 with
    | none => none
    | some (raw, spec, err) =>
      match castU64 raw with
      | none => none
      | some v0 =>
        match (if (cutShift r).2 then shifted v0 spec m else scaled F raw spec m) with
        | none => none
        | some v => if v > chanMax m then some ⟨false, true, v⟩ else some ⟨true, err, v⟩ := by
  unfold readDmx
  rw [if_neg (by simp), find_slash a r ha]
  simp only [List.take_left, List.drop_length_add_append, List.drop_succ_cons, List.drop_zero]
  rfl

theorem readDmx_same (F : Fl) (m old : Nat) {v k : Nat} {a b : List Char} (ha : NatText v a) (hb : NatText k b) (hk : k ≤ 4) :
    readDmx F m (a ++ '/' :: b) old = readDmx F m (natText v ++ '/' :: natText k) old ∧
    readDmx F m (a ++ '/' :: (b ++ ['s'])) old = readDmx F m (natText v ++ '/' :: (natText k ++ ['s'])) old := by
  have hv' := nat_says v
  have hk' := nat_says k
  constructor
  · rw [readDmx_parts F m old a _ (nat_no ha (by decide)), readDmx_parts F m old _ _ (nat_no hv' (by decide)), (nat_cut hb).1, (nat_cut hk').1,
      numbers_same F ha hb hk]
  · rw [readDmx_parts F m old a _ (nat_no ha (by decide)), readDmx_parts F m old _ _ (nat_no hv' (by decide)), (nat_cut hb).2, (nat_cut hk').2,
      numbers_same F ha hb hk]

theorem mirrored_scale (k n w : Nat) (hk : IsReso k) (hn : IsReso n) (hd : k ∣ n) (hw : w < 256 ^ k) :
    w * maxOf n = mirrored k n w * maxOf k := by
  obtain ⟨k1, k4⟩ := hk
  obtain ⟨n1, n4⟩ := hn
  have hpair : (k = 1 ∧ n = 1) ∨ (k = 1 ∧ n = 2) ∨ (k = 1 ∧ n = 3) ∨ (k = 1 ∧ n = 4) ∨ (k = 2 ∧ n = 2) ∨ (k = 2 ∧ n = 4) ∨ (k = 3 ∧ n = 3) ∨
      (k = 4 ∧ n = 4) := by
    clear hw
    revert hd
    interval_cases k <;> interval_cases n <;> decide
  rcases hpair with ⟨rfl, rfl⟩ | ⟨rfl, rfl⟩ | ⟨rfl, rfl⟩ | ⟨rfl, rfl⟩ | ⟨rfl, rfl⟩ | ⟨rfl, rfl⟩ | ⟨rfl, rfl⟩ | ⟨rfl, rfl⟩ <;>
    simp [mirrored, byteOf, maxOf, List.range_succ] <;> omega

theorem channel_read (F : Fl) {n v old : Nat} {s : List Char} (hn : IsReso n) (h : Channel n v s) : readDmx F n s old = some ⟨true, false, v⟩ := by
  obtain ⟨k, w, a, b, k1, k4, hw, ha, hb, ⟨rfl, hd, rfl⟩ | ⟨rfl, rfl⟩⟩ := h
  · rw [(readDmx_same F n old ha hb k4).1]
    exact C12_exact F k n w old _ ⟨k1, k4⟩ hn (by unfold maxOf; omega) (mirrored_scale k n w ⟨k1, k4⟩ hn hd hw)
  · rw [(readDmx_same F n old ha hb k4).2]
    unfold shiftedTo
    split
    · exact C12_shift_up F k n w old ⟨k1, k4⟩ hn (by unfold maxOf; omega) (by assumption)
    · exact C12_shift_down F k n w old ⟨k1, k4⟩ hn (by unfold maxOf; omega) (by omega)

theorem channel_slash {n v : Nat} {s : List Char} (h : Channel n v s) : '/' ∈ s := by
  obtain ⟨k, w, a, b, -, -, -, -, -, ⟨rfl, -⟩ | ⟨rfl, -⟩⟩ := h <;> simp

theorem slash_not_none {s : List Char} (h : '/' ∈ s) : eqNoCase s "None".toList = false := by
  unfold eqNoCase
  rw [decide_eq_false_iff_not]
  intro e
  have hm : '/' ∈ makeUpper s := by
    unfold makeUpper
    exact List.mem_map.2 ⟨'/', h, by decide⟩
  rw [e] at hm
  exact absurd hm (by decide)

/-! ### Lists of numbers -/

theorem listed_two {x y : Dbl} {s : List Char} (h : Listed [Num x, Num y] s) : ∃ a b, s = joinComma [a, b] ∧ Num x a ∧ Num y b := by
  obtain ⟨a, b, ha, hb, rfl⟩ := h
  exact ⟨a, b, rfl, ha, hb⟩

theorem num_comma {x : Dbl} {a : List Char} (h : Num x a) : a ≠ [] ∧ ',' ∉ a :=
  ⟨(num_chars h).1, num_no h (by decide) (by decide) (by decide) (by decide) (by decide)⟩

theorem num_brace {x : Dbl} {a : List Char} (h : Num x a) : '{' ∉ a ∧ '}' ∉ a :=
  ⟨num_no h (by decide) (by decide) (by decide) (by decide) (by decide), num_no h (by decide) (by decide) (by decide) (by decide) (by decide)⟩

theorem filter_no (c : Char) (s : List Char) (h : c ∉ s) : s.filter (· ≠ c) = s := by
  rw [List.filter_eq_self]
  intro d hd
  rw [decide_eq_true_iff]
  rintro rfl
  exact h hd

theorem point_means (F : Fl) {x y : Dbl} {s : List Char} (h : Listed [Num x, Num y] s) :
    ∃ a b, Num x a ∧ Num y b ∧ readPoint2 F s = some ⟨true, false, (atof F a, atof F b)⟩ := by
  obtain ⟨a, b, rfl, ha, hb⟩ := listed_two h
  refine ⟨a, b, ha, hb, ?_⟩
  have hno : ∀ c, c ≠ ',' → c ∉ a → c ∉ b → c ∉ joinComma [a, b] := by
    intro c hc h1 h2
    apply joinComma_no _ c hc
    simp [h1, h2]
  unfold readPoint2 readReals
  rw [if_neg (by simp [joinComma]), filter_no '{' _ (hno _ (by decide) (num_brace ha).1 (num_brace hb).1),
    filter_no '}' _ (hno _ (by decide) (num_brace ha).2 (num_brace hb).2), deserialize_fields F [a, b] (by simp) (by
      intro p hp
      simp only [List.mem_cons, List.not_mem_nil, or_false] at hp
      rcases hp with rfl | rfl
      · exact num_comma ha
      · exact num_comma hb)]
  rfl

theorem row_group4 {x y z w : Dbl} {s : List Char} (h : Row [Num x, Num y, Num z, Num w] s) :
    ∃ a b c d, s = group [a, b, c, d] ∧ Num x a ∧ Num y b ∧ Num z c ∧ Num w d := by
  obtain ⟨r, ⟨a, r1, ha, ⟨b, r2, hb, ⟨c, d, hc, hd, rfl⟩, rfl⟩, rfl⟩, rfl⟩ := h
  exact ⟨a, b, c, d, rfl, ha, hb, hc, hd⟩

theorem four_plain {x y z w : Dbl} {a b c d : List Char} (ha : Num x a) (hb : Num y b) (hc : Num z c) (hd : Num w d) :
    joinComma [a, b, c, d] ≠ [] ∧ '}' ∉ joinComma [a, b, c, d] := by
  refine ⟨?_, joinComma_no _ '}' (by decide) ?_⟩
  · have := (num_chars ha).1
    cases a with
    | nil => exact absurd rfl this
    | cons d a => simp [joinComma]
  · simp [(num_brace ha).2, (num_brace hb).2, (num_brace hc).2, (num_brace hd).2]

theorem four_fields (F : Fl) {x y z w : Dbl} {a b c d : List Char} (ha : Num x a) (hb : Num y b) (hc : Num z c) (hd : Num w d) :
    deserialize F (joinComma [a, b, c, d]) = some ([atof F a, atof F b, atof F c, atof F d], false) :=
  deserialize_fields F [a, b, c, d] (by simp) (by
    intro p hp
    simp only [List.mem_cons, List.not_mem_nil, or_false] at hp
    rcases hp with rfl | rfl | rfl | rfl
    · exact num_comma ha
    · exact num_comma hb
    · exact num_comma hc
    · exact num_comma hd)

theorem line_four (F : Fl) {x y z w : Dbl} {a b c d : List Char} (ha : Num x a) (hb : Num y b) (hc : Num z c) (hd : Num w d)
    (t : List (List Char)) (i : Nat) (m : Mat) (err : Bool) :
    matrixLines F (joinComma [a, b, c, d] :: t) i (m, err) =
      matrixLines F t (i+1) (if i < 3 then (m.setRow i ⟨atof F a, atof F b, atof F c⟩).setOff i (atof F d) else m, err) := by
  rw [matrixLines, four_fields F ha hb hc hd]
  simp only [Bool.or_false]

theorem matrix_means4 (F : Fl) {n : Nat} {m : Mat} {s : List Char} (h : Means n .matrix (.matrix m) s) (hm : Kept n (.matrix m)) (old : Mat) :
    ∃ k, readMatrix F s old = some ⟨true, false, k⟩ ∧ Rounded (.matrix m) (.matrix k) := by
  obtain ⟨r1, q1, h1, ⟨r2, q2, h2, ⟨r3, q3, h3, ⟨r4, q4, h4, rfl, rfl⟩, rfl⟩, rfl⟩, rfl⟩ := h
  obtain ⟨a1, b1, c1, d1, rfl, ha1, hb1, hc1, hd1⟩ := row_group4 h1
  obtain ⟨a2, b2, c2, d2, rfl, ha2, hb2, hc2, hd2⟩ := row_group4 h2
  obtain ⟨a3, b3, c3, d3, rfl, ha3, hb3, hc3, hd3⟩ := row_group4 h3
  obtain ⟨a4, b4, c4, d4, rfl, ha4, hb4, hc4, hd4⟩ := row_group4 h4
  obtain ⟨s2, g1, g2, g3, g4⟩ := split_groups [[a1, b1, c1, d1], [a2, b2, c2, d2], [a3, b3, c3, d3], [a4, b4, c4, d4]] (by simp) (by
    intro r hr
    simp only [List.mem_cons, List.not_mem_nil, or_false] at hr
    rcases hr with rfl | rfl | rfl | rfl
    · exact four_plain ha1 hb1 hc1 hd1
    · exact four_plain ha2 hb2 hc2 hd2
    · exact four_plain ha3 hb3 hc3 hd3
    · exact four_plain ha4 hb4 hc4 hd4)
  have e : group [a1, b1, c1, d1] ++ (group [a2, b2, c2, d2] ++ (group [a3, b3, c3, d3] ++ (group [a4, b4, c4, d4] ++ []))) =
      ([[a1, b1, c1, d1], [a2, b2, c2, d2], [a3, b3, c3, d3], [a4, b4, c4, d4]].map group).flatten := rfl
  obtain ⟨⟨m1, m2, m3⟩, ⟨m4, m5, m6⟩, ⟨m7, m8, m9⟩, m10, m11, m12⟩ := hm
  refine ⟨⟨⟨atof F a1, atof F b1, atof F c1⟩, ⟨atof F a2, atof F b2, atof F c2⟩, ⟨atof F a3, atof F b3, atof F c3⟩,
    ⟨atof F d1, atof F d2, atof F d3⟩⟩, ?_, ?_⟩
  · unfold readMatrix
    rw [e, if_neg g4, g1]
    simp only
    rw [g2]
    simp only
    rw [g3]
    simp only [List.map_cons, List.map_nil]
    rw [if_neg (by simp), line_four F ha1 hb1 hc1 hd1, line_four F ha2 hb2 hc2 hd2, line_four F ha3 hb3 hc3 hd3, line_four F ha4 hb4 hc4 hd4]
    rfl
  · exact ⟨⟨num_rounded F ha1 m1, num_rounded F hb1 m2, num_rounded F hc1 m3⟩, ⟨num_rounded F ha2 m4, num_rounded F hb2 m5, num_rounded F hc2 m6⟩,
      ⟨num_rounded F ha3 m7, num_rounded F hb3 m8, num_rounded F hc3 m9⟩, num_rounded F hd1 m10, num_rounded F hd2 m11, num_rounded F hd3 m12⟩

theorem turn_three (F : Fl) {x y z : Dbl} {a b c : List Char} (ha : Num x a) (hb : Num y b) (hc : Num z c) (t : List (List Char)) (i : Nat) (m : Mat)
    (err : Bool) : rotationLines F (joinComma [a, b, c] :: t) i (m, err) = rotationLines F t (i+1) (m.setRow i ⟨atof F a, atof F b, atof F c⟩, err) := by
  rw [rotationLines, three_fields F ha hb hc]
  simp only [Bool.or_false]

theorem rotation_means (F : Fl) {n : Nat} {m : Mat} {s : List Char} (h : Means n .rotation (.rotation m) s) (hm : Kept n (.rotation m)) (old : Mat) :
    ∃ k, readRotation F s old = some ⟨true, false, k⟩ ∧ Rounded (.rotation m) (.rotation k) := by
  obtain ⟨r1, q1, h1, ⟨r2, q2, h2, ⟨r3, q3, h3, rfl, rfl⟩, rfl⟩, rfl⟩ := h
  obtain ⟨a1, b1, c1, rfl, ha1, hb1, hc1⟩ := row_group h1
  obtain ⟨a2, b2, c2, rfl, ha2, hb2, hc2⟩ := row_group h2
  obtain ⟨a3, b3, c3, rfl, ha3, hb3, hc3⟩ := row_group h3
  obtain ⟨s2, g1, g2, g3, g4⟩ := split_groups [[a1, b1, c1], [a2, b2, c2], [a3, b3, c3]] (by simp) (by
    intro r hr
    simp only [List.mem_cons, List.not_mem_nil, or_false] at hr
    rcases hr with rfl | rfl | rfl
    · exact three_plain ha1 hb1 hc1
    · exact three_plain ha2 hb2 hc2
    · exact three_plain ha3 hb3 hc3)
  have e : group [a1, b1, c1] ++ (group [a2, b2, c2] ++ (group [a3, b3, c3] ++ [])) =
      ([[a1, b1, c1], [a2, b2, c2], [a3, b3, c3]].map group).flatten := rfl
  obtain ⟨⟨m1, m2, m3⟩, ⟨m4, m5, m6⟩, m7, m8, m9⟩ := hm
  refine ⟨⟨⟨atof F a1, atof F b1, atof F c1⟩, ⟨atof F a2, atof F b2, atof F c2⟩, ⟨atof F a3, atof F b3, atof F c3⟩, old.o⟩, ?_, ?_⟩
  · unfold readRotation
    rw [e, g1]
    simp only
    rw [g2]
    simp only
    rw [g3]
    simp only [List.map_cons, List.map_nil]
    rw [if_neg (by simp), turn_three F ha1 hb1 hc1, turn_three F ha2 hb2 hc2, turn_three F ha3 hb3 hc3]
    rfl
  · exact ⟨⟨num_rounded F ha1 m1, num_rounded F hb1 m2, num_rounded F hc1 m3⟩, ⟨num_rounded F ha2 m4, num_rounded F hb2 m5, num_rounded F hc2 m6⟩,
      num_rounded F ha3 m7, num_rounded F hb3 m8, num_rounded F hc3 m9⟩

/-- The rows of a list of colours. -/
theorem rows_groups (F : Fl) : ∀ (cs : List V3) (s : List Char), (∀ c ∈ cs, GoodV c) → Rows (cs.map (fun c => [Num c.x, Num c.y, Num c.z])) s →
    ∃ (rows : List (List (List Char))) (ds : List V3), s = (rows.map group).flatten ∧ rows.length = cs.length ∧
      (∀ r ∈ rows, joinComma r ≠ [] ∧ '}' ∉ joinComma r) ∧ OneByOne RoundedV cs ds ∧
      ∀ acc err, colorLines F (rows.map joinComma) (acc, err) = some (acc ++ ds, err)
  | [], s, _, h => ⟨[], [], h, rfl, by simp, trivial, by intro acc err; simp [colorLines]⟩
  | c :: cs, s, hg, h => by
    obtain ⟨a, b, ha, hb, rfl⟩ := h
    obtain ⟨x, y, z, rfl, hx, hy, hz⟩ := row_group ha
    obtain ⟨rows, ds, rfl, hl, hr, ho, hc⟩ := rows_groups F cs b (fun d hd => hg d (by simp [hd])) hb
    have g := hg c (by simp)
    refine ⟨[x, y, z] :: rows, ⟨atof F x, atof F y, atof F z⟩ :: ds, by simp, by simp [hl], ?_, ?_, ?_⟩
    · intro r hr'
      rcases List.mem_cons.1 hr' with rfl | hr'
      · exact three_plain hx hy hz
      · exact hr r hr'
    · exact ⟨⟨num_rounded F hx g.1, num_rounded F hy g.2.1, num_rounded F hz g.2.2⟩, ho⟩
    · intro acc err
      rw [List.map_cons, colorLines, three_fields F hx hy hz]
      simp only [Bool.or_false]
      rw [hc]
      simp

theorem colors_means (F : Fl) {n : Nat} {cs : List V3} {s : List Char} (h : Means n .colors (.colors cs) s) (hk : Kept n (.colors cs)) :
    ∃ ds, readColors F s = some ⟨true, false, ds⟩ ∧ OneByOne RoundedV cs ds := by
  obtain ⟨rows, ds, rfl, hl, hr, ho, hc⟩ := rows_groups F cs s hk h
  refine ⟨ds, ?_, ho⟩
  by_cases hne : rows = []
  · subst hne
    have : cs = [] := List.length_eq_zero_iff.1 hl.symm
    subst this
    cases ds with
    | nil => rfl
    | cons d ds => exact ho.elim
  obtain ⟨s2, g1, g2, g3, g4⟩ := split_groups rows hne hr
  unfold readColors
  rw [if_neg g4, g1]
  simp only
  rw [g2]
  simp only
  rw [g3]
  simp only
  rw [hc]
  rfl

/-! ### Numbers without decimals -/

theorem int_means {n : Nat} {w : Width} {i j : Int} {s : List Char} (h : Whole i s) (hk : Kept n (.int w i)) : readInt s w j = .int w i := by
  cases w with
  | s32 =>
    obtain ⟨k1, k2⟩ := hk
    obtain ⟨h1, h2⟩ := atoi_whole h (by omega)
    simp only [readInt, readSigned]
    rw [if_neg h2, h1]
    simp only [Option.map_some, result]
    rw [toSint_small 32 (by decide) i (by norm_num; omega) (by norm_num; omega)]
  | u8 =>
    obtain ⟨k1, k2⟩ := hk
    obtain ⟨m, rfl⟩ := Int.eq_ofNat_of_zero_le k1
    obtain ⟨h1, h2⟩ := atoi_whole h (by omega)
    simp only [readInt, readUnsigned]
    rw [if_neg h2, h1]
    simp only [Option.map_some, result]
    rw [toUint_small 8 m (by omega)]
  | u32 =>
    obtain ⟨k1, k2⟩ := hk
    obtain ⟨m, rfl⟩ := Int.eq_ofNat_of_zero_le k1
    obtain ⟨h1, h2⟩ := atoi_whole h (by omega)
    simp only [readInt, readUnsigned]
    rw [if_neg h2, h1]
    simp only [Option.map_some, result]
    rw [toUint_small 32 m (by omega)]
  | size =>
    obtain ⟨k1, k2⟩ := hk
    obtain ⟨m, rfl⟩ := Int.eq_ofNat_of_zero_le k1
    obtain ⟨h1, h2⟩ := atoi_whole h (by omega)
    simp only [readInt, readUnsigned]
    rw [if_neg h2, h1]
    simp only [Option.map_some, result]
    rw [toUint_small 64 m (by omega)]

theorem whole_chars {i : Int} {s : List Char} (h : Whole i s) : s ≠ [] ∧ ∀ c ∈ s, isDigit c = true ∨ c = ' ' ∨ c = '+' ∨ c = '-' := by
  obtain ⟨neg, p, g, a, q, hp, hg, ha, hq, rfl, rfl⟩ := h
  constructor
  · obtain ⟨c, t, rfl, -⟩ := digits_cons ha
    simp
  · intro c hc
    simp only [List.mem_append] at hc
    rcases hc with ((hc | hc) | hc) | hc
    · exact .inr (.inl (hp c hc))
    · rcases hg with ⟨rfl, -⟩ | ⟨rfl, -⟩ | ⟨rfl, -⟩ <;> simp at hc <;> simp [hc]
    · exact .inl (digits_all ha c hc)
    · exact .inr (.inl (hq c hc))

theorem whole_no {i : Int} {s : List Char} (h : Whole i s) {d : Char} (hd : isDigit d = false) (h1 : d ≠ ' ') (h2 : d ≠ '+') (h3 : d ≠ '-') : d ∉ s := by
  intro hm
  rcases (whole_chars h).2 d hm with h | h | h | h
  · rw [hd] at h; cases h
  all_goals contradiction

theorem address_means {a : Nat} {s : List Char} (h : Address a s) (h1 : 1 ≤ a) (h2 : a ≤ 65535) : readAddress s = some ⟨true, false, a⟩ := by
  rcases h with h | ⟨u, b, x, y, hx, hy, rfl, hu, hb, hb2, rfl⟩
  · obtain ⟨e1, e2⟩ := atoi_whole h (by omega)
    unfold readAddress
    rw [if_neg e2, findCh_none '.' _ (whole_no h (by decide) (by decide) (by decide) (by decide)), e1]
    simp only
    rw [toUint_small 16 a (by omega), if_neg (by omega)]
  · obtain ⟨x1, x2⟩ := atoi_whole hx (by omega)
    obtain ⟨y1, y2⟩ := atoi_whole hy (by omega)
    obtain ⟨k, hk⟩ : ∃ k, x.length = k + 1 := ⟨x.length - 1, by have := List.length_pos_iff.2 x2; omega⟩
    have hleft : leftC (x ++ '.' :: y) (k+1) = x := by unfold leftC; rw [← hk, List.take_left]
    have hright : rightC (x ++ '.' :: y) ((x ++ '.' :: y).length - (k+1) - 1) = y := by
      have hl : (x ++ '.' :: y).length = x.length + 1 + y.length := by simp; omega
      unfold rightC
      rw [if_neg (by omega), hl]
      rw [show x.length + 1 + y.length - (x.length + 1 + y.length - (k + 1) - 1) = x.length + 1 by omega, List.drop_length_add_append]
      rfl
    unfold readAddress
    rw [if_neg (by simp), findCh_split '.' _ _ (whole_no hx (by decide) (by decide) (by decide) (by decide)), hk]
    simp only
    rw [hleft, hright, x1, y1]
    simp only
    rw [toUint_small 16 u (by omega), toUint_small 16 b (by omega), if_neg (by omega)]
    have : ((u : Int) - 1) * 512 + (b : Int) = (((u - 1) * 512 + b : Nat) : Int) := by omega
    rw [this, toUint_small 16 _ (by omega)]

theorem upper_n : ∀ {c : Char}, upper c = 'N' → c = 'n' ∨ c = 'N' := by
  intro c h
  unfold upper at h
  split at h
  · rename_i hc
    left
    have h1 : 97 ≤ c.toNat := hc.1
    have h2 : c.toNat ≤ 122 := hc.2
    have : ∀ d : Fin 26, Char.ofNat (97 + d.val - 32) = 'N' → 97 + d.val = 110 := by decide
    have := this ⟨c.toNat - 97, by omega⟩
    simp only at this
    rw [show 97 + (c.toNat - 97) = c.toNat by omega] at this
    have := this h
    rw [← Char.ofNat_toNat c, this]
  · exact .inr h

theorem alike_none {s : List Char} (h : Alike' s "None") : ∃ c t, s = c :: t ∧ (c = 'n' ∨ c = 'N') ∧ ',' ∉ s := by
  unfold Alike' at h
  have hno : ',' ∉ s := by
    intro hm
    have : ',' ∈ s.map upper := List.mem_map.2 ⟨',', hm, by decide⟩
    rw [h] at this
    exact absurd this (by decide)
  cases s with
  | nil => exact absurd h (by decide)
  | cons c t =>
    refine ⟨c, t, rfl, upper_n ?_, hno⟩
    have e : (c :: t).map upper = 'N' :: ("one".toList.map upper) := by rw [h]; decide
    exact (List.cons.inj e).1

theorem ints_means (vs : List Nat) (hne : vs ≠ []) (hv : ∀ v ∈ vs, v < 65536) {s : List Char} (h : Listed (vs.map (fun b : Nat => Whole b)) s) :
    readInts s = some ⟨true, false, vs.map (fun b : Nat => (b : Int))⟩ := by
  obtain ⟨ts, rfl, hl, hi⟩ := listed_join _ s (by simpa using hne) h
  rw [List.length_map] at hl
  have hw : ∀ (i : Nat) (hi' : i < ts.length) (hj : i < vs.length), Whole (vs[i] : Nat) ts[i] := fun i h1 h2 =>
    hi i _ ts[i] (by rw [List.getElem?_map, List.getElem?_eq_getElem h2]; rfl) (List.getElem?_eq_getElem h1)
  have hall : ∀ t ∈ ts, ∃ v : Nat, Whole v t := by
    intro t ht
    obtain ⟨i, h1, rfl⟩ := List.mem_iff_getElem.1 ht
    exact ⟨_, hw i h1 (by omega)⟩
  have hno : ∀ c, isDigit c = false → c ≠ ',' → c ≠ ' ' → c ≠ '+' → c ≠ '-' → c ∉ joinComma ts := by
    intro c h1 h0 h2 h3 h4
    apply joinComma_no _ c h0
    intro t ht
    obtain ⟨v, hv⟩ := hall t ht
    exact whole_no hv h1 h2 h3 h4
  have hts : ts ≠ [] := by
    intro e
    rw [e] at hl
    exact hne (List.length_eq_zero_iff.1 hl.symm)
  have hfield : ∀ t ∈ ts, t ≠ [] ∧ ',' ∉ t := by
    intro t ht
    obtain ⟨v, hv⟩ := hall t ht
    exact ⟨(whole_chars hv).1, whole_no hv (by decide) (by decide) (by decide) (by decide)⟩
  unfold readInts
  rw [if_neg, filter_no '{' _ (hno _ (by decide) (by decide) (by decide) (by decide) (by decide)),
    filter_no '}' _ (hno _ (by decide) (by decide) (by decide) (by decide) (by decide))]
  · unfold deserializeInts
    rw [fields_joinComma ts hts hfield _ (joinComma_length ts)]
    simp only
    have : ∀ (ts : List (List Char)) (vs : List Nat), ts.length = vs.length → (∀ v ∈ vs, v < 65536) →
        (∀ (i : Nat) (h1 : i < ts.length) (h2 : i < vs.length), Whole (vs[i] : Nat) ts[i]) →
        allSome (ts.map atoi) = some (vs.map (fun b : Nat => (b : Int))) := by
      intro ts
      induction ts with
      | nil => intro vs e _ _; rw [List.length_eq_zero_iff.1 e.symm]; rfl
      | cons t ts ih =>
        intro vs e hv hw
        cases vs with
        | nil => simp at e
        | cons v vs =>
          have hv0 := hv v (by simp)
          have h0 : Whole (v : Nat) t := hw 0 (by simp) (by simp)
          have e0 : atoi t = some (v : Int) := (atoi_whole h0 (by omega)).1
          rw [List.map_cons, e0, allSome,
            ih vs (by simpa using e) (fun x hx => hv x (by simp [hx])) (fun i h1 h2 => hw (i+1) (by simpa using h1) (by simpa using h2))]
          rfl
    rw [this ts vs hl hv hw]
    rfl
  · cases ts with
    | nil => exact absurd rfl hts
    | cons t ts =>
      have := (hfield t (by simp)).1
      cases ts with
      | nil => exact this
      | cons t' ts => simp [joinComma]

theorem offset_none {s : List Char} (h : Alike' s "None") : readOffset s = some ⟨true, false, ⟨0, 0, 0, 0⟩⟩ := by
  obtain ⟨c, t, rfl, hc, hno⟩ := alike_none h
  have hb : c ≠ '{' ∧ c ≠ '}' ∧ isSpace c = false ∧ isDigit c = false ∧ c ≠ '-' ∧ c ≠ '+' := by rcases hc with rfl | rfl <;> decide
  have hread : readInts (c :: t) = some ⟨true, false, [0]⟩ := by
    unfold readInts
    rw [if_neg (by simp), List.filter_cons_of_pos (by simpa using hb.1), List.filter_cons_of_pos (by simpa using hb.2.1)]
    generalize ht : List.filter (fun x => decide (x ≠ '}')) (List.filter (fun x => decide (x ≠ '{')) t) = t'
    have hc' : ',' ∉ c :: t' := by
      intro hm
      rcases List.mem_cons.1 hm with e | hm
      · exact hno (by rw [← e]; simp)
      · rw [← ht] at hm
        exact hno (List.mem_cons_of_mem _ (List.mem_filter.1 (List.mem_filter.1 hm).1).1)
    unfold deserializeInts
    rw [fields_last ',' _ _ hc']
    have ha : atoi (c :: t') = some 0 := by
      unfold atoi
      rw [List.dropWhile_cons, hb.2.2.1]
      have : signVal (c :: t') = 0 := by
        unfold signVal
        split
        · rename_i e; exact absurd (List.cons.inj e).1 hb.2.2.2.2.1
        · rename_i e; exact absurd (List.cons.inj e).1 hb.2.2.2.2.2
        · simp [digitsVal, hb.2.2.2.1]
      simp [this]
    simp [ha, allSome]
  unfold readOffset
  rw [hread]
  rfl

theorem offset_means {n : Nat} {o : Offset} {s : List Char} (h : Means n .offset (.offset o) s) (hk : o.Valid) :
    ∃ ok, readOffset s = some ⟨ok, false, o⟩ := by
  obtain ⟨a, b, c, d⟩ := o
  obtain ⟨h1, h2, h3, h4, i1, i2, i3⟩ := hk
  simp only at *
  rcases h with ⟨h0, h⟩ | h
  · simp only at h0
    have e1 := i1 h0; have e2 := i2 e1; have e3 := i3 e2
    subst h0 e1 e2 e3
    exact ⟨true, offset_none h⟩
  simp only [List.takeWhile_cons, List.takeWhile_nil] at h
  by_cases h0 : a = 0
  · have e1 := i1 h0; have e2 := i2 e1; have e3 := i3 e2
    subst h0 e1 e2 e3
    simp only [ne_eq, not_true_eq_false, decide_false, Bool.false_eq_true, if_false, List.map_nil] at h
    have : s = [] := h
    subst this
    exact ⟨false, rfl⟩
  refine ⟨true, ?_⟩
  have key : ∀ vs : List Nat, vs ≠ [] → (∀ v ∈ vs, v < 65536) → Listed (vs.map (fun b : Nat => Whole b)) s →
      readOffset s = some ⟨true, false, ⟨toUint 16 ((vs[0]?.getD 0 : Nat) : Int), toUint 16 ((vs[1]?.getD 0 : Nat) : Int),
        toUint 16 ((vs[2]?.getD 0 : Nat) : Int), toUint 16 ((vs[3]?.getD 0 : Nat) : Int)⟩⟩ := by
    intro vs hne hv hs
    have hz : toUint 16 0 = 0 := by decide
    unfold readOffset
    rw [ints_means vs hne hv hs]
    simp only [if_true, List.getElem?_map]
    congr 3
    · cases vs[0]? <;> simp [hz]
    · cases vs[1]? <;> simp [hz]
    · cases vs[2]? <;> simp [hz]
    · cases vs[3]? <;> simp [hz]
  by_cases hb : b = 0
  · have e2 := i2 hb; have e3 := i3 e2
    subst hb e2 e3
    simp only [h0, ne_eq, not_true_eq_false, not_false_eq_true, decide_true, decide_false, Bool.false_eq_true, if_true, if_false] at h
    rw [key [a] (by simp) (by simp; omega) h]
    simp [toUint_small 16 a (by omega), toUint_small 16 0 (by omega)]
    decide
  by_cases hc : c = 0
  · have e3 := i3 hc
    subst hc e3
    simp only [h0, hb, ne_eq, not_true_eq_false, not_false_eq_true, decide_true, decide_false, Bool.false_eq_true, if_true, if_false] at h
    rw [key [a, b] (by simp) (by simp; omega) h]
    simp [toUint_small 16 a (by omega), toUint_small 16 b (by omega)]
    decide
  by_cases hd : d = 0
  · subst hd
    simp only [h0, hb, hc, ne_eq, not_true_eq_false, not_false_eq_true, decide_true, decide_false, Bool.false_eq_true, if_true, if_false] at h
    rw [key [a, b, c] (by simp) (by simp; omega) h]
    simp [toUint_small 16 a (by omega), toUint_small 16 b (by omega), toUint_small 16 c (by omega)]
    decide
  · simp only [h0, hb, hc, hd, ne_eq, not_false_eq_true, decide_true, if_true] at h
    rw [key [a, b, c, d] (by simp) (by simp; omega) h]
    simp [toUint_small 16 a (by omega), toUint_small 16 b (by omega), toUint_small 16 c (by omega), toUint_small 16 d (by omega)]

theorem break_means {n : Nat} {i j : Int} {s : List Char} (h : Means n .brk (.brk i) s) (hk : Kept n (.brk i)) :
    readBreak s j = some ⟨true, false, i⟩ := by
  have h : if i = 0 then Alike' s "Overwrite" else Whole i s := h
  obtain ⟨k1, k2⟩ := hk
  unfold readBreak
  by_cases h0 : i = 0
  · rw [if_pos h0] at h
    have e := alike_eq.1 h
    rw [if_neg, if_pos e, h0]
    rintro rfl
    exact absurd e (by decide +kernel)
  · rw [if_neg h0] at h
    obtain ⟨h1, h2⟩ := atoi_whole h (by omega)
    rw [if_neg h2, if_neg, h1]
    · rfl
    · intro e
      have e := alike_eq.2 e
      unfold Alike' at e
      have hm : 'O' ∈ s.map upper := by rw [e]; decide
      obtain ⟨c, hc, hu⟩ := List.mem_map.1 hm
      rcases (whole_chars h).2 c hc with hd | rfl | rfl | rfl
      · have : upper c = c := by
          unfold upper
          rw [if_neg]
          rintro ⟨ha, -⟩
          have h1 : 97 ≤ c.toNat := ha
          unfold isDigit at hd
          rw [Bool.and_eq_true, decide_eq_true_eq, decide_eq_true_eq] at hd
          have h2 : c.toNat ≤ 57 := hd.2
          omega
        rw [this] at hu
        subst hu
        exact absurd hd (by decide)
      all_goals exact absurd hu (by decide)

theorem date_means {n : Nat} {t : Time} {s : List Char} (h : Means n .date (.date t) s) (hk : t.Fits) : readDate s = some ⟨true, false, t⟩ := by
  obtain ⟨y, mo, d, hh, mi, se, hy, hmo, hd, hh', hmi, hse, rfl⟩ := h
  obtain ⟨k1, k2, k3, k4, k5, k6⟩ := hk
  generalize hcal : y ++ '-' :: (mo ++ '-' :: d) = cal
  generalize hclk : hh ++ ':' :: (mi ++ ':' :: se) = clk
  have hw : y ++ '-' :: (mo ++ '-' :: (d ++ 'T' :: clk)) = cal ++ 'T' :: clk := by
    rw [← hcal]
    simp
  have hT : 'T' ∉ cal := by
    rw [← hcal]
    simp [nat_no hy (c := 'T') (by decide), nat_no hmo (c := 'T') (by decide), nat_no hd (c := 'T') (by decide)]
  have at' : ∀ {v : Nat} {a : List Char}, NatText v a → v < 65536 → atoi a = some (v : Int) := fun h hv => (atoi_whole (nat_whole h) (by omega)).1
  have dcal : deserializeInts '-' cal = some [(t.year : Int), t.month, t.day] := by
    rw [← hcal]
    exact deserialize3 '-' _ _ _ _ _ _ hy.1.1 hmo.1.1 (nat_no hy (by decide)) (nat_no hmo (by decide)) (nat_no hd (by decide)) (at' hy k1) (at' hmo k2)
      (at' hd k3)
  have dclk : deserializeInts ':' clk = some [(t.hour : Int), t.minute, t.second] := by
    rw [← hclk]
    exact deserialize3 ':' _ _ _ _ _ _ hh'.1.1 hmi.1.1 (nat_no hh' (by decide)) (nat_no hmi (by decide)) (nat_no hse (by decide)) (at' hh' k4)
      (at' hmi k5) (at' hse k6)
  have hcne : cal ≠ [] := by rw [← hcal]; simp
  obtain ⟨k, hk⟩ : ∃ k, cal.length = k + 1 := ⟨cal.length - 1, by have := List.length_pos_iff.2 hcne; omega⟩
  have hdes : deserializeDate (cal ++ 'T' :: clk) = some [(t.year : Int), t.month, t.day, t.hour, t.minute, t.second] := by
    unfold deserializeDate
    rw [findCh_split 'T' cal clk hT, hk]
    simp only
    rw [← hk, List.take_left, show k + 2 = cal.length + 1 by omega, List.drop_length_add_append]
    simp only [List.drop_succ_cons, List.drop_zero]
    rw [dcal, dclk]
    rfl
  unfold readDate
  rw [hw, if_neg (by simp), hdes]
  simp only [toUint_small 16 t.year (by omega), toUint_small 16 t.month (by omega), toUint_small 16 t.day (by omega),
    toUint_small 16 t.hour (by omega), toUint_small 16 t.minute (by omega), toUint_small 16 t.second (by omega)]

theorem hex_digits : ∀ c ∈ "0123456789abcdefABCDEF".toList, hexVal (upChar c) = some (hexDigitValue c) := by decide

theorem hexLoop_digits : ∀ (a : List Char) (acc : Nat), (∀ c ∈ a, IsHex c) → a.foldl (fun n c => n * 16 + hexDigitValue c) acc ≤ 65535 →
    hexLoop acc (makeUpper a) = .inl (a.foldl (fun n c => n * 16 + hexDigitValue c) acc)
  | [], _, _, _ => rfl
  | c :: a, acc, h, hv => by
    have grow : ∀ (a : List Char) (x : Nat), x ≤ a.foldl (fun n c => n * 16 + hexDigitValue c) x := by
      intro a
      induction a with
      | nil => intro x; exact Nat.le_refl _
      | cons c a ih => intro x; exact Nat.le_trans (show x ≤ x * 16 + hexDigitValue c by omega) (ih _)
    rw [List.foldl_cons] at hv ⊢
    have hb := grow a (acc * 16 + hexDigitValue c)
    show hexLoop acc (upChar c :: makeUpper a) = _
    rw [hexLoop, hex_digits c (h c (by simp))]
    simp only
    rw [Nat.mod_eq_of_lt (by omega)]
    exact hexLoop_digits a _ (fun d hd => h d (by simp [hd])) hv

theorem hex_means {n : Nat} {v : Nat} {s : List Char} (h : Means n .hex (.hex v) s) (hk : v ≤ 65535) : (readHex s).val = v := by
  obtain ⟨a, hne, hl, ha, rfl, rfl⟩ := h
  have hmid : midC ('0' :: 'x' :: a) 2 npos = a.take npos := by
    unfold midC
    split
    · rename_i h; simp at h; exact absurd h hne
    · rfl
  have hloop : hexLoop 0 (makeUpper (midC ('0' :: 'x' :: a) 2 npos)) = .inl (hexNumber a) := by
    rw [hmid, List.take_of_length_le (by unfold npos; omega)]
    exact hexLoop_digits a 0 ha hk
  have hpre : leftC ('0' :: 'x' :: a) 2 = "0x".toList := rfl
  unfold readHex
  simp only [hpre, if_true, hloop]
  rw [if_neg (by omega)]

theorem uuid_means {u old : List (BitVec 8)} {s : List Char} (h : GuidText u s) (hu : u.length = 16) : (Uuid.convertFromText s old).value = u := by
  rw [← guid_means h hu]
  unfold Scene.guid Uuid.convertFromText
  split
  · rfl
  · rw [if_neg, if_neg]
    all_goals
      intro e
      obtain ⟨a, b, c, d, e', -, -, -, -, -, rfl⟩ := h
      simp at e

/-! ### Words -/

theorem word_means {α : Type} {words : List String} {f : α → List Char} {r : List Char → α → Conv α} {dflt : α → α} {rep : Bool}
    {v old : α} {i : Nat} {s : List Char} (hs : SurvivesText f r dflt rep) (hw : Word words i (f v)) (h : AnyWord words i s) : (r s old).val = v := by
  obtain ⟨w, hw1, h⟩ := h
  obtain ⟨w', hw2, e⟩ := hw
  rw [hw1] at hw2
  have : s.map upper = w.toList.map upper := h
  have h2 := same_text h
  rw [Option.some.inj hw2, ← e] at h2
  rw [hs.roundtrip _ _ _ h2]

end Verif.Gdtf
