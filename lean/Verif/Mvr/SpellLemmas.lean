import Verif.Mvr.SpellSpec
import Verif.Mvr.FormatProps
import Verif.Mvr.AbsentProps
import Verif.Mvr.SaveLemmas

/-!
# Lemmas: the converters read every spelling
-/

namespace Verif.Mvr

open Verif.Str Verif.Text Verif.Real Verif.Dmx Verif.Enum Spec
open Verif.Gdtf.Spec (Digits decimal Listed Row Rows GuidText HexByte HexBytes)

/-! ### Numbers -/

theorem digit_is {c : Char} (h : 48 ≤ c.toNat ∧ c.toNat ≤ 57) : isDigit c = true := by
  unfold isDigit
  rw [Bool.and_eq_true, decide_eq_true_eq, decide_eq_true_eq, Char.le_def, Char.le_def, UInt32.le_iff_toNat_le, UInt32.le_iff_toNat_le]
  exact h

theorem digitsVal_fold : ∀ (a : Text) (n : Nat), (∀ c ∈ a, isDigit c = true) →
    digitsVal n a = a.foldl (fun n c => 10 * n + (c.toNat - 48)) n
  | [], _, _ => rfl
  | c :: a, n, h => by
    rw [digitsVal, if_pos (h c (by simp)), List.foldl_cons, digitsVal_fold a _ (fun d hd => h d (by simp [hd]))]
    congr 1
    unfold digitVal
    omega

theorem digitsVal_stop : ∀ (a q : Text) (n : Nat), (∀ c ∈ a, isDigit c = true) → (∀ c ∈ q.head?, isDigit c = false) →
    digitsVal n (a ++ q) = digitsVal n a
  | [], q, n, _, hq => by
    cases q with
    | nil => rfl
    | cons c q => simp only [List.nil_append, digitsVal]; rw [hq c (by simp)]; rfl
  | c :: a, q, n, h, hq => by
    rw [List.cons_append, digitsVal, digitsVal, if_pos (h c (by simp)), if_pos (h c (by simp)),
      digitsVal_stop a q _ (fun d hd => h d (by simp [hd])) hq]

theorem decimal_digits {a : Text} (h : ∀ c ∈ a, isDigit c = true) : digitsVal 0 a = decimal a := digitsVal_fold a 0 h

theorem span_digits : ∀ (a q : Text), (∀ c ∈ a, isDigit c = true) → (∀ c ∈ q.head?, isDigit c = false) →
    (a ++ q).takeWhile isDigit = a ∧ (a ++ q).dropWhile isDigit = q
  | [], q, _, hq => by
    cases q with
    | nil => exact ⟨rfl, rfl⟩
    | cons c q =>
      have := hq c (by simp)
      constructor
      · rw [List.nil_append, List.takeWhile_cons, this]; rfl
      · rw [List.nil_append, List.dropWhile_cons, this]; rfl
  | c :: a, q, h, hq => by
    have hc := h c (by simp)
    have ih := span_digits a q (fun d hd => h d (by simp [hd])) hq
    rw [List.cons_append, List.takeWhile_cons, List.dropWhile_cons, hc]
    simp only [if_true]
    exact ⟨by rw [ih.1], ih.2⟩

theorem digits_all {a : Text} (h : Digits a) : ∀ c ∈ a, isDigit c = true := fun c hc => digit_is (h.2 c hc)

theorem spaces_head {q : Text} (h : Spaces q) : ∀ c ∈ q.head?, isDigit c = false := by
  intro c hc
  rw [h c (List.mem_of_mem_head? hc)]
  rfl

theorem drop_spaces : ∀ {p : Text} (r : Text), Spaces p → (∀ c ∈ r.head?, isSpace c = false) → (p ++ r).dropWhile isSpace = r
  | [], r, _, hr => by
    cases r with
    | nil => rfl
    | cons c r => rw [List.nil_append, List.dropWhile_cons, hr c (by simp)]; rfl
  | c :: p, r, hp, hr => by
    rw [List.cons_append, List.dropWhile_cons, hp c (by simp)]
    exact drop_spaces r (fun d hd => hp d (by simp [hd])) hr

theorem digit_not {c : Char} (h : isDigit c = true) : isSpace c = false ∧ c ≠ '-' ∧ c ≠ '+' ∧ c ≠ '.' := by
  refine ⟨?_, ?_, ?_, ?_⟩
  · cases hs : isSpace c with
    | false => rfl
    | true =>
      exfalso
      unfold isSpace at hs
      simp only [Bool.or_eq_true, beq_iff_eq] at hs
      rcases hs with ((((rfl | rfl) | rfl) | rfl) | rfl) | rfl <;> exact absurd h (by decide)
  all_goals (rintro rfl; exact absurd h (by decide))

/-- The first character of a number without sign. -/
theorem digits_cons {a : Text} (h : Digits a) : ∃ c t, a = c :: t ∧ isDigit c = true := by
  cases a with
  | nil => exact absurd rfl h.1
  | cons c t => exact ⟨c, t, rfl, digits_all h c (by simp)⟩

theorem signed_start {neg : Bool} {g : Text} (hg : Sign neg g) {c : Char} {t : Text} (hc : isSpace c = false) :
    ∀ d ∈ (g ++ c :: t).head?, isSpace d = false := by
  rcases hg with ⟨rfl, -⟩ | ⟨rfl, -⟩ | ⟨rfl, -⟩ <;> simp
  · exact hc
  all_goals rfl

theorem signVal_sign {neg : Bool} {g : Text} (hg : Sign neg g) {c : Char} {t : Text} (h1 : c ≠ '-') (h2 : c ≠ '+') :
    signVal (g ++ c :: t) = (if neg then -1 else 1) * (digitsVal 0 (c :: t) : Int) := by
  rcases hg with ⟨rfl, rfl⟩ | ⟨rfl, rfl⟩ | ⟨rfl, rfl⟩
  · rw [List.nil_append]
    unfold signVal
    split
    · rename_i heq; exact absurd (List.cons.inj heq).1 h1
    · rename_i heq; exact absurd (List.cons.inj heq).1 h2
    · simp
  · simp [signVal]
  · simp [signVal]

theorem atoi_whole {i : Int} {s : Text} (h : Whole i s) (hi : -2147483648 ≤ i ∧ i ≤ 2147483647) : atoi s = some i ∧ s ≠ [] := by
  obtain ⟨neg, p, g, a, q, hp, hg, ha, hq, rfl, rfl⟩ := h
  obtain ⟨c, t, rfl, hc⟩ := digits_cons ha
  obtain ⟨n1, n2, n3, -⟩ := digit_not hc
  refine ⟨?_, by simp⟩
  have e : p ++ g ++ c :: t ++ q = p ++ (g ++ c :: (t ++ q)) := by simp
  unfold atoi
  rw [e, drop_spaces _ hp (signed_start hg n1), signVal_sign hg n2 n3]
  have e2 := digitsVal_stop (c :: t) q 0 (digits_all ha) (spaces_head hq)
  rw [List.cons_append] at e2
  rw [e2, decimal_digits (digits_all ha), if_pos hi]

theorem plain_start {x : ℚ} {s : Text} (h : Plain x s) : ∃ c t, s = c :: t ∧ isSpace c = false ∧ c ≠ '-' ∧ c ≠ '+' := by
  rcases h with ⟨h, -⟩ | ⟨a, b, h, rfl, -⟩
  · obtain ⟨c, t, rfl, hc⟩ := digits_cons h
    obtain ⟨n1, n2, n3, -⟩ := digit_not hc
    exact ⟨c, t, rfl, n1, n2, n3⟩
  · cases a with
    | nil => exact ⟨'.', b, rfl, by decide, by decide, by decide⟩
    | cons c t =>
      obtain ⟨n1, n2, n3, -⟩ := digit_not (digits_all h c (by simp))
      exact ⟨c, _, rfl, n1, n2, n3⟩

theorem point_start {x : ℚ} {s : Text} (h : Point x s) : ∃ c t, s = c :: t ∧ isSpace c = false ∧ c ≠ '-' ∧ c ≠ '+' := by
  rcases h with h | ⟨y, neg, a, e, g, d, h, -, -, -, rfl, -⟩
  · exact plain_start h
  · obtain ⟨c, t, rfl, h1⟩ := plain_start h
    exact ⟨c, _, rfl, h1⟩

/-- Digits, and what may be behind them. -/
theorem decimalVal_plain {x : ℚ} {s q : Text} (h : Plain x s) (hq : ∀ c ∈ q.head?, isDigit c = false ∧ c ≠ '.') :
    decimalVal (s ++ q) = x * scale q := by
  have hq1 : ∀ c ∈ q.head?, isDigit c = false := fun c hc => (hq c hc).1
  unfold decimalVal
  rcases h with ⟨h, rfl⟩ | ⟨a, b, h, rfl, rfl⟩
  · obtain ⟨h1, h2⟩ := span_digits s q (digits_all h) hq1
    rw [h1, h2]
    split
    · exact absurd rfl (hq '.' (by simp)).2
    · rw [decimal_digits (digits_all h)]
  · have hd := digits_all h
    obtain ⟨h1, h2⟩ := span_digits a ('.' :: (b ++ q)) (fun c hc => hd c (by simp [hc])) (by simp; decide)
    obtain ⟨h3, h4⟩ := span_digits b q (fun c hc => hd c (by simp [hc])) hq1
    rw [show a ++ '.' :: b ++ q = a ++ '.' :: (b ++ q) by simp, h1, h2]
    simp only [h3, h4]
    rw [decimal_digits hd]

theorem scale_spaces {q : Text} (hq : Spaces q) : scale q = 1 := by
  cases q with
  | nil => rfl
  | cons c q =>
    have := hq c (by simp)
    subst this
    rfl

theorem scale_sign {e : Char} {neg : Bool} {g d q : Text} (he : e = 'e' ∨ e = 'E') (hg : Sign neg g) (hd : Digits d) (hq : Spaces q) :
    scale (e :: (g ++ d ++ q)) = if neg then 1 / 10 ^ decimal d else 10 ^ decimal d := by
  have hv : digitsVal 0 (d ++ q) = decimal d := by
    rw [digitsVal_stop d q 0 (digits_all hd) (spaces_head hq), decimal_digits (digits_all hd)]
  obtain ⟨c, t, rfl, hc⟩ := digits_cons hd
  obtain ⟨-, n2, n3, -⟩ := digit_not hc
  rw [List.cons_append] at hv
  unfold scale
  simp only [he, if_true]
  rcases hg with ⟨rfl, rfl⟩ | ⟨rfl, rfl⟩ | ⟨rfl, rfl⟩
  · rw [List.nil_append, List.cons_append]
    split
    · rename_i heq; exact absurd (List.cons.inj heq).1 n2
    · rename_i heq; exact absurd (List.cons.inj heq).1 n3
    · rw [hv]; rfl
  · simp only [List.cons_append, List.nil_append, hv]; rfl
  · simp only [List.cons_append, List.nil_append, hv]; rfl

theorem decimalVal_point {x : ℚ} {s q : Text} (h : Point x s) (hq : Spaces q) : decimalVal (s ++ q) = x := by
  rcases h with h | ⟨y, neg, a, e, g, d, h, he, hg, hd, rfl, rfl⟩
  · rw [decimalVal_plain h, scale_spaces hq, mul_one]
    intro c hc
    rw [hq c (List.mem_of_mem_head? hc)]
    decide
  · rw [show a ++ e :: (g ++ d) ++ q = a ++ e :: (g ++ d ++ q) by simp, decimalVal_plain h, scale_sign he hg hd hq]
    · cases neg
      · rfl
      · simp [div_eq_mul_inv]
    · intro c hc
      simp only [List.head?_cons, Option.mem_def, Option.some.injEq] at hc
      subst hc
      rcases he with rfl | rfl <;> decide

theorem atof_num (F : Fl) {x : Dbl} {s : Text} (h : Num x s) : atof F s = ⟨x.neg, F.fl x.mag⟩ := by
  obtain ⟨p, g, a, q, hp, hg, ha, hq, rfl⟩ := h
  obtain ⟨c, t, rfl, n1, n2, n3⟩ := point_start ha
  have hv := decimalVal_point ha hq
  have e : p ++ g ++ c :: t ++ q = p ++ (g ++ c :: (t ++ q)) := by simp
  rw [List.cons_append] at hv
  unfold atof
  rw [e, drop_spaces _ hp (signed_start hg n1)]
  rcases hg with ⟨rfl, hn⟩ | ⟨rfl, hn⟩ | ⟨rfl, hn⟩
  · rw [List.nil_append]
    split
    · rename_i heq; exact absurd (List.cons.inj heq).1 n2
    · rename_i heq; exact absurd (List.cons.inj heq).1 n3
    · rw [hv, hn]
  · simp only [List.singleton_append, hv, hn]
  · simp only [List.singleton_append, hv, hn]

theorem num_rounded (F : Fl) {x : Dbl} {s : Text} (h : Num x s) (hx : 0 ≤ x.mag) : RoundedNum x (atof F s) := by
  rw [atof_num F h]
  refine ⟨rfl, ?_⟩
  have := F.err x.mag
  rwa [abs_of_nonneg hx] at this

theorem num_chars {x : Dbl} {s : Text} (h : Num x s) : s ≠ [] ∧ ∀ c ∈ s, isDigit c = true ∨ c = ' ' ∨ c = '+' ∨ c = '-' ∨ c = '.' ∨ c = 'e' ∨ c = 'E' := by
  have hplain : ∀ {y : ℚ} {a : Text}, Plain y a → ∀ c ∈ a, isDigit c = true ∨ c = '.' := by
    intro y a ha c hc
    rcases ha with ⟨h, -⟩ | ⟨a, b, h, rfl, -⟩
    · exact .inl (digits_all h c hc)
    · rcases List.mem_append.1 hc with hc | hc
      · exact .inl (digits_all h c (by simp [hc]))
      · rcases List.mem_cons.1 hc with rfl | hc
        · exact .inr rfl
        · exact .inl (digits_all h c (by simp [hc]))
  have hsign : ∀ {neg : Bool} {g : Text}, Sign neg g → ∀ c ∈ g, c = '+' ∨ c = '-' := by
    intro neg g hg c hc
    rcases hg with ⟨rfl, -⟩ | ⟨rfl, -⟩ | ⟨rfl, -⟩ <;> simp at hc <;> simp [hc]
  obtain ⟨p, g, a, q, hp, hg, ha, hq, rfl⟩ := h
  constructor
  · obtain ⟨c, t, rfl, -⟩ := point_start ha
    simp
  · intro c hc
    simp only [List.mem_append] at hc
    rcases hc with ((hc | hc) | hc) | hc
    · exact .inr (.inl (hp c hc))
    · rcases hsign hg c hc with h | h <;> simp [h]
    · rcases ha with ha | ⟨y, neg, a, e, g, d, ha, he, hg, hd, rfl, -⟩
      · rcases hplain ha c hc with h | h <;> simp [h]
      · simp only [List.mem_append, List.mem_cons] at hc
        rcases hc with hc | rfl | hc | hc
        · rcases hplain ha c hc with h | h <;> simp [h]
        · rcases he with h | h <;> simp [h]
        · rcases hsign hg c hc with h | h <;> simp [h]
        · exact .inl (digits_all hd c hc)
    · exact .inr (.inl (hq c hc))

theorem num_no {x : Dbl} {s : Text} (h : Num x s) {d : Char} (hd : isDigit d = false) (h1 : d ≠ ' ') (h2 : d ≠ '+') (h3 : d ≠ '-') (h4 : d ≠ '.')
    (h5 : d ≠ 'e' := by decide) (h6 : d ≠ 'E' := by decide) : d ∉ s := by
  intro hm
  rcases (num_chars h).2 d hm with h | h | h | h | h | h | h
  · rw [hd] at h; cases h
  all_goals contradiction

/-! ### Lists of numbers -/

theorem listed_join : ∀ (ps : List (Text → Prop)) (s : Text), ps ≠ [] → Listed ps s → ∃ ts : List Text, s = joinComma ts ∧ ts.length = ps.length ∧
    ∀ (i : Nat) (p : Text → Prop) (t : Text), ps[i]? = some p → ts[i]? = some t → p t
  | [], _, h, _ => absurd rfl h
  | [p], s, _, h => ⟨[s], rfl, rfl, fun i q t hq ht => by
      match i with
      | 0 => simp only [List.getElem?_cons_zero, Option.some.injEq] at hq ht; rw [← hq, ← ht]; exact h
      | i + 1 => simp at hq⟩
  | p :: q :: ps, s, _, h => by
    obtain ⟨a, b, ha, hb, rfl⟩ := h
    obtain ⟨ts, rfl, hl, hi⟩ := listed_join (q :: ps) b (by simp) hb
    refine ⟨a :: ts, ?_, by simp [hl], ?_⟩
    · cases ts with
      | nil => simp at hl
      | cons t ts => rfl
    · intro i r t hr ht
      match i with
      | 0 => simp only [List.getElem?_cons_zero, Option.some.injEq] at hr ht; rw [← hr, ← ht]; exact ha
      | i + 1 => exact hi i r t (by simpa using hr) (by simpa using ht)

/-- Three numbers with commas between them. -/
theorem listed_three {x y z : Dbl} {s : Text} (h : Listed [Num x, Num y, Num z] s) : ∃ a b c, s = joinComma [a, b, c] ∧ Num x a ∧ Num y b ∧ Num z c := by
  obtain ⟨a, r, ha, ⟨b, c, hb, hc, rfl⟩, rfl⟩ := h
  exact ⟨a, b, c, rfl, ha, hb, hc⟩

theorem three_fields (F : Fl) {x y z : Dbl} {a b c : Text} (ha : Num x a) (hb : Num y b) (hc : Num z c) :
    deserialize F (joinComma [a, b, c]) = some ([atof F a, atof F b, atof F c], false) :=
  deserialize_fields F [a, b, c] (by simp) (by
    intro p hp
    simp only [List.mem_cons, List.not_mem_nil, or_false] at hp
    rcases hp with rfl | rfl | rfl
    · exact ⟨(num_chars ha).1, num_no ha (by decide) (by decide) (by decide) (by decide) (by decide)⟩
    · exact ⟨(num_chars hb).1, num_no hb (by decide) (by decide) (by decide) (by decide) (by decide)⟩
    · exact ⟨(num_chars hc).1, num_no hc (by decide) (by decide) (by decide) (by decide) (by decide)⟩)

theorem three_plain {x y z : Dbl} {a b c : Text} (ha : Num x a) (hb : Num y b) (hc : Num z c) :
    joinComma [a, b, c] ≠ [] ∧ '}' ∉ joinComma [a, b, c] := by
  refine ⟨?_, joinComma_no _ '}' (by decide) ?_⟩
  · have := (num_chars ha).1
    cases a with
    | nil => exact absurd rfl this
    | cons d a => simp [joinComma]
  · intro p hp
    simp only [List.mem_cons, List.not_mem_nil, or_false] at hp
    rcases hp with rfl | rfl | rfl
    · exact num_no ha (by decide) (by decide) (by decide) (by decide) (by decide)
    · exact num_no hb (by decide) (by decide) (by decide) (by decide) (by decide)
    · exact num_no hc (by decide) (by decide) (by decide) (by decide) (by decide)

theorem color_means (F : Fl) {v : V3} {s : Text} (h : Listed [Num v.x, Num v.y, Num v.z] s) (dflt : V3) :
    ∃ a b c, Num v.x a ∧ Num v.y b ∧ Num v.z c ∧ readColor F dflt s = some ⟨true, false, ⟨atof F a, atof F b, atof F c⟩⟩ := by
  obtain ⟨a, b, c, rfl, ha, hb, hc⟩ := listed_three h
  refine ⟨a, b, c, ha, hb, hc, ?_⟩
  unfold readColor
  rw [if_neg (three_plain ha hb hc).1, three_fields F ha hb hc]

theorem vector_means (F : Fl) {v : V3} {s : Text} (h : Row [Num v.x, Num v.y, Num v.z] s) (old : V3) :
    ∃ a b c, Num v.x a ∧ Num v.y b ∧ Num v.z c ∧ readVector F s old = some ⟨true, false, ⟨atof F a, atof F b, atof F c⟩⟩ := by
  obtain ⟨r, hr, rfl⟩ := h
  obtain ⟨a, b, c, rfl, ha, hb, hc⟩ := listed_three hr
  refine ⟨a, b, c, ha, hb, hc, ?_⟩
  unfold readVector
  rw [if_neg (by simp)]
  simp only [stripOpen]
  have : stripClose (joinComma [a, b, c] ++ ['}']) = (joinComma [a, b, c], false) := by
    unfold stripClose; rw [if_pos (by simp)]; simp
  rw [this]
  simp only
  rw [three_fields F ha hb hc]
  rfl

theorem row_group {x y z : Dbl} {s : Text} (h : Row [Num x, Num y, Num z] s) : ∃ a b c, s = group [a, b, c] ∧ Num x a ∧ Num y b ∧ Num z c := by
  obtain ⟨r, hr, rfl⟩ := h
  obtain ⟨a, b, c, rfl, ha, hb, hc⟩ := listed_three hr
  exact ⟨a, b, c, rfl, ha, hb, hc⟩

theorem line_three (F : Fl) {x y z : Dbl} {a b c : Text} (ha : Num x a) (hb : Num y b) (hc : Num z c) (t : List Text) (i : Nat) (m : Mat) (err : Bool) :
    matrixLines F (joinComma [a, b, c] :: t) i (m, err) = matrixLines F t (i+1) (m.setRow i ⟨atof F a, atof F b, atof F c⟩, err) := by
  rw [matrixLines, three_fields F ha hb hc]
  simp only [Bool.or_false]

theorem matrix_means (F : Fl) {m : Mat} {s : Text} (h : Means .matrix (.matrix m) s) (hm : Holds .matrix (.matrix m)) (old : Mat) :
    ∃ n, readMatrix F s old = some ⟨true, false, n⟩ ∧ Rounded (.matrix m) (.matrix n) := by
  obtain ⟨r1, q1, h1, ⟨r2, q2, h2, ⟨r3, q3, h3, ⟨r4, q4, h4, rfl, rfl⟩, rfl⟩, rfl⟩, rfl⟩ := h
  obtain ⟨a1, b1, c1, rfl, ha1, hb1, hc1⟩ := row_group h1
  obtain ⟨a2, b2, c2, rfl, ha2, hb2, hc2⟩ := row_group h2
  obtain ⟨a3, b3, c3, rfl, ha3, hb3, hc3⟩ := row_group h3
  obtain ⟨a4, b4, c4, rfl, ha4, hb4, hc4⟩ := row_group h4
  obtain ⟨s2, g1, g2, g3, g4⟩ := split_groups [[a1, b1, c1], [a2, b2, c2], [a3, b3, c3], [a4, b4, c4]] (by simp) (by
    intro r hr
    simp only [List.mem_cons, List.not_mem_nil, or_false] at hr
    rcases hr with rfl | rfl | rfl | rfl
    · exact three_plain ha1 hb1 hc1
    · exact three_plain ha2 hb2 hc2
    · exact three_plain ha3 hb3 hc3
    · exact three_plain ha4 hb4 hc4)
  have e : group [a1, b1, c1] ++ (group [a2, b2, c2] ++ (group [a3, b3, c3] ++ (group [a4, b4, c4] ++ []))) =
      ([[a1, b1, c1], [a2, b2, c2], [a3, b3, c3], [a4, b4, c4]].map group).flatten := rfl
  obtain ⟨⟨m1, m2, m3⟩, ⟨m4, m5, m6⟩, ⟨m7, m8, m9⟩, m10, m11, m12⟩ := hm
  refine ⟨⟨⟨atof F a1, atof F b1, atof F c1⟩, ⟨atof F a2, atof F b2, atof F c2⟩, ⟨atof F a3, atof F b3, atof F c3⟩,
    ⟨atof F a4, atof F b4, atof F c4⟩⟩, ?_, ?_⟩
  · unfold readMatrix
    rw [e, if_neg g4, g1]
    simp only
    rw [g2]
    simp only
    rw [g3]
    simp only [List.map_cons, List.map_nil]
    rw [if_neg (by simp), line_three F ha1 hb1 hc1, line_three F ha2 hb2 hc2, line_three F ha3 hb3 hc3, line_three F ha4 hb4 hc4]
    rfl
  · exact ⟨⟨num_rounded F ha1 m1, num_rounded F hb1 m2, num_rounded F hc1 m3⟩, ⟨num_rounded F ha2 m4, num_rounded F hb2 m5, num_rounded F hc2 m6⟩,
      ⟨num_rounded F ha3 m7, num_rounded F hb3 m8, num_rounded F hc3 m9⟩, num_rounded F ha4 m10, num_rounded F hb4 m11, num_rounded F hc4 m12⟩

/-! ### UUIDs -/

theorem hex_digit : ∀ c ∈ "0123456789abcdefABCDEF".toList, hexDigitValue c < 16 ∧
    Uuid.getDigitForChar c = BitVec.ofNat 8 (hexDigitValue c) := by decide +kernel

theorem two_digits : ∀ a b : Fin 16, ((BitVec.ofNat 8 a.val) <<< 4) ||| (BitVec.ofNat 8 b.val &&& 0x0F) = BitVec.ofNat 8 (a.val * 16 + b.val) := by
  decide +kernel

theorem byte_piece {b : BitVec 8} {s : Text} (h : HexByte b s) : ∃ c d, s = [c, d] ∧ Uuid.pieceOf c d = b := by
  obtain ⟨hl, hc, hn⟩ := h
  match s, hl with
  | [c, d], _ =>
    refine ⟨c, d, rfl, ?_⟩
    obtain ⟨c1, c2⟩ := hex_digit c (hc c (by simp))
    obtain ⟨d1, d2⟩ := hex_digit d (hc d (by simp))
    unfold Uuid.pieceOf
    rw [c2, d2]
    have := two_digits ⟨_, c1⟩ ⟨_, d1⟩
    simp only at this
    rw [this]
    have hn' : hexDigitValue c * 16 + hexDigitValue d = b.toNat := by
      rw [← hn]
      simp [hexNumber]
    rw [hn', BitVec.ofNat_toNat, BitVec.setWidth_eq]

theorem guid_means {u : List (BitVec 8)} {s : Text} (h : GuidText u s) (hu : u.length = 16) : Scene.guid s = u := by
  match u, hu with
  | [u0, u1, u2, u3, u4, u5, u6, u7, u8, u9, u10, u11, u12, u13, u14, u15], _ =>
    obtain ⟨a, b, c, d, e, ha, hb, hc, hd, he, rfl⟩ := h
    obtain ⟨_, _, h0, ⟨_, _, h1, ⟨_, _, h2, ⟨_, _, h3, rfl, rfl⟩, rfl⟩, rfl⟩, rfl⟩ := ha
    obtain ⟨_, _, h4, ⟨_, _, h5, rfl, rfl⟩, rfl⟩ := hb
    obtain ⟨_, _, h6, ⟨_, _, h7, rfl, rfl⟩, rfl⟩ := hc
    obtain ⟨_, _, h8, ⟨_, _, h9, rfl, rfl⟩, rfl⟩ := hd
    obtain ⟨_, _, h10, ⟨_, _, h11, ⟨_, _, h12, ⟨_, _, h13, ⟨_, _, h14, ⟨_, _, h15, rfl, rfl⟩, rfl⟩, rfl⟩, rfl⟩, rfl⟩, rfl⟩ := he
    obtain ⟨a0, b0, rfl, rfl⟩ := byte_piece h0
    obtain ⟨a1, b1, rfl, rfl⟩ := byte_piece h1
    obtain ⟨a2, b2, rfl, rfl⟩ := byte_piece h2
    obtain ⟨a3, b3, rfl, rfl⟩ := byte_piece h3
    obtain ⟨a4, b4, rfl, rfl⟩ := byte_piece h4
    obtain ⟨a5, b5, rfl, rfl⟩ := byte_piece h5
    obtain ⟨a6, b6, rfl, rfl⟩ := byte_piece h6
    obtain ⟨a7, b7, rfl, rfl⟩ := byte_piece h7
    obtain ⟨a8, b8, rfl, rfl⟩ := byte_piece h8
    obtain ⟨a9, b9, rfl, rfl⟩ := byte_piece h9
    obtain ⟨a10, b10, rfl, rfl⟩ := byte_piece h10
    obtain ⟨a11, b11, rfl, rfl⟩ := byte_piece h11
    obtain ⟨a12, b12, rfl, rfl⟩ := byte_piece h12
    obtain ⟨a13, b13, rfl, rfl⟩ := byte_piece h13
    obtain ⟨a14, b14, rfl, rfl⟩ := byte_piece h14
    obtain ⟨a15, b15, rfl, rfl⟩ := byte_piece h15
    rfl

/-! ### Words -/

theorem alike_eq {s : Text} {w : String} : Alike' s w ↔ eqNoCase s w.toList = true := by
  unfold Alike' eqNoCase
  rw [decide_eq_true_eq, upper_eq, upper_eq]

theorem flag_means {b : Bool} {s : Text} (h : Alike' s (if b then "true" else "false")) : (readBool s).2 = b := by
  unfold readBool
  cases b with
  | true =>
    have := alike_eq.1 h
    rw [if_pos (by simpa using this)]
  | false =>
    split
    · rename_i h2
      have h2 := alike_eq.2 h2
      unfold Alike' at h h2
      rw [h2] at h
      exact absurd h (by decide +kernel)
    · split <;> rfl

theorem same_text {s : Text} {w : String} (h : Alike' s w) : SameText s w.toList := by
  rw [← sameText_iff]
  exact alike_eq.1 h

theorem source_means {v : SourceType} {s : Text} (h : AnyWord sourceWords v.ctorIdx s) : (readSourceType.run s .cNDI).val = v := by
  obtain ⟨w, hw, h⟩ := h
  have e : w.toList = writeSourceType v := by
    obtain ⟨w', hw', e⟩ := word_source v
    rw [hw] at hw'
    rw [Option.some.inj hw', ← e]
  have := same_text h
  rw [e] at this
  rw [C18_SourceType.roundtrip _ _ _ this]

theorem scale_means {v : ScaleHandlingType} {s : Text} (h : AnyWord scaleWords v.ctorIdx s) :
    (readScaleHandlingType.run s .cScaleKeepRatio).val = v := by
  obtain ⟨w, hw, h⟩ := h
  have e : w.toList = writeScaleHandlingType v := by
    obtain ⟨w', hw', e⟩ := word_scale v
    rw [hw] at hw'
    rw [Option.some.inj hw', ← e]
  have := same_text h
  rw [e] at this
  rw [C18_ScaleHandlingType.roundtrip _ _ _ this]

theorem transmission_means {v : TransmissionType} {s : Text} (h : AnyWord transmissionWords v.ctorIdx s) :
    (readTransmissionType.run s .cAnycast).val = v := by
  obtain ⟨w, hw, h⟩ := h
  have e : w.toList = writeTransmissionType v := by
    obtain ⟨w', hw', e⟩ := word_transmission v
    rw [hw] at hw'
    rw [Option.some.inj hw', ← e]
  have := same_text h
  rw [e] at this
  rw [C18_TransmissionType.roundtrip _ _ _ this]

/-! ### Commands -/

theorem trim_spaces (s : Text) {c : Char} (hc : c ≠ ' ' ∧ c ≠ '\t') {q : Text} (hq : Spaces q) :
    trimRight (fun c => c == ' ' || c == '\t') (s ++ [c] ++ q) = s ++ [c] := by
  unfold trimRight
  have := lastNotBlank_take (fun c => c == ' ' || c == '\t') (s ++ [c] ++ q) (s ++ [c] ++ q).length (Nat.le_refl _)
  refine Eq.trans this ?_
  have hd : ∀ (l r : Text), Spaces l → (l ++ c :: r).dropWhile (fun c => c == ' ' || c == '\t') = c :: r := by
    intro l r hl
    induction l with
    | nil =>
      rw [List.nil_append, List.dropWhile_cons]
      have : (c == ' ' || c == '\t') = false := by
        rw [Bool.or_eq_false_iff, beq_eq_false_iff_ne, beq_eq_false_iff_ne]; exact hc
      rw [this]; rfl
    | cons d l ih =>
      rw [List.cons_append, List.dropWhile_cons, hl d (by simp)]
      exact ih (fun x hx => hl x (by simp [hx]))
  rw [List.take_length, List.reverse_append, List.reverse_append, List.reverse_singleton, List.singleton_append,
    hd q.reverse s.reverse (fun x hx => hq x (List.mem_reverse.1 hx))]
  simp

theorem point_no_space {x : ℚ} {s : Text} (h : Point x s) : ' ' ∉ s := by
  have hplain : ∀ {y : ℚ} {a : Text}, Plain y a → ' ' ∉ a := by
    intro y a ha hm
    rcases ha with ⟨h, -⟩ | ⟨b, d, h, rfl, -⟩
    · exact absurd (digits_all h ' ' hm) (by decide)
    · rcases List.mem_append.1 hm with hm | hm
      · exact absurd (digits_all h ' ' (by simp [hm])) (by decide)
      · rcases List.mem_cons.1 hm with hm | hm
        · cases hm
        · exact absurd (digits_all h ' ' (by simp [hm])) (by decide)
  intro hm
  rcases h with h | ⟨y, neg, a, e, g, d, ha, he, hg, hd, rfl, -⟩
  · exact hplain h hm
  · simp only [List.mem_append, List.mem_cons] at hm
    rcases hm with hm | hm | hm | hm
    · exact hplain ha hm
    · subst hm; rcases he with h | h <;> cases h
    · rcases hg with ⟨rfl, -⟩ | ⟨rfl, -⟩ | ⟨rfl, -⟩ <;> simp at hm
    · exact absurd (digits_all hd ' ' hm) (by decide)

/-- The text of the number, without the spaces around it. -/
theorem value_num (F : Fl) (pre : Text) {x : Dbl} {t : Text} (h : Num x t) : atof F (valueText (pre ++ ' ' :: t)) = ⟨x.neg, F.fl x.mag⟩ := by
  obtain ⟨p, g, a, q, hp, hg, ha, hq, rfl⟩ := h
  have hcore : Num x (g ++ a) := ⟨[], g, a, [], nofun, hg, ha, nofun, by simp⟩
  obtain ⟨c, t, hc, -⟩ := point_start ha
  have hne : g ++ a ≠ [] := by rw [hc]; simp
  have hno : ' ' ∉ g ++ a := by
    intro hm
    rcases List.mem_append.1 hm with hm | hm
    · rcases hg with ⟨rfl, -⟩ | ⟨rfl, -⟩ | ⟨rfl, -⟩ <;> simp at hm
    · exact point_no_space ha hm
  have hlast : (g ++ a).getLast hne ≠ ' ' ∧ (g ++ a).getLast hne ≠ '\t' := by
    constructor
    · intro e; exact hno (e ▸ List.getLast_mem hne)
    · intro e
      exact num_no hcore (d := '\t') (by decide) (by decide) (by decide) (by decide) (by decide) (by decide) (by decide) (e ▸ List.getLast_mem hne)
  obtain ⟨pre', hpre⟩ : ∃ pre', pre ++ ' ' :: p = pre' ++ [' '] := by
    rcases List.eq_nil_or_concat p with rfl | ⟨p', d, rfl⟩
    · exact ⟨pre, rfl⟩
    · exact ⟨pre ++ ' ' :: p', by rw [hp d (by simp)]; simp⟩
  have e : pre ++ ' ' :: (p ++ g ++ a ++ q) = (pre' ++ ' ' :: (g ++ a).dropLast) ++ [(g ++ a).getLast hne] ++ q := by
    have e1 : pre ++ ' ' :: (p ++ g ++ a ++ q) = (pre ++ ' ' :: p) ++ (g ++ a) ++ q := by simp
    have e2 : g ++ a = (g ++ a).dropLast ++ [(g ++ a).getLast hne] := (List.dropLast_append_getLast hne).symm
    rw [e1, hpre]
    conv => lhs; rw [e2]
    simp
  have e3 : (pre' ++ ' ' :: (g ++ a).dropLast) ++ [(g ++ a).getLast hne] = pre' ++ ' ' :: (g ++ a) := by
    have e2 : g ++ a = (g ++ a).dropLast ++ [(g ++ a).getLast hne] := (List.dropLast_append_getLast hne).symm
    conv => rhs; rw [e2]
    simp
  rw [e]
  unfold valueText
  simp only
  rw [trim_spaces _ hlast hq, e3]
  have hr : reverseFind (pre' ++ ' ' :: (g ++ a)) " ".toList = some pre'.length := by
    rw [C38_reverseFind _ _ (by decide)]
    refine ⟨⟨g ++ a, by rw [List.drop_left]; rfl⟩, ?_⟩
    intro q hq ho
    have h0 := occurs_char ho (i := 0) (c := ' ') rfl
    rw [Nat.add_zero, List.getElem?_append_right (by omega)] at h0
    obtain ⟨m, hm⟩ : ∃ m, q - pre'.length = m + 1 := ⟨q - pre'.length - 1, by omega⟩
    rw [hm, List.getElem?_cons_succ] at h0
    exact hno (List.mem_of_getElem? h0)
  rw [hr]
  simp only [rightC]
  have hl : (pre' ++ ' ' :: (g ++ a)).length = pre'.length + 1 + (g ++ a).length := by simp; omega
  rw [if_neg (by omega), show (pre' ++ ' ' :: (g ++ a)).length - ((pre' ++ ' ' :: (g ++ a)).length - pre'.length - 1) = pre'.length + 1 by omega,
    List.drop_append]
  have : List.drop (pre'.length + 1) pre' = [] := List.drop_eq_nil_of_le (by omega)
  rw [this, show pre'.length + 1 - pre'.length = 1 by omega, List.nil_append, List.drop_one, List.tail_cons]
  exact atof_num F hcore

theorem command_means (F : Fl) {fn : Text} {p : Bool} {x : Dbl} {s : Text} (h : Means .command (.command fn p x) s)
    (hh : Holds .command (.command fn p x)) : readCommand F s = .command fn p ⟨x.neg, F.fl x.mag⟩ := by
  obtain ⟨t, ht, rfl⟩ := h
  obtain ⟨h1, h2, -⟩ := hh
  cases p with
  | false =>
    have e : fn ++ (if false = true then "/percent" else "").toList ++ ",f ".toList ++ t = fn ++ ',' :: ('f' :: ' ' :: t) := by simp
    have e2 : fn ++ ',' :: ('f' :: ' ' :: t) = (fn ++ [',', 'f']) ++ ' ' :: t := by simp
    rw [e]
    have hf := find_plain fn ('f' :: ' ' :: t) h1 (by
      intro hm
      rcases List.mem_cons.1 hm with hm | hm
      · cases hm
      · rcases List.mem_cons.1 hm with hm | hm
        · cases hm
        · exact num_no ht (d := '/') (by decide) (by decide) (by decide) (by decide) (by decide) (by decide) (by decide) hm)
    have hc : find (fn ++ ',' :: ('f' :: ' ' :: t)) ",".toList = some fn.length := by
      rw [show ",".toList = [','] from rfl, find_single, findCh_split ',' fn _ (h2 rfl)]
    have hv := value_num F (fn ++ [',', 'f']) ht
    rw [← e2] at hv
    unfold readCommand
    simp only [hf, hc, leftFound, leftC, hv, List.take_left, Option.isSome_none]
  | true =>
    have e : fn ++ (if true = true then "/percent" else "").toList ++ ",f ".toList ++ t = fn ++ ("/percent".toList ++ (',' :: 'f' :: ' ' :: t)) := by
      simp
    have e2 : fn ++ ("/percent".toList ++ (',' :: 'f' :: ' ' :: t)) = (fn ++ "/percent".toList ++ [',', 'f']) ++ ' ' :: t := by
      simp
    rw [e]
    have hf := find_marked fn (',' :: 'f' :: ' ' :: t) h1
    have hv := value_num F (fn ++ "/percent".toList ++ [',', 'f']) ht
    rw [← e2] at hv
    unfold readCommand
    simp only [hf, leftFound, leftC, hv, List.take_left, Option.isSome_some]

end Verif.Mvr
