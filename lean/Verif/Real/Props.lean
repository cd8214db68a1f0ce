import Verif.Real.Model
import Verif.Text.Props
import Mathlib.Tactic.IntervalCases

/-!
# C19 and C47: real numbers, colours, vectors and matrices in text

All theorems hold for every rounding `F` with the properties of `Fl`, in particular IEEE doubles.
-/

namespace Verif.Real
open Verif.Str Verif.Text Verif.Dmx

/-! ### One number -/

theorem pad6_digits (n : Nat) : ∀ c ∈ pad6 n, isDigit c = true := by
  intro c hc
  unfold pad6 at hc
  simp only [List.mem_cons, List.not_mem_nil, or_false] at hc
  rcases hc with h | h | h | h | h | h <;> rw [h] <;> exact digit_char_isDigit _ (Nat.mod_lt _ (by decide))

theorem digitsVal_pad6 (acc n : Nat) (h : n < 1000000) : digitsVal acc (pad6 n) = acc * 1000000 + n := by
  have d : ∀ k, digitVal (Char.ofNat (48 + k % 10)) = k % 10 := fun k => (digit_char (k % 10) (Nat.mod_lt _ (by decide))).2
  have e : ∀ k, isDigit (Char.ofNat (48 + k % 10)) = true := fun k => digit_char_isDigit _ (Nat.mod_lt _ (by decide))
  unfold pad6
  simp only [digitsVal, e, d, if_true]
  omega

theorem takeWhile_digits (a b : List Char) (h : ∀ c ∈ a, isDigit c = true) (x : Char) (hx : isDigit x = false) :
    (a ++ x :: b).takeWhile isDigit = a ∧ (a ++ x :: b).dropWhile isDigit = x :: b := by
  induction a with
  | nil => simp [hx]
  | cons c t ih =>
    have hc := h c (by simp)
    have := ih (fun y hy => h y (List.mem_cons_of_mem _ hy))
    simp [hc, this.1, this.2]

theorem takeWhile_all (a : List Char) (h : ∀ c ∈ a, isDigit c = true) : a.takeWhile isDigit = a := by
  induction a with
  | nil => rfl
  | cons c t ih => simp [h c (by simp), ih (fun y hy => h y (List.mem_cons_of_mem _ hy))]

theorem dropWhile_all (s : List Char) (h : ∀ c ∈ s, isDigit c = true) : s.dropWhile isDigit = [] := by
  induction s with
  | nil => rfl
  | cons c t ih => simp [h c (by simp), ih (fun y hy => h y (List.mem_cons_of_mem _ hy))]

theorem decimalVal_text (q r : Nat) (h : r < 1000000) :
    decimalVal (natText q ++ '.' :: pad6 r) = ((q * 1000000 + r : Nat) : ℚ) / 1000000 := by
  unfold decimalVal
  obtain ⟨h1, h2⟩ := takeWhile_digits (natText q) (pad6 r) (natText_digits q) '.' (by decide)
  rw [h1, h2]
  simp only
  rw [dropWhile_all _ (pad6_digits r), takeWhile_all _ (pad6_digits r), digitsVal_append _ _ _ (natText_digits q), digitsVal_natText, digitsVal_pad6 _ _ h]
  norm_num [pad6, scale]

theorem body_head (q r : Nat) : ∃ c t, natText q ++ '.' :: pad6 r = c :: t ∧ isDigit c = true := by
  obtain ⟨c, t, h, hc⟩ := natText_head q
  exact ⟨c, t ++ '.' :: pad6 r, by rw [h]; rfl, hc⟩

/-- Reading what was printed. -/
theorem atof_print (F : Fl) (x : Dbl) : atof F (printReal x) = ⟨x.neg, F.fl ((micro x : ℚ) / 1000000)⟩ := by
  have hv := decimalVal_text (micro x / 1000000) (micro x % 1000000) (Nat.mod_lt _ (by decide))
  rw [show micro x / 1000000 * 1000000 + micro x % 1000000 = micro x by omega] at hv
  unfold printReal
  obtain ⟨c, t, hb, hc⟩ := body_head (micro x / 1000000) (micro x % 1000000)
  cases hn : x.neg with
  | true =>
    simp only [if_true, List.cons_append, List.nil_append]
    unfold atof
    rw [show ('-' :: (natText (micro x / 1000000) ++ '.' :: pad6 (micro x % 1000000))).dropWhile isSpace
      = '-' :: (natText (micro x / 1000000) ++ '.' :: pad6 (micro x % 1000000)) from by
        rw [List.dropWhile_cons_of_neg (by decide)]]
    simp only [hv]
  | false =>
    simp only [Bool.false_eq_true, if_false, List.nil_append]
    rw [hb] at hv ⊢
    unfold atof
    rw [List.dropWhile_cons_of_neg (by rw [isDigit_not_space c hc]; decide)]
    have h1 : c ≠ '-' := isDigit_ne c '-' hc (by decide)
    have h2 : c ≠ '+' := isDigit_ne c '+' hc (by decide)
    split
    · rename_i heq; injection heq with e _; exact absurd e h1
    · rename_i heq; injection heq with e _; exact absurd e h2
    · rw [hv]

theorem micro_err (x : Dbl) (h : 0 ≤ x.mag) : |(micro x : ℚ) / 1000000 - x.mag| ≤ 1 / 2000000 := by
  have e := rne_err (x.mag * 1000000)
  have h0 : 0 ≤ rne (x.mag * 1000000) := by
    have := (rne_bounds (x.mag * 1000000)).1
    have h2 : 0 ≤ ⌊x.mag * 1000000⌋ := Int.floor_nonneg.2 (by positivity)
    omega
  have hm : (micro x : ℚ) = (rne (x.mag * 1000000) : ℚ) := by
    unfold micro
    have := Int.toNat_of_nonneg h0
    exact_mod_cast congrArg (fun z : ℤ => (z : ℚ)) this
  rw [hm]
  rw [abs_le] at e ⊢
  constructor
  · linarith
  · linarith

/-- The printed decimal determines the number of millionths. -/
theorem micro_near (neg : Bool) (k : Nat) (y : ℚ) (h : |y - (k:ℚ) / 1000000| < 1 / 2000000) : micro ⟨neg, y⟩ = k := by
  unfold micro
  simp only
  rw [abs_lt] at h
  have hr := rne_err (y * 1000000)
  rw [abs_le] at hr
  have h1 : (rne (y * 1000000) : ℚ) < k + 1 := by linarith
  have h2 : (k : ℚ) - 1 < rne (y * 1000000) := by linarith
  have h1' : rne (y * 1000000) < (k : ℤ) + 1 := by exact_mod_cast h1
  have h2' : (k : ℤ) - 1 < rne (y * 1000000) := by exact_mod_cast h2
  omega

theorem fl_near (F : Fl) (k : Nat) (hk : k ≤ 2^32 * 1000000) : |F.fl ((k:ℚ) / 1000000) - (k:ℚ) / 1000000| < 1 / 2000000 := by
  have e := F.err ((k:ℚ) / 1000000)
  have h0 : (0:ℚ) ≤ (k:ℚ) / 1000000 := by positivity
  rw [abs_of_nonneg h0] at e
  have hk' : (k:ℚ) ≤ 2^32 * 1000000 := by exact_mod_cast hk
  have h1 : (k:ℚ) / 1000000 ≤ 2^32 := by rw [div_le_iff₀ (by norm_num)]; exact hk'
  have h2 : (k:ℚ) / 1000000 / 2^53 ≤ 2^32 / 2^53 := div_le_div_of_nonneg_right h1 (by positivity)
  have h3 : (2:ℚ)^32 / 2^53 < 1 / 2000000 := by norm_num
  linarith

/-- Magnitudes up to 2^32 (about 4.3e9), the range in which six decimals are meaningful in a `double`. -/
def Dbl.InRange (x : Dbl) : Prop := 0 ≤ x.mag ∧ x.mag ≤ 2^32

theorem micro_le (x : Dbl) (h : x.InRange) : micro x ≤ 2^32 * 1000000 := by
  have h1 : rne (x.mag * 1000000) ≤ rne (((2^32 * 1000000 : ℤ)) : ℚ) := by
    apply rne_mono
    push_cast
    have := h.2
    linarith
  rw [rne_int] at h1
  unfold micro
  omega

/-- **C47**, accuracy: a number read after being written keeps its sign and differs by at most half a millionth plus the
rounding error of one `double` operation. -/
theorem C47_error (F : Fl) (x : Dbl) (h : 0 ≤ x.mag) :
    (atof F (printReal x)).neg = x.neg ∧
    |(atof F (printReal x)).mag - x.mag| ≤ 1 / 2000000 + (x.mag + 1) / 2^53 := by
  rw [atof_print]
  refine ⟨rfl, ?_⟩
  simp only
  have e1 := micro_err x h
  have h0 : (0:ℚ) ≤ (micro x:ℚ) / 1000000 := by positivity
  have e2 := F.err ((micro x:ℚ) / 1000000)
  rw [abs_of_nonneg h0] at e2
  generalize (micro x:ℚ) / 1000000 = d at *
  have hd : d ≤ x.mag + 1 := by
    rw [abs_le] at e1; linarith [e1.2]
  have e3 : d / 2^53 ≤ (x.mag + 1) / 2^53 := div_le_div_of_nonneg_right hd (by positivity)
  rw [abs_le] at *
  constructor <;> linarith [e1.1, e1.2, e2.1, e2.2]

/-- **C47**, stability: writing, reading and writing again gives the same text. -/
theorem C47_stable (F : Fl) (x : Dbl) (h : x.InRange) : printReal (atof F (printReal x)) = printReal x := by
  rw [atof_print]
  have : micro ⟨x.neg, F.fl ((micro x:ℚ) / 1000000)⟩ = micro x :=
    micro_near _ _ _ (fl_near F (micro x) (micro_le x h))
  unfold printReal
  rw [this]

/-- **C47**: after one write and read the number no longer changes, however often it is written and read. -/
theorem C47_fixpoint (F : Fl) (x : Dbl) (h : x.InRange) :
    atof F (printReal (atof F (printReal x))) = atof F (printReal x) := by
  rw [C47_stable F x h]

/-- A number is decimal if it is the `double` nearest to a number with at most six decimals. -/
def IsDecimal (F : Fl) (x : Dbl) : Prop := ∃ k : Nat, k ≤ 2^32 * 1000000 ∧ x.mag = F.fl ((k:ℚ) / 1000000)

/-- **C47**, exactness: numbers with at most six decimals survive writing and reading exactly. -/
theorem C47_exact (F : Fl) (x : Dbl) (h : IsDecimal F x) : atof F (printReal x) = x := by
  obtain ⟨k, hk, hx⟩ := h
  obtain ⟨neg, mag⟩ := x
  simp only at hx
  subst hx
  rw [atof_print, micro_near neg k _ (fl_near F k hk)]

/-- Integers are decimal. -/
theorem isDecimal_nat (F : Fl) (neg : Bool) (n : Nat) (h : n ≤ 2^32) : IsDecimal F ⟨neg, n⟩ := by
  refine ⟨n * 1000000, by omega, ?_⟩
  push_cast
  rw [mul_div_assoc, div_self (by norm_num), mul_one, F.nat n (by omega)]

/-- **C47**: exact survival fails for numbers with more decimals: 2^-22 is written as 0.000000. -/
theorem C47_small_violated (F : Fl) :
    atof F (printReal ⟨false, 1 / 2^22⟩) = ⟨false, 0⟩ ∧ F.fl (1 / 2^22) = 1 / 2^22 := by
  constructor
  · rw [atof_print, micro_near false 0 (1 / 2^22) (by rw [abs_lt]; norm_num)]
    simp [F.zero]
  · have := F.exact 1 (-22) (by norm_num)
    have e : (((1:ℤ):ℚ) * 2^(-22:ℤ)) = 1/2^22 := by norm_num
    rw [e] at this; exact this

example : printReal ⟨true, 12345 / 10000⟩ = "-1.234500".toList := by
  have : micro ⟨true, 12345 / 10000⟩ = 1234500 := micro_near true 1234500 _ (by norm_num)
  unfold printReal; rw [this]; decide +kernel
example : IsDecimal ieee ⟨true, ieee.fl (12345 / 10000)⟩ := ⟨1234500, by norm_num, by norm_num⟩

/-! ### Characters of a number -/

theorem printReal_chars (x : Dbl) : ∀ c ∈ printReal x, isDigit c = true ∨ c = '-' ∨ c = '.' := by
  intro c hc
  unfold printReal at hc
  simp only [List.mem_append, List.mem_cons] at hc
  rcases hc with (h | h) | h | h
  · cases hn : x.neg <;> simp [hn] at h; exact .inr (.inl h)
  · exact .inl (natText_digits _ c h)
  · exact .inr (.inr h)
  · exact .inl (pad6_digits _ c h)

theorem printReal_no (x : Dbl) (c : Char) (h : isDigit c = false) (h1 : c ≠ '-') (h2 : c ≠ '.') : c ∉ printReal x := by
  intro hc
  rcases printReal_chars x c hc with h' | h' | h'
  · rw [h] at h'; exact absurd h' (by decide)
  · exact h1 h'
  · exact h2 h'

theorem printReal_ne_nil (x : Dbl) : printReal x ≠ [] := by
  unfold printReal; simp

/-! ### Lists -/

/-- The result of writing and reading one number. -/
def reread (F : Fl) (x : Dbl) : Dbl := atof F (printReal x)

theorem deserialize_fields (F : Fl) (ps : List (List Char)) (h2 : 2 ≤ ps.length) (hp : ∀ p ∈ ps, p ≠ [] ∧ ',' ∉ p) :
    deserialize F (joinComma ps) = some (ps.map (atof F), false) := by
  unfold deserialize
  rw [fields_joinComma ps (by intro h; subst h; simp at h2) hp _ (joinComma_length ps)]
  simp only [Option.map_some]
  congr 2
  rw [decide_eq_false_iff_not]
  match ps, h2, hp with
  | a :: b :: t, _, hp =>
    have : ",".toList = [','] := rfl
    rw [joinComma, this, find_single, findCh_split ',' a _ (hp a (by simp)).2]
    simp

theorem mem_reals (vs : List Dbl) : ∀ p ∈ vs.map printReal, p ≠ [] ∧ ',' ∉ p := by
  intro p hp
  obtain ⟨v, _, rfl⟩ := List.mem_map.1 hp
  exact ⟨printReal_ne_nil v, printReal_no v ',' (by decide) (by decide) (by decide)⟩

theorem deserialize_reals (F : Fl) (vs : List Dbl) (h2 : 2 ≤ vs.length) :
    deserialize F (joinComma (vs.map printReal)) = some (vs.map (reread F), false) := by
  rw [deserialize_fields F _ (by simpa using h2) (mem_reals vs), List.map_map]
  rfl

theorem joinComma_no (ps : List (List Char)) (c : Char) (hc : c ≠ ',') (h : ∀ p ∈ ps, c ∉ p) : c ∉ joinComma ps := by
  intro hm
  rcases mem_joinComma c ps hm with h' | ⟨p, hp, hm'⟩
  · exact hc h'
  · exact h p hp hm'

theorem reals_no (vs : List Dbl) (c : Char) (h : isDigit c = false) (h1 : c ≠ '-') (h2 : c ≠ '.') (h3 : c ≠ ',') :
    c ∉ joinComma (vs.map printReal) := by
  refine joinComma_no _ c h3 ?_
  intro p hp
  obtain ⟨v, _, rfl⟩ := List.mem_map.1 hp
  exact printReal_no v c h h1 h2

theorem joinComma_reals_ne_nil (vs : List Dbl) (h : vs ≠ []) : joinComma (vs.map printReal) ≠ [] := by
  match vs, h with
  | [a], _ => exact printReal_ne_nil a
  | a :: b :: t, _ => simp [joinComma]

/-- **C47** for lists: a list of at least two numbers survives, number by number, with and without brackets. -/
theorem C47_list (F : Fl) (vs : List Dbl) (br : Bool) (h : 2 ≤ vs.length) :
    readReals F (writeReals vs br) = some ⟨true, false, vs.map (reread F)⟩ := by
  have hne : vs ≠ [] := by intro e; subst e; simp at h
  have hj := joinComma_reals_ne_nil vs hne
  have hf : ((writeReals vs br).filter (· ≠ '{')).filter (· ≠ '}') = joinComma (vs.map printReal) := by
    have f1 := filter_ne_self _ '{' (reals_no vs '{' (by decide) (by decide) (by decide) (by decide))
    have f2 := filter_ne_self _ '}' (reals_no vs '}' (by decide) (by decide) (by decide) (by decide))
    unfold writeReals
    generalize joinComma (vs.map printReal) = j at *
    cases br
    · simp only [Bool.false_eq_true, if_false, List.nil_append, List.append_nil]
      rw [f1, f2]
    · simp only [if_true, List.cons_append, List.nil_append]
      rw [List.filter_cons_of_neg (by simp), List.filter_append, f1,
        show (List.filter (fun x => decide (x ≠ '{')) ['}']) = ['}'] by decide, List.filter_append, f2,
        show (List.filter (fun x => decide (x ≠ '}')) ['}']) = [] by decide, List.append_nil]
  unfold readReals
  rw [if_neg (by unfold writeReals; cases br <;> simp [hj]), hf, deserialize_reals F vs h]
  rfl

/-- A list of one number is read, but an error is reported although the text is what the library itself writes. -/
theorem C47_single_list_violated (F : Fl) (v : Dbl) :
    readReals F (writeReals [v] false) = some ⟨true, true, [reread F v]⟩ := by
  have h1 := printReal_no v '{' (by decide) (by decide) (by decide)
  have h2 := printReal_no v '}' (by decide) (by decide) (by decide)
  have h3 := printReal_no v ',' (by decide) (by decide) (by decide)
  have hw : writeReals [v] false = printReal v := by simp [writeReals, joinComma]
  unfold readReals
  rw [hw, if_neg (printReal_ne_nil v), filter_ne_self _ '{' h1, filter_ne_self _ '}' h2]
  unfold deserialize
  rw [fields_last ',' _ _ h3]
  have : ",".toList = [','] := rfl
  rw [this, find_single, findCh_none ',' _ h3]
  simp [reread]

/-- **C47** for 2D points. -/
theorem C47_point2 (F : Fl) (x y : Dbl) :
    readPoint2 F (writePoint2 x y) = some ⟨true, false, (reread F x, reread F y)⟩ := by
  unfold readPoint2 writePoint2
  rw [C47_list F [x, y] false (by simp)]
  rfl

/-- **C47** for colours. -/
theorem C47_color (F : Fl) (dflt c : V3) :
    readColor F dflt (writeColor c) = some ⟨true, false, ⟨reread F c.x, reread F c.y, reread F c.z⟩⟩ := by
  have hw : writeColor c = joinComma ([c.x, c.y, c.z].map printReal) := rfl
  unfold readColor
  rw [hw, if_neg (joinComma_reals_ne_nil _ (by simp)), deserialize_reals F _ (by simp)]
  rfl

/-! ### Groups -/

theorem findAt_pair (a b : List Char) (h : '}' ∉ a) : findAt ['}', '{'] (a ++ '}' :: '{' :: b) = some a.length := by
  induction a with
  | nil => simp [findAt]
  | cons c t ih =>
    have hc : '}' ≠ c := by intro e; exact h (by rw [e]; exact List.mem_cons_self)
    have := ih (fun hm => h (List.mem_cons_of_mem _ hm))
    simp [findAt, List.isPrefixOf, hc, this]

theorem findAt_pair_none (a : List Char) (h : '}' ∉ a) : findAt ['}', '{'] a = none := by
  induction a with
  | nil => simp [findAt]
  | cons c t ih =>
    have hc : '}' ≠ c := by intro e; exact h (by rw [e]; exact List.mem_cons_self)
    have := ih (fun hm => h (List.mem_cons_of_mem _ hm))
    simp [findAt, List.isPrefixOf, hc, this]

theorem find_pair (s : List Char) : find s "}{".toList = findAt ['}', '{'] s := by
  have : "}{".toList = ['}', '{'] := rfl
  rw [this]; unfold find stdFind
  simp

/-- The lines joined by "}{". -/
def joinGroups : List (List Char) → List Char
  | [] => []
  | [a] => a
  | a :: b :: t => a ++ '}' :: '{' :: joinGroups (b :: t)

theorem groups_join : ∀ (ps : List (List Char)), ps ≠ [] → (∀ p ∈ ps, p ≠ [] ∧ '}' ∉ p) → ∀ n, ps.length ≤ n →
    groups n (joinGroups ps) = some ps := by
  intro ps
  induction ps with
  | nil => intro h; exact absurd rfl h
  | cons a t ih =>
    intro _ hp n hn
    obtain ⟨m, rfl⟩ : ∃ m, n = m + 1 := ⟨n - 1, by simp at hn; omega⟩
    obtain ⟨ha, hb⟩ := hp a (by simp)
    cases t with
    | nil =>
      unfold groups joinGroups
      rw [find_pair, findAt_pair_none a hb]
    | cons b t =>
      rw [joinGroups, groups, find_pair, findAt_pair a _ hb]
      obtain ⟨k, hk⟩ : ∃ k, a.length = k + 1 := ⟨a.length - 1, by
        have := List.length_pos_iff.2 ha; omega⟩
      rw [hk]
      simp only
      have e1 : delete (a ++ '}' :: '{' :: joinGroups (b :: t)) 0 (k + 3) = joinGroups (b :: t) := by
        unfold delete
        rw [if_pos (by simp), List.take_zero, List.nil_append, Nat.zero_add, show k + 3 = a.length + 2 by omega,
          List.drop_length_add_append]
        rfl
      have e2 : (a ++ '}' :: '{' :: joinGroups (b :: t)).take (k+1) = a := by
        rw [← hk]; exact List.take_left
      rw [e1, e2, ih (by simp) (fun p h => hp p (List.mem_cons_of_mem _ h)) m (by simp at hn ⊢; omega)]
      rfl

theorem joinGroups_length (ps : List (List Char)) : ps.length ≤ (joinGroups ps).length + 1 := by
  induction ps with
  | nil => simp
  | cons a t ih =>
    cases t with
    | nil => simp [joinGroups]
    | cons b t => simp only [joinGroups, List.length_append, List.length_cons] at *; omega

/-- "{a}{b}{c}" is "{" followed by the joined lines and "}". -/
theorem flatten_groups : ∀ (ps : List (List Char)), ps ≠ [] →
    (ps.map fun p => '{' :: (p ++ ['}'])).flatten = '{' :: (joinGroups ps ++ ['}'])
  | [], h => absurd rfl h
  | [a], _ => by simp [joinGroups]
  | a :: b :: t, _ => by
    rw [List.map_cons, List.flatten_cons, flatten_groups (b :: t) (by simp), joinGroups]
    simp

/-- Removing both brackets and splitting the lines of a written list of groups. -/
theorem split_groups (rows : List (List (List Char))) (hne : rows ≠ [])
    (h : ∀ r ∈ rows, joinComma r ≠ [] ∧ '}' ∉ joinComma r) :
    ∃ s2 : List Char, stripOpen ((rows.map group).flatten) = (s2 ++ ['}'], false) ∧ stripClose (s2 ++ ['}']) = (s2, false) ∧
      groups (s2.length + 1) s2 = some (rows.map joinComma) ∧ (rows.map group).flatten ≠ [] := by
  have hfl : (rows.map group).flatten = ((rows.map joinComma).map fun p => '{' :: (p ++ ['}'])).flatten := by
    rw [List.map_map]; rfl
  have hne' : rows.map joinComma ≠ [] := by simpa using hne
  rw [flatten_groups _ hne'] at hfl
  refine ⟨joinGroups (rows.map joinComma), ?_, ?_, ?_, ?_⟩
  · rw [hfl]; rfl
  · unfold stripClose; rw [if_pos (by simp)]; simp
  · apply groups_join _ hne' _ _ (joinGroups_length _)
    intro p hp
    obtain ⟨r, hr, rfl⟩ := List.mem_map.1 hp
    exact h r hr
  · rw [hfl]; simp

/-- **C47** for vectors. -/
theorem C47_vector (F : Fl) (v old : V3) :
    readVector F (writeVector v) old = some ⟨true, false, ⟨reread F v.x, reread F v.y, reread F v.z⟩⟩ := by
  have hw : writeVector v = '{' :: (joinComma ([v.x, v.y, v.z].map printReal) ++ ['}']) := rfl
  unfold readVector
  rw [hw, if_neg (by simp)]
  simp only [stripOpen]
  have : stripClose (joinComma ([v.x, v.y, v.z].map printReal) ++ ['}']) = (joinComma ([v.x, v.y, v.z].map printReal), false) := by
    unfold stripClose; rw [if_pos (by simp)]; simp
  rw [this]
  simp only
  rw [deserialize_reals F _ (by simp)]
  rfl

theorem realRows_ok (rows : List (List Dbl)) (h : ∀ r ∈ rows, r ≠ []) :
    ∀ r ∈ rows.map (fun l => l.map printReal), joinComma r ≠ [] ∧ '}' ∉ joinComma r := by
  intro r hr
  obtain ⟨l, hl, rfl⟩ := List.mem_map.1 hr
  exact ⟨joinComma_reals_ne_nil l (h l hl), reals_no l '}' (by decide) (by decide) (by decide) (by decide)⟩

theorem colorLines_ok (F : Fl) : ∀ (cs acc : List V3) (err : Bool),
    colorLines F ((cs.map fun c => [c.x, c.y, c.z].map printReal).map joinComma) (acc, err) =
      some (acc ++ cs.map (fun c => ⟨reread F c.x, reread F c.y, reread F c.z⟩), err)
  | [], acc, err => by simp [colorLines]
  | c :: t, acc, err => by
    rw [List.map_cons, List.map_cons, colorLines, deserialize_reals F _ (by simp)]
    simp only [List.map_cons, List.map_nil, Bool.or_false]
    have := colorLines_ok F t (acc ++ [⟨reread F c.x, reread F c.y, reread F c.z⟩]) err
    simp only [List.map_cons, List.map_nil] at this
    rw [this]
    simp

/-- **C47** for lists of colours of any length: number, order and components survive. -/
theorem C47_colors (F : Fl) (cs : List V3) :
    readColors F (writeColors cs) = some ⟨true, false, cs.map fun c => ⟨reread F c.x, reread F c.y, reread F c.z⟩⟩ := by
  cases hc : cs with
  | nil => rfl
  | cons c0 t =>
    rw [← hc]
    have hne : cs ≠ [] := by rw [hc]; simp
    have hw : writeColors cs = ((cs.map fun c => [c.x, c.y, c.z].map printReal).map group).flatten := by
      unfold writeColors; rw [List.map_map]; rfl
    obtain ⟨s2, h1, h2, h3, h4⟩ := split_groups (cs.map fun c => [c.x, c.y, c.z].map printReal) (by simpa using hne) (by
      intro r hr
      obtain ⟨c, _, rfl⟩ := List.mem_map.1 hr
      exact ⟨joinComma_reals_ne_nil _ (by simp), reals_no _ '}' (by decide) (by decide) (by decide) (by decide)⟩)
    unfold readColors
    rw [hw, if_neg h4, h1]
    simp only
    rw [h2]
    simp only
    rw [h3]
    simp only
    rw [colorLines_ok F cs [] _]
    rfl

/-! ### C19: matrices -/

/-- Apply a function to all twelve numbers. -/
def Mat.mapV (f : Dbl → Dbl) (v : V3) : V3 := ⟨f v.x, f v.y, f v.z⟩
def Mat.map (f : Dbl → Dbl) (m : Mat) : Mat := ⟨mapV f m.u, mapV f m.v, mapV f m.w, mapV f m.o⟩

theorem constRow (F : Fl) : deserialize F (joinComma ["0".toList, "0".toList, "0".toList, "1".toList]) =
    some (["0".toList, "0".toList, "0".toList, "1".toList].map (atof F), false) :=
  deserialize_fields F _ (by decide) (by decide)

theorem matrixLines_row3 (F : Fl) (a b c : Dbl) (t : List (List Char)) (i : Nat) (m : Mat) (err : Bool) :
    matrixLines F (joinComma ([a, b, c].map printReal) :: t) i (m, err) =
      matrixLines F t (i+1) (m.setRow i ⟨reread F a, reread F b, reread F c⟩, err) := by
  rw [matrixLines, deserialize_reals F _ (by simp)]
  simp only [List.map_cons, List.map_nil, Bool.or_false]

theorem matrixLines_row4 (F : Fl) (a b c d : Dbl) (t : List (List Char)) (i : Nat) (m : Mat) (err : Bool) (hi : i < 3) :
    matrixLines F (joinComma ([a, b, c, d].map printReal) :: t) i (m, err) =
      matrixLines F t (i+1) ((m.setRow i ⟨reread F a, reread F b, reread F c⟩).setOff i (reread F d), err) := by
  rw [matrixLines, deserialize_reals F _ (by simp)]
  simp only [List.map_cons, List.map_nil, Bool.or_false]
  rw [if_pos hi]

theorem matrixLines_const (F : Fl) (m : Mat) (err : Bool) :
    matrixLines F [joinComma ["0".toList, "0".toList, "0".toList, "1".toList]] 3 (m, err) = some (m, err) := by
  rw [matrixLines, constRow]
  simp only [List.map_cons, List.map_nil, Bool.or_false]
  rfl

theorem rotationLines_row (F : Fl) (a b c : Dbl) (t : List (List Char)) (i : Nat) (m : Mat) (err : Bool) :
    rotationLines F (joinComma ([a, b, c].map printReal) :: t) i (m, err) =
      rotationLines F t (i+1) (m.setRow i ⟨reread F a, reread F b, reread F c⟩, err) := by
  rw [rotationLines, deserialize_reals F _ (by simp)]
  simp only [List.map_cons, List.map_nil, Bool.or_false]

/-- **C19**, GDTF notation: every number of the matrix is written and read in its place. -/
theorem C19_gdtf (F : Fl) (m old : Mat) :
    readMatrix F (writeMatrixGdtf m) old = some ⟨true, false, m.map (reread F)⟩ := by
  have hw : writeMatrixGdtf m = (([[m.u.x, m.u.y, m.u.z, m.o.x].map printReal, [m.v.x, m.v.y, m.v.z, m.o.y].map printReal,
    [m.w.x, m.w.y, m.w.z, m.o.z].map printReal, ["0".toList, "0".toList, "0".toList, "1".toList]]).map group).flatten := rfl
  obtain ⟨s2, h1, h2, h3, h4⟩ := split_groups ([[m.u.x, m.u.y, m.u.z, m.o.x].map printReal, [m.v.x, m.v.y, m.v.z, m.o.y].map printReal,
    [m.w.x, m.w.y, m.w.z, m.o.z].map printReal, ["0".toList, "0".toList, "0".toList, "1".toList]]) (by simp) (by
      intro r hr
      rw [List.mem_cons, List.mem_cons, List.mem_cons, List.mem_singleton] at hr
      rcases hr with rfl | rfl | rfl | rfl
      · exact ⟨joinComma_reals_ne_nil _ (by simp), reals_no _ '}' (by decide) (by decide) (by decide) (by decide)⟩
      · exact ⟨joinComma_reals_ne_nil _ (by simp), reals_no _ '}' (by decide) (by decide) (by decide) (by decide)⟩
      · exact ⟨joinComma_reals_ne_nil _ (by simp), reals_no _ '}' (by decide) (by decide) (by decide) (by decide)⟩
      · decide)
  unfold readMatrix
  rw [hw, if_neg h4, h1]
  simp only
  rw [h2]
  simp only
  rw [h3]
  have hr : ([[m.u.x, m.u.y, m.u.z, m.o.x].map printReal, [m.v.x, m.v.y, m.v.z, m.o.y].map printReal,
    [m.w.x, m.w.y, m.w.z, m.o.z].map printReal, ["0".toList, "0".toList, "0".toList, "1".toList]]).map joinComma =
    [joinComma ([m.u.x, m.u.y, m.u.z, m.o.x].map printReal), joinComma ([m.v.x, m.v.y, m.v.z, m.o.y].map printReal),
     joinComma ([m.w.x, m.w.y, m.w.z, m.o.z].map printReal), joinComma ["0".toList, "0".toList, "0".toList, "1".toList]] := rfl
  rw [hr]
  simp only
  rw [if_neg (by simp), matrixLines_row4 F _ _ _ _ _ 0 _ _ (by decide), matrixLines_row4 F _ _ _ _ _ 1 _ _ (by decide),
    matrixLines_row4 F _ _ _ _ _ 2 _ _ (by decide), matrixLines_const]
  rfl

/-- **C19**, MVR notation. -/
theorem C19_mvr (F : Fl) (m old : Mat) :
    readMatrix F (writeMatrixMvr m) old = some ⟨true, false, m.map (reread F)⟩ := by
  have hw : writeMatrixMvr m = (([[m.u.x, m.u.y, m.u.z], [m.v.x, m.v.y, m.v.z],
    [m.w.x, m.w.y, m.w.z], [m.o.x, m.o.y, m.o.z]].map (fun l => l.map printReal)).map group).flatten := rfl
  obtain ⟨s2, h1, h2, h3, h4⟩ := split_groups ([[m.u.x, m.u.y, m.u.z], [m.v.x, m.v.y, m.v.z],
    [m.w.x, m.w.y, m.w.z], [m.o.x, m.o.y, m.o.z]].map (fun l => l.map printReal)) (by simp)
      (realRows_ok _ (by intro r hr; simp at hr; rcases hr with rfl | rfl | rfl | rfl <;> simp))
  unfold readMatrix
  rw [hw, if_neg h4, h1]
  simp only
  rw [h2]
  simp only
  rw [h3]
  have hr : ([[m.u.x, m.u.y, m.u.z], [m.v.x, m.v.y, m.v.z],
    [m.w.x, m.w.y, m.w.z], [m.o.x, m.o.y, m.o.z]].map (fun l => l.map printReal)).map joinComma =
    [joinComma ([m.u.x, m.u.y, m.u.z].map printReal), joinComma ([m.v.x, m.v.y, m.v.z].map printReal),
     joinComma ([m.w.x, m.w.y, m.w.z].map printReal), joinComma ([m.o.x, m.o.y, m.o.z].map printReal)] := rfl
  rw [hr]
  simp only
  rw [if_neg (by simp), matrixLines_row3, matrixLines_row3, matrixLines_row3, matrixLines_row3]
  rfl

/-- All twelve numbers are decimal. -/
def Mat.AllDecimal (F : Fl) (m : Mat) : Prop :=
  ∀ x ∈ [m.u.x, m.u.y, m.u.z, m.v.x, m.v.y, m.v.z, m.w.x, m.w.y, m.w.z, m.o.x, m.o.y, m.o.z], IsDecimal F x

/-- **C19**: a matrix of numbers with at most six decimals survives both notations unchanged. -/
theorem C19_exact (F : Fl) (m old : Mat) (h : m.AllDecimal F) :
    readMatrix F (writeMatrixGdtf m) old = some ⟨true, false, m⟩ ∧
    readMatrix F (writeMatrixMvr m) old = some ⟨true, false, m⟩ := by
  have e : m.map (reread F) = m := by
    obtain ⟨⟨_, _, _⟩, ⟨_, _, _⟩, ⟨_, _, _⟩, ⟨_, _, _⟩⟩ := m
    simp only [Mat.AllDecimal, List.mem_cons, List.not_mem_nil, or_false] at h
    unfold Mat.map Mat.mapV reread
    simp only
    rw [C47_exact F _ (h _ (by simp)), C47_exact F _ (h _ (by simp)), C47_exact F _ (h _ (by simp)),
      C47_exact F _ (h _ (by simp)), C47_exact F _ (h _ (by simp)), C47_exact F _ (h _ (by simp)),
      C47_exact F _ (h _ (by simp)), C47_exact F _ (h _ (by simp)), C47_exact F _ (h _ (by simp)),
      C47_exact F _ (h _ (by simp)), C47_exact F _ (h _ (by simp)), C47_exact F _ (h _ (by simp))]
  rw [C19_gdtf, C19_mvr, e]
  exact ⟨rfl, rfl⟩

/-- **C19**: the origin is in the fourth column of the GDTF notation and in the fourth row of the MVR notation. -/
theorem C19_layout :
    writeMatrixGdtf ⟨⟨⟨false,1⟩,⟨false,2⟩,⟨false,3⟩⟩, ⟨⟨false,4⟩,⟨false,5⟩,⟨false,6⟩⟩, ⟨⟨false,7⟩,⟨false,8⟩,⟨false,9⟩⟩, ⟨⟨false,10⟩,⟨false,11⟩,⟨true,12⟩⟩⟩
      = "{1.000000,2.000000,3.000000,10.000000}{4.000000,5.000000,6.000000,11.000000}{7.000000,8.000000,9.000000,-12.000000}{0,0,0,1}".toList ∧
    writeMatrixMvr ⟨⟨⟨false,1⟩,⟨false,2⟩,⟨false,3⟩⟩, ⟨⟨false,4⟩,⟨false,5⟩,⟨false,6⟩⟩, ⟨⟨false,7⟩,⟨false,8⟩,⟨false,9⟩⟩, ⟨⟨false,10⟩,⟨false,11⟩,⟨true,12⟩⟩⟩
      = "{1.000000,2.000000,3.000000}{4.000000,5.000000,6.000000}{7.000000,8.000000,9.000000}{10.000000,11.000000,-12.000000}".toList := by
  have p : ∀ (n : Nat) (b : Bool), printReal ⟨b, (n:ℚ)⟩ = (if b then ['-'] else []) ++ natText n ++ ".000000".toList := by
    intro n b
    have : micro ⟨b, (n:ℚ)⟩ = n * 1000000 := by
      apply micro_near
      push_cast
      rw [mul_div_assoc, div_self (by norm_num), mul_one, sub_self]; norm_num
    unfold printReal
    rw [this, Nat.mul_div_cancel _ (by decide), Nat.mul_mod_left]
    rfl
  have p1 := p 1 false; have p2 := p 2 false; have p3 := p 3 false; have p4 := p 4 false
  have p5 := p 5 false; have p6 := p 6 false; have p7 := p 7 false; have p8 := p 8 false
  have p9 := p 9 false; have p10 := p 10 false; have p11 := p 11 false; have p12 := p 12 true
  simp only [Nat.cast_ofNat, Nat.cast_one] at p1 p2 p3 p4 p5 p6 p7 p8 p9 p10 p11 p12
  unfold writeMatrixGdtf writeMatrixMvr
  simp only
  rw [p1, p2, p3, p4, p5, p6, p7, p8, p9, p10, p11, p12]
  decide +kernel

example : Mat.AllDecimal ieee ⟨⟨⟨false,1⟩,⟨false,2⟩,⟨false,3⟩⟩, ⟨⟨false,4⟩,⟨false,5⟩,⟨false,6⟩⟩, ⟨⟨false,7⟩,⟨false,8⟩,⟨false,9⟩⟩, ⟨⟨false,10⟩,⟨false,11⟩,⟨true,12⟩⟩⟩ := by
  intro x hx
  simp only [List.mem_cons, List.not_mem_nil, or_false] at hx
  rcases hx with rfl | rfl | rfl | rfl | rfl | rfl | rfl | rfl | rfl | rfl | rfl | rfl
  · simpa using isDecimal_nat ieee false 1 (by decide)
  · simpa using isDecimal_nat ieee false 2 (by decide)
  · simpa using isDecimal_nat ieee false 3 (by decide)
  · simpa using isDecimal_nat ieee false 4 (by decide)
  · simpa using isDecimal_nat ieee false 5 (by decide)
  · simpa using isDecimal_nat ieee false 6 (by decide)
  · simpa using isDecimal_nat ieee false 7 (by decide)
  · simpa using isDecimal_nat ieee false 8 (by decide)
  · simpa using isDecimal_nat ieee false 9 (by decide)
  · simpa using isDecimal_nat ieee false 10 (by decide)
  · simpa using isDecimal_nat ieee false 11 (by decide)
  · simpa using isDecimal_nat ieee true 12 (by decide)

/-- **C19** for rotations: the three axes survive and the origin of the matrix read into is kept. -/
theorem C19_rotation (F : Fl) (m old : Mat) :
    readRotation F (writeRotation m) old = some ⟨true, false, { m.map (reread F) with o := old.o }⟩ := by
  have hw : writeRotation m = (([[m.u.x, m.u.y, m.u.z], [m.v.x, m.v.y, m.v.z],
    [m.w.x, m.w.y, m.w.z]].map (fun l => l.map printReal)).map group).flatten := rfl
  obtain ⟨s2, h1, h2, h3, h4⟩ := split_groups ([[m.u.x, m.u.y, m.u.z], [m.v.x, m.v.y, m.v.z],
    [m.w.x, m.w.y, m.w.z]].map (fun l => l.map printReal)) (by simp)
      (realRows_ok _ (by intro r hr; simp at hr; rcases hr with rfl | rfl | rfl <;> simp))
  unfold readRotation
  rw [hw, h1]
  simp only
  rw [h2]
  simp only
  rw [h3]
  have hr : ([[m.u.x, m.u.y, m.u.z], [m.v.x, m.v.y, m.v.z],
    [m.w.x, m.w.y, m.w.z]].map (fun l => l.map printReal)).map joinComma =
    [joinComma ([m.u.x, m.u.y, m.u.z].map printReal), joinComma ([m.v.x, m.v.y, m.v.z].map printReal),
     joinComma ([m.w.x, m.w.y, m.w.z].map printReal)] := rfl
  rw [hr]
  simp only
  rw [if_neg (by simp), rotationLines_row, rotationLines_row, rotationLines_row]
  rfl

/-- The loop always ends. -/
theorem groups_finish : ∀ (n : Nat) (s : List Char), s.length < n → ∃ ls, groups n s = some ls := by
  intro n
  induction n with
  | zero => intro s h; omega
  | succ n ih =>
    intro s h
    unfold groups
    split
    · rename_i p hp
      have hlt : (delete s 0 (p+3)).length < n := by
        unfold delete
        by_cases h0 : 0 < s.length
        · rw [if_pos h0]; simp; omega
        · have : s = [] := List.eq_nil_of_length_eq_zero (by omega)
          subst this
          rw [find_pair] at hp
          simp [findAt] at hp
      obtain ⟨ls, hls⟩ := ih _ hlt
      exact ⟨_, by rw [hls]; rfl⟩
    · exact ⟨_, rfl⟩

theorem fields_finish (sep : Char) : ∀ (n : Nat) (s : List Char), s.length < n → ∃ fs, fields sep n s = some fs := by
  intro n
  induction n with
  | zero => intro s h; omega
  | succ n ih =>
    intro s h
    unfold fields
    split
    · rename_i p hp
      have hlt : (delete s 0 (p+2)).length < n := by
        unfold delete
        by_cases h0 : 0 < s.length
        · rw [if_pos h0]; simp; omega
        · have : s = [] := List.eq_nil_of_length_eq_zero (by omega)
          subst this
          simp [findCh, stdFind, findAt] at hp
      obtain ⟨ls, hls⟩ := ih _ hlt
      exact ⟨_, by rw [hls]; rfl⟩
    · exact ⟨_, rfl⟩

theorem deserialize_total (F : Fl) (s : List Char) : ∃ r, deserialize F s = some r := by
  obtain ⟨fs, h⟩ := fields_finish ',' (s.length + 1) s (by omega)
  exact ⟨_, by unfold deserialize; rw [h]; rfl⟩

theorem matrixLines_total (F : Fl) : ∀ ls i st, ∃ r, matrixLines F ls i st = some r
  | [], _, st => ⟨st, rfl⟩
  | l :: t, i, (m, err) => by
    obtain ⟨r, hr⟩ := deserialize_total F l
    unfold matrixLines
    rw [hr]
    split
    · rename_i h; exact absurd h (by simp)
    · exact matrixLines_total F t _ _
    · exact matrixLines_total F t _ _
    · exact matrixLines_total F t _ _

/-- Reading a matrix always ends with a result, whatever the text. -/
theorem C19_total (F : Fl) (s : List Char) (old : Mat) : ∃ r, readMatrix F s old = some r := by
  unfold readMatrix
  split
  · exact ⟨_, rfl⟩
  · obtain ⟨ls, h⟩ := groups_finish ((stripClose (stripOpen s).1).1.length + 1) (stripClose (stripOpen s).1).1 (by omega)
    simp only
    rw [h]
    simp only
    split
    · exact ⟨_, rfl⟩
    · obtain ⟨r, hr⟩ := matrixLines_total F ls 0 (old, (stripOpen s).2 || (stripClose (stripOpen s).1).2)
      rw [hr]; exact ⟨_, rfl⟩

end Verif.Real
