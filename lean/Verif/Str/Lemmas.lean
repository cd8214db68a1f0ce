import Verif.Str.Model

/-! Lemmas about decimal text and searching. -/

namespace Verif.Str

/-! ### decimal text -/

theorem digit_char (n : Nat) (h : n < 10) :
    isDigit (Char.ofNat (48 + n)) = true ∧ digitVal (Char.ofNat (48 + n)) = n := by
  have key : ∀ n : Fin 10, isDigit (Char.ofNat (48 + n.val)) = true ∧
      digitVal (Char.ofNat (48 + n.val)) = n.val := by decide
  exact key ⟨n, h⟩

theorem digit_char_isDigit (n : Nat) (h : n < 10) : isDigit (Char.ofNat (48 + n)) = true :=
  (digit_char n h).1

theorem natText_digits (n : Nat) : ∀ c ∈ natText n, isDigit c = true := by
  induction n using Nat.strongRecOn with
  | ind n ih =>
    intro c hc
    unfold natText at hc
    split at hc
    · rename_i h; simp at hc; subst hc; exact digit_char_isDigit n h
    · rename_i h
      rcases List.mem_append.1 hc with h1 | h1
      · exact ih (n/10) (by omega) c h1
      · simp at h1; subst h1; exact digit_char_isDigit _ (by omega)

theorem natText_ne_nil (n : Nat) : natText n ≠ [] := by
  unfold natText
  split <;> simp

theorem natText_head (n : Nat) : ∃ c t, natText n = c :: t ∧ isDigit c = true := by
  cases h : natText n with
  | nil => exact absurd h (natText_ne_nil n)
  | cons c t => exact ⟨c, t, rfl, natText_digits n c (by simp [h])⟩

theorem digitsVal_append (a b : List Char) (acc : Nat) (h : ∀ c ∈ a, isDigit c = true) :
    digitsVal acc (a ++ b) = digitsVal (digitsVal acc a) b := by
  induction a generalizing acc with
  | nil => rfl
  | cons c t ih =>
    simp only [List.cons_append, digitsVal, h c List.mem_cons_self, if_true]
    exact ih _ (fun c hc => h c (List.mem_cons_of_mem _ hc))

theorem digitsVal_natText (n : Nat) : digitsVal 0 (natText n) = n := by
  induction n using Nat.strongRecOn with
  | ind n ih =>
    unfold natText
    split
    · rename_i h
      have := digit_char n h
      simp [digitsVal, this]
    · rename_i h
      rw [digitsVal_append _ _ _ (natText_digits _), ih (n/10) (by omega)]
      have := digit_char (n % 10) (by omega)
      simp only [digitsVal, this, if_true]
      omega

theorem digitsVal_stop (acc : Nat) (c : Char) (t : List Char) (h : isDigit c = false) :
    digitsVal acc (c :: t) = acc := by
  simp [digitsVal, h]

theorem isDigit_not_space (c : Char) (h : isDigit c = true) : isSpace c = false := by
  simp only [isDigit, Bool.and_eq_true, decide_eq_true_eq] at h
  obtain ⟨h1, h2⟩ := h
  have e1 : (48 : Nat) ≤ c.toNat := h1
  simp only [isSpace, Bool.or_eq_false_iff, beq_eq_false_iff_ne, ne_eq]
  refine ⟨⟨⟨⟨⟨?_, ?_⟩, ?_⟩, ?_⟩, ?_⟩, ?_⟩ <;> (rintro rfl; revert e1; decide)

theorem isDigit_ne (c d : Char) (h : isDigit c = true) (hd : isDigit d = false) : c ≠ d := by
  rintro rfl; rw [h] at hd; exact absurd hd (by decide)

theorem atoi_natText_append (n : Nat) (hn : n ≤ 2147483647) (t : List Char)
    (ht : ∀ c u, t = c :: u → isDigit c = false) : atoi (natText n ++ t) = some (n : Int) := by
  obtain ⟨c, u, hc, hd⟩ := natText_head n
  have e : (natText n ++ t).dropWhile isSpace = natText n ++ t := by
    rw [hc, List.cons_append, List.dropWhile_cons, isDigit_not_space c hd]; rfl
  have v : digitsVal 0 (natText n ++ t) = n := by
    rw [digitsVal_append _ _ _ (natText_digits _), digitsVal_natText]
    cases t with
    | nil => rfl
    | cons c u => exact digitsVal_stop _ _ _ (ht c u rfl)
  have m : signVal (natText n ++ t) = (n : Int) := by
    unfold signVal
    split
    · rename_i h; rw [hc, List.cons_append] at h; injection h with h _
      exact absurd h (isDigit_ne c '-' hd (by decide))
    · rename_i h; rw [hc, List.cons_append] at h; injection h with h _
      exact absurd h (isDigit_ne c '+' hd (by decide))
    · rw [v]
  unfold atoi
  simp only [e, m]
  rw [if_pos (by omega)]

theorem atoi_natText (n : Nat) (hn : n ≤ 2147483647) : atoi (natText n) = some (n : Int) := by
  have := atoi_natText_append n hn [] (by simp)
  simpa using this

theorem atoi_intText (i : Int) (h1 : -2147483648 ≤ i) (h2 : i ≤ 2147483647) : atoi (intText i) = some i := by
  unfold intText
  split
  · unfold atoi
    have e : ('-' :: natText i.natAbs).dropWhile isSpace = '-' :: natText i.natAbs := by
      rw [List.dropWhile_cons]; rfl
    simp only [e, signVal, digitsVal_natText]
    have : -(i.natAbs : Int) = i := by omega
    rw [this, if_pos ⟨h1, h2⟩]
  · rw [atoi_natText _ (by omega)]
    congr 1; omega

theorem natText_complete (n : Nat) : isCompleteNumber (natText n) = true := by
  unfold isCompleteNumber
  simp only [Bool.and_eq_true, List.all_eq_true]
  refine ⟨?_, natText_digits n⟩
  obtain ⟨c, t, h, _⟩ := natText_head n
  rw [h]; rfl

theorem natText_inj {m n : Nat} (h : natText m = natText n) : m = n := by
  rw [← digitsVal_natText m, h, digitsVal_natText]

/-! ### searching a character -/

variable {α : Type} [DecidableEq α]

theorem findAt_single (c : α) (a b : List α) (h : c ∉ a) : findAt [c] (a ++ c :: b) = some a.length := by
  induction a with
  | nil => simp [findAt, List.isPrefixOf]
  | cons x t ih =>
    simp only [List.mem_cons, not_or] at h
    have hx : (c == x) = false := by simpa using h.1
    simp [findAt, List.isPrefixOf, hx, ih h.2]

theorem findAt_single_none (c : α) (a : List α) (h : c ∉ a) : findAt [c] a = none := by
  induction a with
  | nil => simp [findAt]
  | cons x t ih =>
    simp only [List.mem_cons, not_or] at h
    have hx : (c == x) = false := by simpa using h.1
    simp [findAt, List.isPrefixOf, hx, ih h.2]

theorem findCh_zero (c : α) (s : List α) : findCh s c 0 = findAt [c] s := by
  simp [findCh, stdFind]

theorem findCh_split (c : α) (a b : List α) (h : c ∉ a) : findCh (a ++ c :: b) c 0 = some a.length := by
  rw [findCh_zero, findAt_single c a b h]

theorem findCh_none (c : α) (a : List α) (h : c ∉ a) : findCh a c 0 = none := by
  rw [findCh_zero, findAt_single_none c a h]

theorem find_single (s : List α) (c : α) (p : Nat) : find s [c] p = findCh s c p := by
  simp [find, findCh]

theorem natText_not_mem (n : Nat) (c : Char) (h : isDigit c = false) : c ∉ natText n := by
  intro hc; rw [natText_digits n c hc] at h; exact absurd h (by decide)

end Verif.Str
