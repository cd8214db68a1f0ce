import Verif.Xchg.JsonUtf8
import Verif.Str.Lemmas

/-!
# Lemmas on reading JSON texts
-/

namespace Verif.Xchg

open Verif.UnicodeSpec Verif.Str JsonSpec

/-! ### Strings -/

theorem hex_value (n : Nat) (c : Char) (h : HexDigit n c) : n < 16 ∧ hexValue c = some n := by
  have key : ∀ (l : List Char), l.length = 16 → (∀ i : Fin 16, ∀ c, l[i.val]? = some c → hexValue c = some i.val) →
      l[n]? = some c → n < 16 ∧ hexValue c = some n := by
    intro l hl ht hc
    have hn : n < 16 := by
      have := (List.getElem?_eq_some_iff.1 hc).1
      omega
    exact ⟨hn, ht ⟨n, hn⟩ c hc⟩
  rcases h with h | h
  · refine key _ (by decide) ?_ h
    intro i c hc
    have : ∀ i : Fin 16, ("0123456789abcdef".toList[i.val]?).bind hexValue = some i.val := by decide
    have := this i
    rw [hc] at this
    exact this
  · refine key _ (by decide) ?_ h
    intro i c hc
    have : ∀ i : Fin 16, ("0123456789ABCDEF".toList[i.val]?).bind hexValue = some i.val := by decide
    have := this i
    rw [hc] at this
    exact this

theorem codepoint_hex (n : Nat) (hn : n < 0x10000) (h t : List Char) (hh : Hex4 n h) : getCodepoint (h ++ t) = some (n, t) := by
  obtain ⟨a, b, c, d, rfl, ha, hb, hc, hd⟩ := hh
  show getCodepoint (a :: b :: c :: d :: t) = some (n, t)
  rw [getCodepoint]
  simp only [(hex_value _ _ ha).2, (hex_value _ _ hb).2, (hex_value _ _ hc).2, (hex_value _ _ hd).2, Nat.shiftLeft_eq]
  congr 2
  omega

theorem or_add (a i b : Nat) (h : b < 2 ^ i) : (a <<< i) ||| b = a <<< i + b := (Nat.shiftLeft_add_eq_or_of_lt h a).symm

theorem encode_bytes (c : Nat) (hc : c ≤ 0x10FFFF) : encodeCode c = bytesOf c := by
  have and6 : ∀ n : Nat, n &&& 0x3F = n % 64 := fun n => Nat.and_two_pow_sub_one_eq_mod n 6
  have or80 : ∀ n : Nat, n < 64 → 0x80 ||| n = 0x80 + n := fun n hn => or_add 2 6 n hn
  have orE0 : ∀ n : Nat, n < 16 → 0xE0 ||| n = 0xE0 + n := fun n hn => or_add 14 4 n hn
  have orF0 : ∀ n : Nat, n < 16 → 0xF0 ||| n = 0xF0 + n := fun n hn => or_add 15 4 n hn
  have orC0 : ∀ n : Nat, n < 64 → 0xC0 ||| n = 0xC0 + n := fun n hn => or_add 3 6 n hn
  unfold encodeCode
  by_cases h1 : c < 0x80
  · rw [if_pos h1, bytesOf_1 c h1]
  rw [if_neg h1]
  by_cases h2 : c ≤ 0x7FF
  · rw [if_pos h2, bytesOf_2 c (by omega) (by omega), and6, Nat.shiftRight_eq_div_pow, orC0 _ (by omega), or80 _ (by omega)]
  rw [if_neg h2]
  by_cases h3 : c ≤ 0xFFFF
  · rw [if_pos h3, bytesOf_3 c (by omega) (by omega), and6, and6, Nat.shiftRight_eq_div_pow, Nat.shiftRight_eq_div_pow, orE0 _ (by omega),
      or80 _ (by omega), or80 _ (by omega)]
  rw [if_neg h3, bytesOf_4 c (by omega) hc, and6, and6, and6, Nat.shiftRight_eq_div_pow, Nat.shiftRight_eq_div_pow, Nat.shiftRight_eq_div_pow,
    orF0 _ (by omega), or80 _ (by omega), or80 _ (by omega), or80 _ (by omega)]

theorem scan_escape (fuel : Nat) (t s u : List Char) (h : escape t = some (s, u)) :
    scanString (fuel + 1) ('\\' :: t) = (scanString fuel u).map fun r => (s ++ r.1, r.2) := by
  rw [scanString, if_neg (by decide), if_pos rfl, h]

theorem scan_char (fuel c : Nat) (p t : List Char) (h : CharText c p) :
    scanString (fuel + 1) (p ++ t) = (scanString fuel t).map fun r => (bytesOf c ++ r.1, r.2) := by
  cases h with
  | raw h h1 h2 h3 => exact scan_char_raw fuel c h h1 h2 h3 t
  | letter e h =>
    have key : ∀ x ∈ letters, ∀ t, escape (x.2 :: t) = some (bytesOf x.1, t) := by
      intro x hx t
      simp only [letters, List.mem_cons, List.not_mem_nil, or_false] at hx
      rcases hx with rfl | rfl | rfl | rfl | rfl | rfl | rfl | rfl <;> rfl
    exact scan_escape fuel _ _ _ (key _ h t)
  | hex h h1 q hq =>
    refine scan_escape fuel _ _ _ ?_
    show unicodeEscape (q ++ t) = _
    unfold unicodeEscape
    rw [codepoint_hex c h1 q t hq]
    simp only
    rw [if_neg (by have := h.2; omega), if_neg (by have := h.2; omega), encode_bytes c h.1]
  | pair h1 h2 q u hq hu =>
    rw [show '\\' :: 'u' :: q ++ '\\' :: 'u' :: u ++ t = '\\' :: ('u' :: (q ++ '\\' :: 'u' :: (u ++ t))) by simp]
    refine scan_escape fuel _ _ _ ?_
    show unicodeEscape (q ++ '\\' :: 'u' :: (u ++ t)) = _
    unfold unicodeEscape
    rw [codepoint_hex _ (by omega) q _ hq]
    simp only
    rw [if_pos (by omega)]
    unfold lowHalf
    simp only
    rw [codepoint_hex _ (by omega) u t hu]
    simp only
    rw [if_pos (by omega), Nat.shiftLeft_eq,
      show (0xD800 + (c - 0x10000) / 1024) * 2 ^ 10 + (0xDC00 + (c - 0x10000) % 1024) - 0x35FDC00 = c by omega, encode_bytes c h2]

theorem charText_pos {c : Nat} {p : List Char} (h : CharText c p) : 0 < p.length := by
  cases h with
  | raw => exact List.length_pos_iff.2 (bytesOf_ne_nil c)
  | letter => simp
  | hex => simp
  | pair => simp

theorem scan_text {s t : List Char} (h : StringText s t) : ∀ (fuel : Nat) (rest : List Char), t.length < fuel →
    scanString fuel (t ++ '"' :: rest) = some (s, rest) := by
  induction h with
  | nil =>
    intro fuel rest hf
    obtain ⟨f, rfl⟩ := Nat.exists_eq_succ_of_ne_zero (show fuel ≠ 0 by simp at hf; omega)
    rfl
  | cons h _ ih =>
    intro fuel rest hf
    obtain ⟨f, rfl⟩ := Nat.exists_eq_succ_of_ne_zero (show fuel ≠ 0 by omega)
    have := charText_pos h
    rw [List.length_append] at hf
    rw [List.append_assoc, Nat.succ_eq_add_one, scan_char _ _ _ _ h, ih f rest (by omega)]
    rfl

/-! ### Numbers -/

theorem natText_zero : natText 0 = ['0'] := by
  rw [natText, if_pos (by omega)]

theorem natText_nonzero (n : Nat) (h : n ≠ 0) : ∃ c t, natText n = c :: t ∧ isDigit c = true ∧ c ≠ '0' := by
  induction n using Nat.strongRecOn with
  | ind n ih =>
    by_cases h1 : n < 10
    · refine ⟨Char.ofNat (48 + n), [], by rw [natText, if_pos h1], digit_char_isDigit n h1, ?_⟩
      exact ofNat_ne (48 + n) 48 (by omega) (by omega) (by omega)
    · obtain ⟨c, t, h2, h3, h4⟩ := ih (n / 10) (by omega) (by omega)
      exact ⟨c, t ++ [Char.ofNat (48 + n % 10)], by rw [natText, if_neg h1, h2]; rfl, h3, h4⟩

/-- The rest of the input does not continue a number. -/
def Stops (rest : List Char) : Prop := ∀ c t, rest = c :: t → isDigit c = false ∧ c ≠ '.' ∧ c ≠ 'e' ∧ c ≠ 'E'

theorem after_integer (neg : Bool) (ds rest : List Char) (h : Stops rest) : afterInteger neg ds rest = some (integer neg ds, rest) := by
  unfold afterInteger
  split
  · exact absurd rfl (h _ _ rfl).2.1
  · exact absurd rfl (h _ _ rfl).2.2.1
  · exact absurd rfl (h _ _ rfl).2.2.2
  · rfl

theorem takeWhile_stop (ds rest : List Char) (hd : ∀ c ∈ ds, isDigit c = true) (h : Stops rest) :
    (ds ++ rest).takeWhile isDigit = ds ∧ (ds ++ rest).dropWhile isDigit = rest := by
  induction ds with
  | nil =>
    cases rest with
    | nil => exact ⟨rfl, rfl⟩
    | cons c t =>
      have := (h c t rfl).1
      simp [this]
  | cons d ds ih =>
    have := ih (fun c hc => hd c (by simp [hc]))
    have h0 := hd d (by simp)
    simp only [List.cons_append, List.takeWhile_cons, List.dropWhile_cons, h0, if_true]
    exact ⟨by rw [this.1], this.2⟩

theorem digit_iff (c : Char) : c ∈ "0123456789".toList ↔ isDigit c = true := by
  constructor
  · intro h
    have : ∀ c ∈ "0123456789".toList, isDigit c = true := by decide
    exact this c h
  · intro h
    unfold isDigit at h
    simp only [Bool.and_eq_true, decide_eq_true_eq] at h
    have h1 : 48 ≤ c.toNat := h.1
    have h2 : c.toNat ≤ 57 := h.2
    have : ∀ i : Fin 10, Char.ofNat (48 + i.val) ∈ "0123456789".toList := by decide
    have := this ⟨c.toNat - 48, by omega⟩
    simp only at this
    rwa [show 48 + (c.toNat - 48) = c.toNat by omega, Char.ofNat_toNat] at this

theorem number_val (ds : List Char) (h : ∀ c ∈ ds, isDigit c = true) : ∀ n, ds.foldl (fun n c => 10 * n + (c.toNat - 48)) n = digitsVal n ds := by
  induction ds with
  | nil => intro n; rfl
  | cons c ds ih =>
    intro n
    rw [List.foldl_cons, ih (fun x hx => h x (by simp [hx])), digitsVal, if_pos (h c (by simp)), Nat.mul_comm n 10]
    rfl

theorem number_digits (ds : List Char) (h : Digits ds) : number ds = digitsVal 0 ds :=
  number_val ds (fun c hc => (digit_iff c).1 (h.2.1 c hc)) 0

theorem scan_digits (neg : Bool) (ds : List Char) (hd : Digits ds) (rest : List Char) (h : Stops rest) :
    scanDigits neg (ds ++ rest) = some (integer neg ds, rest) := by
  obtain ⟨hne, hall, h0⟩ := hd
  cases ds with
  | nil => exact absurd rfl hne
  | cons c t =>
    by_cases hc : c = '0'
    · subst hc
      have := h0 rfl
      rw [this]
      exact after_integer neg _ _ h
    · have hall' : ∀ c ∈ t, isDigit c = true := fun x hx => (digit_iff x).1 (hall x (by simp [hx]))
      have hd := (digit_iff c).1 (hall c (by simp))
      rw [List.cons_append, scanDigits.eq_def]
      split
      · rename_i heq
        simp only [List.cons.injEq] at heq
        exact absurd heq.1 hc
      · rename_i c' t' _ heq
        simp only [List.cons.injEq] at heq
        obtain ⟨rfl, rfl⟩ := heq
        rw [if_pos hd, (takeWhile_stop t rest hall' h).1, (takeWhile_stop t rest hall' h).2, after_integer _ _ _ h]
      · rename_i heq; cases heq

theorem intText_head {n : Int} {t : List Char} (h : IntText n t) : ∃ c u, t = c :: u ∧ (c = '-' ∨ isDigit c = true) := by
  obtain ⟨ds, hd, ⟨rfl, _⟩ | ⟨rfl, _⟩⟩ := h
  · cases t with
    | nil => exact absurd rfl hd.1
    | cons c u => exact ⟨c, u, rfl, .inr ((digit_iff c).1 (hd.2.1 c (by simp)))⟩
  · exact ⟨_, _, rfl, .inl rfl⟩

theorem scan_int {n : Int} {t : List Char} (ht : IntText n t) (h1 : -2 ^ 63 ≤ n) (h2 : n < 2 ^ 64) (rest : List Char) (h : Stops rest) :
    scanNumber (t ++ rest) = some (.lit (.num n), rest) := by
  obtain ⟨ds, hd, ⟨rfl, e⟩ | ⟨rfl, e⟩⟩ := ht
  · have e1 : scanNumber (t ++ rest) = scanDigits false (t ++ rest) := by
      cases t with
      | nil => exact absurd rfl hd.1
      | cons c u =>
        have hc := hd.2.1 c (by simp)
        rw [List.cons_append, scanNumber.eq_def]
        split
        · rename_i heq
          simp only [List.cons.injEq] at heq
          rw [heq.1] at hc
          exact absurd hc (by decide)
        · rfl
    rw [e1, scan_digits _ _ hd _ h]
    rw [number_digits _ hd] at e
    unfold integer
    rw [if_neg (by decide), if_pos (by omega), e]
  · show scanDigits true (ds ++ rest) = _
    rw [scan_digits _ _ hd _ h]
    rw [number_digits _ hd] at e
    unfold integer
    rw [if_pos rfl, if_pos (by omega), e]

/-- The decimal text the library writes. -/
def decimal (n : Int) : List Char := if n < 0 then '-' :: natText n.natAbs else natText n.natAbs

theorem natText_Digits (n : Nat) : Digits (natText n) ∧ number (natText n) = n := by
  refine ⟨⟨?_, ?_, ?_⟩, ?_⟩
  · obtain ⟨c, t, e, _⟩ := natText_head n
    rw [e]; nofun
  · intro c hc
    exact (digit_iff c).2 (natText_digits n c hc)
  · intro h
    by_cases h0 : n = 0
    · subst h0; exact natText_zero
    · obtain ⟨c, t, e, _, hc⟩ := natText_nonzero n h0
      rw [e] at h
      injection h with h
      exact absurd h hc
  · unfold number
    rw [number_val _ (natText_digits n), digitsVal_natText]

theorem decimal_int (n : Int) : IntText n (decimal n) := by
  unfold decimal
  have := natText_Digits n.natAbs
  split
  · exact ⟨_, this.1, .inr ⟨rfl, by rw [this.2]; omega⟩⟩
  · exact ⟨_, this.1, .inl ⟨rfl, by rw [this.2]; omega⟩⟩

/-! ### Tokens -/

/-- In front of anything that does not continue a number, the text `t` is read as the tokens `T`. -/
def Lexes (t : List Char) (T : List Token) : Prop :=
  ∀ fuel rest, Stops rest → (t ++ rest).length < fuel → ∃ fuel', rest.length < fuel' ∧ lex fuel (t ++ rest) = T ++ lex fuel' rest

/-- Does not continue a number, whatever follows. -/
def Begins (u : List Char) : Prop := ∀ rest, Stops rest → Stops (u ++ rest)

theorem Lexes.append {t u : List Char} {T U : List Token} (h : Lexes t T) (hu : Lexes u U) (hb : Begins u) : Lexes (t ++ u) (T ++ U) := by
  intro fuel rest hr hl
  obtain ⟨f1, h1, e1⟩ := h fuel (u ++ rest) (hb rest hr) (by rw [← List.append_assoc]; exact hl)
  obtain ⟨f2, h2, e2⟩ := hu f1 rest hr h1
  exact ⟨f2, h2, by rw [List.append_assoc, e1, e2, List.append_assoc]⟩

theorem begins_blank (w : List Char) (h : Blank w) : Begins w := by
  intro rest hr
  cases h with
  | nil => exact hr
  | space hc ht =>
    intro x y e
    simp only [List.cons_append, List.cons.injEq] at e
    obtain ⟨rfl, _⟩ := e
    simp only [List.mem_cons, List.not_mem_nil, or_false] at hc
    rcases hc with rfl | rfl | rfl | rfl <;> decide
  | line =>
    intro x y e
    simp only [List.cons_append, List.cons.injEq] at e
    obtain ⟨rfl, _⟩ := e
    decide
  | block =>
    intro x y e
    simp only [List.cons_append, List.cons.injEq] at e
    obtain ⟨rfl, _⟩ := e
    decide

theorem begins_char (c : Char) (u : List Char) (h : isDigit c = false ∧ c ≠ '.' ∧ c ≠ 'e' ∧ c ≠ 'E') : Begins (c :: u) := by
  intro rest _ x y e
  simp only [List.cons_append, List.cons.injEq] at e
  obtain ⟨rfl, _⟩ := e
  exact h

theorem Begins.append {t u : List Char} (h : Begins t) (hu : Begins u) : Begins (t ++ u) := by
  intro rest hr
  rw [List.append_assoc]
  exact h _ (hu rest hr)

theorem skipLine_body (b : List Char) (e : Char) (t : List Char) (hb : ∀ c ∈ b, c ∉ ends) (he : e ∈ ends) : skipLine (b ++ e :: t) = t := by
  induction b with
  | nil =>
    rw [List.nil_append, skipLine, if_pos]
    simpa [ends] using he
  | cons c b ih =>
    rw [List.cons_append, skipLine, if_neg, ih (fun x hx => hb x (by simp [hx]))]
    have := hb c (by simp)
    simpa [ends] using this

theorem skipLine_end (b : List Char) (hb : ∀ c ∈ b, c ∉ ends) : skipLine b = [] := by
  induction b with
  | nil => rfl
  | cons c b ih =>
    rw [skipLine, if_neg, ih (fun x hx => hb x (by simp [hx]))]
    have := hb c (by simp)
    simpa [ends] using this

theorem skipBlock_body (b t : List Char) (hb : '\x00' ∉ b) (hc : ¬ ['*', '/'] <:+: b ++ ['*']) : skipBlock (b ++ '*' :: '/' :: t) = some t := by
  induction b with
  | nil => rfl
  | cons c b ih =>
    simp only [List.mem_cons, not_or] at hb
    have hc' : ¬ ['*', '/'] <:+: b ++ ['*'] := by
      rintro ⟨x, y, e⟩
      exact hc ⟨c :: x, y, by simpa using e⟩
    rw [List.cons_append, skipBlock.eq_def]
    split
    · rename_i t' heq
      exfalso
      simp only [List.cons.injEq] at heq
      obtain ⟨rfl, heq⟩ := heq
      cases b with
      | nil => simp at heq
      | cons d b =>
        simp only [List.cons_append, List.cons.injEq] at heq
        obtain ⟨rfl, _⟩ := heq
        exact hc ⟨[], b ++ ['*'], by simp⟩
    · rename_i c' t' _ heq
      simp only [List.cons.injEq] at heq
      obtain ⟨rfl, rfl⟩ := heq
      rw [if_neg (Ne.symm hb.1)]
      exact ih hb.2 hc'
    · rename_i heq; cases heq

/-- Reading goes on behind white space and comments, whatever follows. -/
theorem lex_blank {w : List Char} (h : Blank w) : ∀ fuel rest, (w ++ rest).length < fuel →
    ∃ fuel', rest.length < fuel' ∧ lex fuel (w ++ rest) = lex fuel' rest := by
  induction h with
  | nil => intro fuel rest hl; exact ⟨fuel, hl, rfl⟩
  | @space c t hc _ ih =>
    intro fuel rest hl
    obtain ⟨f, rfl⟩ := Nat.exists_eq_succ_of_ne_zero (show fuel ≠ 0 by omega)
    have hs : isJsonSpace c = true := by
      simp only [List.mem_cons, List.not_mem_nil, or_false] at hc
      rcases hc with rfl | rfl | rfl | rfl <;> rfl
    obtain ⟨f', h1, h2⟩ := ih (f + 1) rest (by simp only [List.cons_append, List.length_cons] at hl; omega)
    refine ⟨f', h1, ?_⟩
    rw [← h2]
    show lex (f + 1) (c :: (t ++ rest)) = _
    rw [lex, lex, List.dropWhile_cons, if_pos hs]
  | @line b e t hb he _ ih =>
    intro fuel rest hl
    obtain ⟨f, rfl⟩ := Nat.exists_eq_succ_of_ne_zero (show fuel ≠ 0 by omega)
    obtain ⟨f', h1, h2⟩ := ih f rest (by simp only [List.cons_append, List.append_assoc, List.length_cons, List.length_append] at hl ⊢; omega)
    refine ⟨f', h1, ?_⟩
    rw [← h2]
    show lex (f + 1) ('/' :: '/' :: ((b ++ e :: t) ++ rest)) = _
    rw [lex, List.dropWhile_cons, if_neg (by decide)]
    simp only [if_true, scanComment]
    rw [List.append_assoc, List.cons_append, skipLine_body b e _ hb he]
  | @block b t hb hc _ ih =>
    intro fuel rest hl
    obtain ⟨f, rfl⟩ := Nat.exists_eq_succ_of_ne_zero (show fuel ≠ 0 by omega)
    obtain ⟨f', h1, h2⟩ := ih f rest (by simp only [List.cons_append, List.append_assoc, List.length_cons, List.length_append] at hl ⊢; omega)
    refine ⟨f', h1, ?_⟩
    rw [← h2]
    show lex (f + 1) ('/' :: '*' :: ((b ++ '*' :: '/' :: t) ++ rest)) = _
    rw [lex, List.dropWhile_cons, if_neg (by decide)]
    simp only [if_true, scanComment]
    rw [List.append_assoc, List.cons_append, List.cons_append, skipBlock_body b _ hb hc]

theorem lexes_blank (w : List Char) (h : Blank w) : Lexes w [] := fun fuel rest _ hl => lex_blank h fuel rest hl

theorem blank_space (w : List Char) (h : Space w) : Blank w := by
  induction w with
  | nil => exact .nil
  | cons c w ih => exact .space (h c (by simp)) (ih (fun x hx => h x (by simp [hx])))

theorem lex_token (f : Nat) (c : Char) (t : List Char) (k : Token) (u : List Char) (h1 : isJsonSpace c = false) (h2 : c ≠ '/') (h3 : c ≠ '\x00')
    (h : scanToken c t = some (k, u)) : lex (f + 1) (c :: t) = k :: lex f u := by
  rw [lex, List.dropWhile_cons, if_neg (by simp [h1])]
  simp only
  rw [if_neg h2, if_neg h3, h]

theorem lexes_token (c : Char) (t : List Char) (k : Token) (h1 : isJsonSpace c = false) (h2 : c ≠ '/') (h3 : c ≠ '\x00')
    (h : ∀ rest, Stops rest → scanToken c (t ++ rest) = some (k, rest)) : Lexes (c :: t) [k] := by
  intro fuel rest hr hl
  obtain ⟨f, rfl⟩ := Nat.exists_eq_succ_of_ne_zero (show fuel ≠ 0 by omega)
  refine ⟨f, ?_, ?_⟩
  · simp only [List.cons_append, List.length_cons, List.length_append] at hl
    omega
  · exact lex_token f c _ k rest h1 h2 h3 (h rest hr)

theorem lexes_colon : Lexes [':'] [.colon] := lexes_token _ _ _ (by decide) (by decide) (by decide) (fun _ _ => rfl)
theorem lexes_comma : Lexes [','] [.comma] := lexes_token _ _ _ (by decide) (by decide) (by decide) (fun _ _ => rfl)
theorem lexes_lbrack : Lexes ['['] [.lbrack] := lexes_token _ _ _ (by decide) (by decide) (by decide) (fun _ _ => rfl)
theorem lexes_rbrack : Lexes [']'] [.rbrack] := lexes_token _ _ _ (by decide) (by decide) (by decide) (fun _ _ => rfl)
theorem lexes_lbrace : Lexes ['{'] [.lbrace] := lexes_token _ _ _ (by decide) (by decide) (by decide) (fun _ _ => rfl)
theorem lexes_rbrace : Lexes ['}'] [.rbrace] := lexes_token _ _ _ (by decide) (by decide) (by decide) (fun _ _ => rfl)

theorem lexes_string {s t : List Char} (h : StringText s t) : Lexes ('"' :: t ++ ['"']) [.str s] := by
  rw [List.cons_append]
  refine lexes_token _ _ _ (by decide) (by decide) (by decide) ?_
  intro rest _
  have e : scanToken '"' (t ++ ['"'] ++ rest) = (scanString ((t ++ ['"'] ++ rest).length + 1) (t ++ ['"'] ++ rest)).map fun r => (.str r.1, r.2) := rfl
  rw [e, List.append_assoc, List.singleton_append, scan_text h _ _ (by simp; omega)]
  rfl

theorem lexes_int {n : Int} {p : List Char} (hp : IntText n p) (h1 : -2 ^ 63 ≤ n) (h2 : n < 2 ^ 64) : Lexes p [.lit (.num n)] := by
  obtain ⟨c, t, e, hc⟩ := intText_head hp
  have hne : ∀ x : Char, isDigit x = false → x ≠ '-' → c ≠ x := by
    intro x hx hm he
    rcases hc with h | h
    · exact hm (he ▸ h)
    · rw [he] at h; rw [h] at hx; cases hx
  have hs : isJsonSpace c = false := by
    cases hq : isJsonSpace c with
    | false => rfl
    | true =>
      unfold isJsonSpace at hq
      simp only [Bool.or_eq_true, beq_iff_eq] at hq
      rcases hq with ((h | h) | h) | h
      · exact absurd h (hne _ (by decide) (by decide))
      · exact absurd h (hne _ (by decide) (by decide))
      · exact absurd h (hne _ (by decide) (by decide))
      · exact absurd h (hne _ (by decide) (by decide))
  rw [e]
  refine lexes_token c t _ hs (hne _ (by decide) (by decide)) (hne _ (by decide) (by decide)) ?_
  intro rest hr
  unfold scanToken
  rw [if_neg (hne _ (by decide) (by decide)), if_neg (hne _ (by decide) (by decide)), if_neg (hne _ (by decide) (by decide)),
    if_neg (hne _ (by decide) (by decide)), if_neg (hne _ (by decide) (by decide)), if_neg (hne _ (by decide) (by decide)),
    if_neg (hne _ (by decide) (by decide)), if_neg (hne _ (by decide) (by decide)), if_neg (hne _ (by decide) (by decide)),
    if_neg (hne _ (by decide) (by decide)), if_pos hc]
  rw [← List.cons_append, ← e]
  exact scan_int hp h1 h2 rest hr

theorem lexes_null : Lexes "null".toList [.lit .null] := lexes_token _ _ _ (by decide) (by decide) (by decide) (fun _ _ => rfl)
theorem lexes_true : Lexes "true".toList [.lit (.bool true)] := lexes_token _ _ _ (by decide) (by decide) (by decide) (fun _ _ => rfl)
theorem lexes_false : Lexes "false".toList [.lit (.bool false)] := lexes_token _ _ _ (by decide) (by decide) (by decide) (fun _ _ => rfl)

/-! ### The parser -/

mutual

/-- The value as the parser builds it: of members with the same key the last one stays. -/
def Json.kept : Json → Json
  | .arr l => .arr (keptList l)
  | .obj l => .obj (insertAll [] l)
  | j => j

def keptList : List Json → List Json
  | [] => []
  | j :: t => j.kept :: keptList t

/-- The members in the order of the text, later ones replacing earlier ones. -/
def insertAll (d : List (String × Json)) : List (String × Json) → List (String × Json)
  | [] => d
  | (k, v) :: l => insertAll (insertKey k v.kept d) l

end

theorem loop_array (stack : List Frame) (k : Token) (ts : List Token) (h : k ≠ .rbrack) :
    parseLoop stack .value (.lbrack :: k :: ts) = parseLoop (.arr [] :: stack) .value (k :: ts) := by
  rw [parseLoop.eq_4]
  intro ts' e
  simp only [List.cons.injEq] at e
  exact h e.1

/-- What the induction shows of a value's text. -/
def ReadsValue (j : Json) (t : List Char) : Prop :=
  ∃ k T, Lexes t (k :: T) ∧ k ≠ .rbrack ∧ ∀ stack R, parseLoop stack .value (k :: T ++ R) = parseLoop stack (.behind j.kept) R

def ReadsElements (l : List Json) (t : List Char) : Prop :=
  ∃ k T, Lexes t (k :: T) ∧ k ≠ .rbrack ∧ ∀ stack d R,
    parseLoop (.arr d :: stack) .value (k :: T ++ .rbrack :: R) = parseLoop stack (.behind (.arr (d ++ keptList l))) R

def ReadsMembers (l : List (String × Json)) (t : List Char) : Prop :=
  ∃ k T, Lexes t (.str k :: .colon :: T) ∧ ∀ stack d R,
    parseLoop (.obj d k :: stack) .value (T ++ .rbrace :: R) = parseLoop stack (.behind (.obj (insertAll d l))) R

theorem insertKey_comm (k a : String) (v w : Json) (h : k ≠ a) (l : List (String × Json)) :
    insertKey k v (insertKey a w l) = insertKey a w (insertKey k v l) := by
  have tri : ∀ x y : String, ¬ x < y → x ≠ y → y < x := by
    intro x y h1 h2
    refine Classical.byContradiction fun h3 => ?_
    exact h2 (String.le_antisymm (String.not_lt.1 h3) (String.not_lt.1 h1))
  have asymm : ∀ x y : String, x < y → ¬ y < x := fun x y h => String.lt_asymm h
  induction l with
  | nil =>
    simp only [insertKey]
    by_cases h1 : k < a
    · rw [if_pos h1, if_neg (asymm _ _ h1), if_neg (Ne.symm h)]
    · rw [if_neg h1, if_neg h, if_pos (tri _ _ h1 h)]
  | cons p t ih =>
    obtain ⟨c, x⟩ := p
    rcases Classical.em (k < c) with hk | hk
    · rcases Classical.em (a < c) with ha | ha
      · rcases Classical.em (k < a) with h1 | h1
        · simp only [insertKey, hk, ha, h1, asymm _ _ h1, if_true, if_false, Ne.symm h]
        · simp only [insertKey, hk, ha, h1, tri _ _ h1 h, if_true, if_false, h]
      · rcases Classical.em (a = c) with e | e
        · subst e
          simp only [insertKey, hk, ha, asymm _ _ hk, if_true, if_false, Ne.symm h]
        · have h2 : k < a := String.lt_trans hk (tri _ _ ha e)
          simp only [insertKey, hk, ha, e, asymm _ _ h2, if_true, if_false, Ne.symm h]
    · rcases Classical.em (k = c) with e | e
      · subst e
        rcases Classical.em (a < k) with ha | ha
        · simp only [insertKey, ha, hk, asymm _ _ ha, if_true, if_false, h]
        · simp only [insertKey, ha, hk, if_true, if_false, Ne.symm h]
      · rcases Classical.em (a < c) with ha | ha
        · have h2 : a < k := String.lt_trans ha (tri _ _ hk e)
          simp only [insertKey, ha, hk, e, asymm _ _ h2, if_true, if_false, h]
        · rcases Classical.em (a = c) with e' | e'
          · subst e'
            simp only [insertKey, ha, hk, if_true, if_false, h]
          · simp only [insertKey, ha, hk, e, e', if_false, ih]

theorem insertAll_comm (l : List (String × Json)) : ∀ (d : List (String × Json)) (k : String) (v : Json), k ∉ l.map Prod.fst →
    insertAll (insertKey k v d) l = insertKey k v (insertAll d l) := by
  induction l with
  | nil => intro d k v _; simp only [insertAll]
  | cons p l ih =>
    intro d k v h
    obtain ⟨a, w⟩ := p
    simp only [List.map_cons, List.mem_cons, not_or] at h
    rw [insertAll, insertAll, insertKey_comm a k w.kept v (Ne.symm h.1) d, ih _ _ _ h.2]

mutual

theorem kept_stored : ∀ j : Json, Proper j → j.kept = j.stored
  | .null, _ => rfl
  | .bool _, _ => rfl
  | .num _, _ => rfl
  | .str _, _ => rfl
  | .arr l, h => by rw [Proper] at h; rw [Json.kept, Json.stored, kept_list l h]
  | .obj l, h => by rw [Proper] at h; rw [Json.kept, Json.stored, kept_members l h.1 h.2]

theorem kept_list : ∀ l : List Json, ProperElements l → keptList l = storedList l
  | [], _ => rfl
  | v :: l, h => by rw [ProperElements] at h; rw [keptList, storedList, kept_stored v h.1, kept_list l h.2]

theorem kept_members : ∀ l : List (String × Json), (l.map Prod.fst).Nodup → ProperMembers l → insertAll [] l = storedMembers l
  | [], _, _ => by simp only [insertAll, storedMembers]
  | (k, v) :: l, hd, h => by
    rw [ProperMembers] at h
    rw [List.map_cons, List.nodup_cons] at hd
    rw [insertAll, insertAll_comm l [] k _ hd.1, storedMembers, kept_stored v h.1, kept_members l hd.2 h.2]

end

theorem reads_one (k : Token) (t : List Char) (j : Json) (h : Lexes t [k]) (hk : k ≠ .rbrack)
    (hp : ∀ stack R, parseLoop stack .value (k :: R) = parseLoop stack (.behind j) R) (hj : j.kept = j) : ReadsValue j t :=
  ⟨k, [], h, hk, fun stack R => by rw [hj]; exact hp stack R⟩

theorem text_begins {W : List Char → Prop} {j : Json} {t : List Char} (h : Text W j t) : ∃ c u, t = c :: u ∧ c.toNat < 0x80 := by
  cases h with
  | num h _ _ =>
    obtain ⟨c, u, e, hc⟩ := intText_head h
    refine ⟨c, u, e, ?_⟩
    rcases hc with rfl | hc
    · decide
    · unfold isDigit at hc
      simp only [Bool.and_eq_true, decide_eq_true_eq] at hc
      have : c.toNat ≤ ('9' : Char).toNat := hc.2
      exact Nat.lt_of_le_of_lt this (by decide)
  | null => exact ⟨_, _, rfl, by decide⟩
  | yes => exact ⟨_, _, rfl, by decide⟩
  | no => exact ⟨_, _, rfl, by decide⟩
  | str => exact ⟨_, _, rfl, by decide⟩
  | noElements => exact ⟨_, _, rfl, by decide⟩
  | arr => exact ⟨_, _, rfl, by decide⟩
  | noMembers => exact ⟨_, _, rfl, by decide⟩
  | obj => exact ⟨_, _, rfl, by decide⟩

/-- White space in front. -/
theorem Lexes.after {w t : List Char} {T : List Token} (h : Lexes t T) (hw : Blank w) : Lexes (w ++ t) T := by
  intro fuel rest hr hl
  rw [List.append_assoc] at hl ⊢
  obtain ⟨f, h1, h2⟩ := lex_blank hw fuel (t ++ rest) hl
  rw [h2]
  exact h f rest hr h1

theorem Lexes.before {w t : List Char} {T : List Token} (h : Lexes t T) (hw : Blank w) : Lexes (t ++ w) T := by
  have := h.append (lexes_blank w hw) (begins_blank w hw)
  rwa [List.append_nil] at this

/-- A token that takes one character, in front of anything. -/
theorem Lexes.behind {c : Char} {k : Token} {t : List Char} {T : List Token} (h : Lexes t T) (h1 : isJsonSpace c = false) (h2 : c ≠ '/')
    (h3 : c ≠ '\x00') (hc : ∀ u, scanToken c u = some (k, u)) : Lexes (c :: t) (k :: T) := by
  intro fuel rest hr hl
  obtain ⟨f, rfl⟩ := Nat.exists_eq_succ_of_ne_zero (show fuel ≠ 0 by omega)
  obtain ⟨f', h4, h5⟩ := h f rest hr (by simp only [List.cons_append, List.length_cons] at hl; omega)
  exact ⟨f', h4, by rw [List.cons_append, lex_token f c _ k _ h1 h2 h3 (hc _), h5]; rfl⟩

theorem begins_comma (u : List Char) : Begins (',' :: u) := begins_char _ _ (by decide)

/-- A key, the colon and the value. -/
theorem lexes_member {w q w1 w2 t w' s : List Char} {T : List Token} (h : Blank w) (hk : StringText s q) (h1 : Blank w1) (h2 : Blank w2)
    (ht : Lexes t T) (h' : Blank w') : Lexes (w ++ '"' :: q ++ '"' :: w1 ++ ':' :: w2 ++ t ++ w') (.str s :: .colon :: T) := by
  have e : w ++ '"' :: q ++ '"' :: w1 ++ ':' :: w2 ++ t ++ w' = w ++ ((('"' :: q ++ ['"']) ++ w1) ++ (':' :: (w2 ++ (t ++ w')))) := by
    simp only [List.append_assoc, List.cons_append, List.nil_append]
  rw [e]
  refine Lexes.after ?_ h
  exact Lexes.append ((lexes_string hk).before h1)
    (((ht.before h').after h2).behind (c := ':') (by decide) (by decide) (by decide) (fun _ => rfl)) (begins_char _ _ (by decide))

mutual

theorem reads_text {j : Json} {t : List Char} : Text Blank j t → ReadsValue j t
  | .null => reads_one _ _ _ lexes_null (by nofun) (fun _ _ => by simp only [parseLoop]) rfl
  | .yes => reads_one _ _ _ lexes_true (by nofun) (fun _ _ => by simp only [parseLoop]) rfl
  | .no => reads_one _ _ _ lexes_false (by nofun) (fun _ _ => by simp only [parseLoop]) rfl
  | .num h h1 h2 => reads_one _ _ _ (lexes_int h h1 h2) (by nofun) (fun _ _ => by simp only [parseLoop]) rfl
  | .str h => reads_one _ _ _ (lexes_string h) (by nofun) (fun _ _ => by simp only [parseLoop]) rfl
  | .noElements h =>
    ⟨.lbrack, [.rbrack], by
      have := (lexes_rbrack.after h).behind (c := '[') (k := .lbrack) (by decide) (by decide) (by decide) (fun _ => rfl)
      exact this, by nofun, fun stack R => by
      show parseLoop stack .value (.lbrack :: .rbrack :: R) = _
      rw [parseLoop]; rfl⟩
  | .arr h => by
    obtain ⟨k, T, hl, hk, hp⟩ := reads_elements h
    refine ⟨.lbrack, k :: T ++ [.rbrack], ?_, by nofun, ?_⟩
    · exact (hl.append lexes_rbrack (begins_char _ _ (by decide))).behind (c := '[') (by decide) (by decide) (by decide) (fun _ => rfl)
    · intro stack R
      show parseLoop stack .value (.lbrack :: k :: (T ++ [.rbrack] ++ R)) = _
      rw [loop_array _ _ _ hk]
      have := hp stack [] R
      rw [List.nil_append] at this
      rw [List.append_assoc, List.singleton_append]
      simpa only [Json.kept, List.cons_append] using this
  | .noMembers h =>
    ⟨.lbrace, [.rbrace], by
      have := (lexes_rbrace.after h).behind (c := '{') (k := .lbrace) (by decide) (by decide) (by decide) (fun _ => rfl)
      exact this, by nofun, fun stack R => by
      show parseLoop stack .value (.lbrace :: .rbrace :: R) = _
      rw [parseLoop]; rfl⟩
  | .obj h => by
    obtain ⟨k, T, hl, hp⟩ := reads_members h
    refine ⟨.lbrace, .str k :: .colon :: T ++ [.rbrace], ?_, by nofun, ?_⟩
    · exact (hl.append lexes_rbrace (begins_char _ _ (by decide))).behind (c := '{') (by decide) (by decide) (by decide) (fun _ => rfl)
    · intro stack R
      show parseLoop stack .value (.lbrace :: .str k :: .colon :: (T ++ [.rbrace] ++ R)) = _
      rw [parseLoop, List.append_assoc, List.singleton_append, hp stack [] R]
      rfl

theorem reads_elements {l : List Json} {t : List Char} : Elements Blank l t → ReadsElements l t
  | .one h hv h' => by
    obtain ⟨k, T, hl, hk, hp⟩ := reads_text hv
    refine ⟨k, T, (hl.after h).before h', hk, ?_⟩
    intro stack d R
    rw [hp, parseLoop]
    rfl
  | .more h hv h' hr => by
    obtain ⟨k, T, hl, hk, hp⟩ := reads_text hv
    obtain ⟨k2, T2, hl2, hk2, hp2⟩ := reads_elements hr
    refine ⟨k, T ++ .comma :: k2 :: T2, ?_, hk, ?_⟩
    · exact ((hl.after h).before h').append (hl2.behind (c := ',') (by decide) (by decide) (by decide) (fun _ => rfl)) (begins_comma _)
    · intro stack d R
      rw [← List.cons_append, List.append_assoc, hp]
      show parseLoop (.arr d :: stack) (.behind _) (.comma :: (k2 :: T2 ++ .rbrack :: R)) = _
      rw [parseLoop, hp2, List.append_assoc]
      rfl

theorem reads_members {l : List (String × Json)} {t : List Char} : Members Blank l t → ReadsMembers l t
  | .one (k := k) h hk h1 h2 hv h' => by
    obtain ⟨k1, T, hl, _, hp⟩ := reads_text hv
    refine ⟨k.toList, k1 :: T, lexes_member h hk h1 h2 hl h', ?_⟩
    intro stack d R
    rw [hp, parseLoop, String.ofList_toList]
    rfl
  | .more (k := k) h hk h1 h2 hv h' hr => by
    obtain ⟨k1, T, hl, _, hp⟩ := reads_text hv
    obtain ⟨k2, T2, hl2, hp2⟩ := reads_members hr
    refine ⟨k.toList, k1 :: T ++ .comma :: .str k2 :: .colon :: T2, ?_, ?_⟩
    · exact (lexes_member h hk h1 h2 hl h').append (hl2.behind (c := ',') (by decide) (by decide) (by decide) (fun _ => rfl)) (begins_comma _)
    · intro stack d R
      rw [List.append_assoc, hp]
      show parseLoop (.obj d k.toList :: stack) (.behind _) (.comma :: .str k2 :: .colon :: (T2 ++ .rbrace :: R)) = _
      rw [parseLoop, hp2, String.ofList_toList]
      rfl

end

theorem stops_nil : Stops [] := by
  intro c t h
  cases h

theorem lex_end (fuel : Nat) (h : 0 < fuel) : lex fuel [] = [.eoi] := by
  obtain ⟨f, rfl⟩ := Nat.exists_eq_succ_of_ne_zero (show fuel ≠ 0 by omega)
  rfl

theorem skipBom_low (c : Char) (t : List Char) (h : c.toNat < 0x80) : skipBom (c :: t) = some (c :: t) := by
  unfold skipBom
  simp only
  rw [if_neg (by omega)]

theorem lex_tail {r : List Char} (h : Tail r) (fuel : Nat) (hl : r.length < fuel) : lex fuel r = [.eoi] := by
  obtain ⟨f, rfl⟩ := Nat.exists_eq_succ_of_ne_zero (show fuel ≠ 0 by omega)
  rcases h with rfl | ⟨r, rfl⟩ | ⟨b, hb, rfl⟩
  · rfl
  · rfl
  · show lex (f + 1) ('/' :: '/' :: b) = _
    rw [lex, List.dropWhile_cons, if_neg (by decide)]
    simp only [if_true, scanComment]
    rw [skipLine_end b hb]
    exact lex_end f (by simp only [List.length_cons] at hl; omega)

theorem stops_tail {r : List Char} (h : Tail r) : Stops r := by
  rcases h with rfl | ⟨r, rfl⟩ | ⟨b, hb, rfl⟩
  · exact stops_nil
  · intro c t e
    injection e with e _
    subst e
    decide
  · intro c t e
    injection e with e _
    subst e
    decide

theorem skipBom_accepted {m w u r : List Char} {j : Json} (hm : m = [] ∨ m = bom) (hw : Blank w) (hu : Text Blank j u) :
    skipBom (m ++ w ++ u ++ r) = some (w ++ u ++ r) := by
  rcases hm with rfl | rfl
  · rw [List.nil_append]
    obtain ⟨c, x, e, hc⟩ := text_begins hu
    cases hw with
    | nil => rw [e]; exact skipBom_low c _ hc
    | space hc ht =>
      refine skipBom_low _ _ ?_
      simp only [List.mem_cons, List.not_mem_nil, or_false] at hc
      rcases hc with rfl | rfl | rfl | rfl <;> decide
    | line => exact skipBom_low _ _ (by decide)
    | block => exact skipBom_low _ _ (by decide)
  · rfl

/-- Every accepted text of a value is read as that value. -/
theorem parse_kept {j : Json} {t : List Char} (h : Accepted j t) : parse t = .value j.kept := by
  obtain ⟨m, w, u, w', r, hm, hw, hu, hw', hr, rfl⟩ := h
  obtain ⟨k, T, hl, _, hp⟩ := reads_text hu
  have hb : skipBom (m ++ w ++ u ++ w' ++ r) = some (w ++ u ++ w' ++ r) := by
    have := skipBom_accepted (r := w' ++ r) hm hw hu
    simpa only [List.append_assoc] using this
  unfold parse
  rw [hb]
  simp only
  obtain ⟨f, hf, e⟩ := ((hl.after hw).before hw') ((w ++ u ++ w' ++ r).length + 1) r (stops_tail hr) (by omega)
  rw [e, lex_tail hr f hf, hp, parseLoop]

mutual

theorem text_blank {j : Json} {t : List Char} : Text Space j t → Text Blank j t
  | .null => .null
  | .yes => .yes
  | .no => .no
  | .num h h1 h2 => .num h h1 h2
  | .str h => .str h
  | .noElements h => .noElements (blank_space _ h)
  | .arr h => .arr (elements_blank h)
  | .noMembers h => .noMembers (blank_space _ h)
  | .obj h => .obj (members_blank h)

theorem elements_blank {l : List Json} {t : List Char} : Elements Space l t → Elements Blank l t
  | .one h hv h' => .one (blank_space _ h) (text_blank hv) (blank_space _ h')
  | .more h hv h' hl => .more (blank_space _ h) (text_blank hv) (blank_space _ h') (elements_blank hl)

theorem members_blank {l : List (String × Json)} {t : List Char} : Members Space l t → Members Blank l t
  | .one h hk h1 h2 hv h' => .one (blank_space _ h) hk (blank_space _ h1) (blank_space _ h2) (text_blank hv) (blank_space _ h')
  | .more h hk h1 h2 hv h' hl =>
    .more (blank_space _ h) hk (blank_space _ h1) (blank_space _ h2) (text_blank hv) (blank_space _ h') (members_blank hl)

end

theorem document_accepted {j : Json} {t : List Char} (h : Document j t) : Accepted j t := by
  obtain ⟨w, u, w', hw, hu, hw', rfl⟩ := h
  exact ⟨[], w, u, w', [], .inl rfl, blank_space _ hw, text_blank hu, blank_space _ hw', .inl rfl, by simp⟩

theorem text_accepted {j : Json} {t : List Char} (h : Text Space j t) : Accepted j t :=
  ⟨[], [], t, [], [], .inl rfl, .nil, text_blank h, .nil, .inl rfl, by simp⟩

/-! ### Writing -/

theorem dumpDigits_text (n : Nat) : ∀ after, dumpDigits n after = natText n ++ after := by
  induction n using Nat.strongRecOn with
  | ind n ih =>
    intro after
    rw [dumpDigits, natText]
    by_cases h1 : n < 10
    · rw [if_pos h1, if_pos h1]; rfl
    · rw [if_neg h1, if_neg h1]
      by_cases h2 : n < 100
      · rw [if_pos h2, natText, if_pos (by omega)]; rfl
      · rw [if_neg h2, ih (n / 100) (by omega), natText.eq_def (n / 10), if_neg (by omega), Nat.div_div_eq_div_mul,
          show n % 100 / 10 = n / 10 % 10 by omega, show n % 100 % 10 = n % 10 by omega]
        simp only [List.append_assoc, List.cons_append, List.nil_append]

theorem dumpInteger_decimal (n : Int) : dumpInteger n = decimal n := by
  unfold dumpInteger decimal
  rw [dumpDigits_text, List.append_nil]
  by_cases h : n = 0
  · subst h
    rw [if_pos rfl, if_neg (by omega)]
    exact natText_zero.symm
  · rw [if_neg h]

theorem dumpString_ok (s : List Char) (h : Utf8 s) : ∃ t, dumpString s = .ok ('"' :: t ++ ['"']) ∧ StringText s t := by
  obtain ⟨t, ht, hs⟩ := dump_ok s h
  exact ⟨t, by unfold dumpString; rw [ht]; rfl, hs⟩

theorem dumpString_thrown (s : List Char) (h : ¬ Utf8 s) : dumpString s = .error .thrown := by
  unfold dumpString
  rcases dump_cases s 0 0 with ⟨r, hr⟩ | hr
  · exact absurd (dump_utf8 s.length s (Nat.le_refl _) 0 r hr) h
  · rw [hr]; rfl

mutual

theorem dump_text : ∀ j : Json, Proper j → AllUtf8 j → ∃ t, dumpStored j = .ok t ∧ Text Space j t
  | .null, _, _ => ⟨_, rfl, .null⟩
  | .bool true, _, _ => ⟨_, rfl, .yes⟩
  | .bool false, _, _ => ⟨_, rfl, .no⟩
  | .num n, hp, _ => by
    rw [Proper] at hp
    refine ⟨decimal n, ?_, .num (decimal_int n) hp.1 hp.2⟩
    rw [dumpStored, dumpInteger_decimal]
  | .str s, _, hu => by
    rw [AllUtf8] at hu
    obtain ⟨t, ht, hs⟩ := dumpString_ok s hu
    exact ⟨_, by rw [dumpStored, ht], .str hs⟩
  | .arr [], _, _ => ⟨_, rfl, .noElements (w := []) (by intro c hc; cases hc)⟩
  | .arr (v :: l), hp, hu => by
    rw [Proper] at hp
    rw [AllUtf8] at hu
    obtain ⟨t, ht, hs⟩ := dump_elements (v :: l) nofun hp hu
    refine ⟨_, ?_, .arr hs⟩
    rw [dumpStored, ht]
    · rfl
    · nofun
  | .obj [], _, _ => ⟨_, rfl, .noMembers (w := []) (by intro c hc; cases hc)⟩
  | .obj ((k, v) :: l), hp, hu => by
    rw [Proper] at hp
    rw [AllUtf8] at hu
    obtain ⟨t, ht, hs⟩ := dump_members ((k, v) :: l) nofun hp.2 hu
    refine ⟨_, ?_, .obj hs⟩
    rw [dumpStored, ht]
    · rfl
    · nofun

theorem dump_elements : ∀ l : List Json, l ≠ [] → ProperElements l → AllUtf8Elements l → ∃ t, dumpElements l = .ok t ∧ Elements Space l t
  | [], h, _, _ => absurd rfl h
  | [v], _, hp, hu => by
    rw [ProperElements] at hp
    rw [AllUtf8Elements] at hu
    obtain ⟨t, ht, hs⟩ := dump_text v hp.1 hu.1
    refine ⟨t, by rw [dumpElements, ht], ?_⟩
    have := Elements.one (w := []) (w' := []) (by intro c hc; cases hc) hs (by intro c hc; cases hc)
    rwa [List.nil_append, List.append_nil] at this
  | v :: a :: l, _, hp, hu => by
    rw [ProperElements] at hp
    rw [AllUtf8Elements] at hu
    obtain ⟨t, ht, hs⟩ := dump_text v hp.1 hu.1
    obtain ⟨r, hr, hl⟩ := dump_elements (a :: l) nofun hp.2 hu.2
    refine ⟨t ++ ',' :: r, ?_, ?_⟩
    · rw [dumpElements, ht, hr]
      · rfl
      · nofun
    · have := Elements.more (w := []) (w' := []) (by intro c hc; cases hc) hs (by intro c hc; cases hc) hl
      rwa [List.nil_append, List.append_nil] at this

theorem dump_members : ∀ l : List (String × Json), l ≠ [] → ProperMembers l → AllUtf8Members l → ∃ t, dumpMembers l = .ok t ∧ Members Space l t
  | [], h, _, _ => absurd rfl h
  | [(k, v)], _, hp, hu => by
    rw [ProperMembers] at hp
    rw [AllUtf8Members] at hu
    obtain ⟨q, hq, hk⟩ := dumpString_ok k.toList hu.1
    obtain ⟨t, ht, hs⟩ := dump_text v hp.1 hu.2.1
    refine ⟨_, by rw [dumpMembers, hq, ht]; rfl, ?_⟩
    have := Members.one (w := []) (w1 := []) (w2 := []) (w' := []) (by intro c hc; cases hc) hk (by intro c hc; cases hc)
      (by intro c hc; cases hc) hs (by intro c hc; cases hc)
    simpa only [List.nil_append, List.append_nil, List.append_assoc, List.cons_append] using this
  | (k, v) :: (a, b) :: l, _, hp, hu => by
    rw [ProperMembers] at hp
    rw [AllUtf8Members] at hu
    obtain ⟨q, hq, hk⟩ := dumpString_ok k.toList hu.1
    obtain ⟨t, ht, hs⟩ := dump_text v hp.1 hu.2.1
    obtain ⟨r, hr, hl⟩ := dump_members ((a, b) :: l) nofun hp.2 hu.2.2
    refine ⟨('"' :: q ++ ['"']) ++ ':' :: t ++ ',' :: r, ?_, ?_⟩
    · rw [dumpMembers, hq, ht, hr]
      · rfl
      · nofun
    · have := Members.more (w := []) (w1 := []) (w2 := []) (w' := []) (by intro c hc; cases hc) hk (by intro c hc; cases hc)
        (by intro c hc; cases hc) hs (by intro c hc; cases hc) hl
      simpa only [List.nil_append, List.append_nil, List.append_assoc, List.cons_append] using this

end

end Verif.Xchg
