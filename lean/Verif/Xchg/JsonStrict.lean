import Verif.Xchg.JsonLemmas

/-!
# Lemmas: what the JSON reader accepts is JSON
-/

namespace Verif.Xchg

open Verif.UnicodeSpec Verif.Str JsonSpec

/-! ### Strings -/

theorem hexValue_inv (c : Char) (n : Nat) (h : hexValue c = some n) : n < 16 ∧ HexDigit n c := by
  have hlow : c.toNat < 128 := by
    unfold hexValue at h
    split at h
    · rename_i hc
      have : c.toNat ≤ ('9' : Char).toNat := hc.2
      exact Nat.lt_of_le_of_lt this (by decide)
    · split at h
      · rename_i hc
        have : c.toNat ≤ ('F' : Char).toNat := hc.2
        exact Nat.lt_of_le_of_lt this (by decide)
      · split at h
        · rename_i hc
          have : c.toNat ≤ ('f' : Char).toNat := hc.2
          exact Nat.lt_of_le_of_lt this (by decide)
        · cases h
  have key : ∀ i : Fin 128, (hexValue (Char.ofNat i.val)).all (fun n => decide (n < 16) &&
      ("0123456789abcdef".toList[n]? == some (Char.ofNat i.val) || "0123456789ABCDEF".toList[n]? == some (Char.ofNat i.val))) = true := by
    decide +kernel
  have := key ⟨c.toNat, hlow⟩
  simp only [Char.ofNat_toNat, h, Option.all_some, Bool.and_eq_true, Bool.or_eq_true, decide_eq_true_eq, beq_iff_eq] at this
  exact this

theorem codepoint_inv (t u : List Char) (n : Nat) (h : getCodepoint t = some (n, u)) : n < 0x10000 ∧ ∃ q, Hex4 n q ∧ t = q ++ u := by
  unfold getCodepoint at h
  split at h
  · rename_i a b c d t'
    split at h
    · rename_i a' b' c' d' ha hb hc hd
      injection h with h
      injection h with h1 h2
      subst h2
      have a1 := hexValue_inv _ _ ha
      have b1 := hexValue_inv _ _ hb
      have c1 := hexValue_inv _ _ hc
      have d1 := hexValue_inv _ _ hd
      simp only [Nat.shiftLeft_eq] at h1
      refine ⟨by omega, [a, b, c, d], ⟨a, b, c, d, rfl, ?_, ?_, ?_, ?_⟩, rfl⟩
      · rw [show n / 4096 = a' by omega]; exact a1.2
      · rw [show n / 256 % 16 = b' by omega]; exact b1.2
      · rw [show n / 16 % 16 = c' by omega]; exact c1.2
      · rw [show n % 16 = d' by omega]; exact d1.2
    · cases h
  · cases h

theorem escape_inv (t s u : List Char) (h : escape t = some (s, u)) : ∃ c p, CharText c ('\\' :: p) ∧ s = bytesOf c ∧ t = p ++ u := by
  have letter : ∀ (c : Nat) (e : Char), (c, e) ∈ letters → ∀ t', s = bytesOf c → t = e :: t' → t' = u →
      ∃ c p, CharText c ('\\' :: p) ∧ s = bytesOf c ∧ t = p ++ u := by
    intro c e hm t' hs ht hu
    subst hu
    exact ⟨c, [e], .letter c e hm, hs, ht⟩
  unfold escape at h
  split at h
  · injection h with h; injection h with h1 h2; exact letter 0x22 _ (by decide) _ h1.symm rfl h2
  · injection h with h; injection h with h1 h2; exact letter 0x5C _ (by decide) _ h1.symm rfl h2
  · injection h with h; injection h with h1 h2; exact letter 0x2F _ (by decide) _ h1.symm rfl h2
  · injection h with h; injection h with h1 h2; exact letter 0x08 _ (by decide) _ h1.symm rfl h2
  · injection h with h; injection h with h1 h2; exact letter 0x0C _ (by decide) _ h1.symm rfl h2
  · injection h with h; injection h with h1 h2; exact letter 0x0A _ (by decide) _ h1.symm rfl h2
  · injection h with h; injection h with h1 h2; exact letter 0x0D _ (by decide) _ h1.symm rfl h2
  · injection h with h; injection h with h1 h2; exact letter 0x09 _ (by decide) _ h1.symm rfl h2
  · rename_i t'
    unfold unicodeEscape at h
    cases e1 : getCodepoint t' with
    | none => rw [e1] at h; cases h
    | some r =>
      obtain ⟨c1, t1⟩ := r
      rw [e1] at h
      simp only at h
      obtain ⟨hc1, q, hq, rfl⟩ := codepoint_inv _ _ _ e1
      split at h
      · rename_i hs1
        unfold lowHalf at h
        split at h
        · rename_i t2
          cases e2 : getCodepoint t2 with
          | none => rw [e2] at h; cases h
          | some r =>
            obtain ⟨c2, t3⟩ := r
            rw [e2] at h
            simp only at h
            obtain ⟨hc2, q2, hq2, rfl⟩ := codepoint_inv _ _ _ e2
            split at h
            · rename_i hs2
              injection h with h
              injection h with h1 h2
              subst h2
              rw [Nat.shiftLeft_eq] at h1
              rw [encode_bytes _ (by omega)] at h1
              refine ⟨c1 * 2 ^ 10 + c2 - 0x35FDC00, 'u' :: q ++ '\\' :: 'u' :: q2, ?_, h1.symm, by simp⟩
              refine CharText.pair _ (by omega) (by omega) q q2 ?_ ?_
              · rw [show 0xD800 + (c1 * 2 ^ 10 + c2 - 0x35FDC00 - 0x10000) / 1024 = c1 by omega]; exact hq
              · rw [show 0xDC00 + (c1 * 2 ^ 10 + c2 - 0x35FDC00 - 0x10000) % 1024 = c2 by omega]; exact hq2
            · cases h
        · cases h
      · split at h
        · cases h
        · injection h with h
          injection h with h1 h2
          subst h2
          rw [encode_bytes _ (by omega)] at h1
          exact ⟨c1, 'u' :: q, .hex c1 ⟨by omega, by omega⟩ hc1 q hq, h1.symm, rfl⟩
  · cases h

theorem takeRanges_inv : ∀ (rs : List (Nat × Nat)) (t s u : List Char), takeRanges rs t = some (s, u) →
    t = s ++ u ∧ s.length = rs.length ∧ ∀ (i : Nat) (hi : i < s.length) (hr : i < rs.length), rs[i].1 ≤ s[i].toNat ∧ s[i].toNat ≤ rs[i].2 := by
  intro rs
  induction rs with
  | nil =>
    intro t s u h
    rw [takeRanges] at h
    injection h with h
    injection h with h1 h2
    subst h1; subst h2
    exact ⟨rfl, rfl, fun i hi => by simp at hi⟩
  | cons r rs ih =>
    intro t s u h
    obtain ⟨lo, hi⟩ := r
    cases t with
    | nil => rw [takeRanges] at h; cases h
    | cons c t =>
      rw [takeRanges] at h
      split at h
      · rename_i hc
        cases e : takeRanges rs t with
        | none => rw [e] at h; cases h
        | some x =>
          obtain ⟨s', u'⟩ := x
          rw [e] at h
          injection h with h
          injection h with h1 h2
          subst h1; subst h2
          obtain ⟨a, b, d⟩ := ih _ _ _ e
          refine ⟨by rw [a]; rfl, by simp [b], ?_⟩
          intro i hi' hr'
          cases i with
          | zero => exact hc
          | succ i => exact d i (by simpa using hi') (by simpa using hr')
      · cases h

theorem raw_inv (c : Char) (rs : List (Nat × Nat)) (t s u : List Char) (h1 : tailRanges c.toNat = some rs) (h2 : takeRanges rs t = some (s, u))
    (hq : c ≠ '"') (hb : c ≠ '\\') : ∃ cp, CharText cp (c :: s) ∧ bytesOf cp = c :: s ∧ t = s ++ u := by
  obtain ⟨e, hl, hr⟩ := takeRanges_inv _ _ _ _ h2
  have fin : ∀ cp, IsScalar cp → 0x20 ≤ cp → cp ≠ 0x22 → cp ≠ 0x5C → bytesOf cp = c :: s → ∃ cp, CharText cp (c :: s) ∧ bytesOf cp = c :: s ∧ t = s ++ u := by
    intro cp a b d f g
    exact ⟨cp, g ▸ CharText.raw cp a b d f, g, e⟩
  have ch : ∀ x : Char, x = Char.ofNat x.toNat := fun x => (Char.ofNat_toNat x).symm
  have two : rs.length = 1 → 0xC2 ≤ c.toNat → c.toNat ≤ 0xDF → (∀ (h : 0 < rs.length), 0x80 ≤ rs[0].1 ∧ rs[0].2 ≤ 0xBF) →
      ∃ cp, CharText cp (c :: s) ∧ bytesOf cp = c :: s ∧ t = s ++ u := by
    intro hlen a b hrs
    match s, hl with
    | [x], hl =>
      have r0 := hr 0 (by simp) (by omega)
      have := hrs (by omega)
      simp only [List.getElem_cons_zero] at r0
      refine fin ((c.toNat - 0xC0) * 64 + (x.toNat - 0x80)) ⟨by omega, by omega⟩ (by omega) (by omega) (by omega) ?_
      rw [bytesOf_2 _ (by omega) (by omega), show 0xC0 + ((c.toNat - 0xC0) * 64 + (x.toNat - 0x80)) / 64 = c.toNat by omega,
        show 0x80 + ((c.toNat - 0xC0) * 64 + (x.toNat - 0x80)) % 64 = x.toNat by omega, ← ch, ← ch]
    | [], hl => simp at hl; omega
    | _ :: _ :: _, hl => simp at hl; omega
  have three : ∀ (lo hi : Nat), rs = [(lo, hi), (0x80, 0xBF)] → 0xE0 ≤ c.toNat → c.toNat ≤ 0xEF → 0x80 ≤ lo → hi ≤ 0xBF → (c.toNat = 0xE0 → 0xA0 ≤ lo) →
      (c.toNat = 0xED → hi ≤ 0x9F) → ∃ cp, CharText cp (c :: s) ∧ bytesOf cp = c :: s ∧ t = s ++ u := by
    intro lo hi hrs a b l1 l2 l3 l4
    subst hrs
    have hs : ∃ x y, s = [x, y] := by
      match s, hl with
      | [x, y], _ => exact ⟨x, y, rfl⟩
    obtain ⟨x, y, rfl⟩ := hs
    have r0 := hr 0 (by simp) (by simp)
    have r1 := hr 1 (by simp) (by simp)
    simp only [List.getElem_cons_zero, List.getElem_cons_succ] at r0 r1
    generalize hcp : (c.toNat - 0xE0) * 4096 + (x.toNat - 0x80) * 64 + (y.toNat - 0x80) = cp
    have big : 0x800 ≤ cp := by
      by_cases h0 : c.toNat = 0xE0
      · have := l3 h0; omega
      · omega
    have sur : ¬ (0xD800 ≤ cp ∧ cp ≤ 0xDFFF) := by
      by_cases h0 : c.toNat = 0xED
      · have := l4 h0; omega
      · omega
    refine fin cp ⟨by omega, sur⟩ (by omega) (by omega) (by omega) ?_
    rw [bytesOf_3 _ big (by omega), show 0xE0 + cp / 4096 = c.toNat by omega, show 0x80 + cp / 64 % 64 = x.toNat by omega,
      show 0x80 + cp % 64 = y.toNat by omega, ← ch, ← ch, ← ch]
  have four : ∀ (lo hi : Nat), rs = [(lo, hi), (0x80, 0xBF), (0x80, 0xBF)] → 0xF0 ≤ c.toNat → c.toNat ≤ 0xF4 → 0x80 ≤ lo → hi ≤ 0xBF →
      (c.toNat = 0xF0 → 0x90 ≤ lo) → (c.toNat = 0xF4 → hi ≤ 0x8F) → ∃ cp, CharText cp (c :: s) ∧ bytesOf cp = c :: s ∧ t = s ++ u := by
    intro lo hi hrs a b l1 l2 l3 l4
    subst hrs
    have hs : ∃ x y z, s = [x, y, z] := by
      match s, hl with
      | [x, y, z], _ => exact ⟨x, y, z, rfl⟩
    obtain ⟨x, y, z, rfl⟩ := hs
    have r0 := hr 0 (by simp) (by simp)
    have r1 := hr 1 (by simp) (by simp)
    have r2 := hr 2 (by simp) (by simp)
    simp only [List.getElem_cons_zero, List.getElem_cons_succ] at r0 r1 r2
    generalize hcp : (c.toNat - 0xF0) * 262144 + (x.toNat - 0x80) * 4096 + (y.toNat - 0x80) * 64 + (z.toNat - 0x80) = cp
    have big : 0x10000 ≤ cp := by
      by_cases h0 : c.toNat = 0xF0
      · have := l3 h0; omega
      · omega
    have small : cp ≤ 0x10FFFF := by
      by_cases h0 : c.toNat = 0xF4
      · have := l4 h0; omega
      · omega
    refine fin cp ⟨small, by omega⟩ (by omega) (by omega) (by omega) ?_
    rw [bytesOf_4 _ big small, show 0xF0 + cp / 262144 = c.toNat by omega, show 0x80 + cp / 4096 % 64 = x.toNat by omega,
      show 0x80 + cp / 64 % 64 = y.toNat by omega, show 0x80 + cp % 64 = z.toNat by omega, ← ch, ← ch, ← ch, ← ch]
  unfold tailRanges at h1
  split at h1
  · cases h1
  split at h1
  · injection h1 with h1
    subst h1
    have : s = [] := List.length_eq_zero_iff.1 hl
    subst this
    have hq' : c.toNat ≠ 0x22 := fun h => hq (by rw [ch c, h])
    have hb' : c.toNat ≠ 0x5C := fun h => hb (by rw [ch c, h])
    exact fin c.toNat ⟨by omega, by omega⟩ (by omega) hq' hb' (by rw [bytesOf_1 _ (by omega), ← ch])
  split at h1
  · injection h1 with h1; subst h1; exact two rfl (by omega) (by omega) (fun _ => by simp)
  split at h1
  · injection h1 with h1; exact three _ _ h1.symm (by omega) (by omega) (by omega) (by omega) (by omega) (by omega)
  split at h1
  · injection h1 with h1; exact three _ _ h1.symm (by omega) (by omega) (by omega) (by omega) (by omega) (by omega)
  split at h1
  · injection h1 with h1; exact three _ _ h1.symm (by omega) (by omega) (by omega) (by omega) (by omega) (by omega)
  split at h1
  · injection h1 with h1; exact four _ _ h1.symm (by omega) (by omega) (by omega) (by omega) (by omega) (by omega)
  split at h1
  · injection h1 with h1; exact four _ _ h1.symm (by omega) (by omega) (by omega) (by omega) (by omega) (by omega)
  split at h1
  · injection h1 with h1; exact four _ _ h1.symm (by omega) (by omega) (by omega) (by omega) (by omega) (by omega)
  · cases h1

theorem scanString_inv : ∀ (fuel : Nat) (l s rest : List Char), scanString fuel l = some (s, rest) → ∃ t, l = t ++ '"' :: rest ∧ StringText s t := by
  intro fuel
  induction fuel with
  | zero => intro l s rest h; cases h
  | succ f ih =>
    intro l s rest h
    cases l with
    | nil => cases h
    | cons c t =>
      rw [scanString] at h
      split at h
      · rename_i hc
        injection h with h
        injection h with h1 h2
        subst h1; subst h2; subst hc
        exact ⟨[], rfl, .nil⟩
      · rename_i hq
        split at h
        · rename_i hb
          cases e : escape t with
          | none => rw [e] at h; cases h
          | some x =>
            obtain ⟨s1, t1⟩ := x
            rw [e] at h
            simp only at h
            cases e2 : scanString f t1 with
            | none => rw [e2] at h; cases h
            | some y =>
              obtain ⟨s2, t2⟩ := y
              rw [e2] at h
              injection h with h
              injection h with h1 h2
              subst h1; subst h2; subst hb
              obtain ⟨cp, p, hp, rfl, rfl⟩ := escape_inv _ _ _ e
              obtain ⟨t3, rfl, hs⟩ := ih _ _ _ e2
              exact ⟨'\\' :: p ++ t3, by simp, .cons hp hs⟩
        · rename_i hb
          cases e0 : tailRanges c.toNat with
          | none => rw [e0] at h; cases h
          | some rs =>
            rw [e0] at h
            simp only at h
            cases e : takeRanges rs t with
            | none => rw [e] at h; cases h
            | some x =>
              obtain ⟨s1, t1⟩ := x
              rw [e] at h
              simp only at h
              cases e2 : scanString f t1 with
              | none => rw [e2] at h; cases h
              | some y =>
                obtain ⟨s2, t2⟩ := y
                rw [e2] at h
                injection h with h
                injection h with h1 h2
                subst h1; subst h2
                obtain ⟨cp, hp, hb1, rfl⟩ := raw_inv _ _ _ _ _ e0 e hq hb
                obtain ⟨t3, rfl, hs⟩ := ih _ _ _ e2
                refine ⟨c :: s1 ++ t3, by simp, ?_⟩
                show StringText (c :: s1 ++ s2) _
                rw [← hb1] at hp ⊢
                exact .cons hp hs

/-! ### Numbers -/

theorem scanNumber_inv (l : List Char) (j : Json) (rest : List Char) (h : scanNumber l = some (.lit j, rest)) :
    ∃ n t, j = .num n ∧ IntText n t ∧ -2 ^ 63 ≤ n ∧ n < 2 ^ 64 ∧ l = t ++ rest := by
  have hexp : ∀ t, afterExponent t ≠ some (.lit j, rest) := by
    intro t ht
    unfold afterExponent at ht
    split at ht
    · split at ht
      · injection ht with ht; injection ht with ht; cases ht
      · cases ht
    · cases ht
  have hexp2 : ∀ t, exponent t ≠ some (.lit j, rest) := by
    intro t ht
    unfold exponent at ht
    split at ht
    · exact hexp _ ht
    · exact hexp _ ht
    · exact hexp _ ht
  have hfr : ∀ t, fraction t ≠ some (.lit j, rest) := by
    intro t ht
    unfold fraction at ht
    split at ht
    · split at ht
      · split at ht
        · exact hexp2 _ ht
        · exact hexp2 _ ht
        · injection ht with ht; injection ht with ht; cases ht
      · cases ht
    · cases ht
  have haf : ∀ neg ds t, afterInteger neg ds t = some (.lit j, rest) → integer neg ds = .lit j ∧ t = rest := by
    intro neg ds t ht
    unfold afterInteger at ht
    split at ht
    · exact absurd ht (hfr _)
    · exact absurd ht (hexp2 _)
    · exact absurd ht (hexp2 _)
    · injection ht with ht
      injection ht with h1 h2
      exact ⟨h1, h2⟩
  have hdg : ∀ neg t, scanDigits neg t = some (.lit j, rest) → ∃ ds, Digits ds ∧ integer neg ds = .lit j ∧ t = ds ++ rest := by
    intro neg t ht
    unfold scanDigits at ht
    split at ht
    · obtain ⟨h1, rfl⟩ := haf _ _ _ ht
      exact ⟨['0'], ⟨nofun, by simp, fun _ => rfl⟩, h1, rfl⟩
    · rename_i c t hc
      split at ht
      · rename_i hd
        obtain ⟨h1, h2⟩ := haf _ _ _ ht
        refine ⟨c :: t.takeWhile isDigit, ⟨nofun, ?_, ?_⟩, h1, ?_⟩
        · intro x hx
          rw [digit_iff]
          rcases List.mem_cons.1 hx with rfl | hx
          · exact hd
          · exact List.all_eq_true.1 (List.all_takeWhile (p := isDigit) (l := t)) x hx
        · intro h0
          injection h0 with h0
          exact absurd h0 (fun e => hc e)
        · rw [← h2, List.cons_append, List.takeWhile_append_dropWhile]
      · cases ht
    · cases ht
  unfold scanNumber at h
  split at h
  · obtain ⟨ds, hd, hi, rfl⟩ := hdg _ _ h
    unfold integer at hi
    rw [if_pos rfl] at hi
    split at hi
    · rename_i hv
      injection hi with hi
      refine ⟨_, _, hi.symm, ⟨ds, hd, .inr ⟨rfl, ?_⟩⟩, ?_, ?_, rfl⟩
      · rw [number_digits ds hd]
      · omega
      · omega
    · cases hi
  · obtain ⟨ds, hd, hi, rfl⟩ := hdg _ _ h
    unfold integer at hi
    rw [if_neg (by decide)] at hi
    split at hi
    · rename_i hv
      injection hi with hi
      refine ⟨_, _, hi.symm, ⟨ds, hd, .inl ⟨rfl, ?_⟩⟩, ?_, ?_, rfl⟩
      · rw [number_digits ds hd]
      · omega
      · omega
    · cases hi

/-! ### Tokens -/

/-- The text of a token. -/
inductive TokenText : Token → List Char → Prop
  | lbrace : TokenText .lbrace ['{']
  | rbrace : TokenText .rbrace ['}']
  | lbrack : TokenText .lbrack ['[']
  | rbrack : TokenText .rbrack [']']
  | colon : TokenText .colon [':']
  | comma : TokenText .comma [',']
  | lit {j : Json} {t : List Char} (h : Text Blank j t) (hk : j.kept = j) : TokenText (.lit j) t
  | str {s t : List Char} (h : StringText s t) : TokenText (.str s) ('"' :: t ++ ['"'])
  | float {t : List Char} (h : t ≠ []) : TokenText .float t

theorem TokenText.ne_nil {k : Token} {t : List Char} (h : TokenText k t) : t ≠ [] := by
  cases h with
  | lit h _ => obtain ⟨c, u, e, _⟩ := text_begins h; rw [e]; nofun
  | float h => exact h
  | _ => nofun

theorem literal_inv (p : List Char) (v : Json) (t : List Char) (k : Token) (u : List Char) (h : scanLiteral p v t = some (k, u)) :
    k = .lit v ∧ t = p ++ u := by
  unfold scanLiteral at h
  split at h
  · rename_i hp
    injection h with h
    injection h with h1 h2
    refine ⟨h1.symm, ?_⟩
    obtain ⟨x, rfl⟩ := List.isPrefixOf_iff_prefix.1 hp
    rw [List.drop_left] at h2
    rw [h2]
  · cases h

/-- The text of a number that is not a 64-bit integer. -/
theorem scanNumber_shorter (l : List Char) (k : Token) (rest : List Char) (h : scanNumber l = some (k, rest)) : (∃ j, k = .lit j) ∨ (k = .float ∧ ∃ p, p ≠ [] ∧ l = p ++ rest) := by
  have drop : ∀ (c : Char) (t : List Char), ∃ p, p ≠ [] ∧ c :: t = p ++ t.dropWhile isDigit := by
    intro c t
    exact ⟨c :: t.takeWhile isDigit, nofun, by rw [List.cons_append, List.takeWhile_append_dropWhile]⟩
  have more : ∀ (a l rest : List Char), (∃ p, p ≠ [] ∧ l = p ++ rest) → ∃ p, p ≠ [] ∧ a ++ l = p ++ rest := by
    rintro a l rest ⟨p, hp, rfl⟩
    exact ⟨a ++ p, by simp [hp], by simp⟩
  have hexp : ∀ t k rest, afterExponent t = some (k, rest) → k = .float ∧ ∃ p, p ≠ [] ∧ t = p ++ rest := by
    intro t k rest ht
    unfold afterExponent at ht
    split at ht
    · split at ht
      · injection ht with ht; injection ht with h1 h2
        subst h2
        exact ⟨h1.symm, drop _ _⟩
      · cases ht
    · cases ht
  have hexp2 : ∀ t k rest, exponent t = some (k, rest) → k = .float ∧ ∃ p, p ≠ [] ∧ t = p ++ rest := by
    intro t k rest ht
    unfold exponent at ht
    split at ht
    · obtain ⟨h1, h2⟩ := hexp _ _ _ ht; exact ⟨h1, more ['+'] _ _ h2⟩
    · obtain ⟨h1, h2⟩ := hexp _ _ _ ht; exact ⟨h1, more ['-'] _ _ h2⟩
    · exact hexp _ _ _ ht
  have hfr : ∀ t k rest, fraction t = some (k, rest) → k = .float ∧ ∃ p, p ≠ [] ∧ t = p ++ rest := by
    intro t k rest ht
    unfold fraction at ht
    split at ht
    · rename_i c t'
      split at ht
      · obtain ⟨p, hp, e⟩ := drop c t'
        split at ht
        · rename_i r hr
          obtain ⟨h1, h2⟩ := hexp2 _ _ _ ht
          refine ⟨h1, ?_⟩
          rw [e, hr]
          exact more p _ _ (more ['e'] _ _ h2)
        · rename_i r hr
          obtain ⟨h1, h2⟩ := hexp2 _ _ _ ht
          refine ⟨h1, ?_⟩
          rw [e, hr]
          exact more p _ _ (more ['E'] _ _ h2)
        · injection ht with ht; injection ht with h1 h2
          subst h2
          exact ⟨h1.symm, p, hp, e⟩
      · cases ht
    · cases ht
  have haf : ∀ neg ds t k rest, ds ≠ [] → afterInteger neg ds t = some (k, rest) → (∃ j, k = .lit j) ∨ (k = .float ∧ ∃ p, p ≠ [] ∧ ds ++ t = p ++ rest) := by
    intro neg ds t k rest hne ht
    unfold afterInteger at ht
    split at ht
    · obtain ⟨h1, h2⟩ := hfr _ _ _ ht; exact .inr ⟨h1, more ds _ _ (more ['.'] _ _ h2)⟩
    · obtain ⟨h1, h2⟩ := hexp2 _ _ _ ht; exact .inr ⟨h1, more ds _ _ (more ['e'] _ _ h2)⟩
    · obtain ⟨h1, h2⟩ := hexp2 _ _ _ ht; exact .inr ⟨h1, more ds _ _ (more ['E'] _ _ h2)⟩
    · injection ht with ht
      injection ht with h1 h2
      subst h2
      unfold integer at h1
      split at h1
      · split at h1
        · exact .inl ⟨_, h1.symm⟩
        · exact .inr ⟨h1.symm, ds, hne, rfl⟩
      · split at h1
        · exact .inl ⟨_, h1.symm⟩
        · exact .inr ⟨h1.symm, ds, hne, rfl⟩
  have hdg : ∀ neg t k rest, scanDigits neg t = some (k, rest) → (∃ j, k = .lit j) ∨ (k = .float ∧ ∃ p, p ≠ [] ∧ t = p ++ rest) := by
    intro neg t k rest ht
    unfold scanDigits at ht
    split at ht
    · exact haf _ _ _ _ _ (by simp) ht
    · rename_i c t hc
      split at ht
      · rcases haf _ _ _ _ _ (by simp) ht with h | ⟨h1, h2⟩
        · exact .inl h
        · refine .inr ⟨h1, ?_⟩
          rwa [List.cons_append, List.takeWhile_append_dropWhile] at h2
      · cases ht
    · cases ht
  unfold scanNumber at h
  split at h
  · rcases hdg _ _ _ _ h with h | ⟨h1, h2⟩
    · exact .inl h
    · exact .inr ⟨h1, more ['-'] _ _ h2⟩
  · exact hdg _ _ _ _ h

theorem scanToken_inv (c : Char) (t : List Char) (k : Token) (u : List Char) (h : scanToken c t = some (k, u)) :
    ∃ p, TokenText k p ∧ c :: t = p ++ u := by
  unfold scanToken at h
  split at h
  · rename_i hc; subst hc; injection h with h; injection h with h1 h2; subst h1; subst h2; exact ⟨_, .lbrack, rfl⟩
  split at h
  · rename_i hc; subst hc; injection h with h; injection h with h1 h2; subst h1; subst h2; exact ⟨_, .rbrack, rfl⟩
  split at h
  · rename_i hc; subst hc; injection h with h; injection h with h1 h2; subst h1; subst h2; exact ⟨_, .lbrace, rfl⟩
  split at h
  · rename_i hc; subst hc; injection h with h; injection h with h1 h2; subst h1; subst h2; exact ⟨_, .rbrace, rfl⟩
  split at h
  · rename_i hc; subst hc; injection h with h; injection h with h1 h2; subst h1; subst h2; exact ⟨_, .colon, rfl⟩
  split at h
  · rename_i hc; subst hc; injection h with h; injection h with h1 h2; subst h1; subst h2; exact ⟨_, .comma, rfl⟩
  split at h
  · rename_i hc; subst hc; obtain ⟨rfl, rfl⟩ := literal_inv _ _ _ _ _ h; exact ⟨_, .lit .yes rfl, rfl⟩
  split at h
  · rename_i hc; subst hc; obtain ⟨rfl, rfl⟩ := literal_inv _ _ _ _ _ h; exact ⟨_, .lit .no rfl, rfl⟩
  split at h
  · rename_i hc; subst hc; obtain ⟨rfl, rfl⟩ := literal_inv _ _ _ _ _ h; exact ⟨_, .lit .null rfl, rfl⟩
  split at h
  · rename_i hc
    subst hc
    cases e : scanString (t.length + 1) t with
    | none => rw [e] at h; cases h
    | some x =>
      obtain ⟨s, r⟩ := x
      rw [e] at h
      injection h with h
      injection h with h1 h2
      subst h1; subst h2
      obtain ⟨q, rfl, hs⟩ := scanString_inv _ _ _ _ e
      exact ⟨_, .str hs, by simp⟩
  split at h
  · rcases scanNumber_shorter _ _ _ h with ⟨j, rfl⟩ | ⟨rfl, p, hp, e⟩
    · obtain ⟨n, p, rfl, hn, h1, h2, e⟩ := scanNumber_inv _ _ _ h
      exact ⟨p, .lit (.num hn h1 h2) rfl, e⟩
    · exact ⟨p, .float hp, e⟩
  · cases h

theorem skipLine_inv (l : List Char) : (∃ b e, (∀ c ∈ b, c ∉ ends) ∧ e ∈ ends ∧ l = b ++ e :: skipLine l) ∨ ((∀ c ∈ l, c ∉ ends) ∧ skipLine l = []) := by
  induction l with
  | nil => exact .inr ⟨by simp, rfl⟩
  | cons c t ih =>
    rw [skipLine]
    split
    · rename_i hc
      exact .inl ⟨[], c, by simp, by simpa [ends] using hc, rfl⟩
    · rename_i hc
      have hc' : c ∉ ends := by simpa [ends] using hc
      rcases ih with ⟨b, e, hb, he, ht⟩ | ⟨hb, ht⟩
      · refine .inl ⟨c :: b, e, ?_, he, ?_⟩
        · intro x hx
          rcases List.mem_cons.1 hx with rfl | hx
          · exact hc'
          · exact hb x hx
        · rw [List.cons_append, ← ht]
      · refine .inr ⟨?_, ht⟩
        intro x hx
        rcases List.mem_cons.1 hx with rfl | hx
        · exact hc'
        · exact hb x hx

theorem skipBlock_inv : ∀ (l u : List Char), skipBlock l = some u → ∃ b, '\x00' ∉ b ∧ ¬ ['*', '/'] <:+: b ++ ['*'] ∧ l = b ++ '*' :: '/' :: u := by
  intro l
  induction l with
  | nil => intro u h; rw [skipBlock] at h; cases h
  | cons c t ih =>
    intro u h
    rw [skipBlock.eq_def] at h
    split at h
    · rename_i t' heq
      injection h with h
      subst h
      refine ⟨[], by simp, ?_, heq⟩
      rintro ⟨x, y, e⟩
      have := congrArg List.length e
      simp at this
      omega
    · rename_i c' t' hne heq
      simp only [List.cons.injEq] at heq
      obtain ⟨rfl, rfl⟩ := heq
      split at h
      · cases h
      · rename_i hc
        obtain ⟨b, hb, hb2, rfl⟩ := ih u h
        refine ⟨c :: b, ?_, ?_, rfl⟩
        · simp only [List.mem_cons, not_or]; exact ⟨Ne.symm hc, hb⟩
        · rintro ⟨x, y, e⟩
          cases x with
          | nil =>
            simp only [List.nil_append, List.cons_append, List.cons.injEq] at e
            obtain ⟨rfl, e⟩ := e
            cases b with
            | nil => simp at e
            | cons d b =>
              simp only [List.cons_append, List.cons.injEq] at e
              obtain ⟨rfl, _⟩ := e
              exact hne _ rfl rfl
          | cons a x =>
            simp only [List.cons_append, List.cons.injEq] at e
            exact hb2 ⟨x, y, e.2⟩
    · cases h

theorem dropSpace_inv (l : List Char) : ∃ w, Space w ∧ l = w ++ l.dropWhile isJsonSpace := by
  refine ⟨l.takeWhile isJsonSpace, ?_, List.takeWhile_append_dropWhile.symm⟩
  intro c hc
  have := List.all_eq_true.1 (List.all_takeWhile (p := isJsonSpace) (l := l)) c hc
  unfold isJsonSpace at this
  simp only [Bool.or_eq_true, beq_iff_eq] at this
  simp only [List.mem_cons, List.not_mem_nil, or_false]
  rcases this with ((h | h) | h) | h
  · exact .inl h
  · exact .inr (.inl h)
  · exact .inr (.inr (.inl h))
  · exact .inr (.inr (.inr h))

theorem JsonSpec.Blank.append {w u : List Char} (h : Blank w) (hu : Blank u) : Blank (w ++ u) := by
  induction h with
  | nil => exact hu
  | space hc _ ih => exact .space hc ih
  | line hb he _ ih =>
    rw [List.append_assoc]
    exact .line hb he ih
  | block hb hc _ ih =>
    rw [List.append_assoc]
    exact .block hb hc ih

/-- The first token of a text, or its end. -/
theorem lex_inv : ∀ (fuel : Nat) (l : List Char) (k : Token) (ts : List Token), l.length < fuel → lex fuel l = k :: ts → k ≠ .bad →
    (k = .eoi ∧ ∃ w r, Blank w ∧ Tail r ∧ l = w ++ r) ∨
    (k ≠ .eoi ∧ ∃ w p rest f, Blank w ∧ TokenText k p ∧ l = w ++ p ++ rest ∧ rest.length < f ∧ ts = lex f rest) := by
  intro fuel
  induction fuel with
  | zero => intro l k ts hl; omega
  | succ f ih =>
    intro l k ts hl h hk
    obtain ⟨w, hw, e⟩ := dropSpace_inv l
    rw [lex] at h
    generalize hd : l.dropWhile isJsonSpace = d at h e
    cases d with
    | nil =>
      simp only [List.cons.injEq] at h
      exact .inl ⟨h.1.symm, w, [], blank_space w hw, .inl rfl, e⟩
    | cons c t =>
      simp only at h
      have hlen : w.length + (t.length + 1) = l.length := by rw [e]; simp
      split at h
      · rename_i hc
        subst hc
        cases ec : scanComment t with
        | none =>
          rw [ec] at h
          simp only [List.cons.injEq] at h
          exact absurd h.1.symm hk
        | some t' =>
          rw [ec] at h
          simp only at h
          unfold scanComment at ec
          split at ec
          · rename_i t1
            injection ec with ec
            rcases skipLine_inv t1 with ⟨b, x, hb, hx, et⟩ | ⟨hb, et⟩
            · rw [ec] at et
              have hbl : Blank (w ++ ('/' :: '/' :: b ++ [x])) := (blank_space w hw).append (.line hb hx .nil)
              have el : l = w ++ ('/' :: '/' :: b ++ [x]) ++ t' := by rw [e, et]; simp
              rcases ih t' k ts (by rw [el] at hl; simp at hl; omega) h hk with ⟨h1, w', r, hw', hr, e'⟩ | ⟨h1, w', p, rest, f', hw', hp, e', hf, hts⟩
              · exact .inl ⟨h1, _, r, hbl.append hw', hr, by rw [el, e']; simp⟩
              · exact .inr ⟨h1, _, p, rest, f', hbl.append hw', hp, by rw [el, e']; simp, hf, hts⟩
            · rw [ec] at et
              subst et
              rw [lex_end f (by simp only [List.length_cons] at hlen; omega)] at h
              simp only [List.cons.injEq] at h
              exact .inl ⟨h.1.symm, w, _, blank_space w hw, .inr (.inr ⟨t1, hb, rfl⟩), e⟩
          · rename_i t1
            obtain ⟨b, hb, hb2, et⟩ := skipBlock_inv _ _ ec
            have hbl : Blank (w ++ ('/' :: '*' :: b ++ '*' :: '/' :: [])) := (blank_space w hw).append (.block hb hb2 .nil)
            have el : l = w ++ ('/' :: '*' :: b ++ '*' :: '/' :: []) ++ t' := by rw [e, et]; simp
            rcases ih t' k ts (by rw [el] at hl; simp at hl; omega) h hk with ⟨h1, w', r, hw', hr, e'⟩ | ⟨h1, w', p, rest, f', hw', hp, e', hf, hts⟩
            · exact .inl ⟨h1, _, r, hbl.append hw', hr, by rw [el, e']; simp⟩
            · exact .inr ⟨h1, _, p, rest, f', hbl.append hw', hp, by rw [el, e']; simp, hf, hts⟩
          · cases ec
      · split at h
        · rename_i hc
          subst hc
          simp only [List.cons.injEq] at h
          exact .inl ⟨h.1.symm, w, _, blank_space w hw, .inr (.inl ⟨t, rfl⟩), e⟩
        · cases es : scanToken c t with
          | none =>
            rw [es] at h
            simp only [List.cons.injEq] at h
            exact absurd h.1.symm hk
          | some x =>
            obtain ⟨k', t'⟩ := x
            rw [es] at h
            simp only [List.cons.injEq] at h
            obtain ⟨rfl, rfl⟩ := h
            obtain ⟨p, hp, et⟩ := scanToken_inv _ _ _ _ es
            have hpn := hp.ne_nil
            refine .inr ⟨?_, w, p, t', f, blank_space w hw, hp, ?_, ?_, rfl⟩
            · rintro rfl; cases hp
            · rw [List.append_assoc, ← et]; exact e
            · have := congrArg List.length et
              have : 0 < p.length := List.length_pos_iff.2 hpn
              simp only [List.length_cons, List.length_append] at *
              omega

/-! ### Values -/

theorem value_inv (stack : List Frame) (T : List Token) (j : Json) (h : parseLoop stack .value T = .value j) :
    (∃ ts, T = .lbrace :: .rbrace :: ts ∧ parseLoop stack (.behind (.obj [])) ts = .value j) ∨
    (∃ k ts, T = .lbrace :: .str k :: .colon :: ts ∧ parseLoop (.obj [] k :: stack) .value ts = .value j) ∨
    (∃ ts, T = .lbrack :: .rbrack :: ts ∧ parseLoop stack (.behind (.arr [])) ts = .value j) ∨
    (∃ ts, T = .lbrack :: ts ∧ parseLoop (.arr [] :: stack) .value ts = .value j) ∨
    (∃ v ts, T = .lit v :: ts ∧ parseLoop stack (.behind v) ts = .value j) ∨
    ∃ s ts, T = .str s :: ts ∧ parseLoop stack (.behind (.str s)) ts = .value j := by
  rw [parseLoop.eq_def] at h
  split at h
  · exact .inl ⟨_, rfl, h⟩
  · exact .inr (.inl ⟨_, _, rfl, h⟩)
  · exact .inr (.inr (.inl ⟨_, rfl, h⟩))
  · exact .inr (.inr (.inr (.inl ⟨_, rfl, h⟩)))
  · exact .inr (.inr (.inr (.inr (.inl ⟨_, _, rfl, h⟩))))
  · exact .inr (.inr (.inr (.inr (.inr ⟨_, _, rfl, h⟩))))
  all_goals contradiction

theorem behind_end_inv (v : Json) (T : List Token) (j : Json) (h : parseLoop [] (.behind v) T = .value j) : (∃ ts, T = .eoi :: ts) ∧ v = j := by
  rw [parseLoop.eq_def] at h
  split at h
  all_goals first | contradiction | skip
  rename_i e1 e2
  injection e2 with e2
  injection h with h
  exact ⟨⟨_, rfl⟩, by rw [e2, h]⟩

theorem behind_array_inv (d : List Json) (stack : List Frame) (v : Json) (T : List Token) (j : Json)
    (h : parseLoop (.arr d :: stack) (.behind v) T = .value j) :
    (∃ ts, T = .comma :: ts ∧ parseLoop (.arr (d ++ [v]) :: stack) .value ts = .value j) ∨
    ∃ ts, T = .rbrack :: ts ∧ parseLoop stack (.behind (.arr (d ++ [v]))) ts = .value j := by
  rw [parseLoop.eq_def] at h
  split at h
  all_goals first | contradiction | skip
  all_goals rename_i e1 e2
  all_goals injection e1 with e1 e1'
  all_goals first | contradiction | skip
  · injection e1 with e1
    injection e2 with e2
    subst e1; subst e1'; subst e2
    exact .inl ⟨_, rfl, h⟩
  · injection e1 with e1
    injection e2 with e2
    subst e1; subst e1'; subst e2
    exact .inr ⟨_, rfl, h⟩

theorem behind_object_inv (d : List (String × Json)) (k : List Char) (stack : List Frame) (v : Json) (T : List Token) (j : Json)
    (h : parseLoop (.obj d k :: stack) (.behind v) T = .value j) :
    (∃ k' ts, T = .comma :: .str k' :: .colon :: ts ∧ parseLoop (.obj (insertKey (String.ofList k) v d) k' :: stack) .value ts = .value j) ∨
    ∃ ts, T = .rbrace :: ts ∧ parseLoop stack (.behind (.obj (insertKey (String.ofList k) v d))) ts = .value j := by
  rw [parseLoop.eq_def] at h
  split at h
  all_goals first | contradiction | skip
  all_goals rename_i e1 e2
  all_goals injection e1 with e1 e1'
  all_goals first | contradiction | skip
  · injection e1 with e1 e1''
    injection e2 with e2
    subst e1; subst e1'; subst e1''; subst e2
    exact .inl ⟨_, _, rfl, h⟩
  · injection e1 with e1 e1''
    injection e2 with e2
    subst e1; subst e1'; subst e1''; subst e2
    exact .inr ⟨_, rfl, h⟩

/-- The first token, when it is not the end. -/
theorem first_token {fuel : Nat} {l : List Char} {k : Token} {ts : List Token} (hl : l.length < fuel) (h : lex fuel l = k :: ts) (hk : k ≠ .bad)
    (he : k ≠ .eoi) : ∃ w p rest f, Blank w ∧ TokenText k p ∧ l = w ++ p ++ rest ∧ rest.length < l.length ∧ rest.length < f ∧ ts = lex f rest := by
  rcases lex_inv fuel l k ts hl h hk with ⟨h1, _⟩ | ⟨_, w, p, rest, f, hw, hp, e, hf, hts⟩
  · exact absurd h1 he
  · refine ⟨w, p, rest, f, hw, hp, e, ?_, hf, hts⟩
    have := List.length_pos_iff.2 hp.ne_nil
    rw [e]
    simp only [List.length_append]
    omega

theorem TokenText.str_inv {k p : List Char} (h : TokenText (.str k) p) : ∃ q, StringText k q ∧ p = '"' :: q ++ ['"'] := by
  cases h with
  | str h => exact ⟨_, h, rfl⟩

theorem TokenText.comma_inv {p : List Char} (h : TokenText .comma p) : p = [','] := by cases h; rfl
theorem TokenText.colon_inv {p : List Char} (h : TokenText .colon p) : p = [':'] := by cases h; rfl
theorem TokenText.lbrack_inv {p : List Char} (h : TokenText .lbrack p) : p = ['['] := by cases h; rfl
theorem TokenText.rbrack_inv {p : List Char} (h : TokenText .rbrack p) : p = [']'] := by cases h; rfl
theorem TokenText.lbrace_inv {p : List Char} (h : TokenText .lbrace p) : p = ['{'] := by cases h; rfl
theorem TokenText.rbrace_inv {p : List Char} (h : TokenText .rbrace p) : p = ['}'] := by cases h; rfl

def FindsValue (n : Nat) : Prop :=
  ∀ stack fuel l j, l.length ≤ n → l.length < fuel → parseLoop stack .value (lex fuel l) = .value j →
    ∃ w u rest f v, Blank w ∧ Text Blank v u ∧ l = w ++ u ++ rest ∧ rest.length < l.length ∧ rest.length < f ∧
      parseLoop stack (.behind v.kept) (lex f rest) = .value j

def FindsElements (n : Nat) : Prop :=
  ∀ stack d fuel l j, l.length ≤ n → l.length < fuel → parseLoop (.arr d :: stack) .value (lex fuel l) = .value j →
    ∃ els t rest f, Elements Blank els t ∧ l = t ++ ']' :: rest ∧ rest.length < f ∧
      parseLoop stack (.behind (.arr (d ++ keptList els))) (lex f rest) = .value j

def FindsMembers (n : Nat) : Prop :=
  ∀ stack d k fuel l j, l.length ≤ n → l.length < fuel → parseLoop (.obj d k :: stack) .value (lex fuel l) = .value j →
    ∀ w q w1, Blank w → StringText k q → Blank w1 →
    ∃ mems t rest f, Members Blank mems (w ++ '"' :: q ++ '"' :: w1 ++ ':' :: t) ∧ l = t ++ '}' :: rest ∧ rest.length < f ∧
      parseLoop stack (.behind (.obj (insertAll d mems))) (lex f rest) = .value j

theorem finds_value (n : Nat) (ihE : ∀ m < n, FindsElements m) (ihM : ∀ m < n, FindsMembers m) : FindsValue n := by
  intro stack fuel l j hn hf h
  generalize hT : lex fuel l = T at h
  rcases value_inv stack T j h with ⟨ts, e, h⟩ | ⟨k, ts, e, h⟩ | ⟨ts, e, h⟩ | ⟨ts, e, h⟩ | ⟨v, ts, e, h⟩ | ⟨s, ts, e, h⟩ <;> rw [e] at hT
  · obtain ⟨w, p, rest, f, hw, hp, el, hlt, hf', hts⟩ := first_token hf hT (by nofun) (by nofun)
    obtain ⟨w', p', rest', f', hw', hp', el', hlt', hf'', hts'⟩ := first_token hf' hts.symm (by nofun) (by nofun)
    rw [hp.lbrace_inv] at el
    rw [hp'.rbrace_inv] at el'
    exact ⟨w, '{' :: w' ++ ['}'], rest', f', .obj [], hw, .noMembers hw', by rw [el, el']; simp, by omega, hf'', hts' ▸ h⟩
  · obtain ⟨w, p, rest, f, hw, hp, el, hlt, hf', hts⟩ := first_token hf hT (by nofun) (by nofun)
    obtain ⟨w', p', rest', f', hw', hp', el', hlt', hf'', hts'⟩ := first_token hf' hts.symm (by nofun) (by nofun)
    obtain ⟨w3, p3, rest3, f3, hw3, hp3, el3, hlt3, hf3, hts3⟩ := first_token hf'' hts'.symm (by nofun) (by nofun)
    obtain ⟨q, hq, eq⟩ := hp'.str_inv
    rw [hp.lbrace_inv] at el
    rw [hp3.colon_inv] at el3
    rw [hts3] at h
    obtain ⟨mems, t, rest4, f4, hm, el4, hf4, h⟩ := ihM rest3.length (by omega) stack [] k f3 rest3 j (Nat.le_refl _) hf3 h w' q w3 hw' hq hw3
    refine ⟨w, '{' :: (w' ++ '"' :: q ++ '"' :: w3 ++ ':' :: t) ++ ['}'], rest4, f4, .obj mems, hw, .obj hm, ?_, ?_, hf4, h⟩
    · rw [el, el', eq, el3, el4]; simp
    · rw [el4] at hlt3
      simp only [List.length_append, List.length_cons] at hlt3
      omega
  · obtain ⟨w, p, rest, f, hw, hp, el, hlt, hf', hts⟩ := first_token hf hT (by nofun) (by nofun)
    obtain ⟨w', p', rest', f', hw', hp', el', hlt', hf'', hts'⟩ := first_token hf' hts.symm (by nofun) (by nofun)
    rw [hp.lbrack_inv] at el
    rw [hp'.rbrack_inv] at el'
    exact ⟨w, '[' :: w' ++ [']'], rest', f', .arr [], hw, .noElements hw', by rw [el, el']; simp, by omega, hf'', hts' ▸ h⟩
  · obtain ⟨w, p, rest, f, hw, hp, el, hlt, hf', hts⟩ := first_token hf hT (by nofun) (by nofun)
    rw [hp.lbrack_inv] at el
    rw [hts] at h
    obtain ⟨els, t, rest4, f4, hm, el4, hf4, h⟩ := ihE rest.length (by omega) stack [] f rest j (Nat.le_refl _) hf' h
    refine ⟨w, '[' :: t ++ [']'], rest4, f4, .arr els, hw, .arr hm, ?_, ?_, hf4, h⟩
    · rw [el, el4]; simp
    · rw [el4] at hlt
      simp only [List.length_append, List.length_cons] at hlt
      omega
  · obtain ⟨w, p, rest, f, hw, hp, el, hlt, hf', hts⟩ := first_token hf hT (by nofun) (by nofun)
    cases hp with
    | lit hv hk => exact ⟨w, p, rest, f, v, hw, hv, el, hlt, hf', by rw [hk, ← hts]; exact h⟩
  · obtain ⟨w, p, rest, f, hw, hp, el, hlt, hf', hts⟩ := first_token hf hT (by nofun) (by nofun)
    obtain ⟨q, hq, eq⟩ := hp.str_inv
    rw [eq] at el
    exact ⟨w, _, rest, f, .str s, hw, .str hq, el, hlt, hf', hts ▸ h⟩

theorem finds_elements (n : Nat) (hV : FindsValue n) (ihE : ∀ m < n, FindsElements m) : FindsElements n := by
  intro stack d fuel l j hn hf h
  obtain ⟨w, u, rest, f, v, hw, hu, el, hlt, hf', h⟩ := hV _ fuel l j hn hf h
  generalize hT : lex f rest = T at h
  rcases behind_array_inv d stack v.kept T j h with ⟨ts, e, h⟩ | ⟨ts, e, h⟩ <;> rw [e] at hT
  · obtain ⟨w', p, rest', f', hw', hp, el', hlt', hf'', hts⟩ := first_token hf' hT (by nofun) (by nofun)
    rw [hp.comma_inv] at el'
    rw [hts] at h
    obtain ⟨els, t, rest4, f4, hm, el4, hf4, h⟩ := ihE rest'.length (by omega) stack _ f' rest' j (Nat.le_refl _) hf'' h
    refine ⟨v :: els, _, rest4, f4, .more hw hu hw' hm, ?_, hf4, ?_⟩
    · rw [el, el', el4]; simp
    · rw [keptList]
      rw [List.append_assoc, List.singleton_append] at h
      exact h
  · obtain ⟨w', p, rest', f', hw', hp, el', hlt', hf'', hts⟩ := first_token hf' hT (by nofun) (by nofun)
    rw [hp.rbrack_inv] at el'
    exact ⟨[v], _, rest', f', .one hw hu hw', by rw [el, el']; simp, hf'', hts ▸ h⟩

theorem finds_members (n : Nat) (hV : FindsValue n) (ihM : ∀ m < n, FindsMembers m) : FindsMembers n := by
  intro stack d k fuel l j hn hf h w q w1 hw hq hw1
  obtain ⟨w2, u, rest, f, v, hw2, hu, el, hlt, hf', h⟩ := hV _ fuel l j hn hf h
  have hq' : StringText (String.ofList k).toList q := by rw [String.toList_ofList]; exact hq
  generalize hT : lex f rest = T at h
  rcases behind_object_inv d k stack v.kept T j h with ⟨k', ts, e, h⟩ | ⟨ts, e, h⟩ <;> rw [e] at hT
  · obtain ⟨w', p, rest', f', hw', hp, el', hlt', hf'', hts⟩ := first_token hf' hT (by nofun) (by nofun)
    obtain ⟨w3, p3, rest3, f3, hw3, hp3, el3, hlt3, hf3, hts3⟩ := first_token hf'' hts.symm (by nofun) (by nofun)
    obtain ⟨w4, p4, rest4, f4, hw4, hp4, el4, hlt4, hf4, hts4⟩ := first_token hf3 hts3.symm (by nofun) (by nofun)
    obtain ⟨q3, hq3, eq3⟩ := hp3.str_inv
    rw [hp.comma_inv] at el'
    rw [hp4.colon_inv] at el4
    rw [hts4] at h
    obtain ⟨mems, t, rest5, f5, hm, el5, hf5, h⟩ :=
      ihM rest4.length (by omega) stack _ k' f4 rest4 j (Nat.le_refl _) hf4 h w3 q3 w4 hw3 hq3 hw4
    refine ⟨(String.ofList k, v) :: mems, w2 ++ u ++ w' ++ ',' :: (w3 ++ '"' :: q3 ++ '"' :: w4 ++ ':' :: t), rest5, f5, ?_, ?_, hf5, ?_⟩
    · have := Members.more hw hq' hw1 hw2 hu hw' hm
      simpa only [List.append_assoc, List.cons_append] using this
    · rw [el, el', el3, eq3, el4, el5]; simp
    · rw [insertAll]; exact h
  · obtain ⟨w', p, rest', f', hw', hp, el', hlt', hf'', hts⟩ := first_token hf' hT (by nofun) (by nofun)
    rw [hp.rbrace_inv] at el'
    refine ⟨[(String.ofList k, v)], w2 ++ u ++ w', rest', f', ?_, by rw [el, el']; simp, hf'', ?_⟩
    · have := Members.one hw hq' hw1 hw2 hu hw'
      simpa only [List.append_assoc, List.cons_append] using this
    · rw [insertAll, insertAll, ← hts]; exact h

theorem finds (n : Nat) : FindsValue n ∧ FindsElements n ∧ FindsMembers n := by
  induction n using Nat.strongRecOn with
  | ind n ih =>
    have hV := finds_value n (fun m hm => (ih m hm).2.1) (fun m hm => (ih m hm).2.2)
    exact ⟨hV, finds_elements n hV (fun m hm => (ih m hm).2.1), finds_members n hV (fun m hm => (ih m hm).2.2)⟩

theorem skipBom_inv (t u : List Char) (h : skipBom t = some u) : ∃ m, (m = [] ∨ m = bom) ∧ t = m ++ u := by
  unfold skipBom at h
  split at h
  · rename_i c t
    split at h
    · rename_i hc
      split at h
      · rename_i a b t
        split at h
        · rename_i hab
          injection h with h
          subst h
          refine ⟨bom, .inr rfl, ?_⟩
          rw [← Char.ofNat_toNat c, ← Char.ofNat_toNat a, ← Char.ofNat_toNat b, hc, hab.1, hab.2]
          rfl
        · cases h
      · cases h
    · injection h with h
      exact ⟨[], .inl rfl, h⟩
  · injection h with h
    exact ⟨[], .inl rfl, h⟩

/-- What is read was JSON. -/
theorem parse_accepted (t : List Char) (j : Json) (h : parse t = .value j) : ∃ v, Accepted v t ∧ j = v.kept := by
  unfold parse at h
  cases e : skipBom t with
  | none => rw [e] at h; cases h
  | some l =>
    rw [e] at h
    simp only at h
    obtain ⟨m, hm, rfl⟩ := skipBom_inv _ _ e
    obtain ⟨w, u, rest, f, v, hw, hu, el, _, hf, h⟩ := (finds l.length).1 [] _ l j (Nat.le_refl _) (Nat.lt_succ_self _) h
    obtain ⟨⟨ts, hts⟩, hv⟩ := behind_end_inv _ _ _ h
    rcases lex_inv f rest .eoi ts hf hts (by nofun) with ⟨_, w', r, hw', hr, er⟩ | ⟨h1, _⟩
    · exact ⟨v, ⟨m, w, u, w', r, hm, hw, hu, hw', hr, by rw [el, er]; simp⟩, hv.symm⟩
    · exact absurd rfl h1

end Verif.Xchg
