import Verif.Xml.Spec

/-! Lemmas on the XML parser and printer. -/

namespace Verif.Xml
open Spec

theorem isSpace_iff (c : Char) : isSpace c = true ↔ Space c := by
  unfold isSpace Space
  simp only [← Char.toNat_inj]
  simp only [Bool.or_eq_true, Bool.and_eq_true, decide_eq_true_eq, beq_iff_eq]
  simp only [show ' '.toNat = 32 from rfl, show '\t'.toNat = 9 from rfl, show '\n'.toNat = 10 from rfl,
    show '\x0b'.toNat = 11 from rfl, show '\x0c'.toNat = 12 from rfl, show '\r'.toNat = 13 from rfl]
  omega

theorem isNameStart_iff (c : Char) : isNameStart c = true ↔ NameStart c := by
  unfold isNameStart isAlpha NameStart
  simp only [Bool.or_eq_true, Bool.and_eq_true, decide_eq_true_eq, beq_iff_eq]
  simp only [← Char.toNat_inj, Char.le_def, UInt32.le_iff_toNat_le]
  simp only [Char.toNat_val, show ':'.toNat = 58 from rfl, show '_'.toNat = 95 from rfl, show 'a'.toNat = 97 from rfl,
    show 'z'.toNat = 122 from rfl, show 'A'.toNat = 65 from rfl, show 'Z'.toNat = 90 from rfl,
    show '\x80'.toNat = 128 from rfl]
  omega

theorem isNameChar_iff (c : Char) : isNameChar c = true ↔ NameChar c := by
  unfold isNameChar isDigit NameChar
  simp only [Bool.or_eq_true, isNameStart_iff, Bool.and_eq_true, decide_eq_true_eq, beq_iff_eq]
  simp only [Char.le_def, UInt32.le_iff_toNat_le]
  simp only [Char.toNat_val, show '0'.toNat = 48 from rfl, show '9'.toNat = 57 from rfl, or_assoc]

theorem nameStart_not_space {c : Char} (h : isNameStart c = true) : isSpace c = false := by
  unfold isNameStart isAlpha at h
  unfold isSpace
  simp only [Bool.or_eq_true, Bool.and_eq_true, decide_eq_true_eq, beq_iff_eq, ← Char.toNat_inj] at h
  simp only [Bool.or_eq_false_iff, Bool.and_eq_false_iff, decide_eq_false_iff_not, beq_eq_false_iff_ne]
  simp only [show ':'.toNat = 58 from rfl, show '_'.toNat = 95 from rfl] at h
  omega

/-- Characters that end a name and are no part of one. -/
theorem not_nameChar : isNameChar '=' = false ∧ isNameChar ' ' = false ∧ isNameChar '>' = false ∧
    isNameChar '/' = false := by decide

theorem name_pos {n : Str} (h : Name n) : ∃ c r, n = c :: r ∧ isNameStart c = true ∧
    ∀ x ∈ r, isNameChar x = true := by
  obtain ⟨⟨c, r, rfl, hc⟩, ha⟩ := h
  exact ⟨c, r, rfl, (isNameStart_iff c).2 hc, fun x hx => (isNameChar_iff x).2 (ha x (List.mem_cons_of_mem _ hx))⟩

theorem takeWhile_app {p : Char → Bool} {a : Str} {c : Char} {r : Str} (ha : ∀ x ∈ a, p x = true) (hc : p c = false) :
    (a ++ c :: r).takeWhile p = a := by
  rw [List.takeWhile_append_of_pos ha, List.takeWhile_cons]
  simp [hc]

theorem dropWhile_app {p : Char → Bool} {a : Str} {c : Char} {r : Str} (ha : ∀ x ∈ a, p x = true) (hc : p c = false) :
    (a ++ c :: r).dropWhile p = c :: r := by
  rw [List.dropWhile_append_of_pos ha, List.dropWhile_cons]
  simp [hc]

theorem parseName_app {n : Str} (h : Name n) {c : Char} (hc : isNameChar c = false) (r : Str) :
    parseName (n ++ c :: r) = some (n, c :: r) := by
  obtain ⟨d, t, rfl, hd, ht⟩ := name_pos h
  rw [List.cons_append, parseName, if_pos hd, takeWhile_app ht hc, dropWhile_app ht hc]

theorem parseText_single {q : Char} {s : Str} (h : q ∉ s) (r : Str) :
    parseText [q] (s ++ q :: r) = some (s, r) := by
  induction s with
  | nil => simp [parseText]
  | cons c s ih =>
    simp only [List.mem_cons, not_or] at h
    rw [List.cons_append, parseText, if_neg, ih h.2]
    · rfl
    · simp only [List.isPrefixOf, Bool.and_true, beq_iff_eq]
      exact h.1

theorem skipWs_cons {c : Char} (h : isSpace c = false) (r : Str) : skipWs (c :: r) = c :: r := by
  rw [skipWs, List.dropWhile_cons]
  simp [h]

theorem skipWs_ws {w : Str} (hw : ∀ x ∈ w, isSpace x = true) (r : Str) : skipWs (w ++ r) = skipWs r := by
  rw [skipWs, List.dropWhile_append_of_pos hw]
  rfl

/-! ## Escaping -/

theorem entityAt_spec : ∀ e ∈ entities, ∀ r : Str, entityAt (e.1 ++ ';' :: r) = some e := by
  intro e he r
  simp only [entities, List.mem_cons, List.not_mem_nil, or_false] at he
  rcases he with rfl | rfl | rfl | rfl | rfl <;> rfl

theorem entity_head : ∀ e ∈ entities, e.1.head? ≠ some '#' ∧ e.1.head? ≠ none := by decide

theorem escChar_cases (b : Bool) (c : Char) :
    (escChar b c = [c] ∧ (c ≠ '&' ∧ c ≠ '<')) ∨ ∃ e ∈ entities, e.2 = c ∧ escChar b c = '&' :: e.1 ++ [';'] := by
  unfold escChar
  cases hf : entities.find? (fun e => e.2 == c) with
  | none =>
    left
    rw [List.find?_eq_none] at hf
    refine ⟨rfl, ?_, ?_⟩
    · rintro rfl; exact hf ("amp".toList, '&') (by decide) (by decide)
    · rintro rfl; exact hf ("lt".toList, '<') (by decide) (by decide)
  | some e =>
    have h1 := List.mem_of_find?_eq_some hf
    have h2 := List.find?_some hf
    simp only [beq_iff_eq] at h2
    simp only
    split
    · right; exact ⟨e, h1, h2, rfl⟩
    · rename_i h
      left
      refine ⟨rfl, ?_, ?_⟩
      · rintro rfl; simp at h
      · rintro rfl; simp at h

/-- The head of an escaped text is a line feed or a carriage return only if the one of the text is. -/
theorem esc_head (b : Bool) (s : Str) (c : Char) (hc : c = '\r' ∨ c = '\n') :
    ((esc b s).head? = some c ↔ s.head? = some c) ∧ (s.head? = some c → (esc b s).drop 1 = esc b (s.drop 1)) := by
  cases s with
  | nil => simp [esc]
  | cons d s =>
    unfold esc
    rw [List.flatMap_cons]
    rcases escChar_cases b d with ⟨he, h1⟩ | ⟨e, hm, hd, he⟩
    · rw [he]; simp
    · rw [he]
      have hne : d ≠ c := by
        rintro rfl
        simp only [entities, List.mem_cons, List.not_mem_nil, or_false] at hm
        rcases hm with rfl | rfl | rfl | rfl | rfl <;> simp at hd <;> rcases hc with rfl | rfl <;> simp at hd
      have h2 : ('&' : Char) ≠ c := by rintro rfl; rcases hc with h | h <;> simp at h
      simp [hne, h2]

theorem entity_val_ne {e : Str × Char} (he : e ∈ entities) : e.2 ≠ '\r' ∧ e.2 ≠ '\n' := by
  revert e; decide

theorem newlines_other {c : Char} (h1 : c ≠ '\r') (h2 : c ≠ '\n') (r : Str) : newlines (c :: r) = c :: newlines r := by
  rw [newlines.eq_def]
  split <;> simp_all

theorem newlines_cr (r : Str) : newlines ('\r' :: r) = '\n' :: newlines (if r.head? = some '\n' then r.drop 1 else r) := by
  cases r with
  | nil => rfl
  | cons c r =>
    by_cases h : c = '\n'
    · subst h; simp [newlines]
    · have hh : ¬ (c :: r).head? = some '\n' := by simpa using h
      rw [if_neg hh, newlines.eq_def]
      split
      · rename_i e; cases e
      · rename_i e; cases e; exact absurd rfl h
      · rename_i e; cases e; try exact absurd rfl h
      · rename_i e; cases e; rfl
      · rename_i e; cases e; simp_all

theorem newlines_lf (r : Str) : newlines ('\n' :: r) = '\n' :: newlines (if r.head? = some '\r' then r.drop 1 else r) := by
  cases r with
  | nil => rfl
  | cons c r =>
    by_cases h : c = '\r'
    · subst h; simp [newlines]
    · have hh : ¬ (c :: r).head? = some '\r' := by simpa using h
      rw [if_neg hh, newlines.eq_def]
      split
      · rename_i e; cases e
      · rename_i e; cases e
      · rename_i e; cases e; exact absurd rfl h
      · rename_i e; cases e
      · rename_i e; cases e; rfl

theorem getStrLoop_esc (b : Bool) (orig : Str) : ∀ (n : Nat) (s out : Str), s.length ≤ n →
    getStrLoop true orig (esc b s) out = out ++ newlines s := by
  intro n
  induction n with
  | zero =>
    intro s out hs
    cases s with
    | nil => simp [esc, getStrLoop, newlines]
    | cons c s => simp at hs
  | succ n ih =>
    intro s out hs
    cases s with
    | nil => simp [esc, getStrLoop, newlines]
    | cons c s =>
      have hl : s.length ≤ n := by simpa using hs
      have hd : (s.drop 1).length ≤ n := by rw [List.length_drop]; omega
      rw [show esc b (c :: s) = escChar b c ++ esc b s from rfl]
      rcases escChar_cases b c with ⟨he, h1⟩ | ⟨e, hm, hd', he⟩
      · rw [he, List.singleton_append, getStrLoop]
        by_cases hr : c = '\r'
        · subst hr
          rw [if_pos rfl, newlines_cr]
          have hh := esc_head b s '\n' (Or.inr rfl)
          by_cases h : s.head? = some '\n'
          · rw [if_pos h, if_pos (hh.1.2 h), hh.2 h, ih _ _ hd]; simp
          · rw [if_neg h, if_neg (fun x => h (hh.1.1 x)), ih _ _ hl]; simp
        · rw [if_neg hr]
          by_cases hn : c = '\n'
          · subst hn
            rw [if_pos rfl, newlines_lf]
            have hh := esc_head b s '\r' (Or.inl rfl)
            by_cases h : s.head? = some '\r'
            · rw [if_pos h, if_pos (hh.1.2 h), hh.2 h, ih _ _ hd]; simp
            · rw [if_neg h, if_neg (fun x => h (hh.1.1 x)), ih _ _ hl]; simp
          · rw [if_neg hn, if_neg (by simp [h1.1]), ih _ _ hl, newlines_other hr hn]; simp
      · have hv := entity_val_ne hm
        rw [he, show '&' :: e.1 ++ [';'] ++ esc b s = '&' :: (e.1 ++ ';' :: esc b s) by simp, getStrLoop]
        rw [if_neg (by decide), if_neg (by decide), if_pos (by decide)]
        have hne : (e.1 ++ ';' :: esc b s).head? ≠ some '#' := by
          have := entity_head e hm
          cases h1 : e.1 with
          | nil => simp [h1] at this
          | cons x y => simp only [h1, List.head?_cons, ne_eq] at this; simpa using this.1
        have hdr : (e.1 ++ ';' :: esc b s).drop (e.1.length + 1) = esc b s := by
          rw [← List.drop_drop]; simp
        rw [if_neg hne, entityAt_spec e hm]
        simp only [hdr]
        rw [ih _ _ hl, hd', newlines_other (hd' ▸ hv.1) (hd' ▸ hv.2)]
        simp

theorem newlines_nul {s : Str} (h : '\x00' ∉ s) : '\x00' ∉ newlines s := by
  fun_induction newlines s <;> simp_all

theorem getStr_esc (b : Bool) {s : Str} (h : '\x00' ∉ s) : getStr true (esc b s) = newlines s := by
  unfold getStr
  rw [getStrLoop_esc b _ s.length s [] (Nat.le_refl _), List.nil_append]
  have h1 := newlines_nul h
  have h2 : ∀ c ∈ newlines s, decide (c ≠ '\x00') = true := by
    intro c hc
    simp only [ne_eq, decide_eq_true_eq]
    rintro rfl
    exact h1 hc
  have h3 := List.takeWhile_append_of_pos h2 (l₂ := [])
  simpa using h3

theorem escChar_no {b : Bool} {c q : Char} (hq : q = '<' ∨ (b = false ∧ q = '"')) : q ∉ escChar b c := by
  unfold escChar
  cases hf : entities.find? (fun e => e.2 == c) with
  | none =>
    rw [List.find?_eq_none] at hf
    simp only [List.mem_singleton]
    rintro rfl
    rcases hq with rfl | ⟨_, rfl⟩
    · exact hf ("lt".toList, '<') (by decide) (by decide)
    · exact hf ("quot".toList, '"') (by decide) (by decide)
  | some e =>
    have h1 := List.mem_of_find?_eq_some hf
    have h2 := List.find?_some hf
    simp only [beq_iff_eq] at h2
    have hall : ∀ e ∈ entities, '<' ∉ ('&' :: e.1 ++ [';']) ∧ '"' ∉ ('&' :: e.1 ++ [';']) := by decide
    simp only
    split
    · rcases hq with rfl | ⟨_, rfl⟩
      · exact (hall e h1).1
      · exact (hall e h1).2
    · rename_i h
      simp only [List.mem_singleton]
      rintro rfl
      rcases hq with rfl | ⟨rfl, rfl⟩ <;> simp at h

theorem esc_no {b : Bool} {s : Str} {q : Char} (hq : q = '<' ∨ (b = false ∧ q = '"')) : q ∉ esc b s := by
  unfold esc
  rw [List.mem_flatMap]
  rintro ⟨c, _, h⟩
  exact escChar_no hq h

end Verif.Xml
