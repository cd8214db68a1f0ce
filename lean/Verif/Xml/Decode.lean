import Verif.Xml.Lemmas

/-!
Values in the file: what `GetStr` makes of them.
-/

namespace Verif.Xml

open Spec

theorem digit_val {hex : Bool} {c : Char} {d : Nat} (h : Digit hex c d) :
    digitVal hex c = some d ∧ d < (if hex then 16 else 10) ∧ c ≠ ';' ∧ c ≠ 'x' ∧ c ≠ '#' := by
  have key : ∀ x : Char, x.toNat ≠ c.toNat → c ≠ x := by rintro x hx rfl; exact hx rfl
  unfold Digit at h
  simp only [Char.le_def, UInt32.le_iff_toNat_le] at h
  change (48 ≤ c.toNat ∧ c.toNat ≤ 57 ∧ c.toNat = 48 + d) ∨ (hex = true ∧ 97 ≤ c.toNat ∧ c.toNat ≤ 102 ∧ c.toNat + 10 = 97 + d) ∨
    (hex = true ∧ 65 ≤ c.toNat ∧ c.toNat ≤ 70 ∧ c.toNat + 10 = 65 + d) at h
  have h1 : c ≠ ';' := key _ (by change 59 ≠ _; omega)
  have h2 : c ≠ 'x' := key _ (by change 120 ≠ _; omega)
  have h3 : c ≠ '#' := key _ (by change 35 ≠ _; omega)
  refine ⟨?_, ?_, h1, h2, h3⟩
  · unfold digitVal isDigit
    simp only [Bool.and_eq_true, decide_eq_true_eq]
    rcases h with ⟨a, b, e⟩ | ⟨a, b, e, g⟩ | ⟨a, b, e, g⟩
    · rw [if_pos ⟨a, b⟩]; congr 1; omega
    · rw [if_neg (by omega), if_pos ⟨a, b, e⟩]; congr 1; omega
    · rw [if_neg (by omega), if_neg (by omega), if_pos ⟨a, b, e⟩]; congr 1; omega
  · rcases h with ⟨a, b, e⟩ | ⟨a, b, e, g⟩ | ⟨a, b, e, g⟩
    · split <;> omega
    · rw [if_pos a]; omega
    · rw [if_pos a]; omega

theorem numeral_char {hex : Bool} {s : Str} {u : Nat} (h : Numeral hex s u) :
    ∀ c ∈ s, c ≠ ';' ∧ c ≠ 'x' ∧ c ≠ '#' := by
  induction h with
  | one h => simpa using (digit_val h).2.2
  | more _ h ih =>
    intro c hc
    rcases List.mem_append.1 hc with hc | hc
    · exact ih c hc
    · simp only [List.mem_singleton] at hc
      subst hc; exact (digit_val h).2.2

theorem numeral_ne {hex : Bool} {s : Str} {u : Nat} (h : Numeral hex s u) : s ≠ [] := by
  cases h <;> simp

/-- The digits before the last `m` ones: `mult` is the power of the base modulo 2^32. -/
theorem digitsBack_numeral {hex : Bool} {stop : Char} (hstop : stop = 'x' ∨ stop = '#') {s : Str} {u : Nat}
    (h : Numeral hex s u) : ∀ (m ucs : Nat), u * (if hex then 16 else 10) ^ m < 2 ^ 32 →
    digitsBack hex stop s.reverse ((if hex then 16 else 10) ^ m % 2 ^ 32) ucs =
      some (ucs + u * (if hex then 16 else 10) ^ m) := by
  generalize hbase : (if hex then 16 else 10) = base
  have cell : ∀ (d m : Nat), d * base ^ m < 2 ^ 32 → base ^ m % 2 ^ 32 * d % 2 ^ 32 = d * base ^ m := by
    intro d m hd
    rw [Nat.mul_comm, Nat.mul_mod_mod, Nat.mod_eq_of_lt hd]
  have next : ∀ m : Nat, base ^ m % 2 ^ 32 * base % 2 ^ 32 = base ^ (m + 1) % 2 ^ 32 := by
    intro m
    rw [Nat.pow_succ base, Nat.mod_mul_mod]
  have hne : ∀ c, c ≠ ';' ∧ c ≠ 'x' ∧ c ≠ '#' → c ≠ stop := by
    rintro c ⟨-, h1, h2⟩
    rcases hstop with rfl | rfl <;> assumption
  induction h with
  | one h =>
    intro m ucs hu
    obtain ⟨h1, -, h2⟩ := digit_val h
    simp only [List.reverse_singleton, digitsBack]
    rw [if_neg (hne _ h2), h1, Option.bind_some, cell _ _ hu]
  | more hs h ih =>
    rename_i s v c d
    intro m ucs hu
    obtain ⟨h1, -, h2⟩ := digit_val h
    rw [hbase, Nat.add_mul, Nat.mul_assoc, Nat.mul_comm base (base ^ m), ← Nat.pow_succ, Nat.succ_eq_add_one] at hu
    rw [List.reverse_append, List.reverse_singleton, List.singleton_append, digitsBack, hbase]
    rw [if_neg (hne _ h2), h1, Option.bind_some, next, cell d m (by omega), ih (m + 1) _ (by omega)]
    rw [Nat.add_mul, Nat.mul_assoc, Nat.mul_comm base (base ^ m), ← Nat.pow_succ, Nat.succ_eq_add_one]
    congr 1
    omega

theorem utf8Bytes_spec {u : Nat} (h : UnicodeSpec.IsScalar u) : utf8Bytes u = codeBytes u := by
  have h1 := h.1
  have b : ∀ x : Nat, x < 256 → (BitVec.ofNat 8 x).toNat = x := by
    intro x hx; rw [BitVec.toNat_ofNat]; exact Nat.mod_eq_of_lt hx
  unfold utf8Bytes codeBytes UnicodeSpec.utf8
  simp only
  split
  · simp only [List.map_cons, List.map_nil]; rw [b _ (by omega)]
  · split
    · simp only [List.map_cons, List.map_nil]
      rw [b _ (by omega), b _ (by omega), Nat.add_comm 0x80]
    · split
      · simp only [List.map_cons, List.map_nil]
        rw [b _ (by omega), b _ (by omega), b _ (by omega), Nat.add_comm 0x80, Nat.add_comm 0x80]
      · rw [if_pos (by omega)]
        simp only [List.map_cons, List.map_nil]
        rw [b _ (by omega), b _ (by omega), b _ (by omega), b _ (by omega), Nat.add_comm 0x80, Nat.add_comm 0x80,
          Nat.add_comm 0x80]

theorem codeBytes_nul {u : Nat} (h : UnicodeSpec.IsScalar u) (h0 : u ≠ 0) : ∀ c ∈ codeBytes u, c ≠ '\x00' := by
  have h1 := h.1
  have b : ∀ x : Nat, 0 < x → x < 256 → Char.ofNat (BitVec.ofNat 8 x).toNat ≠ '\x00' := by
    intro x hx hx' he
    rw [BitVec.toNat_ofNat, Nat.mod_eq_of_lt hx'] at he
    have key : ∀ y < 256, 0 < y → Char.ofNat y ≠ '\x00' := by decide +kernel
    exact key x hx' hx he
  unfold codeBytes UnicodeSpec.utf8
  repeat' split
  all_goals
    simp only [List.map_cons, List.map_nil, List.mem_cons, List.not_mem_nil, or_false]
  · rintro c rfl; exact b _ (by omega) (by omega)
  · rintro c (rfl | rfl) <;> exact b _ (by omega) (by omega)
  · rintro c (rfl | rfl | rfl) <;> exact b _ (by omega) (by omega)
  · rintro c (rfl | rfl | rfl | rfl) <;> exact b _ (by omega) (by omega)

theorem charRef_dec {s : Str} {u : Nat} (h : Numeral false s u) (hu : UnicodeSpec.IsScalar u) (r : Str) :
    charRef (s ++ ';' :: r) = some (codeBytes u, s.length + 2) := by
  have h1 := numeral_char h
  have h2 := hu.1
  have h3 := digitsBack_numeral (Or.inr rfl : '#' = 'x' ∨ '#' = '#') h 0 0 (by simp; omega)
  have h4 := parseText_single (q := ';') (s := s) (fun hm => (h1 _ hm).1 rfl) r
  cases s with
  | nil => exact absurd rfl (numeral_ne h)
  | cons c s =>
    rw [List.cons_append] at h4 ⊢
    rw [charRef, if_neg (h1 c (by simp)).2.1, h4, Option.bind_some]
    simp only [Bool.false_eq_true, if_false, Nat.pow_zero, Nat.mul_one, Nat.zero_add] at h3
    rw [show (1 % 2 ^ 32) = 1 from rfl] at h3
    simp only
    rw [h3, Option.map_some, utf8Bytes_spec hu]

theorem charRef_hex {s : Str} {u : Nat} (h : Numeral true s u) (hu : UnicodeSpec.IsScalar u) (r : Str) :
    charRef ('x' :: (s ++ ';' :: r)) = some (codeBytes u, s.length + 3) := by
  have h1 := numeral_char h
  have h2 := hu.1
  have h3 := digitsBack_numeral (Or.inl rfl : 'x' = 'x' ∨ 'x' = '#') h 0 0 (by simp; omega)
  have h4 := parseText_single (q := ';') (s := s) (fun hm => (h1 _ hm).1 rfl) r
  rw [charRef, if_pos rfl, h4, Option.bind_some]
  simp only [if_true, Nat.pow_zero, Nat.mul_one, Nat.zero_add] at h3
  rw [show (1 % 2 ^ 32) = 1 from rfl] at h3
  simp only
  rw [h3, Option.map_some, utf8Bytes_spec hu]

theorem entityAt_entity {n : String} {c : Char} (h : Entity n c) (r : Str) :
    entityAt (n.toList ++ ';' :: r) = some (n.toList, c) ∧ n.toList.head? ≠ some '#' ∧ c ≠ '\x00' := by
  rcases h with ⟨rfl, rfl⟩ | ⟨rfl, rfl⟩ | ⟨rfl, rfl⟩ | ⟨rfl, rfl⟩ | ⟨rfl, rfl⟩ <;>
    exact ⟨by simp [entityAt, entities, List.isPrefixOf], by decide, by decide⟩

theorem getStrLoop_decoded (orig : Str) {raw v : Str} (h : Decoded raw v) : ∀ out,
    getStrLoop true orig raw out = out ++ v := by
  induction h with
  | nil => intro out; simp [getStrLoop]
  | plain h1 h2 h3 _ _ ih => intro out; rw [getStrLoop]; simp [h1, h2, h3, ih]
  | crlf _ ih => intro out; rw [getStrLoop]; simp [ih]
  | lfcr _ ih => intro out; rw [getStrLoop]; simp [ih]
  | cr h _ ih => intro out; rw [getStrLoop, if_pos rfl, if_neg h, ih]; simp
  | lf h _ ih => intro out; rw [getStrLoop, if_neg (by decide), if_pos rfl, if_neg h, ih]; simp
  | @entity n c r v h _ ih =>
    intro out
    obtain ⟨h1, h2, -⟩ := entityAt_entity h r
    have h3 : (n.toList ++ ';' :: r).head? ≠ some '#' := by
      cases hn : n.toList with
      | nil => simp
      | cons a b => rw [hn] at h2; simpa using h2
    rw [getStrLoop, if_neg (by decide), if_neg (by decide), if_pos (by decide), if_neg h3, h1]
    simp only
    rw [show n.toList ++ ';' :: r = (n.toList ++ [';']) ++ r by simp,
      show n.toList.length + 1 = (n.toList ++ [';']).length by simp, List.drop_left, ih]
    simp
  | @dec s u r v h _ hu _ ih =>
    intro out
    rw [getStrLoop, if_neg (by decide), if_neg (by decide), if_pos (by decide), if_pos (by rfl), List.drop_one, List.tail_cons,
      charRef_dec h hu]
    simp only
    rw [show '#' :: (s ++ ';' :: r) = ('#' :: (s ++ [';'])) ++ r by simp,
      show s.length + 2 = ('#' :: (s ++ [';'])).length by simp, List.drop_left, ih]
    simp
  | @hex s u r v h _ hu _ ih =>
    intro out
    rw [getStrLoop, if_neg (by decide), if_neg (by decide), if_pos (by decide), if_pos (by rfl), List.drop_one, List.tail_cons,
      charRef_hex h hu]
    simp only
    rw [show '#' :: 'x' :: (s ++ ';' :: r) = ('#' :: 'x' :: (s ++ [';'])) ++ r by simp,
      show s.length + 3 = ('#' :: 'x' :: (s ++ [';'])).length by simp, List.drop_left, ih]
    simp

theorem decoded_nul {raw v : Str} (h : Decoded raw v) : ∀ c ∈ v, c ≠ '\x00' := by
  induction h with
  | nil => simp
  | plain _ _ _ h _ ih =>
    simp only [List.mem_cons]; rintro c (rfl | hc)
    · exact h
    · exact ih c hc
  | crlf _ ih | lfcr _ ih | cr _ _ ih | lf _ _ ih =>
    simp only [List.mem_cons]; rintro c (rfl | hc)
    · decide
    · exact ih c hc
  | entity h _ ih =>
    simp only [List.mem_cons]; rintro c (rfl | hc)
    · exact (entityAt_entity h []).2.2
    · exact ih c hc
  | dec _ h0 h _ ih | hex _ h0 h _ ih =>
    intro c hc
    rcases List.mem_append.1 hc with hc | hc
    · exact codeBytes_nul h h0 c hc
    · exact ih c hc

theorem getStr_decoded {raw v : Str} (h : Decoded raw v) : getStr true raw = v := by
  unfold getStr
  rw [getStrLoop_decoded raw h, List.nil_append]
  have := List.takeWhile_append_of_pos (p := fun c => decide (c ≠ '\x00')) (l₁ := v) (l₂ := [])
    (by intro c hc; simpa using decoded_nul h c hc)
  simpa using this

end Verif.Xml
