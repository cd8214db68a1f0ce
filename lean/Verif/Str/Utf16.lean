import Verif.Str.Model
import Verif.Unicode.Props

/-!
C37, C38 on the level of characters: cutting texts with characters outside of the basic plane, and converting texts
with unpaired surrogates to UTF-32.
-/

namespace Verif.Str

open Verif.Unicode Verif.UnicodeSpec

/-- The UTF-16 text of a list of characters. -/
abbrev enc (cs : List Nat) : List (BitVec 16) := cs.flatMap utf16

/-- The whole characters that fit into `n` units, from the left. -/
def fit : List Nat → Nat → List Nat
  | [], _ => []
  | c :: cs, n => if (utf16 c).length ≤ n then c :: fit cs (n - (utf16 c).length) else []

/-- The characters that begin at or after the unit `k`. -/
def after : List Nat → Nat → List Nat
  | [], _ => []
  | c :: cs, k => if k = 0 then c :: cs else after cs (k - (utf16 c).length)

theorem utf16_cases (c : Nat) (h : IsScalar c) :
    (∃ u, utf16 c = [u] ∧ isHigh u = false ∧ isLow u = false) ∨
    (∃ u v, utf16 c = [u, v] ∧ isHigh u = true ∧ isLow u = false ∧ isLow v = true ∧ isHigh v = false) := by
  obtain ⟨h1, h2⟩ := h
  by_cases hc : c < 0x10000
  · left
    refine ⟨BitVec.ofNat 16 c, by simp [utf16, hc], ?_, ?_⟩
    · simp only [isHigh, BitVec.le_def, BitVec.toNat_ofNat, Bool.and_eq_false_iff, decide_eq_false_iff_not]; omega
    · simp only [isLow, BitVec.le_def, BitVec.toNat_ofNat, Bool.and_eq_false_iff, decide_eq_false_iff_not]; omega
  · right
    refine ⟨BitVec.ofNat 16 (0xD800 + (c - 0x10000) / 1024), BitVec.ofNat 16 (0xDC00 + (c - 0x10000) % 1024),
      by simp [utf16, hc], ?_, ?_, ?_, ?_⟩
    · simp only [isHigh, BitVec.le_def, BitVec.toNat_ofNat, Bool.and_eq_true, decide_eq_true_eq]; omega
    · simp only [isLow, BitVec.le_def, BitVec.toNat_ofNat, Bool.and_eq_false_iff, decide_eq_false_iff_not]; omega
    · simp only [isLow, BitVec.le_def, BitVec.toNat_ofNat, Bool.and_eq_true, decide_eq_true_eq]; omega
    · simp only [isHigh, BitVec.le_def, BitVec.toNat_ofNat, Bool.and_eq_false_iff, decide_eq_false_iff_not]; omega

theorem trimRight_cons (u : BitVec 16) (X : List (BitVec 16)) (h : isHigh u = false ∨ X ≠ []) :
    trimRightInvalid (u :: X) = u :: trimRightInvalid X := by
  cases X with
  | nil =>
    have hu : isHigh u = false := by simpa using h
    simp [trimRightInvalid, hu]
  | cons v X =>
    unfold trimRightInvalid
    rw [List.getLast?_cons_cons]
    cases hl : (v :: X).getLast? with
    | none => simp at hl
    | some w =>
      dsimp only
      split <;> simp

theorem trimRight_take (cs : List Nat) (h : ∀ c ∈ cs, IsScalar c) (n : Nat) :
    trimRightInvalid ((enc cs).take n) = enc (fit cs n) := by
  induction cs generalizing n with
  | nil => simp [fit, trimRightInvalid]
  | cons c cs ih =>
    have ih := ih (fun x hx => h x (by simp [hx]))
    rw [enc, List.flatMap_cons]
    rcases utf16_cases c (h c (by simp)) with ⟨u, e, h1, -⟩ | ⟨u, v, e, h1, -, -, h4⟩
    · rw [fit, e]
      cases n with
      | zero => simp [trimRightInvalid]
      | succ n =>
        rw [if_pos (by simp)]
        simp only [List.cons_append, List.nil_append, List.take_succ_cons, List.length_cons, List.length_nil]
        rw [trimRight_cons u _ (.inl h1), ih n]
        simp [e]
    · rw [fit, e]
      match n with
      | 0 => simp [trimRightInvalid]
      | 1 => simp [trimRightInvalid, h1]
      | n + 2 =>
        rw [if_pos (by simp)]
        simp only [List.cons_append, List.nil_append, List.take_succ_cons, List.length_cons, List.length_nil]
        rw [trimRight_cons u _ (.inr (by simp)), trimRight_cons v _ (.inl h4), ih n]
        simp [e]

/-- **C38**, Left: the first `n` units of a text without half characters: the result is exactly the text of the whole
characters that fit into `n` units. -/
theorem C38_left_chars (cs : List Nat) (h : ∀ c ∈ cs, IsScalar c) (n : Nat) : left (enc cs) n = enc (fit cs n) :=
  trimRight_take cs h n

/-- Dropping units and then the low half at the beginning. -/
theorem drop_enc (cs : List Nat) (h : ∀ c ∈ cs, IsScalar c) (k : Nat) (hk : k ≤ (enc cs).length) :
    ∃ l, (enc cs).drop k = l ++ enc (after cs k) ∧ (l = [] ∨ ∃ v, l = [v] ∧ isLow v = true) := by
  induction cs generalizing k with
  | nil => exact ⟨[], by simp [after], .inl rfl⟩
  | cons c cs ih =>
    have ih := ih (fun x hx => h x (by simp [hx]))
    rw [after]
    split
    · rename_i hk; subst hk; exact ⟨[], by simp, .inl rfl⟩
    · rename_i hk0
      rw [enc, List.flatMap_cons] at hk ⊢
      rcases utf16_cases c (h c (by simp)) with ⟨u, e, -, -⟩ | ⟨u, v, e, -, -, h3, -⟩
      · rw [e] at hk ⊢
        cases k with
        | zero => omega
        | succ k =>
          simp only [List.cons_append, List.nil_append, List.length_cons, List.length_nil] at hk ⊢
          rw [List.drop_succ_cons]
          exact ih k (by simpa using hk)
      · rw [e] at hk ⊢
        match k with
        | 0 => omega
        | 1 =>
          refine ⟨[v], ?_, .inr ⟨v, rfl, h3⟩⟩
          have : after cs 0 = cs := by cases cs <;> simp [after]
          simp [this]
        | k + 2 =>
          simp only [List.cons_append, List.nil_append, List.length_cons, List.length_nil] at hk ⊢
          rw [List.drop_succ_cons, List.drop_succ_cons]
          exact ih k (by simpa using hk)

theorem after_sub (cs : List Nat) (k : Nat) : ∃ p, cs = p ++ after cs k := by
  induction cs generalizing k with
  | nil => exact ⟨[], rfl⟩
  | cons c cs ih =>
    rw [after]
    split
    · exact ⟨[], rfl⟩
    · obtain ⟨p, hp⟩ := ih (k - (utf16 c).length)
      refine ⟨c :: p, ?_⟩
      rw [List.cons_append, ← hp]

theorem fit_sub (cs : List Nat) (n : Nat) : ∃ p, cs = fit cs n ++ p := by
  induction cs generalizing n with
  | nil => exact ⟨[], rfl⟩
  | cons c cs ih =>
    rw [fit]
    split
    · obtain ⟨p, hp⟩ := ih (n - (utf16 c).length)
      exact ⟨p, by rw [List.cons_append, ← hp]⟩
    · exact ⟨c :: cs, rfl⟩

theorem trimLeft_enc (cs : List Nat) (h : ∀ c ∈ cs, IsScalar c) : trimLeftInvalid (enc cs) = enc cs := by
  cases cs with
  | nil => rfl
  | cons c cs =>
    rw [enc, List.flatMap_cons]
    rcases utf16_cases c (h c (by simp)) with ⟨u, e, -, h2⟩ | ⟨u, v, e, -, h2, -, -⟩ <;>
      simp [e, trimLeftInvalid, h2]

theorem scalars_after (cs : List Nat) (h : ∀ c ∈ cs, IsScalar c) (k : Nat) : ∀ c ∈ after cs k, IsScalar c := by
  obtain ⟨p, hp⟩ := after_sub cs k
  intro c hc
  exact h c (by rw [hp]; simp [hc])

/-- **C38**, Right: the result is exactly the text of the characters that begin within the last `n` units. -/
theorem C38_right_chars (cs : List Nat) (h : ∀ c ∈ cs, IsScalar c) (n : Nat) (hn : n ≤ (enc cs).length) :
    right (enc cs) n = enc (after cs ((enc cs).length - n)) := by
  rw [right]
  split
  · rename_i hl
    have : (enc cs).length - n = 0 := by omega
    rw [this]
    cases cs <;> simp [after]
  · obtain ⟨l, e, hl⟩ := drop_enc cs h ((enc cs).length - n) (by omega)
    rw [e]
    rcases hl with rfl | ⟨v, rfl, hv⟩
    · exact trimLeft_enc _ (scalars_after cs h _)
    · simp [trimLeftInvalid, hv]

/-- **C38**, Mid: the result is exactly the text of the whole characters between the units `first` and `first + len`:
of the characters that begin at or after `first`, those that fit before `first + len`. -/
theorem C38_mid_chars (cs : List Nat) (h : ∀ c ∈ cs, IsScalar c) (first len : Nat) (hf : first < (enc cs).length) :
    mid (enc cs) first len =
      enc (fit (after cs first) (first + len - ((enc cs).length - (enc (after cs first)).length))) := by
  rw [mid, if_neg (by omega)]
  obtain ⟨l, e, hl⟩ := drop_enc cs h first (by omega)
  have hs := scalars_after cs h first
  have hlen : (enc cs).length - first = l.length + (enc (after cs first)).length := by
    have := congrArg List.length e
    simpa using this
  rw [e]
  rcases hl with rfl | ⟨v, rfl, hv⟩
  · have e2 : (enc cs).length - (enc (after cs first)).length = first := by
      simp only [List.length_nil] at hlen; omega
    rw [e2, Nat.add_sub_cancel_left, List.nil_append]
    have ht : trimLeftInvalid ((enc (after cs first)).take len) = (enc (after cs first)).take len := by
      cases hc : after cs first with
      | nil => simp [trimLeftInvalid]
      | cons c t =>
        rw [enc, List.flatMap_cons]
        cases len with
        | zero => simp [trimLeftInvalid]
        | succ m =>
          rcases utf16_cases c (hs c (by simp [hc])) with ⟨u, e, -, h2⟩ | ⟨u, v, e, -, h2, -, -⟩ <;>
            simp [e, trimLeftInvalid, h2]
    rw [ht, trimRight_take _ hs]
  · have e2 : (enc cs).length - (enc (after cs first)).length = first + 1 := by
      simp only [List.length_cons, List.length_nil] at hlen; omega
    rw [e2]
    cases len with
    | zero =>
      have : first + 0 - (first + 1) = 0 := by omega
      rw [this]
      have hz : fit (after cs first) 0 = [] := by
        cases hc : after cs first with
        | nil => rfl
        | cons c t =>
          rw [fit, if_neg]
          rcases utf16_cases c (hs c (by simp [hc])) with ⟨u, e, -, h2⟩ | ⟨u, v, e, -, h2, -, -⟩ <;> simp [e]
      rw [hz]
      simp [trimLeftInvalid, trimRightInvalid]
    | succ m =>
      have : first + (m + 1) - (first + 1) = m := by omega
      rw [this]
      simp only [List.cons_append, List.nil_append, List.take_succ_cons, trimLeftInvalid, hv, if_true]
      exact trimRight_take _ hs m

/-- "a😀b😀": cut in the middle of both pairs. -/
example : fit [0x61, 0x1F600, 0x62] 2 = [0x61] ∧ after [0x61, 0x1F600, 0x62] 2 = [0x62] ∧
    mid (enc [0x61, 0x1F600, 0x62, 0x1F600]) 2 3 = enc [0x62] ∧ (∀ c ∈ [0x61, 0x1F600, 0x62], IsScalar c) := by
  refine ⟨by decide, by decide, by decide, ?_⟩
  intro c hc
  simp only [List.mem_cons, List.not_mem_nil, or_false] at hc
  rcases hc with rfl | rfl | rfl <;> exact ⟨by decide, by decide⟩

/-! ### C37: unpaired surrogates -/

/-- The characters of a UTF-16 text; a surrogate without partner counts as "?". -/
def chars16 : List Unit16 → List Nat
  | [] => []
  | [u] => if 0xD800 ≤ u.toNat ∧ u.toNat ≤ 0xDFFF then [0x3F] else [u.toNat]
  | u :: v :: t =>
    if 0xD800 ≤ u.toNat ∧ u.toNat ≤ 0xDBFF ∧ 0xDC00 ≤ v.toNat ∧ v.toNat ≤ 0xDFFF then
      (0x10000 + (u.toNat - 0xD800) * 1024 + (v.toNat - 0xDC00)) :: chars16 t
    else (if 0xD800 ≤ u.toNat ∧ u.toNat ≤ 0xDFFF then 0x3F else u.toNat) :: chars16 (v :: t)

theorem chars16_one (u : Unit16) :
    chars16 [u] = if 0xD800 ≤ u.toNat ∧ u.toNat ≤ 0xDFFF then [0x3F] else [u.toNat] := by rw [chars16]

/-- **C37**, UTF-16 to UTF-32 for every text, well-formed or not: paired surrogates give their character, every
unpaired surrogate gives "?", everything else itself; nothing outside of the text is read. -/
theorem C37_toUtf32 : ∀ (n : Nat) (ws : List Unit16) (after : List Unit16), (∀ u ∈ ws, u ≠ 0) → ws.length ≤ n →
    toUtf32 (ws ++ 0 :: after) n = some (chars16 ws) := by
  intro n
  induction n using Nat.strongRecOn with
  | ind n ih =>
    intro ws after h0 hn
    match ws, n with
    | [], 0 => rfl
    | [], n + 1 => exact (toUtf32.eq_def _ _).trans (if_pos rfl)
    | u :: ws, 0 => simp at hn
    | [u], n + 1 =>
      have hu : u ≠ 0 := h0 u (by simp)
      have hr := ih n (by omega) [] after (by simp) (by simp)
      simp only [List.nil_append] at hr
      simp only [List.cons_append, List.nil_append]
      rw [toUtf32, if_neg hu, hr, chars16_one]
      have hm : ¬ ((0 : Unit16).toNat ≥ 0xDC00 ∧ (0 : Unit16).toNat ≤ 0xDFFF) := by decide
      rw [if_neg hm]
      by_cases h1 : u.toNat < 0xD800 ∨ u.toNat > 0xDFFF
      · rw [if_pos h1, if_neg (by omega)]; rfl
      · have h2 : 0xD800 ≤ u.toNat ∧ u.toNat ≤ 0xDFFF := by omega
        rw [if_neg h1, if_pos h2]
        split <;> rfl
    | u :: v :: ws, n + 1 =>
      have hu : u ≠ 0 := h0 u (by simp)
      have hr := ih n (by omega) (v :: ws) after (fun x hx => h0 x (by simp [hx])) (by simpa using hn)
      have hr2 := ih n (by omega) ws after (fun x hx => h0 x (by simp [hx])) (by simp at hn; omega)
      simp only [List.cons_append] at hr ⊢
      rw [toUtf32, if_neg hu, hr, hr2, chars16]
      by_cases h1 : u.toNat < 0xD800 ∨ u.toNat > 0xDFFF
      · rw [if_pos h1, if_neg (by omega), if_neg (by omega)]; rfl
      · rw [if_neg h1]
        by_cases h2 : u.toNat < 0xDC00
        · rw [if_pos h2]
          by_cases h3 : v.toNat ≥ 0xDC00 ∧ v.toNat ≤ 0xDFFF
          · rw [if_pos h3, if_pos (by omega)]
            have ev : ((u.toNat <<< 10) + v.toNat + surrogateOffset) % 2 ^ 32 =
                0x10000 + (u.toNat - 0xD800) * 1024 + (v.toNat - 0xDC00) := by
              rw [Nat.shiftLeft_eq, show surrogateOffset = 4238353408 by decide]
              omega
            rw [ev]; rfl
          · rw [if_neg h3, if_neg (by omega), if_pos (by omega)]; rfl
        · rw [if_neg h2, if_neg (by omega), if_pos (by omega)]; rfl

example : chars16 [0x61, 0xD83D, 0xDE00, 0xDC00, 0x62, 0xD800] = [0x61, 0x1F600, 0x3F, 0x62, 0x3F] := by decide

end Verif.Str
