import Verif.Xchg.JsonSpec

/-!
# UTF-8 in `dump_escaped` and `scan_string`
-/

namespace Verif.Xchg

open Verif.UnicodeSpec JsonSpec

theorem ofNat_toNat' (n : Nat) (h : n < 0xD800) : (Char.ofNat n).toNat = n := by
  have hv : n.isValidChar := Or.inl h
  rw [Char.ofNat, dif_pos hv]
  show (BitVec.ofNatLT n _).toNat = n
  simp

theorem char_eq (c : Char) : c = Char.ofNat c.toNat := (Char.ofNat_toNat c).symm

/-- The transitions, read off the table. -/
def nsSpec (st n : Nat) : Nat :=
  match st with
  | 0 => if n < 0x80 then 0 else if 0xC2 ≤ n ∧ n ≤ 0xDF then 2 else if n = 0xE0 then 4 else if n = 0xED then 5
    else if 0xE1 ≤ n ∧ n ≤ 0xEF then 3 else if n = 0xF0 then 6 else if 0xF1 ≤ n ∧ n ≤ 0xF3 then 7 else if n = 0xF4 then 8 else 1
  | 2 => if 0x80 ≤ n ∧ n ≤ 0xBF then 0 else 1
  | 3 => if 0x80 ≤ n ∧ n ≤ 0xBF then 2 else 1
  | 4 => if 0xA0 ≤ n ∧ n ≤ 0xBF then 2 else 1
  | 5 => if 0x80 ≤ n ∧ n ≤ 0x9F then 2 else 1
  | 6 => if 0x90 ≤ n ∧ n ≤ 0xBF then 3 else 1
  | 7 => if 0x80 ≤ n ∧ n ≤ 0xBF then 3 else 1
  | 8 => if 0x80 ≤ n ∧ n ≤ 0x8F then 3 else 1
  | _ => 1

theorem ns_table : ∀ st : Fin 9, ∀ n : Fin 256, nextState st (Char.ofNat n) = nsSpec st n := by decide +kernel

theorem ns_eq (st : Nat) (c : Char) (hst : st < 9) : nextState st c = if c.toNat < 256 then nsSpec st c.toNat else 1 := by
  by_cases h : c.toNat < 256
  · rw [if_pos h]
    have := ns_table ⟨st, hst⟩ ⟨c.toNat, h⟩
    simp only at this
    rwa [← char_eq] at this
  · rw [if_neg h]
    unfold nextState utf8Type
    rw [if_neg h]
    have : ∀ st : Fin 9, utf8d.getD (256 + st.val * 16 + 8) 1 = 1 := by decide +kernel
    exact this ⟨st, hst⟩

theorem nc_table : ∀ n : Fin 256, nextCode 0 0 (Char.ofNat n) =
    if n.val < 0x80 then n.val else if 0xC2 ≤ n.val ∧ n.val ≤ 0xDF then n.val - 0xC0 else if 0xE0 ≤ n.val ∧ n.val ≤ 0xEF then n.val - 0xE0
    else if 0xF0 ≤ n.val ∧ n.val ≤ 0xF4 then n.val - 0xF0 else nextCode 0 0 (Char.ofNat n) := by decide +kernel

theorem nc_zero (n cp : Nat) (h : n < 256) : nextCode 0 cp (Char.ofNat n) =
    if n < 0x80 then n else if 0xC2 ≤ n ∧ n ≤ 0xDF then n - 0xC0 else if 0xE0 ≤ n ∧ n ≤ 0xEF then n - 0xE0
    else if 0xF0 ≤ n ∧ n ≤ 0xF4 then n - 0xF0 else nextCode 0 0 (Char.ofNat n) := nc_table ⟨n, h⟩

theorem nc_succ (st n cp : Nat) (hst : st ≠ 0) (h1 : 0x80 ≤ n) (h2 : n ≤ 0xBF) : nextCode st cp (Char.ofNat n) = cp * 64 + (n - 0x80) := by
  unfold nextCode
  rw [if_pos hst, ofNat_toNat' n (by omega), Nat.or_comm]
  have e : n &&& 0x3f = n % 64 := Nat.and_two_pow_sub_one_eq_mod n 6
  rw [e, ← Nat.shiftLeft_add_eq_or_of_lt (by omega : n % 64 < 2 ^ 6), Nat.shiftLeft_eq]
  omega

/-! ### Shapes -/

theorem ofNat8' (n : Nat) (h : n < 256) : (BitVec.ofNat 8 n).toNat = n := by
  simp only [BitVec.toNat_ofNat]
  omega

theorem bytesOf_1 (c : Nat) (h : c < 0x80) : bytesOf c = [Char.ofNat c] := by
  unfold bytesOf utf8
  rw [if_pos h]
  simp only [List.map_cons, List.map_nil, ofNat8' c (by omega)]

theorem bytesOf_2 (c : Nat) (h1 : 0x80 ≤ c) (h : c < 0x800) : bytesOf c = [Char.ofNat (0xC0 + c / 64), Char.ofNat (0x80 + c % 64)] := by
  unfold bytesOf utf8
  rw [if_neg (by omega), if_pos h]
  simp only [List.map_cons, List.map_nil, ofNat8' (0xC0 + c / 64) (by omega), ofNat8' (0x80 + c % 64) (by omega)]

theorem bytesOf_3 (c : Nat) (h1 : 0x800 ≤ c) (h : c < 0x10000) :
    bytesOf c = [Char.ofNat (0xE0 + c / 4096), Char.ofNat (0x80 + c / 64 % 64), Char.ofNat (0x80 + c % 64)] := by
  unfold bytesOf utf8
  rw [if_neg (by omega), if_neg (by omega), if_pos h]
  simp only [List.map_cons, List.map_nil, ofNat8' (0xE0 + c / 4096) (by omega), ofNat8' (0x80 + c / 64 % 64) (by omega),
    ofNat8' (0x80 + c % 64) (by omega)]

theorem bytesOf_4 (c : Nat) (h1 : 0x10000 ≤ c) (h : c ≤ 0x10FFFF) :
    bytesOf c = [Char.ofNat (0xF0 + c / 262144), Char.ofNat (0x80 + c / 4096 % 64), Char.ofNat (0x80 + c / 64 % 64), Char.ofNat (0x80 + c % 64)] := by
  unfold bytesOf utf8
  rw [if_neg (by omega), if_neg (by omega), if_neg (by omega)]
  simp only [List.map_cons, List.map_nil, ofNat8' (0xF0 + c / 262144) (by omega), ofNat8' (0x80 + c / 4096 % 64) (by omega),
    ofNat8' (0x80 + c / 64 % 64) (by omega), ofNat8' (0x80 + c % 64) (by omega)]

/-! ### dump_escaped -/

theorem dump_start (a b : Nat) (s : List Char) : dumpEscaped 0 a s = dumpEscaped 0 b s := by
  cases s with
  | nil => rfl
  | cons c t => rfl

theorem dump_accept (st cp n : Nat) (t : List Char) (h : nextState st (Char.ofNat n) = 0) :
    dumpEscaped st cp (Char.ofNat n :: t) =
      dumpEscaped 0 0 t >>= fun r => .ok (escapeCode (nextCode st cp (Char.ofNat n)) (Char.ofNat n) ++ r) := by
  rw [dumpEscaped]
  simp only [h, if_true]
  rw [dump_start _ 0]

theorem dump_more (st cp n : Nat) (t : List Char) (h : nextState st (Char.ofNat n) ≠ 0) (h1 : nextState st (Char.ofNat n) ≠ 1) :
    dumpEscaped st cp (Char.ofNat n :: t) =
      dumpEscaped (nextState st (Char.ofNat n)) (nextCode st cp (Char.ofNat n)) t >>= fun r => .ok (Char.ofNat n :: r) := by
  rw [dumpEscaped]
  simp only [if_neg h, if_neg h1]

theorem ns_nat (st n : Nat) (hst : st < 9) (hn : n < 256) : nextState st (Char.ofNat n) = nsSpec st n := by
  rw [ns_eq st _ hst, ofNat_toNat' n (by omega), if_pos hn]

/-- What is written for a character. -/
def written (c : Nat) : List Char := if c < 0x80 then escapeCode c (Char.ofNat c) else bytesOf c

theorem escape_high (c : Nat) (x : Char) (h : 0x80 ≤ c) : escapeCode c x = [x] := by
  unfold escapeCode
  rw [if_neg (by omega), if_neg (by omega), if_neg (by omega), if_neg (by omega), if_neg (by omega), if_neg (by omega),
    if_neg (by omega), if_neg (by omega)]

theorem bind_ok {ε α β : Type} (x : Except ε α) (f : α → β) (g : β → Except ε γ) :
    ((x >>= fun r => .ok (f r)) >>= g) = x >>= fun r => g (f r) := by
  cases x <;> rfl

theorem dump_scalar (c : Nat) (h : IsScalar c) (t : List Char) :
    dumpEscaped 0 0 (bytesOf c ++ t) = dumpEscaped 0 0 t >>= fun r => .ok (written c ++ r) := by
  obtain ⟨hc, hs⟩ := h
  unfold written
  by_cases h1 : c < 0x80
  · rw [bytesOf_1 c h1, if_pos h1, List.singleton_append, dump_accept 0 0 c t (by rw [ns_nat 0 c (by omega) (by omega), nsSpec, if_pos h1]),
      nc_zero c 0 (by omega), if_pos h1]
  rw [if_neg h1]
  by_cases h2 : c < 0x800
  · rw [bytesOf_2 c (by omega) h2]
    have e1 : nextState 0 (Char.ofNat (0xC0 + c / 64)) = 2 := by
      rw [ns_nat 0 _ (by omega) (by omega), nsSpec, if_neg (by omega), if_pos (by omega)]
    simp only [List.cons_append, List.nil_append]
    rw [dump_more 0 0 _ _ (by omega) (by omega), e1, dump_accept 2 _ _ t (by rw [ns_nat 2 _ (by omega) (by omega), nsSpec, if_pos (by omega)]),
      bind_ok, nc_succ 2 _ _ (by omega) (by omega) (by omega), nc_zero _ 0 (by omega), if_neg (by omega), if_pos (by omega), escape_high _ _ (by omega)]
    rfl
  by_cases h3 : c < 0x10000
  · rw [bytesOf_3 c (by omega) h3]
    have e1 : nextState 0 (Char.ofNat (0xE0 + c / 4096)) = if c / 4096 = 0 then 4 else if c / 4096 = 13 then 5 else 3 := by
      rw [ns_nat 0 _ (by omega) (by omega), nsSpec, if_neg (by omega), if_neg (by omega)]
      by_cases g : c / 4096 = 0
      · rw [if_pos (by omega), if_pos g]
      rw [if_neg (by omega), if_neg g]
      by_cases g : c / 4096 = 13
      · rw [if_pos (by omega), if_pos g]
      rw [if_neg (by omega), if_neg g, if_pos (by omega)]
    have e2 : nextState (if c / 4096 = 0 then 4 else if c / 4096 = 13 then 5 else 3) (Char.ofNat (0x80 + c / 64 % 64)) = 2 := by
      by_cases g : c / 4096 = 0
      · rw [if_pos g, ns_nat 4 _ (by omega) (by omega), nsSpec, if_pos (by omega)]
      rw [if_neg g]
      by_cases g : c / 4096 = 13
      · rw [if_pos g, ns_nat 5 _ (by omega) (by omega), nsSpec, if_pos (by omega)]
      rw [if_neg g, ns_nat 3 _ (by omega) (by omega), nsSpec, if_pos (by omega)]
    simp only [List.cons_append, List.nil_append]
    rw [dump_more 0 0 _ _ (by rw [e1]; split <;> (try split) <;> omega) (by rw [e1]; split <;> (try split) <;> omega), e1,
      dump_more _ _ _ _ (by omega) (by omega), e2,
      dump_accept 2 _ _ t (by rw [ns_nat 2 _ (by omega) (by omega), nsSpec, if_pos (by omega)]),
      bind_ok, bind_ok, nc_succ 2 _ _ (by omega) (by omega) (by omega),
      nc_succ _ _ _ (by split <;> (try split) <;> omega) (by omega) (by omega), nc_zero _ 0 (by omega), if_neg (by omega), if_neg (by omega),
      if_pos (by omega), escape_high _ _ (by omega)]
    rfl
  · rw [bytesOf_4 c (by omega) hc]
    have e1 : nextState 0 (Char.ofNat (0xF0 + c / 262144)) = if c / 262144 = 0 then 6 else if c / 262144 = 4 then 8 else 7 := by
      rw [ns_nat 0 _ (by omega) (by omega), nsSpec, if_neg (by omega), if_neg (by omega), if_neg (by omega), if_neg (by omega), if_neg (by omega)]
      by_cases g : c / 262144 = 0
      · rw [if_pos (by omega), if_pos g]
      rw [if_neg (by omega), if_neg g]
      by_cases g : c / 262144 = 4
      · rw [if_neg (by omega), if_pos (by omega), if_pos g]
      rw [if_pos (by omega), if_neg g]
    have e2 : nextState (if c / 262144 = 0 then 6 else if c / 262144 = 4 then 8 else 7) (Char.ofNat (0x80 + c / 4096 % 64)) = 3 := by
      by_cases g : c / 262144 = 0
      · rw [if_pos g, ns_nat 6 _ (by omega) (by omega), nsSpec, if_pos (by omega)]
      rw [if_neg g]
      by_cases g : c / 262144 = 4
      · rw [if_pos g, ns_nat 8 _ (by omega) (by omega), nsSpec, if_pos (by omega)]
      rw [if_neg g, ns_nat 7 _ (by omega) (by omega), nsSpec, if_pos (by omega)]
    have e3 : nextState 3 (Char.ofNat (0x80 + c / 64 % 64)) = 2 := by
      rw [ns_nat 3 _ (by omega) (by omega), nsSpec, if_pos (by omega)]
    simp only [List.cons_append, List.nil_append]
    rw [dump_more 0 0 _ _ (by rw [e1]; split <;> (try split) <;> omega) (by rw [e1]; split <;> (try split) <;> omega), e1,
      dump_more _ _ _ _ (by omega) (by omega), e2, dump_more _ _ _ _ (by omega) (by omega), e3,
      dump_accept 2 _ _ t (by rw [ns_nat 2 _ (by omega) (by omega), nsSpec, if_pos (by omega)]),
      bind_ok, bind_ok, bind_ok, nc_succ 2 _ _ (by omega) (by omega) (by omega), nc_succ 3 _ _ (by omega) (by omega) (by omega),
      nc_succ _ _ _ (by split <;> (try split) <;> omega) (by omega) (by omega), nc_zero _ 0 (by omega), if_neg (by omega), if_neg (by omega),
      if_neg (by omega), if_pos (by omega), escape_high _ _ (by omega)]
    rfl

/-- A byte that can be written in state `st`. -/
theorem dump_inv {st cp : Nat} {s r : List Char} (hst : st < 9) (h : dumpEscaped st cp s = .ok r) :
    (s = [] ∧ st = 0) ∨ ∃ n t cp' r', n < 256 ∧ s = Char.ofNat n :: t ∧ nsSpec st n ≠ 1 ∧ dumpEscaped (nsSpec st n) cp' t = .ok r' := by
  cases s with
  | nil =>
    rw [dumpEscaped] at h
    split at h
    · exact .inl ⟨rfl, by assumption⟩
    · cases h
  | cons c t =>
    right
    rw [dumpEscaped] at h
    rw [ns_eq st c hst] at h
    by_cases hc : c.toNat < 256
    · rw [if_pos hc] at h
      refine ⟨c.toNat, t, nextCode st cp c, ?_⟩
      by_cases h0 : nsSpec st c.toNat = 0
      · simp only [h0, if_true] at h
        cases hr : dumpEscaped 0 (nextCode st cp c) t with
        | error e => rw [hr] at h; cases h
        | ok r' => exact ⟨r', hc, by rw [← char_eq], by omega, by rw [h0]; exact hr⟩
      · rw [if_neg h0] at h
        by_cases h1 : nsSpec st c.toNat = 1
        · rw [if_pos h1] at h; cases h
        · rw [if_neg h1] at h
          cases hr : dumpEscaped (nsSpec st c.toNat) (nextCode st cp c) t with
          | error e => rw [hr] at h; cases h
          | ok r' => exact ⟨r', hc, by rw [← char_eq], h1, rfl⟩
    · rw [if_neg hc] at h
      simp only [Nat.one_ne_zero, if_false, if_true] at h
      cases h

theorem dump_tail {st cp : Nat} {s r : List Char} (hst : st < 9) (h0 : st ≠ 0) (h : dumpEscaped st cp s = .ok r) :
    ∃ n t cp' r', n < 256 ∧ s = Char.ofNat n :: t ∧ nsSpec st n ≠ 1 ∧ dumpEscaped (nsSpec st n) cp' t = .ok r' := by
  rcases dump_inv hst h with ⟨_, h⟩ | h
  · exact absurd h h0
  · exact h

theorem ns2 {n : Nat} (h : nsSpec 2 n ≠ 1) : 0x80 ≤ n ∧ n ≤ 0xBF ∧ nsSpec 2 n = 0 := by
  unfold nsSpec at h ⊢; simp only at h ⊢; split at h <;> simp_all
theorem ns3 {n : Nat} (h : nsSpec 3 n ≠ 1) : 0x80 ≤ n ∧ n ≤ 0xBF ∧ nsSpec 3 n = 2 := by
  unfold nsSpec at h ⊢; simp only at h ⊢; split at h <;> simp_all
theorem ns4 {n : Nat} (h : nsSpec 4 n ≠ 1) : 0xA0 ≤ n ∧ n ≤ 0xBF ∧ nsSpec 4 n = 2 := by
  unfold nsSpec at h ⊢; simp only at h ⊢; split at h <;> simp_all
theorem ns5 {n : Nat} (h : nsSpec 5 n ≠ 1) : 0x80 ≤ n ∧ n ≤ 0x9F ∧ nsSpec 5 n = 2 := by
  unfold nsSpec at h ⊢; simp only at h ⊢; split at h <;> simp_all
theorem ns6 {n : Nat} (h : nsSpec 6 n ≠ 1) : 0x90 ≤ n ∧ n ≤ 0xBF ∧ nsSpec 6 n = 3 := by
  unfold nsSpec at h ⊢; simp only at h ⊢; split at h <;> simp_all
theorem ns7 {n : Nat} (h : nsSpec 7 n ≠ 1) : 0x80 ≤ n ∧ n ≤ 0xBF ∧ nsSpec 7 n = 3 := by
  unfold nsSpec at h ⊢; simp only at h ⊢; split at h <;> simp_all
theorem ns8 {n : Nat} (h : nsSpec 8 n ≠ 1) : 0x80 ≤ n ∧ n ≤ 0x8F ∧ nsSpec 8 n = 3 := by
  unfold nsSpec at h ⊢; simp only at h ⊢; split at h <;> simp_all

theorem ns0 {n : Nat} (h : nsSpec 0 n ≠ 1) : (n < 0x80 ∧ nsSpec 0 n = 0) ∨ (0xC2 ≤ n ∧ n ≤ 0xDF ∧ nsSpec 0 n = 2) ∨ (n = 0xE0 ∧ nsSpec 0 n = 4) ∨
    (n = 0xED ∧ nsSpec 0 n = 5) ∨ (0xE1 ≤ n ∧ n ≤ 0xEF ∧ n ≠ 0xED ∧ nsSpec 0 n = 3) ∨ (n = 0xF0 ∧ nsSpec 0 n = 6) ∨
    (0xF1 ≤ n ∧ n ≤ 0xF3 ∧ nsSpec 0 n = 7) ∨ (n = 0xF4 ∧ nsSpec 0 n = 8) := by
  unfold nsSpec at h ⊢
  simp only at h ⊢
  split at h
  · rename_i g; left; exact ⟨g, by rw [if_pos g]⟩
  split at h
  · rename_i g; right; left; exact ⟨g.1, g.2, by rw [if_neg (by omega), if_pos g]⟩
  split at h
  · rename_i g; subst g; simp
  split at h
  · rename_i g; subst g; simp
  split at h
  · rename_i g1 g2
    right; right; right; right; left
    exact ⟨g2.1, g2.2, g1, by rw [if_neg (by omega), if_neg (by omega), if_neg (by omega), if_neg (by omega), if_pos g2]⟩
  split at h
  · rename_i g; subst g; simp
  split at h
  · rename_i g
    right; right; right; right; right; right; left
    exact ⟨g.1, g.2, by rw [if_neg (by omega), if_neg (by omega), if_neg (by omega), if_neg (by omega), if_neg (by omega), if_neg (by omega), if_pos g]⟩
  split at h
  · rename_i g; subst g; simp
  · exact absurd rfl h

/-- Two more bytes. -/
theorem dump_end2 {cp : Nat} {s r : List Char} (h : dumpEscaped 2 cp s = .ok r) :
    ∃ n t cp' r', 0x80 ≤ n ∧ n ≤ 0xBF ∧ s = Char.ofNat n :: t ∧ dumpEscaped 0 cp' t = .ok r' := by
  obtain ⟨n, t, cp', r', _, hs, hn, hr⟩ := dump_tail (by omega) (by omega) h
  obtain ⟨a, b, e⟩ := ns2 hn
  rw [e] at hr
  exact ⟨n, t, cp', r', a, b, hs, hr⟩

theorem dump_end3 {cp : Nat} {s r : List Char} (h : dumpEscaped 3 cp s = .ok r) :
    ∃ m n t cp' r', 0x80 ≤ m ∧ m ≤ 0xBF ∧ 0x80 ≤ n ∧ n ≤ 0xBF ∧ s = Char.ofNat m :: Char.ofNat n :: t ∧ dumpEscaped 0 cp' t = .ok r' := by
  obtain ⟨m, t, cp', r', _, hs, hn, hr⟩ := dump_tail (by omega) (by omega) h
  obtain ⟨a, b, e⟩ := ns3 hn
  rw [e] at hr
  obtain ⟨n, t', cp'', r'', c, d, hs', hr'⟩ := dump_end2 hr
  exact ⟨m, n, t', cp'', r'', a, b, c, d, by rw [hs, hs'], hr'⟩

theorem make_2 (a b : Nat) (h1 : 0xC2 ≤ a) (h2 : a ≤ 0xDF) (h3 : 0x80 ≤ b) (h4 : b ≤ 0xBF) :
    ∃ c, IsScalar c ∧ [Char.ofNat a, Char.ofNat b] = bytesOf c := by
  refine ⟨(a - 0xC0) * 64 + (b - 0x80), ⟨by omega, by omega⟩, ?_⟩
  rw [bytesOf_2 _ (by omega) (by omega)]
  rw [show 0xC0 + ((a - 0xC0) * 64 + (b - 0x80)) / 64 = a by omega, show 0x80 + ((a - 0xC0) * 64 + (b - 0x80)) % 64 = b by omega]

theorem make_3 (a b d : Nat) (h1 : 0xE0 ≤ a) (h2 : a ≤ 0xEF) (h3 : 0x80 ≤ b) (h4 : b ≤ 0xBF) (h5 : 0x80 ≤ d) (h6 : d ≤ 0xBF)
    (h7 : a = 0xE0 → 0xA0 ≤ b) (h8 : a = 0xED → b ≤ 0x9F) : ∃ c, IsScalar c ∧ [Char.ofNat a, Char.ofNat b, Char.ofNat d] = bytesOf c := by
  refine ⟨(a - 0xE0) * 4096 + (b - 0x80) * 64 + (d - 0x80), ⟨by omega, by omega⟩, ?_⟩
  rw [bytesOf_3 _ (by omega) (by omega)]
  rw [show 0xE0 + ((a - 0xE0) * 4096 + (b - 0x80) * 64 + (d - 0x80)) / 4096 = a by omega,
    show 0x80 + ((a - 0xE0) * 4096 + (b - 0x80) * 64 + (d - 0x80)) / 64 % 64 = b by omega,
    show 0x80 + ((a - 0xE0) * 4096 + (b - 0x80) * 64 + (d - 0x80)) % 64 = d by omega]

theorem make_4 (a b d e : Nat) (h1 : 0xF0 ≤ a) (h2 : a ≤ 0xF4) (h3 : 0x80 ≤ b) (h4 : b ≤ 0xBF) (h5 : 0x80 ≤ d) (h6 : d ≤ 0xBF) (h9 : 0x80 ≤ e)
    (h10 : e ≤ 0xBF) (h7 : a = 0xF0 → 0x90 ≤ b) (h8 : a = 0xF4 → b ≤ 0x8F) :
    ∃ c, IsScalar c ∧ [Char.ofNat a, Char.ofNat b, Char.ofNat d, Char.ofNat e] = bytesOf c := by
  refine ⟨(a - 0xF0) * 262144 + (b - 0x80) * 4096 + (d - 0x80) * 64 + (e - 0x80), ⟨by omega, by omega⟩, ?_⟩
  rw [bytesOf_4 _ (by omega) (by omega)]
  rw [show 0xF0 + ((a - 0xF0) * 262144 + (b - 0x80) * 4096 + (d - 0x80) * 64 + (e - 0x80)) / 262144 = a by omega,
    show 0x80 + ((a - 0xF0) * 262144 + (b - 0x80) * 4096 + (d - 0x80) * 64 + (e - 0x80)) / 4096 % 64 = b by omega,
    show 0x80 + ((a - 0xF0) * 262144 + (b - 0x80) * 4096 + (d - 0x80) * 64 + (e - 0x80)) / 64 % 64 = d by omega,
    show 0x80 + ((a - 0xF0) * 262144 + (b - 0x80) * 4096 + (d - 0x80) * 64 + (e - 0x80)) % 64 = e by omega]

/-- A text that is written starts with a character. -/
theorem dump_first {cp : Nat} {s r : List Char} (h : dumpEscaped 0 cp s = .ok r) :
    s = [] ∨ ∃ c t cp' r', IsScalar c ∧ s = bytesOf c ++ t ∧ dumpEscaped 0 cp' t = .ok r' := by
  rcases dump_inv (by omega) h with ⟨h, _⟩ | ⟨a, t, cp', r', _, hs, hn, hr⟩
  · exact .inl h
  right
  rcases ns0 hn with ⟨g, e⟩ | ⟨g1, g2, e⟩ | ⟨g, e⟩ | ⟨g, e⟩ | ⟨g1, g2, g3, e⟩ | ⟨g, e⟩ | ⟨g1, g2, e⟩ | ⟨g, e⟩
  · rw [e] at hr
    exact ⟨a, t, cp', r', ⟨by omega, by omega⟩, by rw [bytesOf_1 a g, hs]; rfl, hr⟩
  · rw [e] at hr
    obtain ⟨b, t', cp2, r2, b1, b2, hs', hr'⟩ := dump_end2 hr
    obtain ⟨c, hc, hb⟩ := make_2 a b g1 g2 b1 b2
    exact ⟨c, t', cp2, r2, hc, by rw [← hb, hs, hs']; rfl, hr'⟩
  · rw [e] at hr
    obtain ⟨b, t1, cp1, r1, _, hs1, hn1, hr1⟩ := dump_tail (by omega) (by omega) hr
    obtain ⟨b1, b2, e1⟩ := ns4 hn1
    rw [e1] at hr1
    obtain ⟨d, t', cp2, r2, d1, d2, hs', hr'⟩ := dump_end2 hr1
    obtain ⟨c, hc, hb⟩ := make_3 a b d (by omega) (by omega) (by omega) b2 d1 d2 (by omega) (by omega)
    exact ⟨c, t', cp2, r2, hc, by rw [← hb, hs, hs1, hs']; rfl, hr'⟩
  · rw [e] at hr
    obtain ⟨b, t1, cp1, r1, _, hs1, hn1, hr1⟩ := dump_tail (by omega) (by omega) hr
    obtain ⟨b1, b2, e1⟩ := ns5 hn1
    rw [e1] at hr1
    obtain ⟨d, t', cp2, r2, d1, d2, hs', hr'⟩ := dump_end2 hr1
    obtain ⟨c, hc, hb⟩ := make_3 a b d (by omega) (by omega) b1 (by omega) d1 d2 (by omega) (by omega)
    exact ⟨c, t', cp2, r2, hc, by rw [← hb, hs, hs1, hs']; rfl, hr'⟩
  · rw [e] at hr
    obtain ⟨b, d, t', cp2, r2, b1, b2, d1, d2, hs', hr'⟩ := dump_end3 hr
    obtain ⟨c, hc, hb⟩ := make_3 a b d (by omega) (by omega) b1 b2 d1 d2 (by omega) (by omega)
    exact ⟨c, t', cp2, r2, hc, by rw [← hb, hs, hs']; rfl, hr'⟩
  · rw [e] at hr
    obtain ⟨b, t1, cp1, r1, _, hs1, hn1, hr1⟩ := dump_tail (by omega) (by omega) hr
    obtain ⟨b1, b2, e1⟩ := ns6 hn1
    rw [e1] at hr1
    obtain ⟨d, f, t', cp2, r2, d1, d2, f1, f2, hs', hr'⟩ := dump_end3 hr1
    obtain ⟨c, hc, hb⟩ := make_4 a b d f (by omega) (by omega) (by omega) b2 d1 d2 f1 f2 (by omega) (by omega)
    exact ⟨c, t', cp2, r2, hc, by rw [← hb, hs, hs1, hs']; rfl, hr'⟩
  · rw [e] at hr
    obtain ⟨b, t1, cp1, r1, _, hs1, hn1, hr1⟩ := dump_tail (by omega) (by omega) hr
    obtain ⟨b1, b2, e1⟩ := ns7 hn1
    rw [e1] at hr1
    obtain ⟨d, f, t', cp2, r2, d1, d2, f1, f2, hs', hr'⟩ := dump_end3 hr1
    obtain ⟨c, hc, hb⟩ := make_4 a b d f (by omega) (by omega) b1 b2 d1 d2 f1 f2 (by omega) (by omega)
    exact ⟨c, t', cp2, r2, hc, by rw [← hb, hs, hs1, hs']; rfl, hr'⟩
  · rw [e] at hr
    obtain ⟨b, t1, cp1, r1, _, hs1, hn1, hr1⟩ := dump_tail (by omega) (by omega) hr
    obtain ⟨b1, b2, e1⟩ := ns8 hn1
    rw [e1] at hr1
    obtain ⟨d, f, t', cp2, r2, d1, d2, f1, f2, hs', hr'⟩ := dump_end3 hr1
    obtain ⟨c, hc, hb⟩ := make_4 a b d f (by omega) (by omega) b1 (by omega) d1 d2 f1 f2 (by omega) (by omega)
    exact ⟨c, t', cp2, r2, hc, by rw [← hb, hs, hs1, hs']; rfl, hr'⟩

theorem bytesOf_ne_nil (c : Nat) : bytesOf c ≠ [] := by
  unfold bytesOf utf8
  split <;> (try split) <;> (try split) <;> simp

theorem dump_utf8 : ∀ (n : Nat) (s : List Char), s.length ≤ n → ∀ cp r, dumpEscaped 0 cp s = .ok r → Utf8 s := by
  intro n
  induction n with
  | zero =>
    intro s hs cp r _
    have : s = [] := List.length_eq_zero_iff.1 (by omega)
    subst this
    exact ⟨[], by simp, rfl⟩
  | succ n ih =>
    intro s hs cp r h
    rcases dump_first h with h | ⟨c, t, cp', r', hc, ht, hr⟩
    · subst h; exact ⟨[], by simp, rfl⟩
    · have hl : t.length ≤ n := by
        have := congrArg List.length ht
        have h0 := List.length_pos_iff.2 (bytesOf_ne_nil c)
        rw [List.length_append] at this
        omega
      obtain ⟨cs, h1, h2⟩ := ih t hl cp' r' hr
      refine ⟨c :: cs, ?_, by rw [ht, h2]; rfl⟩
      intro x hx
      rcases List.mem_cons.1 hx with e | e
      · rw [e]; exact hc
      · exact h1 x e

theorem dump_cases (s : List Char) (st cp : Nat) : (∃ r, dumpEscaped st cp s = .ok r) ∨ dumpEscaped st cp s = .error .thrown := by
  induction s generalizing st cp with
  | nil => rw [dumpEscaped]; split
           · exact .inl ⟨_, rfl⟩
           · exact .inr rfl
  | cons c t ih =>
    rw [dumpEscaped]
    split
    · rcases ih (nextState st c) (nextCode st cp c) with ⟨r, h⟩ | h <;> rw [h]
      · exact .inl ⟨_, rfl⟩
      · exact .inr rfl
    split
    · exact .inr rfl
    · rcases ih (nextState st c) (nextCode st cp c) with ⟨r, h⟩ | h <;> rw [h]
      · exact .inl ⟨_, rfl⟩
      · exact .inr rfl

theorem written_text (c : Nat) (h : IsScalar c) : CharText c (written c) := by
  unfold written
  split
  · rename_i h1
    unfold escapeCode
    split
    · rename_i e; subst e; exact .letter _ _ (by decide)
    split
    · rename_i e; subst e; exact .letter _ _ (by decide)
    split
    · rename_i e; subst e; exact .letter _ _ (by decide)
    split
    · rename_i e; subst e; exact .letter _ _ (by decide)
    split
    · rename_i e; subst e; exact .letter _ _ (by decide)
    split
    · rename_i e; subst e; exact .letter _ _ (by decide)
    split
    · rename_i e; subst e; exact .letter _ _ (by decide)
    split
    · rename_i e
      refine .hex c h (by omega) _ ⟨_, _, _, _, rfl, ?_⟩
      have : ∀ n : Fin 16, HexDigit n.val (hexDigit n.val) := by
        intro n
        left
        revert n
        decide
      rw [show c / 4096 % 16 = c / 4096 by omega]
      exact ⟨this ⟨c / 4096, by omega⟩, this ⟨c / 256 % 16, by omega⟩, this ⟨c / 16 % 16, by omega⟩, this ⟨c % 16, by omega⟩⟩
    · rw [← bytesOf_1 c h1]
      exact .raw c h (by omega) (by assumption) (by assumption)
  · exact .raw c h (by omega) (by omega) (by omega)

theorem dump_ok (s : List Char) (h : Utf8 s) : ∃ t, dumpEscaped 0 0 s = .ok t ∧ StringText s t := by
  obtain ⟨cs, hc, rfl⟩ := h
  induction cs with
  | nil => exact ⟨[], rfl, .nil⟩
  | cons c cs ih =>
    obtain ⟨t, ht, hs⟩ := ih (fun x hx => hc x (by simp [hx]))
    refine ⟨written c ++ t, ?_, ?_⟩
    · rw [List.flatMap_cons, dump_scalar c (hc c (by simp)), ht]; rfl
    · rw [List.flatMap_cons]; exact .cons (written_text c (hc c (by simp))) hs

/-! ### scan_string -/

theorem take_range (lo hi n : Nat) (rs : List (Nat × Nat)) (t : List Char) (h1 : lo ≤ n) (h2 : n ≤ hi) (hn : n < 0xD800) :
    takeRanges ((lo, hi) :: rs) (Char.ofNat n :: t) = (takeRanges rs t).map fun r => (Char.ofNat n :: r.1, r.2) := by
  rw [takeRanges, ofNat_toNat' n hn, if_pos ⟨h1, h2⟩]

theorem ofNat_ne (n m : Nat) (hn : n < 0xD800) (hm : m < 0xD800) (h : n ≠ m) : Char.ofNat n ≠ Char.ofNat m := fun e => h (by
  rw [← ofNat_toNat' n hn, ← ofNat_toNat' m hm, e])

theorem scan_raw (fuel n : Nat) (t s u : List Char) (rs : List (Nat × Nat)) (hn : n < 0xD800) (h1 : n ≠ 0x22) (h2 : n ≠ 0x5C)
    (hr : tailRanges n = some rs) (ht : takeRanges rs t = some (s, u)) :
    scanString (fuel + 1) (Char.ofNat n :: t) = (scanString fuel u).map fun r => (Char.ofNat n :: s ++ r.1, r.2) := by
  rw [scanString, if_neg (ofNat_ne n 0x22 hn (by omega) h1), if_neg (ofNat_ne n 0x5C hn (by omega) h2), ofNat_toNat' n hn, hr]
  simp only [ht]

theorem scan_char_raw (fuel c : Nat) (h : IsScalar c) (h0 : 0x20 ≤ c) (h1 : c ≠ 0x22) (h2 : c ≠ 0x5C) (t : List Char) :
    scanString (fuel + 1) (bytesOf c ++ t) = (scanString fuel t).map fun r => (bytesOf c ++ r.1, r.2) := by
  obtain ⟨hc, hs⟩ := h
  by_cases g1 : c < 0x80
  · rw [bytesOf_1 c g1]
    exact scan_raw fuel c t [] t [] (by omega) h1 h2 (by unfold tailRanges; rw [if_neg (by omega), if_pos (by omega)]) rfl
  by_cases g2 : c < 0x800
  · rw [bytesOf_2 c (by omega) g2]
    refine scan_raw fuel _ _ [Char.ofNat (0x80 + c % 64)] t [(0x80, 0xBF)] (by omega) (by omega) (by omega) ?_ ?_
    · unfold tailRanges; rw [if_neg (by omega), if_neg (by omega), if_pos (by omega)]
    · show takeRanges _ (Char.ofNat (0x80 + c % 64) :: t) = _
      rw [take_range _ _ _ _ _ (by omega) (by omega) (by omega)]; rfl
  by_cases g3 : c < 0x10000
  · rw [bytesOf_3 c (by omega) g3]
    have e : ∃ lo hi, lo ≤ 0x80 + c / 64 % 64 ∧ 0x80 + c / 64 % 64 ≤ hi ∧ tailRanges (0xE0 + c / 4096) = some [(lo, hi), (0x80, 0xBF)] := by
      unfold tailRanges
      rw [if_neg (by omega), if_neg (by omega), if_neg (by omega)]
      by_cases a : c / 4096 = 0
      · rw [if_pos (by omega)]; exact ⟨_, _, by omega, by omega, rfl⟩
      rw [if_neg (by omega)]
      by_cases b : c / 4096 = 13
      · rw [if_neg (by omega), if_pos (by omega)]; exact ⟨_, _, by omega, by omega, rfl⟩
      rw [if_pos (by omega)]; exact ⟨_, _, by omega, by omega, rfl⟩
    obtain ⟨lo, hi, l1, l2, hr⟩ := e
    refine scan_raw fuel _ _ [Char.ofNat (0x80 + c / 64 % 64), Char.ofNat (0x80 + c % 64)] t _ (by omega) (by omega) (by omega) hr ?_
    show takeRanges _ (Char.ofNat (0x80 + c / 64 % 64) :: Char.ofNat (0x80 + c % 64) :: t) = _
    rw [take_range _ _ _ _ _ l1 l2 (by omega), take_range _ _ _ _ _ (by omega) (by omega) (by omega)]; rfl
  · rw [bytesOf_4 c (by omega) hc]
    have e : ∃ lo hi, lo ≤ 0x80 + c / 4096 % 64 ∧ 0x80 + c / 4096 % 64 ≤ hi ∧
        tailRanges (0xF0 + c / 262144) = some [(lo, hi), (0x80, 0xBF), (0x80, 0xBF)] := by
      unfold tailRanges
      rw [if_neg (by omega), if_neg (by omega), if_neg (by omega), if_neg (by omega), if_neg (by omega), if_neg (by omega)]
      by_cases a : c / 262144 = 0
      · rw [if_pos (by omega)]; exact ⟨_, _, by omega, by omega, rfl⟩
      rw [if_neg (by omega)]
      by_cases b : c / 262144 = 4
      · rw [if_neg (by omega), if_pos (by omega)]; exact ⟨_, _, by omega, by omega, rfl⟩
      rw [if_pos (by omega)]; exact ⟨_, _, by omega, by omega, rfl⟩
    obtain ⟨lo, hi, l1, l2, hr⟩ := e
    refine scan_raw fuel _ _ [Char.ofNat (0x80 + c / 4096 % 64), Char.ofNat (0x80 + c / 64 % 64), Char.ofNat (0x80 + c % 64)] t _ (by omega)
      (by omega) (by omega) hr ?_
    show takeRanges _ (Char.ofNat (0x80 + c / 4096 % 64) :: Char.ofNat (0x80 + c / 64 % 64) :: Char.ofNat (0x80 + c % 64) :: t) = _
    rw [take_range _ _ _ _ _ l1 l2 (by omega), take_range _ _ _ _ _ (by omega) (by omega) (by omega),
      take_range _ _ _ _ _ (by omega) (by omega) (by omega)]; rfl

end Verif.Xchg
