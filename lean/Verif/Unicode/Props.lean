import Verif.Unicode.Model
import Verif.Unicode.Spec

/-! # C36, C37: Unicode conversions -/

namespace Verif.Unicode
open Verif.UnicodeSpec

theorem and80 : ∀ x : Byte, (x &&& 0x80 = 0) ↔ x.toNat < 0x80 := by decide +kernel
theorem andE0 : ∀ x : Byte, (x &&& 0xE0 = 0xC0) ↔ 0xC0 ≤ x.toNat ∧ x.toNat < 0xE0 := by decide +kernel
theorem andF0 : ∀ x : Byte, (x &&& 0xF0 = 0xE0) ↔ 0xE0 ≤ x.toNat ∧ x.toNat < 0xF0 := by decide +kernel
theorem andF8 : ∀ x : Byte, (x &&& 0xF8 = 0xF0) ↔ 0xF0 ≤ x.toNat ∧ x.toNat < 0xF8 := by decide +kernel
theorem and1F : ∀ x : Byte, (x &&& 0x1F).toNat = x.toNat % 32 := by decide +kernel
theorem and0F : ∀ x : Byte, (x &&& 0x0F).toNat = x.toNat % 16 := by decide +kernel
theorem and07 : ∀ x : Byte, (x &&& 0x07).toNat = x.toNat % 8 := by decide +kernel
theorem and3F : ∀ x : Byte, (x &&& 0x3F).toNat = x.toNat % 64 := by decide +kernel
theorem and3FF (n : Nat) : n &&& 0x3FF = n % 1024 := Nat.and_two_pow_sub_one_eq_mod n 10

theorem ofNat8 (n : Nat) (h : n < 256) : (BitVec.ofNat 8 n).toNat = n := by
  rw [BitVec.toNat_ofNat]; exact Nat.mod_eq_of_lt h

/-- The two ways of writing the surrogate pair agree. -/
theorem pair_eq (c : Nat) (h1 : 0x10000 ≤ c) (h2 : c ≤ 0x10FFFF) :
    BitVec.ofNat 16 (0xD7C0 + (c >>> 10)) = BitVec.ofNat 16 (0xD800 + (c - 0x10000) / 1024) ∧
    BitVec.ofNat 16 (0xDC00 + (c &&& 0x3FF)) = BitVec.ofNat 16 (0xDC00 + (c - 0x10000) % 1024) := by
  rw [and3FF, Nat.shiftRight_eq_div_pow]
  have e1 : 0xD7C0 + c / 2^10 = 0xD800 + (c - 0x10000) / 1024 := by omega
  have e2 : c % 1024 = (c - 0x10000) % 1024 := by omega
  rw [e1, e2]
  exact ⟨rfl, rfl⟩

theorem emit_utf32 (c : Nat) (h : c ≤ 0x10FFFF) : emit (utf32ToTXChar c) = utf16 c := by
  unfold utf32ToTXChar utf16
  by_cases h1 : c ≤ 0xFFFF
  · rw [if_pos h1, if_pos (by omega)]; rfl
  · rw [if_neg h1, if_pos h, if_neg (by omega), (pair_eq c (by omega) h).1, (pair_eq c (by omega) h).2]
    have : BitVec.ofNat 16 (0xDC00 + (c - 0x10000) % 1024) ≠ 0 := by
      intro hh
      have := congrArg BitVec.toNat hh
      rw [BitVec.toNat_ofNat, Nat.mod_eq_of_lt (by omega)] at this
      simp at this
    simp only [emit, if_pos this]

/-- What one loop iteration does on the encoding of a scalar. -/
theorem decodeStep_scalar (pre post : List Byte) (inputLen c : Nat) (hc : c ≤ 0x10FFFF)
    (hlen : pre.length + (utf8 c).length ≤ inputLen) :
    decodeStep (pre ++ utf8 c ++ post) inputLen pre.length = some (.next (utf16 c) (utf8 c).length) := by
  have g : ∀ (l : List Byte) (k : Nat), (pre ++ l)[pre.length + k]? = l[k]? := by
    intro l k; rw [List.getElem?_append_right (by omega)]; congr 1; omega
  rw [List.append_assoc]
  unfold decodeStep
  have g0 := g (utf8 c ++ post) 0
  rw [Nat.add_zero] at g0
  rw [g0, g, g, g]
  unfold utf8 at hlen ⊢
  by_cases h1 : c < 0x80
  · simp only [if_pos h1] at hlen ⊢
    simp only [List.cons_append, List.nil_append, List.getElem?_cons_zero]
    rw [if_pos ((and80 _).2 (by rw [ofNat8 _ (by omega)]; exact h1))]
    unfold utf16
    rw [if_pos (by omega)]
    congr 2
    simp
    apply BitVec.eq_of_toNat_eq
    simp
    omega
  · by_cases h2 : c < 0x800
    · simp only [if_neg h1, if_pos h2, List.length_cons, List.length_nil] at hlen ⊢
      simp only [List.cons_append, List.nil_append, List.getElem?_cons_zero, List.getElem?_cons_succ]
      have t0 := ofNat8 (0xC0 + c/64) (by omega)
      have t1 := ofNat8 (0x80 + c%64) (by omega)
      rw [if_neg (by rw [and80, t0]; omega), if_pos (by rw [andE0, t0]; omega), if_neg (by omega), and1F, and3F, t0, t1]
      rw [show ((0xC0 + c/64) % 32) <<< 6 + (0x80 + c%64) % 64 = c by rw [Nat.shiftLeft_eq]; omega, emit_utf32 c hc]
    · by_cases h3 : c < 0x10000
      · simp only [if_neg h1, if_neg h2, if_pos h3, List.length_cons, List.length_nil] at hlen ⊢
        simp only [List.cons_append, List.nil_append, List.getElem?_cons_zero, List.getElem?_cons_succ]
        have t0 := ofNat8 (0xE0 + c/4096) (by omega)
        have t1 := ofNat8 (0x80 + c/64%64) (by omega)
        have t2 := ofNat8 (0x80 + c%64) (by omega)
        rw [if_neg (by rw [and80, t0]; omega), if_neg (by rw [andE0, t0]; omega), if_pos (by rw [andF0, t0]; omega),
          if_neg (by omega), and0F, and3F, and3F, t0, t1, t2]
        rw [show ((0xE0 + c/4096) % 16) <<< 12 + ((0x80 + c/64%64) % 64) <<< 6 + (0x80 + c%64) % 64 = c by
          rw [Nat.shiftLeft_eq, Nat.shiftLeft_eq]; omega, emit_utf32 c hc]
      · simp only [if_neg h1, if_neg h2, if_neg h3, List.length_cons, List.length_nil] at hlen ⊢
        simp only [List.cons_append, List.nil_append, List.getElem?_cons_zero, List.getElem?_cons_succ]
        have t0 := ofNat8 (0xF0 + c/262144) (by omega)
        have t1 := ofNat8 (0x80 + c/4096%64) (by omega)
        have t2 := ofNat8 (0x80 + c/64%64) (by omega)
        have t3 := ofNat8 (0x80 + c%64) (by omega)
        rw [if_neg (by rw [and80, t0]; omega), if_neg (by rw [andE0, t0]; omega), if_neg (by rw [andF0, t0]; omega),
          if_pos (by rw [andF8, t0]; omega), if_neg (by omega), and07, and3F, and3F, and3F, t0, t1, t2, t3]
        rw [show ((0xF0 + c/262144) % 8) <<< 18 + ((0x80 + c/4096%64) % 64) <<< 12 + ((0x80 + c/64%64) % 64) <<< 6
            + (0x80 + c%64) % 64 = c by
          rw [Nat.shiftLeft_eq, Nat.shiftLeft_eq, Nat.shiftLeft_eq]; omega, emit_utf32 c hc]

theorem utf8_pos (c : Nat) : 0 < (utf8 c).length := by
  unfold utf8; repeat' split
  all_goals simp

theorem decode_scalars : ∀ (cs : List Nat), (∀ c ∈ cs, c ≤ 0x10FFFF) → ∀ (pre post : List Byte) (fuel : Nat) (out : List Unit16),
    cs.length < fuel →
    decode (pre ++ cs.flatMap utf8 ++ post) (pre.length + (cs.flatMap utf8).length) fuel pre.length out =
      some (out ++ cs.flatMap utf16) := by
  intro cs
  induction cs with
  | nil =>
    intro _ pre post fuel out hf
    obtain ⟨f, rfl⟩ : ∃ f, fuel = f + 1 := ⟨fuel - 1, by simp at hf; omega⟩
    simp [decode]
  | cons c t ih =>
    intro hcs pre post fuel out hf
    obtain ⟨f, rfl⟩ : ∃ f, fuel = f + 1 := ⟨fuel - 1, by simp at hf; omega⟩
    have hpos := utf8_pos c
    unfold decode
    rw [if_pos (by simp; omega)]
    have := decodeStep_scalar pre (t.flatMap utf8 ++ post) (pre.length + ((c :: t).flatMap utf8).length) c
      (hcs c List.mem_cons_self) (by simp)
    have e : pre ++ (c :: t).flatMap utf8 ++ post = pre ++ utf8 c ++ (t.flatMap utf8 ++ post) := by simp
    rw [e, this]
    simp only
    have ih' := ih (fun x hx => hcs x (List.mem_cons_of_mem _ hx)) (pre ++ utf8 c) post f (out ++ utf16 c)
      (by simp at hf; omega)
    have e2 : (pre ++ utf8 c) ++ t.flatMap utf8 ++ post = pre ++ utf8 c ++ (t.flatMap utf8 ++ post) := by simp
    have e3 : (pre ++ utf8 c).length + (t.flatMap utf8).length = pre.length + ((c :: t).flatMap utf8).length := by
      simp; omega
    rw [e2, e3, List.length_append] at ih'
    rw [ih']
    simp

theorem utf8_ne_zero (c : Nat) (h0 : c ≠ 0) (hc : c ≤ 0x10FFFF) : ∀ b ∈ utf8 c, b ≠ 0 := by
  intro b hb hz
  subst hz
  unfold utf8 at hb
  have key : ∀ n, 0 < n → n < 256 → (0 : Byte) ≠ BitVec.ofNat 8 n := by
    intro n h1 h2 h
    have := congrArg BitVec.toNat h
    rw [ofNat8 n h2] at this
    simp at this; omega
  repeat' split at hb
  all_goals simp only [List.mem_cons, List.not_mem_nil, or_false] at hb
  · exact key _ (by omega) (by omega) hb
  · rcases hb with hb | hb <;> exact key _ (by omega) (by omega) hb
  · rcases hb with hb | hb | hb <;> exact key _ (by omega) (by omega) hb
  · rcases hb with hb | hb | hb | hb <;> exact key _ (by omega) (by omega) hb

theorem utf16_ne_zero (c : Nat) (h0 : c ≠ 0) (hc : c ≤ 0x10FFFF) : ∀ u ∈ utf16 c, u ≠ 0 := by
  intro b hb hz
  subst hz
  unfold utf16 at hb
  have key : ∀ n, 0 < n → n < 65536 → (0 : BitVec 16) ≠ BitVec.ofNat 16 n := by
    intro n h1 h2 h
    have := congrArg BitVec.toNat h
    rw [BitVec.toNat_ofNat, Nat.mod_eq_of_lt h2] at this
    simp at this; omega
  split at hb
  all_goals simp only [List.mem_cons, List.not_mem_nil, or_false] at hb
  · exact key _ (by omega) (by omega) hb
  · rcases hb with hb | hb <;> exact key _ (by omega) (by omega) hb

theorem scanLen_nul (s post : List Byte) (hs : ∀ b ∈ s, b ≠ 0) : ∀ n, s.length < n →
    scanLen (s ++ 0 :: post) n = some s.length := by
  induction s with
  | nil => intro n hn; obtain ⟨m, rfl⟩ : ∃ m, n = m + 1 := ⟨n - 1, by simp at hn; omega⟩; simp [scanLen]
  | cons b t ih =>
    intro n hn
    obtain ⟨m, rfl⟩ : ∃ m, n = m + 1 := ⟨n - 1, by simp at hn; omega⟩
    simp only [List.cons_append, scanLen]
    rw [if_neg (hs b List.mem_cons_self), ih (fun x hx => hs x (List.mem_cons_of_mem _ hx)) m (by simp at hn; omega)]
    rfl

theorem scanLen_len (s : List Byte) (hs : ∀ b ∈ s, b ≠ 0) (post : List Byte) :
    scanLen (s ++ post) s.length = some s.length := by
  induction s with
  | nil => simp [scanLen]
  | cons b t ih =>
    simp only [List.cons_append, List.length_cons, scanLen]
    rw [if_neg (hs b List.mem_cons_self), ih (fun x hx => hs x (List.mem_cons_of_mem _ hx))]
    rfl

theorem import_scalars (cs : List Nat) (hcs : ∀ c ∈ cs, IsScalar c ∧ c ≠ 0) (post : List Byte) (n : Nat)
    (hscan : scanLen (cs.flatMap utf8 ++ post) n = some (cs.flatMap utf8).length) (hn : n ≠ 0)
    (hne : cs = [] → ∃ t, post = 0 :: t) :
    (setFromUtf8 (cs.flatMap utf8 ++ post) n).map (·.text) = some (cs.flatMap utf16) := by
  cases cs with
  | nil =>
    obtain ⟨t, rfl⟩ := hne rfl
    simp [setFromUtf8, hn]
  | cons c t =>
    have nz : ∀ b ∈ (c :: t).flatMap utf8, b ≠ 0 := by
      intro b hb
      obtain ⟨x, hx, hxb⟩ := List.mem_flatMap.1 hb
      exact utf8_ne_zero x (hcs x hx).2 (hcs x hx).1.1 b hxb
    have nz16 : ∀ b ∈ (c :: t).flatMap utf16, b ≠ 0 := by
      intro b hb
      obtain ⟨x, hx, hxb⟩ := List.mem_flatMap.1 hb
      exact utf16_ne_zero x (hcs x hx).2 (hcs x hx).1.1 b hxb
    have hlen : ∀ l : List Nat, l.length ≤ (l.flatMap utf8).length := by
      intro l
      induction l with
      | nil => simp
      | cons a l ih => have := utf8_pos a; simp at ih ⊢; omega
    generalize hs : (c :: t).flatMap utf8 = s at *
    have hdec := decode_scalars (c :: t) (fun x hx => (hcs x hx).1.1) [] post (s.length + 1) []
      (by have := hlen (c :: t); rw [hs] at this; omega)
    rw [hs] at hdec
    simp only [List.nil_append, List.length_nil, Nat.zero_add] at hdec
    unfold setFromUtf8
    rw [if_neg hn]
    cases hs' : s with
    | nil =>
      exfalso
      have := hlen (c :: t); rw [hs, hs'] at this; simp at this
    | cons b r =>
      simp only [List.cons_append]
      have hb : b ≠ 0 := nz b (by rw [hs']; exact List.mem_cons_self)
      rw [if_neg hb]
      rw [hs'] at hscan hdec
      simp only [List.cons_append] at hscan hdec
      rw [hscan]
      simp only
      rw [hdec]
      simp only [Option.map_some, cstr]
      congr 1
      have tw : ∀ l : List Unit16, (∀ x ∈ l, x ≠ 0) → l.takeWhile (· ≠ 0) = l := by
        intro l hl
        induction l with
        | nil => rfl
        | cons a l ih =>
          rw [List.takeWhile_cons, if_pos (by simpa using hl a List.mem_cons_self),
            ih (fun x hx => hl x (List.mem_cons_of_mem _ hx))]
      exact tw _ nz16

/-- **C36**, UTF-8 to UTF-16: importing the (NUL-terminated) UTF-8 encoding of any sequence of non-NUL scalar
values gives their UTF-16 encoding. -/
theorem C36_utf8 (cs : List Nat) (hcs : ∀ c ∈ cs, IsScalar c ∧ c ≠ 0) (after : List Byte)
    (n : Nat) (hn : (cs.flatMap utf8).length < n) :
    (setFromUtf8 (cs.flatMap utf8 ++ 0 :: after) n).map (·.text) = some (cs.flatMap utf16) := by
  apply import_scalars cs hcs (0 :: after) n _ (by omega) (fun _ => ⟨after, rfl⟩)
  apply scanLen_nul _ _ _ n hn
  intro b hb
  obtain ⟨x, hx, hxb⟩ := List.mem_flatMap.1 hb
  exact utf8_ne_zero x (hcs x hx).2 (hcs x hx).1.1 b hxb

/-- **C36** with an explicit byte count instead of a terminator. -/
theorem C36_utf8_counted (cs : List Nat) (hne : cs ≠ []) (hcs : ∀ c ∈ cs, IsScalar c ∧ c ≠ 0) (after : List Byte) :
    (setFromUtf8 (cs.flatMap utf8 ++ after) (cs.flatMap utf8).length).map (·.text) = some (cs.flatMap utf16) := by
  apply import_scalars cs hcs after _ _ _ (fun h => absurd h hne)
  · apply scanLen_len
    intro b hb
    obtain ⟨x, hx, hxb⟩ := List.mem_flatMap.1 hb
    exact utf8_ne_zero x (hcs x hx).2 (hcs x hx).1.1 b hxb
  · cases cs with
    | nil => exact absurd rfl hne
    | cons c t => have := utf8_pos c; rw [List.flatMap_cons, List.length_append]; omega

example : (setFromUtf8 [0x61, 0xC3, 0xA4, 0xF0, 0x9F, 0x98, 0x80, 0x00] 100).map (·.text) =
    some [0x61, 0xE4, 0xD83D, 0xDE00] ∧ utf8 0x1F600 = [0xF0, 0x9F, 0x98, 0x80] := by decide

/-- **C36**, UTF-32 to UTF-16. -/
theorem C36_fromUtf32 (cs : List Nat) (hcs : ∀ c ∈ cs, IsScalar c ∧ c ≠ 0) (after : List Nat) :
    fromUtf32 (cs ++ 0 :: after) = cs.flatMap utf16 := by
  induction cs with
  | nil => simp [fromUtf32]
  | cons c t ih =>
    have hc := hcs c List.mem_cons_self
    simp only [List.cons_append, fromUtf32]
    rw [if_neg hc.2, ih (fun x hx => hcs x (List.mem_cons_of_mem _ hx)), List.flatMap_cons]
    congr 1
    unfold utf16
    by_cases h1 : c ≤ 0xFFFF
    · rw [if_pos h1, if_pos (by omega)]
    · rw [if_neg h1, if_pos hc.1.1, if_neg (by omega), (pair_eq c (by omega) hc.1.1).1, (pair_eq c (by omega) hc.1.1).2]

/-- **C36**, UTF-16 to UTF-32: given room for all characters, the scalar values are recovered. -/
theorem C36_toUtf32 (cs : List Nat) (hcs : ∀ c ∈ cs, IsScalar c ∧ c ≠ 0) (after : List Unit16) (n : Nat)
    (hn : cs.length ≤ n) : toUtf32 (cs.flatMap utf16 ++ 0 :: after) n = some cs := by
  induction cs generalizing n with
  | nil =>
    cases n with
    | zero => rfl
    | succ n => rw [List.flatMap_nil, List.nil_append]; unfold toUtf32; rw [if_pos rfl]
  | cons c t ih =>
    obtain ⟨m, rfl⟩ : ∃ m, n = m + 1 := ⟨n - 1, by simp at hn; omega⟩
    have hc := hcs c List.mem_cons_self
    have ih' := ih (fun x hx => hcs x (List.mem_cons_of_mem _ hx)) m (by simp at hn; omega)
    obtain ⟨hs1, hs2⟩ := hc.1
    by_cases h1 : c < 0x10000
    · have e : (c :: t).flatMap utf16 = BitVec.ofNat 16 c :: t.flatMap utf16 := by
        simp [utf16, h1]
      have hv : (BitVec.ofNat 16 c).toNat = c := by rw [BitVec.toNat_ofNat]; exact Nat.mod_eq_of_lt h1
      rw [e, List.cons_append]
      unfold toUtf32
      rw [if_neg (fun h => utf16_ne_zero c hc.2 hs1 _ (by simp [utf16, h1]) h), hv, if_pos (by omega), ih']
      rfl
    · have e : (c :: t).flatMap utf16 = BitVec.ofNat 16 (0xD800 + (c - 0x10000) / 1024) ::
          BitVec.ofNat 16 (0xDC00 + (c - 0x10000) % 1024) :: t.flatMap utf16 := by
        simp [utf16, h1]
      have hv : (BitVec.ofNat 16 (0xD800 + (c - 0x10000) / 1024)).toNat = 0xD800 + (c - 0x10000) / 1024 := by
        rw [BitVec.toNat_ofNat]; exact Nat.mod_eq_of_lt (by omega)
      have hw : (BitVec.ofNat 16 (0xDC00 + (c - 0x10000) % 1024)).toNat = 0xDC00 + (c - 0x10000) % 1024 := by
        rw [BitVec.toNat_ofNat]; exact Nat.mod_eq_of_lt (by omega)
      rw [e, List.cons_append, List.cons_append]
      unfold toUtf32
      rw [if_neg (fun h => utf16_ne_zero c hc.2 hs1 _ (by simp [utf16, h1]) h), hv, if_neg (by omega), if_pos (by omega)]
      simp only
      rw [hw, if_pos (by omega), ih']
      have ev : (((0xD800 + (c - 0x10000) / 1024) <<< 10) + (0xDC00 + (c - 0x10000) % 1024) + surrogateOffset) % 2^32 = c := by
        rw [Nat.shiftLeft_eq, show surrogateOffset = 4238353408 by decide]
        omega
      rw [ev]
      rfl

example : toUtf32 [0x61, 0xD83D, 0xDE00, 0] 10 = some [0x61, 0x1F600] := by decide

/-! ### C37 -/

theorem emit_length (w : Nat) : 1 ≤ (emit (utf32ToTXChar w)).length ∧
    (emit (utf32ToTXChar w)).length ≤ 2 ∧ (w ≤ 0xFFFF → (emit (utf32ToTXChar w)).length = 1) := by
  unfold utf32ToTXChar
  repeat' split
  all_goals simp [emit]
  all_goals try (split <;> simp)
  all_goals omega

/-- Every iteration inside the length reads only inside the buffer and either stops or consumes at least as many
bytes as it writes units. -/
theorem decodeStep_safe (input : List Byte) (inputLen i : Nat) (hl : inputLen ≤ input.length) (hi : i < inputLen) :
    decodeStep input inputLen i = some .brk ∨
    ∃ u k, decodeStep input inputLen i = some (.next u k) ∧ 1 ≤ k ∧ i + k ≤ inputLen ∧ u.length ≤ k := by
  have g : ∀ k, i + k < inputLen → ∃ b, input[i+k]? = some b := fun k hk =>
    ⟨input[i+k]'(by omega), List.getElem?_eq_getElem (by omega)⟩
  obtain ⟨b0, e0⟩ := g 0 (by omega)
  rw [Nat.add_zero] at e0
  unfold decodeStep
  rw [e0]
  simp only
  split
  · exact .inr ⟨_, 1, rfl, by omega, by omega, by simp⟩
  · split
    · split
      · exact .inl rfl
      · obtain ⟨b1, e1⟩ := g 1 (by omega)
        rw [e1]
        exact .inr ⟨_, 2, rfl, by omega, by omega, (emit_length _).2.1⟩
    · split
      · split
        · exact .inl rfl
        · obtain ⟨b1, e1⟩ := g 1 (by omega)
          obtain ⟨b2, e2⟩ := g 2 (by omega)
          rw [e1, e2]
          exact .inr ⟨_, 3, rfl, by omega, by omega, by have := (emit_length (((b0 &&& 0x0F).toNat <<< 12) + ((b1 &&& 0x3F).toNat <<< 6) + (b2 &&& 0x3F).toNat)).2.1; omega⟩
      · split
        · split
          · exact .inl rfl
          · obtain ⟨b1, e1⟩ := g 1 (by omega)
            obtain ⟨b2, e2⟩ := g 2 (by omega)
            obtain ⟨b3, e3⟩ := g 3 (by omega)
            rw [e1, e2, e3]
            exact .inr ⟨_, 4, rfl, by omega, by omega, by
              have := (emit_length (((b0 &&& 0x07).toNat <<< 18) + ((b1 &&& 0x3F).toNat <<< 12) + ((b2 &&& 0x3F).toNat <<< 6)
              + (b3 &&& 0x3F).toNat)).2.1; omega⟩
        · exact .inr ⟨_, 1, rfl, by omega, by omega, by simp⟩

theorem decode_safe (input : List Byte) (inputLen : Nat) (hl : inputLen ≤ input.length) :
    ∀ fuel i out, inputLen < fuel + i → i ≤ inputLen → out.length ≤ i →
      ∃ u, decode input inputLen fuel i out = some u ∧ u.length ≤ inputLen := by
  intro fuel
  induction fuel with
  | zero => intro i out h1 h2; omega
  | succ n ih =>
    intro i out h1 h2 h3
    unfold decode
    split
    · rename_i hi
      rcases decodeStep_safe input inputLen i hl hi with h | ⟨u, k, h, hk1, hk2, hk3⟩
      · rw [h]
        exact ⟨_, rfl, by simp; omega⟩
      · rw [h]
        exact ih (i+k) (out ++ u) (by omega) hk2 (by simp; omega)
    · exact ⟨out, rfl, by omega⟩

theorem scanLen_safe (src : List Byte) : ∀ n, (n ≤ src.length ∨ (0 : Byte) ∈ src) →
    ∃ k, scanLen src n = some k ∧ k ≤ n ∧ k ≤ src.length := by
  induction src with
  | nil =>
    intro n h
    have : n = 0 := by simpa using h
    subst this
    exact ⟨0, rfl, by simp⟩
  | cons b t ih =>
    intro n h
    cases n with
    | zero => exact ⟨0, rfl, by simp⟩
    | succ n =>
      unfold scanLen
      by_cases hb : b = 0
      · exact ⟨0, by simp [hb], by simp⟩
      · obtain ⟨k, h1, h2, h3⟩ := ih n (by
          rcases h with h | h
          · left; simpa using h
          · right
            rcases List.mem_cons.1 h with h | h
            · exact absurd h.symm hb
            · exact h)
        exact ⟨k+1, by simp only; rw [if_neg hb, h1]; rfl, by omega, by simp; omega⟩

/-- **C37**: importing any bytes whatsoever, with a byte count inside the readable memory or a NUL in it, never
reads outside the readable memory (`isSome`), never stores more than `strLen` units into the scratch array of
`strLen + 1` units, uses at most the given number of bytes, and yields a string. -/
theorem C37_malformed (src : List Byte) (n : Nat) (hmem : n ≤ src.length ∨ (0 : Byte) ∈ src) :
    ∃ r, setFromUtf8 src n = some r ∧ r.written ≤ r.strLen ∧ r.strLen ≤ n ∧ r.text.length ≤ r.written := by
  unfold setFromUtf8
  by_cases hn : n = 0
  · exact ⟨_, if_pos hn, by simp⟩
  · rw [if_neg hn]
    cases hsrc : src with
    | nil => rw [hsrc] at hmem; simp at hmem; exact absurd hmem hn
    | cons b t =>
      rw [hsrc] at hmem
      simp only
      by_cases hb : b = 0
      · exact ⟨_, if_pos hb, by simp⟩
      · rw [if_neg hb]
        obtain ⟨k, h1, h2, h3⟩ := scanLen_safe (b :: t) n hmem
        rw [h1]
        simp only
        obtain ⟨u, h4, h5⟩ := decode_safe (b :: t) k h3 (k+1) 0 [] (by omega) (by omega) (by simp)
        rw [h4]
        exact ⟨_, rfl, h5, h2, (List.takeWhile_prefix _).length_le⟩

/-- The decoder itself touches only the first `inputLen` bytes: giving it a buffer of exactly that length is enough. -/
theorem C37_decode_only_reads_length (input : List Byte) :
    ∃ u, decode input input.length (input.length + 1) 0 [] = some u ∧ u.length ≤ input.length :=
  decode_safe input input.length (Nat.le_refl _) _ 0 [] (by omega) (by omega) (by simp)

/-- Truncated and stray bytes: an example that meets the hypotheses. -/
example : setFromUtf8 [0x61, 0xFF, 0xE2, 0x82] 4 = some ⟨[0x61, 0x3F, 0x3F, 0x3F], 4, 4⟩ := by decide

end Verif.Unicode
