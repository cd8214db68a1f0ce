import Verif.Unicode.Spec

/-!
# Names as bytes

`std::string` and `TXString` are converted into each other with UTF-8 (`TXString::GetStdString`, and `SetFromUtf8`,
GSString.cpp, which `Verif/Unicode` models with UTF-16 units; property C36 says that it is UTF-8). Here a text is a list of
characters. Simplification: bytes that are not UTF-8 are dropped.
-/

namespace Verif.Pack

open Verif.UnicodeSpec

/-- The bytes of a text. -/
def enc (s : List Char) : List Byte := s.flatMap (fun c => utf8 c.toNat)

/-- The text of some bytes. -/
def dec : List Byte → List Char
  | [] => []
  | a :: t =>
    if a.toNat < 0x80 then Char.ofNat a.toNat :: dec t
    else match t with
      | [] => []
      | b :: t =>
        if a.toNat < 0xE0 then Char.ofNat ((a.toNat - 0xC0) * 64 + (b.toNat - 0x80)) :: dec t
        else match t with
          | [] => []
          | c :: t =>
            if a.toNat < 0xF0 then
              Char.ofNat ((a.toNat - 0xE0) * 4096 + (b.toNat - 0x80) * 64 + (c.toNat - 0x80)) :: dec t
            else match t with
              | [] => []
              | d :: t => Char.ofNat ((a.toNat - 0xF0) * 262144 + (b.toNat - 0x80) * 4096 + (c.toNat - 0x80) * 64 +
                  (d.toNat - 0x80)) :: dec t

theorem byte_ofNat (n : Nat) (h : n < 256) : (BitVec.ofNat 8 n).toNat = n := by
  rw [BitVec.toNat_ofNat]; exact Nat.mod_eq_of_lt h

theorem char_le (c : Char) : c.toNat ≤ 0x10FFFF := by
  have := c.valid
  rcases this with h | h
  · have : c.toNat < 0xd800 := h
    omega
  · have : c.toNat < 0x110000 := h.2
    omega

theorem dec_utf8 (c : Char) (t : List Byte) : dec (utf8 c.toNat ++ t) = c :: dec t := by
  have hc := char_le c
  have hof : ∀ n, n = c.toNat → Char.ofNat n = c := fun n h => by rw [h, Char.ofNat_toNat]
  unfold utf8
  split
  · rename_i h
    rw [List.singleton_append, dec.eq_def]
    simp only
    rw [if_pos (by rw [byte_ofNat _ (by omega)]; omega), byte_ofNat _ (by omega), Char.ofNat_toNat]
  · split
    · rename_i h0 h
      simp only [List.cons_append, List.nil_append]
      rw [dec.eq_def]
      simp only
      rw [if_neg (by rw [byte_ofNat _ (by omega)]; omega)]
      rw [if_pos (by rw [byte_ofNat _ (by omega)]; omega), byte_ofNat _ (by omega), byte_ofNat _ (by omega), hof _ (by omega)]
    · split
      · rename_i h0 h1 h
        simp only [List.cons_append, List.nil_append]
        rw [dec.eq_def]
        simp only
        rw [if_neg (by rw [byte_ofNat _ (by omega)]; omega)]
        rw [if_neg (by rw [byte_ofNat _ (by omega)]; omega), if_pos (by rw [byte_ofNat _ (by omega)]; omega),
          byte_ofNat _ (by omega), byte_ofNat _ (by omega), byte_ofNat _ (by omega), hof _ (by omega)]
      · rename_i h0 h1 h
        simp only [List.cons_append, List.nil_append]
        rw [dec.eq_def]
        simp only
        rw [if_neg (by rw [byte_ofNat _ (by omega)]; omega)]
        rw [if_neg (by rw [byte_ofNat _ (by omega)]; omega), if_neg (by rw [byte_ofNat _ (by omega)]; omega),
          byte_ofNat _ (by omega), byte_ofNat _ (by omega), byte_ofNat _ (by omega), byte_ofNat _ (by omega), hof _ (by omega)]

/-- A text comes back from its bytes. -/
theorem dec_enc (s : List Char) : dec (enc s) = s := by
  induction s with
  | nil => rfl
  | cons c s ih =>
    have : enc (c :: s) = utf8 c.toNat ++ enc s := rfl
    rw [this, dec_utf8, ih]

theorem enc_inj {s t : List Char} (h : enc s = enc t) : s = t := by
  rw [← dec_enc s, h, dec_enc]

/-- The byte of `\` stands for nothing but `\`. -/
theorem utf8_backslash (c : Char) (h : (0x5C#8 : Byte) ∈ utf8 c.toNat) : c = '\\' := by
  have hc := char_le c
  have hn : ∀ n, n < 256 → (0x5C#8 : Byte) = BitVec.ofNat 8 n → n = 0x5C := by
    intro n hn e
    have := congrArg BitVec.toNat e
    rw [byte_ofNat _ hn] at this
    exact this.symm
  have hfin : c.toNat = 0x5C → c = '\\' := by
    intro e
    rw [← Char.ofNat_toNat c, e]
  unfold utf8 at h
  split at h
  · rw [List.mem_singleton] at h
    exact hfin (hn _ (by omega) h)
  · split at h
    · simp only [List.mem_cons, List.not_mem_nil, or_false] at h
      rcases h with h | h <;> have := hn _ (by omega) h <;> omega
    · split at h
      · simp only [List.mem_cons, List.not_mem_nil, or_false] at h
        rcases h with h | h | h <;> have := hn _ (by omega) h <;> omega
      · simp only [List.mem_cons, List.not_mem_nil, or_false] at h
        rcases h with h | h | h | h <;> have := hn _ (by omega) h <;> omega

theorem enc_no_backslash (s : List Char) (h : '\\' ∉ s) : (0x5C#8 : Byte) ∉ enc s := by
  intro hm
  obtain ⟨c, hc, hb⟩ := List.mem_flatMap.1 hm
  rw [utf8_backslash c hb] at hc
  exact h hc

end Verif.Pack
