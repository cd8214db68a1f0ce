import Verif.Uuid.Model

/-!
# C09, C10: UUID text
-/

namespace Verif.Uuid
open Verif.Str

def pieceOf (c c' : Char) : Byte := (getDigitForChar c <<< 4) ||| (getDigitForChar c' &&& 0x0F)

theorem piece_roundtrip (x : Byte) :
    pieceOf (getPieceAsChar (x >>> 4)) (getPieceAsChar (x &&& 0x0F)) = x := by
  have : ∀ x : Byte, pieceOf (getPieceAsChar (x >>> 4)) (getPieceAsChar (x &&& 0x0F)) = x := by decide +kernel
  exact this x

/-- The sixteen bytes of a list of that length. -/
theorem sixteen (d : List Byte) (h : d.length = 16) :
    ∃ a b c e f g i j k l m n o p q r, d = [a, b, c, e, f, g, i, j, k, l, m, n, o, p, q, r] := by
  match d, h with
  | [a, b, c, e, f, g, i, j, k, l, m, n, o, p, q, r], _ =>
    exact ⟨a, b, c, e, f, g, i, j, k, l, m, n, o, p, q, r, rfl⟩

theorem fromString_braced_chars (old : List Byte)
    (a1 a2 b1 b2 c1 c2 d1 d2 e1 e2 f1 f2 g1 g2 h1 h2 i1 i2 j1 j2 k1 k2 l1 l2 m1 m2 n1 n2 o1 o2 p1 p2 : Char) :
    fromString old ['{', a1, a2, b1, b2, c1, c2, d1, d2, '-', e1, e2, f1, f2, '-', g1, g2, h1, h2, '-',
      i1, i2, j1, j2, '-', k1, k2, l1, l2, m1, m2, n1, n2, o1, o2, p1, p2, '}'] true =
    (true, [pieceOf a1 a2, pieceOf b1 b2, pieceOf c1 c2, pieceOf d1 d2, pieceOf e1 e2, pieceOf f1 f2,
      pieceOf g1 g2, pieceOf h1 h2, pieceOf i1 i2, pieceOf j1 j2, pieceOf k1 k2, pieceOf l1 l2,
      pieceOf m1 m2, pieceOf n1 n2, pieceOf o1 o2, pieceOf p1 p2]) := rfl

theorem fromString_bare_chars (old : List Byte)
    (a1 a2 b1 b2 c1 c2 d1 d2 e1 e2 f1 f2 g1 g2 h1 h2 i1 i2 j1 j2 k1 k2 l1 l2 m1 m2 n1 n2 o1 o2 p1 p2 : Char) :
    fromString old [a1, a2, b1, b2, c1, c2, d1, d2, '-', e1, e2, f1, f2, '-', g1, g2, h1, h2, '-',
      i1, i2, j1, j2, '-', k1, k2, l1, l2, m1, m2, n1, n2, o1, o2, p1, p2] false =
    (true, [pieceOf a1 a2, pieceOf b1 b2, pieceOf c1 c2, pieceOf d1 d2, pieceOf e1 e2, pieceOf f1 f2,
      pieceOf g1 g2, pieceOf h1 h2, pieceOf i1 i2, pieceOf j1 j2, pieceOf k1 k2, pieceOf l1 l2,
      pieceOf m1 m2, pieceOf n1 n2, pieceOf o1 o2, pieceOf p1 p2]) := rfl

/-- **C09**, braced form: printing and reading back gives the same UUID. -/
theorem C09_braced (d old : List Byte) (h : d.length = 16) :
    fromString old (toText d true) true = (true, d) := by
  obtain ⟨a, b, c, e, f, g, i, j, k, l, m, n, o, p, q, r, rfl⟩ := sixteen d h
  refine (fromString_braced_chars old _ _ _ _ _ _ _ _ _ _ _ _ _ _ _ _ _ _ _ _ _ _ _ _ _ _ _ _ _ _ _ _).trans ?_
  simp only [piece_roundtrip]
  rfl

/-- **C09**, bare form used in GDTF/MVR files. -/
theorem C09_bare (d old : List Byte) (h : d.length = 16) :
    fromString old (toText d false) false = (true, d) := by
  obtain ⟨a, b, c, e, f, g, i, j, k, l, m, n, o, p, q, r, rfl⟩ := sixteen d h
  refine (fromString_bare_chars old _ _ _ _ _ _ _ _ _ _ _ _ _ _ _ _ _ _ _ _ _ _ _ _ _ _ _ _ _ _ _ _).trans ?_
  simp only [piece_roundtrip]
  rfl

theorem toText_length_true (d : List Byte) : (toText d true).length = 38 := rfl
theorem toText_length_false (d : List Byte) : (toText d false).length = 36 := rfl

theorem toText_braces (d : List Byte) : ['{'] ++ toText d false ++ ['}'] = toText d true := rfl

theorem uuidForRead_toText (d : List Byte) : uuidForRead (convertToText d) = some (toText d true) := by
  unfold uuidForRead convertToText
  rw [if_neg (by rw [toText_length_false]; decide), if_pos (by rw [toText_length_false]), toText_braces]

/-- **C09** through the file converters (writer and reader of GDTF files). -/
theorem C09_converter (d old : List Byte) (h : d.length = 16) :
    convertFromText (convertToText d) old = { ok := true, errorAdded := false, value := d } := by
  unfold convertFromText
  rw [uuidForRead_toText]
  simp only [ofText, C09_braced d _ h, if_true]


/-- **C09**: different UUIDs print differently, in both forms. -/
theorem C09_injective (d e : List Byte) (hd : d.length = 16) (he : e.length = 16) (br : Bool)
    (h : toText d br = toText e br) : d = e := by
  have h1 : (fromString [] (toText d br) br).2 = (fromString [] (toText e br) br).2 := by rw [h]
  cases br with
  | true => simpa [C09_braced d [] hd, C09_braced e [] he] using h1
  | false => simpa [C09_bare d [] hd, C09_bare e [] he] using h1

/-- Non-vacuity of C09: the UUID of the comment in UUID.h, as printed and read. -/
example : String.ofList (convertToText
      [0x09, 0xE9, 0x5D, 0x97, 0x36, 0x4C, 0x43, 0xd5, 0x8A, 0xDF, 0xFF, 0x4C, 0xE0, 0xEC, 0x41, 0xA7]) =
    "09E95D97-364C-43D5-8ADF-FF4CE0EC41A7" ∧
    (fromString zero "{09e95d97-364c-43d5-8adf-ff4ce0ec41a7}".toList).2 =
      [0x09, 0xE9, 0x5D, 0x97, 0x36, 0x4C, 0x43, 0xd5, 0x8A, 0xDF, 0xFF, 0x4C, 0xE0, 0xEC, 0x41, 0xA7] := by
  constructor <;> decide +kernel

/-- Old 47 character notation ("XX XX ... XX" or any other placement of 15 blanks): the digits count. -/
theorem C09_spaced (d old : List Byte) (h : d.length = 16) (s : List Char) (hs : s.length = 47)
    (hc : s.filter (· ≠ ' ') = d.flatMap getPieceAsText) :
    convertFromText s old = { ok := true, errorAdded := false, value := d } := by
  obtain ⟨a, b, c, e, f, g, i, j, k, l, m, n, o, p, q, r, rfl⟩ := sixteen d h
  have e : uuidForRead s = some (toText [a, b, c, e, f, g, i, j, k, l, m, n, o, p, q, r] true) := by
    unfold uuidForRead
    simp only [if_pos hs, hc]
    rfl
  unfold convertFromText
  rw [e]
  simp only [ofText, C09_braced _ _ h, if_true]

example : (convertFromText "09 E9 5D 97 36 4C 43 D5 8A DF FF 4C E0 EC 41 A7".toList []).value =
    [0x09, 0xE9, 0x5D, 0x97, 0x36, 0x4C, 0x43, 0xd5, 0x8A, 0xDF, 0xFF, 0x4C, 0xE0, 0xEC, 0x41, 0xA7] := by
  decide +kernel

theorem and255_32 (x : BitVec 32) : (x &&& 0xFF).setWidth 8 = x.setWidth 8 := by
  apply BitVec.eq_of_toNat_eq
  simp only [BitVec.toNat_setWidth, BitVec.toNat_and]
  rw [show (0xFF : BitVec 32).toNat = 2^8 - 1 from rfl, Nat.and_two_pow_sub_one_eq_mod]
  omega

theorem and255_16 (x : BitVec 16) : (x &&& 0xFF).setWidth 8 = x.setWidth 8 := by
  apply BitVec.eq_of_toNat_eq
  simp only [BitVec.toNat_setWidth, BitVec.toNat_and]
  rw [show (0xFF : BitVec 16).toNat = 2^8 - 1 from rfl, Nat.and_two_pow_sub_one_eq_mod]
  omega

theorem ofWord_eq (a : BitVec 32) :
    ofWord a = [a.setWidth 8, (a >>> 8).setWidth 8, (a >>> 16).setWidth 8, (a >>> 24).setWidth 8] := by
  simp only [ofWord, and255_32]

theorem word4_bytes (a : BitVec 32) :
    word4 (a.setWidth 8) ((a >>> 8).setWidth 8) ((a >>> 16).setWidth 8) ((a >>> 24).setWidth 8) = a := by
  apply BitVec.eq_of_toNat_eq
  simp only [word4, BitVec.toNat_ofNat, BitVec.toNat_setWidth, BitVec.toNat_ushiftRight,
    Nat.shiftRight_eq_div_pow]
  have := a.isLt
  omega

theorem bytes_word4 (a b c d : Byte) :
    ((word4 a b c d).setWidth 8 = a ∧ (word4 a b c d >>> 8).setWidth 8 = b ∧
      (word4 a b c d >>> 16).setWidth 8 = c ∧ (word4 a b c d >>> 24).setWidth 8 = d) := by
  have ha := a.isLt; have hb := b.isLt; have hc := c.isLt; have hd := d.isLt
  refine ⟨?_, ?_, ?_, ?_⟩ <;>
  · apply BitVec.eq_of_toNat_eq
    simp only [word4, BitVec.toNat_ofNat, BitVec.toNat_setWidth, BitVec.toNat_ushiftRight,
      Nat.shiftRight_eq_div_pow]
    omega

theorem getWords_ofWords (a b c d : BitVec 32) : getWords (ofWords a b c d) = (a, b, c, d) := by
  unfold getWords ofWords getWord
  simp only [ofWord_eq, List.cons_append, List.nil_append, List.getD_cons_zero, List.getD_cons_succ,
    Nat.reduceAdd, word4_bytes]

/-- **C09** for the four-word form used by MVR and MVR-xchange: `ConvertUUID(VWUUID(a,b,c,d))` read by
`ConvertUUID(text, MvrUUID&)`. -/
theorem C09_mvr_words (a b c d : BitVec 32) (old : BitVec 32 × BitVec 32 × BitVec 32 × BitVec 32) :
    convertFromTextMvr (convertToText (ofWords a b c d)) old =
      { ok := true, errorAdded := false, value := (a, b, c, d) } := by
  unfold convertFromTextMvr
  rw [uuidForRead_toText, if_neg (by rw [convertToText, toText_length_false]; decide)]
  simp only [Option.getD_some, C09_braced (ofWords a b c d) _ rfl, getWords_ofWords]

/-- A UUID built from the words of a UUID is that UUID. -/
theorem C09_words_back (d : List Byte) (h : d.length = 16) :
    (fun w : BitVec 32 × BitVec 32 × BitVec 32 × BitVec 32 => ofWords w.1 w.2.1 w.2.2.1 w.2.2.2) (getWords d) = d := by
  obtain ⟨a, b, c, e, f, g, i, j, k, l, m, n, o, p, q, r, rfl⟩ := sixteen d h
  have key : ∀ a b c d : Byte, ofWord (word4 a b c d) = [a, b, c, d] := by
    intro a b c d
    obtain ⟨h1, h2, h3, h4⟩ := bytes_word4 a b c d
    rw [ofWord_eq, h1, h2, h3, h4]
  simp only [getWords, ofWords, getWord, List.getD_cons_zero, List.getD_cons_succ, Nat.reduceAdd, key,
    List.cons_append, List.nil_append]

/-- Byte array and interface-id forms are inverse too. -/
theorem C09_array (d : List Byte) (h : d.length = 16) : ofArray (getArray d 16) = d := by
  obtain ⟨a, b, c, e, f, g, i, j, k, l, m, n, o, p, q, r, rfl⟩ := sixteen d h
  rfl

theorem C09_iid (d : List Byte) (h : d.length = 16) : ofIID (getIID d) = d := by
  obtain ⟨a, b, c, e, f, g, i, j, k, l, m, n, o, p, q, r, rfl⟩ := sixteen d h
  have h16 : ∀ a b : Byte, (BitVec.ofNat 16 (a.toNat + b.toNat * 256) >>> 8).setWidth 8 = b ∧
      (BitVec.ofNat 16 (a.toNat + b.toNat * 256)).setWidth 8 = a := by
    intro a b
    have ha := a.isLt; have hb := b.isLt
    refine ⟨?_, ?_⟩ <;>
    · apply BitVec.eq_of_toNat_eq
      simp only [BitVec.toNat_ofNat, BitVec.toNat_setWidth, BitVec.toNat_ushiftRight, Nat.shiftRight_eq_div_pow]
      omega
  obtain ⟨h1, h2, h3, h4⟩ := bytes_word4 e c b a
  simp only [ofIID, getIID, List.getD_cons_zero, List.getD_cons_succ, and255_32, and255_16, h1, h2, h3, h4,
    (h16 _ _).1, (h16 _ _).2]
  rfl

/-! ## C10 -/

/-- Specification: a well-formed UUID text, 36 characters, dashes at 8, 13, 18, 23, hex digits elsewhere. -/
def IsHexChar (c : Char) : Prop := c ∈ "0123456789abcdefABCDEF".toList
def IsUuidText (s : List Char) : Prop :=
  s.length = 36 ∧ ∀ i c, s[i]? = some c → if i = 8 ∨ i = 13 ∨ i = 18 ∨ i = 23 then c = '-' else IsHexChar c

/-- The reader's verdict counts as a report when it returns false or records an error. -/
def Reported {α : Type} (r : Res α) : Prop := r.ok = false ∨ r.errorAdded = true

instance {α : Type} (r : Res α) : Decidable (Reported r) := inferInstanceAs (Decidable (_ ∨ _))

/-- **C10 is violated** by the GDTF reader: a text with misplaced dashes is accepted, and gives the zero UUID. -/
theorem C10_gdtf_dashes_violated : ∃ s, ¬ IsUuidText s ∧ s.length ≠ 0 ∧
    ¬ Reported (convertFromText s []) ∧ (convertFromText s []).value = zero := by
  refine ⟨"09E95D97364C-43D5-8ADF-FF4CE0EC41A7X".toList, ?_, by decide, by decide +kernel, by decide +kernel⟩
  intro h
  have := h.2 8 '3' (by decide)
  simp at this

/-- **C10 is violated** by both readers: non-hex digits are read as 0 and accepted
(`THROW_VWFC_EXCEPTION` does not throw). -/
theorem C10_nonhex_violated : ∃ s, ¬ IsUuidText s ∧ s.length ≠ 0 ∧
    ¬ Reported (convertFromText s []) ∧ ¬ Reported (convertFromTextMvr s (0,0,0,0)) := by
  refine ⟨"ZZE95D97-364C-43D5-8ADF-FF4CE0EC41A7".toList, ?_, by decide, by decide +kernel, by decide +kernel⟩
  intro h
  have := h.2 0 'Z' (by decide)
  simp [IsHexChar] at this

theorem getAt_braces (s : List Char) (i : Nat) (h : i < s.length) :
    getAt (['{'] ++ s ++ ['}']) (i+1) = getAt s i := by
  simp [getAt, List.getD, List.getElem?_append, h]

/-- **C10**, the part that holds for the MVR/MVR-xchange reader: exactly the texts of 47 characters and the
texts of 36 characters with the four dashes in place are accepted, all others are reported. Missing with
respect to C10: the digits themselves are not checked. -/
theorem C10_mvr_partial (s : List Char) (old : BitVec 32 × BitVec 32 × BitVec 32 × BitVec 32) :
    Reported (convertFromTextMvr s old) ↔
      ¬ (s.length = 47 ∨ (s.length = 36 ∧ s[8]? = some '-' ∧ s[13]? = some '-' ∧ s[18]? = some '-' ∧ s[23]? = some '-')) := by
  by_cases h0 : s.length = 0
  · have : Reported (convertFromTextMvr s old) := by simp [convertFromTextMvr, h0, Reported]
    simp [this, h0]
  · have e : (convertFromTextMvr s old).errorAdded = false := by simp [convertFromTextMvr, h0]
    have f : (convertFromTextMvr s old).ok = (fromString zero ((uuidForRead s).getD [])).1 := by
      simp [convertFromTextMvr, h0]
    unfold Reported
    rw [e, f]
    by_cases h47 : s.length = 47
    · simp only [uuidForRead, if_pos h47, Option.getD_some, h47, true_or, not_true_eq_false, iff_false]
      rw [show ∀ b : Bool, (¬ (b = false ∨ false = true)) = (b = true) from by intro b; cases b <;> simp]
      rfl
    · by_cases h36 : s.length = 36
      · simp only [uuidForRead, if_neg h47, if_pos h36, Option.getD_some]
        have g : ∀ i, i < 36 → (getAt (['{'] ++ s ++ ['}']) (i+1) == '-') = decide (s[i]? = some '-') := by
          intro i hi
          rw [getAt_braces s i (by omega)]
          have : i < s.length := by omega
          simp [getAt, List.getD, this]
          rw [Bool.eq_iff_iff]; simp
        have z : getAt (['{'] ++ s ++ ['}']) 0 = '{' := rfl
        have y : getAt (['{'] ++ s ++ ['}']) 37 = '}' := by
          simp [getAt, List.getD, List.getElem?_append, h36]
        have l : (['{'] ++ s ++ ['}']).length = 38 := by simp [h36]
        simp only [fromString, l]
        rw [show (9:Nat) = 8+1 from rfl, show (14:Nat) = 13+1 from rfl, show (19:Nat) = 18+1 from rfl,
          show (24:Nat) = 23+1 from rfl, g 8 (by omega), g 13 (by omega), g 18 (by omega), g 23 (by omega), z, y]
        simp [h36]
      · simp [uuidForRead, h47, h36, fromString]

/-- **C10**, the part that holds for the GDTF reader: every text of another length than 36 or 47 is reported. -/
theorem C10_gdtf_partial (s : List Char) (old : List Byte) (h1 : s.length ≠ 36) (h2 : s.length ≠ 47) :
    Reported (convertFromText s old) := by
  unfold Reported convertFromText uuidForRead
  rw [if_neg h2, if_neg h1]
  by_cases h : s.length = 0
  · simp [h]
  · simp [h]

example : Reported (convertFromText "not a uuid".toList zero) ∧
    Reported (convertFromTextMvr "09E95D97-364C-43D58ADF--FF4CE0EC41A7".toList (1,2,3,4)) :=
  ⟨C10_gdtf_partial _ _ (by decide) (by decide), by rw [C10_mvr_partial]; decide⟩

end Verif.Uuid
