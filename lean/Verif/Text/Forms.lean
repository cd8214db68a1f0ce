import Verif.Text.Props

/-!
C46, C15, C16: empty texts, and the exact texts written for offsets and dates.
-/

namespace Verif.Text

open Verif.Str

/-- **C46**: an empty text is answered with `false` and leaves the value as it was. -/
theorem C46_empty_signed (w : Nat) (old : Int) : readSigned w [] old = some ⟨false, false, old⟩ := rfl

theorem C46_empty_unsigned (w old : Nat) : readUnsigned w [] old = some ⟨false, false, old⟩ := rfl

theorem C46_empty_break (old : Int) : readBreak [] old = some ⟨false, false, old⟩ := rfl

theorem C46_empty_integerOrNone (old : Int) : readIntegerOrNone [] old = some ⟨false, false, (old, false)⟩ := rfl

/-- **C15**, the text: the parts are written in the order coarse, fine, ultra, uber, and writing stops at the first
part that is absent. -/
theorem C15_text (o : Offset) :
    writeOffset o = joinComma ((([o.coarse, o.fine, o.ultra, o.uber].takeWhile (· ≠ 0)).map fun n : Nat => intText n)) := by
  obtain ⟨c, f, u, b⟩ := o
  unfold writeOffset writeInts
  simp only
  by_cases hc : c = 0
  · simp [hc, joinComma]
  · by_cases hf : f = 0
    · simp [hc, hf, Nat.pos_of_ne_zero hc, joinComma]
    · by_cases hu : u = 0
      · simp [hc, hf, hu, Nat.pos_of_ne_zero hc, Nat.pos_of_ne_zero hf, joinComma]
      · by_cases hb : b = 0
        · simp [hc, hf, hu, hb, Nat.pos_of_ne_zero hc, Nat.pos_of_ne_zero hf, Nat.pos_of_ne_zero hu, joinComma]
        · simp [hc, hf, hu, hb, Nat.pos_of_ne_zero hc, Nat.pos_of_ne_zero hf, Nat.pos_of_ne_zero hu,
            Nat.pos_of_ne_zero hb, joinComma]

/-- An offset with a gap loses everything after the gap. -/
example : writeOffset ⟨7, 0, 9, 10⟩ = "7".toList ∧ writeOffset ⟨7, 8, 9, 0⟩ = "7,8,9".toList := by decide +kernel

/-- Specification: the decimal digit of a number below 10. -/
def digit (n : Nat) : Char := Char.ofNat (48 + n)

theorem twoDigits_form : ∀ v : Fin 100, twoDigits v = [digit (v / 10), digit (v % 10)] := by decide +kernel

/-- **C16**, the text: a date is written as `year-MM-DDThh:mm:ss` with exactly two digits per part. -/
theorem C16_text (t : Time) (h1 : t.month < 100) (h2 : t.day < 100) (h3 : t.hour < 100) (h4 : t.minute < 100)
    (h5 : t.second < 100) :
    writeDate t = intText t.year ++ ['-', digit (t.month / 10), digit (t.month % 10), '-', digit (t.day / 10),
      digit (t.day % 10), 'T', digit (t.hour / 10), digit (t.hour % 10), ':', digit (t.minute / 10),
      digit (t.minute % 10), ':', digit (t.second / 10), digit (t.second % 10)] := by
  unfold writeDate
  rw [twoDigits_form ⟨_, h1⟩, twoDigits_form ⟨_, h2⟩, twoDigits_form ⟨_, h3⟩, twoDigits_form ⟨_, h4⟩, twoDigits_form ⟨_, h5⟩]
  rfl

example : writeDate ⟨2024, 2, 10, 7, 5, 59⟩ = "2024-02-10T07:05:59".toList := by decide +kernel

end Verif.Text
