/-!
# Basic notions shared by all parts of the model
-/

namespace Verif

/-- `unsigned char` / `Uint8`. -/
abbrev Byte := BitVec 8

/-- Checked array write `buf[i] = b`: `none` is the undefined behaviour of a C++ write outside the array. -/
def wr {α : Type} (buf : List α) (i : Nat) (b : α) : Option (List α) :=
  if i < buf.length then some (buf.set i b) else none

end Verif
