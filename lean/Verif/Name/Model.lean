import Verif.Str.Model

/-!
# Model of name cleaning, `/repo/src/Utility.cpp`

Names are lists of UTF-16 code units (`TXChar`).
-/

namespace Verif.Name

/-- Utility.cpp:86-95 `GdtfUtil::IsValidNameChar`. -/
def isValidNameChar (c : BitVec 16) : Bool :=
  decide (c = 0x20#16) || (decide (0x22#16 ≤ c) && decide (c ≤ 0x3E#16)) || decide (c = 0x40#16) ||
  (decide (0x41#16 ≤ c) && decide (c ≤ 0x5A#16)) || (decide (0x5F#16 ≤ c) && decide (c ≤ 0x60#16)) ||
  (decide (0x61#16 ≤ c) && decide (c ≤ 0x7A#16))

/-- Utility.cpp:97-107, one round of the loop of `DoesNameContainInvalidChars` on `(name, i)`; after
`Delete(i, 1); i--;` the increment of the loop brings `i` back to the same value. `none` = the loop ends.
`GetAt(i)` is inside the string because of the loop condition; the 0 it returns outside is kept.
Simplification: `int i` is unbounded (a name longer than 2^31 - 1 units is out of scope). -/
def cleanStep (st : List (BitVec 16) × Nat) : Option (List (BitVec 16) × Nat) :=
  if st.2 < st.1.length then
    let ch := (st.1[st.2]?).getD 0#16
    if isValidNameChar ch then some (st.1, st.2 + 1) else some (Str.delete st.1 st.2 1, st.2)
  else none

/-- The loop with at most `fuel` rounds; `none` = not finished. -/
def cleanLoop : Nat → List (BitVec 16) × Nat → Option (List (BitVec 16))
  | 0, _ => none
  | fuel+1, st => match cleanStep st with
    | none => some st.1
    | some st' => cleanLoop fuel st'

/-- Utility.cpp:97-107 `GdtfUtil::DoesNameContainInvalidChars`. -/
def cleanName (fuel : Nat) (name : List (BitVec 16)) : Option (List (BitVec 16)) := cleanLoop fuel (name, 0)

end Verif.Name
