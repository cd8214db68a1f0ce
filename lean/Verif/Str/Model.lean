import Verif.Basic

/-!
# Model of `/repo/src/GSString.cpp` (class `TXString`): searching, slicing, editing

`TXString` wraps a `std::u16string`.  Most functions do not look at the code units, so they are written
for lists over any type `α` of code units.  Two instances are used:

* `α = BitVec 16` (UTF-16 code units) where surrogates matter (`mid`, `left`, `right`, Unicode conversion);
* `α = Char` in the text converters, i.e. restricted to strings without surrogate code units, for which
  `TrimInvalidCharacters` is the identity (`midC`, `leftC`, `rightC`).
-/

namespace Verif.Str

variable {α : Type} [DecidableEq α]

/-- `std::u16string::find(sub, 0)` on the rest of the string: offset of the first match. -/
def findAt (sub : List α) : List α → Option Nat
  | [] => if sub = [] then some 0 else none
  | c :: t => if sub.isPrefixOf (c :: t) then some 0 else (findAt sub t).map (· + 1)

/-- `std::u16string::find(sub, pos)`; `none` is `npos`. -/
def stdFind (s sub : List α) (pos : Nat) : Option Nat :=
  if pos ≤ s.length then (findAt sub (s.drop pos)).map (· + pos) else none

/-- GSString.cpp:1710-1735 `Find(const TXString& sub, posFirst, bIgnoreCase = false)`; `none` is `-1`. -/
def find (s sub : List α) (pos : Nat := 0) : Option Nat :=
  if sub.length = 0 then none else stdFind s sub pos

/-- GSString.cpp:1741-1777 `Find(int ch / char ch, posFirst, bIgnoreCase = false)`; `none` is `-1`. -/
def findCh (s : List α) (ch : α) (pos : Nat := 0) : Option Nat := stdFind s [ch] pos

/-- `std::u16string::rfind(sub, posLast)` for non-empty `sub`: the last match starting at or before `posLast`. -/
def rfindBelow (s sub : List α) : Nat → Option Nat
  | 0 => if sub.isPrefixOf s then some 0 else none
  | n+1 => if sub.isPrefixOf (s.drop (n+1)) then some (n+1) else rfindBelow s sub n

/-- GSString.cpp:1784-1851 `ReverseFind(sub)` with `posLast = -1`; `none` is `-1`. -/
def reverseFind (s sub : List α) : Option Nat :=
  if sub.length = 0 then none else rfindBelow s sub s.length

/-- GSString.cpp:1012-1024 `Insert(pos, src)`. -/
def insert (s : List α) (pos : Nat) (src : List α) : List α :=
  if pos < s.length then s.take pos ++ src ++ s.drop pos else s ++ src

/-- GSString.cpp:1217-1225 `Delete(pos, len)`: `std::u16string::erase`. -/
def delete (s : List α) (pos len : Nat) : List α :=
  if pos < s.length then s.take pos ++ s.drop (pos + len) else s

/-- GSString.cpp:1242-1256 `TrimLeft`: erase up to the first character that is not blank, or clear. -/
def trimLeft (blank : α → Bool) (s : List α) : List α :=
  match s.findIdx? (fun c => !blank c) with
  | some pos => s.drop pos
  | none => []

/-- GSString.cpp:1260-1275 `TrimRight`. `find_last_not_of` as a downward index scan. -/
def lastNotBlank (blank : α → Bool) (s : List α) : Nat → Option Nat
  | 0 => none
  | n+1 => match s[n]? with
    | some c => if blank c then lastNotBlank blank s n else some n
    | none => none

def trimRight (blank : α → Bool) (s : List α) : List α :=
  match lastNotBlank blank s s.length with
  | some pos => s.take (pos + 1)
  | none => []

/-- GSString.cpp:1279-1285 `Trim`. -/
def trim (blank : α → Bool) (s : List α) : List α := trimRight blank (trimLeft blank s)

/-- GSString.cpp:1345-1381 `Replace(oldStr, newStr, false)`: one round of the loop
`while ((start = find(old, start)) != npos) { replace(start, |old|, new); start += |new|; }`
on the state `(string, start)`; `none` = loop ends. -/
def replaceStep (old new : List α) (st : List α × Nat) : Option (List α × Nat) :=
  match stdFind st.1 old st.2 with
  | none => none
  | some p => some (st.1.take p ++ new ++ st.1.drop (p + old.length), p + new.length)

/-- The loop with `fuel` rounds; `none` = not finished. -/
def replaceLoop (old new : List α) : Nat → List α × Nat → Option (List α)
  | 0, _ => none
  | fuel+1, st => match replaceStep old new st with
    | none => some st.1
    | some st' => replaceLoop old new fuel st'

/-- GSString.cpp:1445-1460 `MakeReverse`: swaps from both ends. Simplification: as a function on lists. -/
def makeReverseAux (s : List α) : (i j : Nat) → List α
  | i, j => if h : i < j then
      match s[i]?, s[j]? with
      | some a, some b => makeReverseAux ((s.set i b).set j a) (i+1) (j-1)
      | _, _ => s
    else s
termination_by i j => j - i

def makeReverse (s : List α) : List α :=
  if 0 < s.length then makeReverseAux s 0 (s.length - 1) else s

/-- GSString.cpp:2196-2199 `EndsWith`: compares the last `|suffix|` units. -/
def endsWith (s suffix : List α) : Bool :=
  decide (suffix.length ≤ s.length) && decide ((s.drop (s.length - suffix.length)).take suffix.length = suffix)

/-- GSString.cpp:1293-1305 `TrimLeftInvalidCharacter` for UTF-16. -/
def isLow (u : BitVec 16) : Bool := decide (0xDC00#16 ≤ u) && decide (u ≤ 0xDFFF#16)
def isHigh (u : BitVec 16) : Bool := decide (0xD800#16 ≤ u) && decide (u ≤ 0xDBFF#16)

def trimLeftInvalid : List (BitVec 16) → List (BitVec 16)
  | [] => []
  | u :: t => if isLow u then t else u :: t

/-- GSString.cpp:1309-1321 `TrimRightInvalidCharacter`. -/
def trimRightInvalid (s : List (BitVec 16)) : List (BitVec 16) :=
  match s.getLast? with
  | none => []
  | some u => if isHigh u then s.dropLast else s

/-- GSString.cpp:1918-1930 `Mid` (`substr` clamps the length). -/
def mid (s : List (BitVec 16)) (first len : Nat) : List (BitVec 16) :=
  if s.length ≤ first then [] else trimRightInvalid (trimLeftInvalid ((s.drop first).take len))

/-- GSString.cpp:1935-1938 `Left`. -/
def left (s : List (BitVec 16)) (len : Nat) : List (BitVec 16) := trimRightInvalid (s.take len)

/-- GSString.cpp:1943-1955 `Right`. -/
def right (s : List (BitVec 16)) (len : Nat) : List (BitVec 16) :=
  if s.length ≤ len then s else trimLeftInvalid (s.drop (s.length - len))

/-- `Mid`/`Left`/`Right` for strings without surrogates (`TrimInvalidCharacters` does nothing). -/
def midC (s : List α) (first len : Nat) : List α :=
  if s.length ≤ first then [] else (s.drop first).take len
def leftC (s : List α) (len : Nat) : List α := s.take len
def rightC (s : List α) (len : Nat) : List α :=
  if s.length ≤ len then s else s.drop (s.length - len)

/-- `size_t(-1)` -/
def npos : Nat := 2^64 - 1

/-- `size_t` result of `Find`: -1 becomes 2^64 - 1. -/
def toSize : Option Nat → Nat
  | some p => p
  | none => npos

/-- GSString.cpp:1960-1981 and 1986-2008 `Split(ch)`; state `(lastOccurrence, result)`, one loop round,
`Sum.inr` = loop left. `size_t` arithmetic wraps modulo 2^64. -/
def splitStep (s ch : List α) (st : Nat × List (List α)) : (Nat × List (List α)) ⊕ List (List α) :=
  let (last, result) := st
  if last < npos then
    let pos := toSize (find s ch ((last + 1) % 2^64))
    let result := if pos ≠ 0 then result ++ [midC s last ((pos + 2^64 - last) % 2^64)] else result
    let last := (pos + 1) % 2^64
    if (pos + 1) % 2^64 = s.length then .inr result else .inl (last, result)
  else .inr result

def splitLoop (s ch : List α) : Nat → Nat × List (List α) → Option (List (List α))
  | 0, _ => none
  | fuel+1, st => match splitStep s ch st with
    | .inr r => some r
    | .inl st' => splitLoop s ch fuel st'

/-- `Split` with a bound on the number of rounds; `none` = still running. -/
def split (s ch : List α) (fuel : Nat) : Option (List (List α)) := splitLoop s ch fuel (0, [])

/-! ## Characters and numbers -/

/-- `::toupper` in the "C" locale (ASCII). Simplification: other characters are unchanged. -/
def upChar (c : Char) : Char := if 'a' ≤ c ∧ c ≤ 'z' then Char.ofNat (c.toNat - 32) else c
def lowChar (c : Char) : Char := if 'A' ≤ c ∧ c ≤ 'Z' then Char.ofNat (c.toNat + 32) else c

/-- GSString.cpp:1385-1441 `MakeUpper`/`MakeLower` (Linux). -/
def makeUpper (s : List Char) : List Char := s.map upChar
def makeLower (s : List Char) : List Char := s.map lowChar

/-- GSString.cpp:2161-2192, 2203-2208 `operator==`: case-insensitive comparison. -/
def eqNoCase (a b : List Char) : Bool := decide (makeUpper a = makeUpper b)

/-- `std::isdigit` -/
def isDigit (c : Char) : Bool := decide ('0' ≤ c) && decide (c ≤ '9')

def digitVal (c : Char) : Nat := c.toNat - 48

/-- Value of the leading digits. -/
def digitsVal (acc : Nat) : List Char → Nat
  | [] => acc
  | c :: t => if isDigit c then digitsVal (acc * 10 + digitVal c) t else acc

/-- `isspace` in the "C" locale. -/
def isSpace (c : Char) : Bool :=
  c == ' ' || c == '\t' || c == '\n' || c == '\r' || c == Char.ofNat 11 || c == Char.ofNat 12

/-- Optional sign, then digits. -/
def signVal : List Char → Int
  | '-' :: t => - (digitsVal 0 t : Int)
  | '+' :: t => (digitsVal 0 t : Int)
  | t => (digitsVal 0 t : Int)

/-- `::atoi`, GSString.cpp:2019-2022: blanks, optional sign, digits; without digits 0. `none` = the value
does not fit `int`, undefined behaviour in C. -/
def atoi (s : List Char) : Option Int :=
  let v := signVal (s.dropWhile isSpace)
  if -2147483648 ≤ v ∧ v ≤ 2147483647 then some v else none

/-- GSString.cpp:2063-2069 `IsCompleteNumber`. -/
def isCompleteNumber (s : List Char) : Bool := !s.isEmpty && s.all isDigit

/-- `std::to_string` of a non-negative number: decimal digits, no leading zeros. -/
def natText (n : Nat) : List Char :=
  if n < 10 then [Char.ofNat (48 + n)] else natText (n / 10) ++ [Char.ofNat (48 + n % 10)]
termination_by n
decreasing_by omega

/-- GSString.cpp:2044 `itoa`, `std::to_string(Sint64)`. -/
def intText (i : Int) : List Char :=
  if i < 0 then '-' :: natText i.natAbs else natText i.natAbs

end Verif.Str
