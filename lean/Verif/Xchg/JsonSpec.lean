import Verif.Xchg.JsonText
import Verif.Unicode.Spec

/-!
# Specification: JSON texts (RFC 8259) of values whose numbers are integers

Texts are `List Char`, one `Char` per byte of the UTF-8 form.
-/

namespace Verif.Xchg.JsonSpec

open Verif.UnicodeSpec Verif.Xchg

/-- The bytes of a character, UTF-8. -/
def bytesOf (c : Nat) : List Char := (utf8 c).map fun b => Char.ofNat b.toNat

/-- The bytes are UTF-8: of a sequence of characters. -/
def Utf8 (s : List Char) : Prop := ∃ cs : List Nat, (∀ c ∈ cs, IsScalar c) ∧ s = cs.flatMap bytesOf

/-- A hexadecimal digit, in lower or upper case. -/
def HexDigit (n : Nat) (c : Char) : Prop :=
  "0123456789abcdef".toList[n]? = some c ∨ "0123456789ABCDEF".toList[n]? = some c

/-- Four hexadecimal digits. -/
def Hex4 (n : Nat) (h : List Char) : Prop :=
  ∃ a b c d, h = [a, b, c, d] ∧ HexDigit (n / 4096) a ∧ HexDigit (n / 256 % 16) b ∧ HexDigit (n / 16 % 16) c ∧ HexDigit (n % 16) d

/-- RFC 8259 section 7, the escapes with one letter. -/
def letters : List (Nat × Char) :=
  [(0x22, '"'), (0x5C, '\\'), (0x2F, '/'), (0x08, 'b'), (0x0C, 'f'), (0x0A, 'n'), (0x0D, 'r'), (0x09, 't')]

/-- RFC 8259 section 7: the ways to write the character `c` inside a string. -/
inductive CharText : Nat → List Char → Prop
  | raw (c : Nat) (h : IsScalar c) (h1 : 0x20 ≤ c) (h2 : c ≠ 0x22) (h3 : c ≠ 0x5C) : CharText c (bytesOf c)
  | letter (c : Nat) (e : Char) (h : (c, e) ∈ letters) : CharText c ['\\', e]
  | hex (c : Nat) (h : IsScalar c) (h1 : c < 0x10000) (t : List Char) (ht : Hex4 c t) : CharText c ('\\' :: 'u' :: t)
  | pair (c : Nat) (h1 : 0x10000 ≤ c) (h2 : c ≤ 0x10FFFF) (t u : List Char) (ht : Hex4 (0xD800 + (c - 0x10000) / 1024) t)
      (hu : Hex4 (0xDC00 + (c - 0x10000) % 1024) u) : CharText c ('\\' :: 'u' :: t ++ '\\' :: 'u' :: u)

/-- The inside of a string: `StringText s t` says that `t` is a way to write the bytes `s`. -/
inductive StringText : List Char → List Char → Prop
  | nil : StringText [] []
  | cons {c : Nat} {p s t : List Char} (h : CharText c p) (ht : StringText s t) : StringText (bytesOf c ++ s) (p ++ t)

/-- RFC 8259 section 2, white space. -/
def Space (w : List Char) : Prop := ∀ c ∈ w, c ∈ [' ', '\t', '\n', '\r']

/-- RFC 8259 section 6: the digits of an integer; no zero in front of others. -/
def Digits (ds : List Char) : Prop := ds ≠ [] ∧ (∀ c ∈ ds, c ∈ "0123456789".toList) ∧ (ds.head? = some '0' → ds = ['0'])

/-- The number the digits stand for. -/
def number (ds : List Char) : Nat := ds.foldl (fun n c => 10 * n + (c.toNat - 48)) 0

/-- RFC 8259 section 6: a text of an integer. -/
def IntText (n : Int) (t : List Char) : Prop :=
  ∃ ds, Digits ds ∧ ((t = ds ∧ n = number ds) ∨ (t = '-' :: ds ∧ n = -(number ds : Int)))

mutual

/-- RFC 8259: `t` is a text of the value `j`, without white space around.  `W` says what white space is.  Integers have 64
bits, with or without sign. -/
inductive Text (W : List Char → Prop) : Json → List Char → Prop
  | null : Text W .null "null".toList
  | yes : Text W (.bool true) "true".toList
  | no : Text W (.bool false) "false".toList
  | num {n : Int} {t : List Char} (h : IntText n t) (h1 : -2 ^ 63 ≤ n) (h2 : n < 2 ^ 64) : Text W (.num n) t
  | str {s t : List Char} (h : StringText s t) : Text W (.str s) ('"' :: t ++ ['"'])
  | noElements {w : List Char} (h : W w) : Text W (.arr []) ('[' :: w ++ [']'])
  | arr {l : List Json} {t : List Char} (h : Elements W l t) : Text W (.arr l) ('[' :: t ++ [']'])
  | noMembers {w : List Char} (h : W w) : Text W (.obj []) ('{' :: w ++ ['}'])
  | obj {l : List (String × Json)} {t : List Char} (h : Members W l t) : Text W (.obj l) ('{' :: t ++ ['}'])

/-- The elements of an array, at least one. -/
inductive Elements (W : List Char → Prop) : List Json → List Char → Prop
  | one {v : Json} {w t w' : List Char} (h : W w) (hv : Text W v t) (h' : W w') : Elements W [v] (w ++ t ++ w')
  | more {v : Json} {l : List Json} {w t w' r : List Char} (h : W w) (hv : Text W v t) (h' : W w') (hl : Elements W l r) :
      Elements W (v :: l) (w ++ t ++ w' ++ ',' :: r)

/-- The members of an object, at least one. -/
inductive Members (W : List Char → Prop) : List (String × Json) → List Char → Prop
  | one {k : String} {v : Json} {w q w1 w2 t w' : List Char} (h : W w) (hk : StringText k.toList q) (h1 : W w1)
      (h2 : W w2) (hv : Text W v t) (h' : W w') :
      Members W [(k, v)] (w ++ '"' :: q ++ '"' :: w1 ++ ':' :: w2 ++ t ++ w')
  | more {k : String} {v : Json} {l : List (String × Json)} {w q w1 w2 t w' r : List Char} (h : W w)
      (hk : StringText k.toList q) (h1 : W w1) (h2 : W w2) (hv : Text W v t) (h' : W w') (hl : Members W l r) :
      Members W ((k, v) :: l) (w ++ '"' :: q ++ '"' :: w1 ++ ':' :: w2 ++ t ++ w' ++ ',' :: r)

end

/-- A JSON document (RFC 8259 section 2). -/
def Document (j : Json) (t : List Char) : Prop := ∃ w u w', Space w ∧ Text Space j u ∧ Space w' ∧ t = w ++ u ++ w'

/-- The ends of a line; the null byte counts as one. -/
def ends : List Char := ['\n', '\r', '\x00']

/-- White space and comments as in C++. -/
inductive Blank : List Char → Prop
  | nil : Blank []
  | space {c : Char} {t : List Char} (h : c ∈ [' ', '\t', '\n', '\r']) (ht : Blank t) : Blank (c :: t)
  | line {b : List Char} {e : Char} {t : List Char} (hb : ∀ c ∈ b, c ∉ ends) (he : e ∈ ends) (ht : Blank t) :
      Blank ('/' :: '/' :: b ++ e :: t)
  | block {b t : List Char} (hb : '\x00' ∉ b) (hc : ¬ ['*', '/'] <:+: b ++ ['*']) (ht : Blank t) :
      Blank ('/' :: '*' :: b ++ '*' :: '/' :: t)

/-- What may follow: nothing, a null byte and anything behind it, or a comment to the end. -/
def Tail (t : List Char) : Prop :=
  t = [] ∨ (∃ r, t = '\x00' :: r) ∨ ∃ b, (∀ c ∈ b, c ∉ ends) ∧ t = '/' :: '/' :: b

/-- The byte order mark. -/
def bom : List Char := [Char.ofNat 0xEF, Char.ofNat 0xBB, Char.ofNat 0xBF]

/-- The texts of the value `j` that the library accepts: JSON documents, also with comments, a byte order mark and a `Tail`. -/
def Accepted (j : Json) (t : List Char) : Prop :=
  ∃ m w u w' r, (m = [] ∨ m = bom) ∧ Blank w ∧ Text Blank j u ∧ Blank w' ∧ Tail r ∧ t = m ++ w ++ u ++ w' ++ r

mutual

/-- Two values are the same: their objects have the same members, in any order. -/
def Same : Json → Json → Prop
  | .null, .null => True
  | .bool a, .bool b => a = b
  | .num a, .num b => a = b
  | .str a, .str b => a = b
  | .arr l, .arr m => SameElements l m
  | .obj l, .obj m => l.length = m.length ∧ SameMembers l m
  | _, _ => False

def SameElements : List Json → List Json → Prop
  | [], [] => True
  | a :: l, b :: m => Same a b ∧ SameElements l m
  | _, _ => False

def SameMembers : List (String × Json) → List (String × Json) → Prop
  | [], _ => True
  | (k, v) :: l, m => (∃ w, m.lookup k = some w ∧ Same v w) ∧ SameMembers l m

end

mutual

/-- Every text and every key in the value is UTF-8. -/
def AllUtf8 : Json → Prop
  | .str s => Utf8 s
  | .arr l => AllUtf8Elements l
  | .obj l => AllUtf8Members l
  | _ => True

def AllUtf8Elements : List Json → Prop
  | [] => True
  | j :: l => AllUtf8 j ∧ AllUtf8Elements l

def AllUtf8Members : List (String × Json) → Prop
  | [] => True
  | (k, v) :: l => Utf8 k.toList ∧ AllUtf8 v ∧ AllUtf8Members l

end

mutual

/-- The value is one the library can hold: integers have 64 bits and the keys of an object differ. -/
def Proper : Json → Prop
  | .num n => -2 ^ 63 ≤ n ∧ n < 2 ^ 64
  | .arr l => ProperElements l
  | .obj l => (l.map Prod.fst).Nodup ∧ ProperMembers l
  | _ => True

def ProperElements : List Json → Prop
  | [] => True
  | j :: l => Proper j ∧ ProperElements l

def ProperMembers : List (String × Json) → Prop
  | [] => True
  | (_, v) :: l => Proper v ∧ ProperMembers l

end

end Verif.Xchg.JsonSpec
