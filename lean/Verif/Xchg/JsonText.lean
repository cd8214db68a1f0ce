import Verif.Xchg.Message

/-!
# The text of JSON values: nlohmann::json 3.9.1 as shipped in src/mvrxchange/json.h

`mvrxchange_message.cpp:306` turns the payload into bytes with `dump()` (no indent, no `ensure_ascii`, strict error handler:
json.h:18759-18777) and line 444 turns bytes into a value with `parse(first, last, nullptr, false, true)` (no callback, no
exceptions, comments ignored: json.h:23174-23183).  Texts are `List Char`, one `Char` below 256 per byte.  Not modelled: the
512 byte buffer in which `dump_escaped` collects its output, positions and error messages, and numbers with a fraction, an
exponent or more than 64 bits, for which `parse` here gives `float`.
-/

namespace Verif.Xchg

open Verif.Str

/-! ### std::map -/

/-- `std::map<std::string, json>::operator[](key) = value`: the members are in the order of their keys. -/
def insertKey (k : String) (v : Json) : List (String × Json) → List (String × Json)
  | [] => [(k, v)]
  | (a, w) :: t => if k < a then (k, v) :: (a, w) :: t else if k = a then (k, v) :: t else (a, w) :: insertKey k v t

mutual

/-- The value as the library stores it: the members of every object in the order of their keys (`Json.obj` lists them in the
order in which mvrxchange_message.cpp:149-267 assigns them; the keys differ). -/
def Json.stored : Json → Json
  | .arr l => .arr (storedList l)
  | .obj l => .obj (storedMembers l)
  | j => j

def storedList : List Json → List Json
  | [] => []
  | j :: t => j.stored :: storedList t

def storedMembers : List (String × Json) → List (String × Json)
  | [] => []
  | (k, v) :: t => insertKey k v.stored (storedMembers t)

end

/-! ### Writing -/

/-- json.h:16300-16318, the table `utf8d` of the UTF-8 automaton: first the class of each byte, then the transitions. -/
def utf8d : List Nat := [
   0, 0, 0, 0, 0, 0, 0, 0, 0, 0, 0, 0, 0, 0, 0, 0, 0, 0, 0, 0, 0, 0, 0, 0, 0, 0, 0, 0, 0, 0, 0, 0,
   0, 0, 0, 0, 0, 0, 0, 0, 0, 0, 0, 0, 0, 0, 0, 0, 0, 0, 0, 0, 0, 0, 0, 0, 0, 0, 0, 0, 0, 0, 0, 0,
   0, 0, 0, 0, 0, 0, 0, 0, 0, 0, 0, 0, 0, 0, 0, 0, 0, 0, 0, 0, 0, 0, 0, 0, 0, 0, 0, 0, 0, 0, 0, 0,
   0, 0, 0, 0, 0, 0, 0, 0, 0, 0, 0, 0, 0, 0, 0, 0, 0, 0, 0, 0, 0, 0, 0, 0, 0, 0, 0, 0, 0, 0, 0, 0,
   1, 1, 1, 1, 1, 1, 1, 1, 1, 1, 1, 1, 1, 1, 1, 1, 9, 9, 9, 9, 9, 9, 9, 9, 9, 9, 9, 9, 9, 9, 9, 9,
   7, 7, 7, 7, 7, 7, 7, 7, 7, 7, 7, 7, 7, 7, 7, 7, 7, 7, 7, 7, 7, 7, 7, 7, 7, 7, 7, 7, 7, 7, 7, 7,
   8, 8, 2, 2, 2, 2, 2, 2, 2, 2, 2, 2, 2, 2, 2, 2, 2, 2, 2, 2, 2, 2, 2, 2, 2, 2, 2, 2, 2, 2, 2, 2,
   10, 3, 3, 3, 3, 3, 3, 3, 3, 3, 3, 3, 3, 4, 3, 3, 11, 6, 6, 6, 5, 8, 8, 8, 8, 8, 8, 8, 8, 8, 8, 8,
   0, 1, 2, 3, 5, 8, 7, 1, 1, 1, 4, 6, 1, 1, 1, 1, 1, 1, 1, 1, 1, 1, 1, 1, 1, 1, 1, 1, 1, 1, 1, 1,
   1, 0, 1, 1, 1, 1, 1, 0, 1, 0, 1, 1, 1, 1, 1, 1, 1, 2, 1, 1, 1, 1, 1, 2, 1, 2, 1, 1, 1, 1, 1, 1,
   1, 1, 1, 1, 1, 1, 1, 2, 1, 1, 1, 1, 1, 1, 1, 1, 1, 2, 1, 1, 1, 1, 1, 1, 1, 2, 1, 1, 1, 1, 1, 1,
   1, 1, 1, 1, 1, 1, 1, 3, 1, 3, 1, 1, 1, 1, 1, 1, 1, 3, 1, 1, 1, 1, 1, 3, 1, 3, 1, 1, 1, 1, 1, 1,
   1, 3, 1, 1, 1, 1, 1, 1, 1, 1, 1, 1, 1, 1, 1, 1]

/-- json.h:16320 `type`.  A `Char` from 256 on is no byte; it gets the class of the bytes that never occur. -/
def utf8Type (c : Char) : Nat := if c.toNat < 256 then utf8d.getD c.toNat 8 else 8

/-- json.h:16322-16324, the new code point. -/
def nextCode (st cp : Nat) (c : Char) : Nat :=
  if st ≠ 0 then (c.toNat &&& 0x3f) ||| (cp <<< 6) else (0xFF >>> utf8Type c) &&& c.toNat

/-- json.h:16326-16328, the new state. -/
def nextState (st : Nat) (c : Char) : Nat := utf8d.getD (256 + st * 16 + utf8Type c) 1

/-- One digit of `%04x`. -/
def hexDigit (n : Nat) : Char := if n < 10 then Char.ofNat (48 + n) else Char.ofNat (87 + n)

/-- json.h:15835-15914: what is written for an accepted code point whose last byte is `c`. -/
def escapeCode (cp : Nat) (c : Char) : List Char :=
  if cp = 0x08 then ['\\', 'b']
  else if cp = 0x09 then ['\\', 't']
  else if cp = 0x0A then ['\\', 'n']
  else if cp = 0x0C then ['\\', 'f']
  else if cp = 0x0D then ['\\', 'r']
  else if cp = 0x22 then ['\\', '"']
  else if cp = 0x5C then ['\\', '\\']
  else if cp ≤ 0x1F then
    ['\\', 'u', hexDigit (cp / 4096 % 16), hexDigit (cp / 256 % 16), hexDigit (cp / 16 % 16), hexDigit (cp % 16)]
  else [c]

/-- json.h:15817-16063 `dump_escaped`, from state `st` and code point `cp`: 0 is `UTF8_ACCEPT`, 1 `UTF8_REJECT`.  A byte that
is not UTF-8 and an incomplete end throw `type_error` 316. -/
def dumpEscaped (st cp : Nat) : List Char → Except Trouble (List Char)
  | [] => if st = 0 then .ok [] else .error .thrown
  | c :: t =>
    let cp' := nextCode st cp c
    let st' := nextState st c
    if st' = 0 then dumpEscaped st' cp' t >>= fun r => .ok (escapeCode cp' c ++ r)
    else if st' = 1 then .error .thrown
    else dumpEscaped st' cp' t >>= fun r => .ok (c :: r)

/-- json.h:15675-15677: a text in quotes. -/
def dumpString (s : List Char) : Except Trouble (List Char) := dumpEscaped 0 0 s >>= fun r => .ok ('"' :: r ++ ['"'])

/-- json.h:16169-16186: the digits of a number, two at a time from the end. -/
def dumpDigits (n : Nat) (after : List Char) : List Char :=
  if n < 10 then Char.ofNat (48 + n) :: after
  else if n < 100 then Char.ofNat (48 + n / 10) :: Char.ofNat (48 + n % 10) :: after
  else dumpDigits (n / 100) (Char.ofNat (48 + n % 100 / 10) :: Char.ofNat (48 + n % 100 % 10) :: after)
termination_by n
decreasing_by omega

/-- json.h:16113-16189 `dump_integer`. -/
def dumpInteger (n : Int) : List Char :=
  if n = 0 then ['0'] else if n < 0 then '-' :: dumpDigits n.natAbs [] else dumpDigits n.natAbs []

mutual

/-- json.h:15533-15800 `dump` with `pretty_print` false, of a stored value. -/
def dumpStored : Json → Except Trouble (List Char)
  | .obj [] => .ok ['{', '}']
  | .obj l => dumpMembers l >>= fun r => .ok ('{' :: r ++ ['}'])
  | .arr [] => .ok ['[', ']']
  | .arr l => dumpElements l >>= fun r => .ok ('[' :: r ++ [']'])
  | .str s => dumpString s
  | .bool true => .ok ['t', 'r', 'u', 'e']
  | .bool false => .ok ['f', 'a', 'l', 's', 'e']
  | .num n => .ok (dumpInteger n)
  | .null => .ok ['n', 'u', 'l', 'l']

/-- json.h:15589-15606: the members, separated by commas. -/
def dumpMembers : List (String × Json) → Except Trouble (List Char)
  | [] => .ok []
  | [(k, v)] => dumpString k.toList >>= fun a => dumpStored v >>= fun b => .ok (a ++ ':' :: b)
  | (k, v) :: t => dumpString k.toList >>= fun a => dumpStored v >>= fun b => dumpMembers t >>= fun r =>
    .ok (a ++ ':' :: b ++ ',' :: r)

/-- json.h:15655-15665: the elements, separated by commas. -/
def dumpElements : List Json → Except Trouble (List Char)
  | [] => .ok []
  | [v] => dumpStored v
  | v :: t => dumpStored v >>= fun b => dumpElements t >>= fun r => .ok (b ++ ',' :: r)

end

/-- json.h:18759-18777 `dump()`. -/
def Json.dump (j : Json) : Except Trouble (List Char) := dumpStored j.stored

/-! ### Reading: the lexer -/

/-- Tokens (json.h:5909-5928 `token_type`); `lit` are the values `true`, `false`, `null` and integers, `eoi` the end of the input. -/
inductive Token
  | lbrace | rbrace | lbrack | rbrack | colon | comma
  | lit (j : Json)
  | str (s : List Char)
  | float
  | bad
  | eoi

/-- json.h:6051-6066, one hexadecimal digit. -/
def hexValue (c : Char) : Option Nat :=
  if '0' ≤ c ∧ c ≤ '9' then some (c.toNat - 0x30)
  else if 'A' ≤ c ∧ c ≤ 'F' then some (c.toNat - 0x37)
  else if 'a' ≤ c ∧ c ≤ 'f' then some (c.toNat - 0x57)
  else none

/-- json.h:6040-6071 `get_codepoint`; `none` is -1. -/
def getCodepoint : List Char → Option (Nat × List Char)
  | a :: b :: c :: d :: t =>
    match hexValue a, hexValue b, hexValue c, hexValue d with
    | some a, some b, some c, some d => some ((a <<< 12) + (b <<< 8) + (c <<< 4) + d, t)
    | _, _, _, _ => none
  | _ => none

/-- json.h:6253-6279: the bytes of a code point. -/
def encodeCode (cp : Nat) : List Char :=
  if cp < 0x80 then [Char.ofNat cp]
  else if cp ≤ 0x7FF then [Char.ofNat (0xC0 ||| (cp >>> 6)), Char.ofNat (0x80 ||| (cp &&& 0x3F))]
  else if cp ≤ 0xFFFF then
    [Char.ofNat (0xE0 ||| (cp >>> 12)), Char.ofNat (0x80 ||| ((cp >>> 6) &&& 0x3F)), Char.ofNat (0x80 ||| (cp &&& 0x3F))]
  else
    [Char.ofNat (0xF0 ||| (cp >>> 18)), Char.ofNat (0x80 ||| ((cp >>> 12) &&& 0x3F)),
     Char.ofNat (0x80 ||| ((cp >>> 6) &&& 0x3F)), Char.ofNat (0x80 ||| (cp &&& 0x3F))]

/-- json.h:6205-6239: after the first half of a surrogate pair. -/
def lowHalf (c1 : Nat) : List Char → Option (List Char × List Char)
  | '\\' :: 'u' :: t =>
    match getCodepoint t with
    | none => none
    | some (c2, t) => if 0xDC00 ≤ c2 ∧ c2 ≤ 0xDFFF then some (encodeCode ((c1 <<< 10) + c2 - 0x35FDC00), t) else none
  | _ => none

/-- json.h:6190-6282: after `\u`. -/
def unicodeEscape (t : List Char) : Option (List Char × List Char) :=
  match getCodepoint t with
  | none => none
  | some (c1, t) =>
    if 0xD800 ≤ c1 ∧ c1 ≤ 0xDBFF then lowHalf c1 t
    else if 0xDC00 ≤ c1 ∧ c1 ≤ 0xDFFF then none
    else some (encodeCode c1, t)

/-- json.h:6154-6288: after a backslash. -/
def escape : List Char → Option (List Char × List Char)
  | '"' :: t => some (['"'], t)
  | '\\' :: t => some (['\\'], t)
  | '/' :: t => some (['/'], t)
  | 'b' :: t => some ([Char.ofNat 8], t)
  | 'f' :: t => some ([Char.ofNat 12], t)
  | 'n' :: t => some (['\n'], t)
  | 'r' :: t => some (['\r'], t)
  | 't' :: t => some (['\t'], t)
  | 'u' :: t => unicodeEscape t
  | _ => none

/-- json.h:6293-6706: the ranges of the bytes that have to follow byte `c`; `none` for control characters and bytes that start
no UTF-8 sequence. -/
def tailRanges (c : Nat) : Option (List (Nat × Nat)) :=
  if c < 0x20 then none
  else if c ≤ 0x7F then some []
  else if 0xC2 ≤ c ∧ c ≤ 0xDF then some [(0x80, 0xBF)]
  else if c = 0xE0 then some [(0xA0, 0xBF), (0x80, 0xBF)]
  else if (0xE1 ≤ c ∧ c ≤ 0xEC) ∨ c = 0xEE ∨ c = 0xEF then some [(0x80, 0xBF), (0x80, 0xBF)]
  else if c = 0xED then some [(0x80, 0x9F), (0x80, 0xBF)]
  else if c = 0xF0 then some [(0x90, 0xBF), (0x80, 0xBF), (0x80, 0xBF)]
  else if 0xF1 ≤ c ∧ c ≤ 0xF3 then some [(0x80, 0xBF), (0x80, 0xBF), (0x80, 0xBF)]
  else if c = 0xF4 then some [(0x80, 0x8F), (0x80, 0xBF), (0x80, 0xBF)]
  else none

/-- json.h:6093-6107, the loop of `next_byte_in_range`. -/
def takeRanges : List (Nat × Nat) → List Char → Option (List Char × List Char)
  | [], t => some ([], t)
  | _ :: _, [] => none
  | (lo, hi) :: rs, c :: t =>
    if lo ≤ c.toNat ∧ c.toNat ≤ hi then (takeRanges rs t).map fun r => (c :: r.1, r.2) else none

/-- json.h:6125-6709 `scan_string`, after the opening quote; with the rest of the input.  At most `fuel` rounds of the loop. -/
def scanString : Nat → List Char → Option (List Char × List Char)
  | 0, _ => none
  | _ + 1, [] => none
  | fuel + 1, c :: t =>
    if c = '"' then some ([], t)
    else if c = '\\' then
      match escape t with
      | none => none
      | some (s, t) => (scanString fuel t).map fun r => (s ++ r.1, r.2)
    else
      match tailRanges c.toNat with
      | none => none
      | some rs =>
        match takeRanges rs t with
        | none => none
        | some (s, t) => (scanString fuel t).map fun r => (c :: s ++ r.1, r.2)

/-- json.h:6722-6735: to the end of the line. -/
def skipLine : List Char → List Char
  | [] => []
  | c :: t => if c = '\n' ∨ c = '\r' ∨ c = '\x00' then t else skipLine t

/-- json.h:6741-6770: to the closing `*/`. -/
def skipBlock : List Char → Option (List Char)
  | '*' :: '/' :: t => some t
  | c :: t => if c = '\x00' then none else skipBlock t
  | [] => none

/-- json.h:6715-6780 `scan_comment`, after the slash. -/
def scanComment : List Char → Option (List Char)
  | '/' :: t => some (skipLine t)
  | '*' :: t => skipBlock t
  | _ => none

/-- json.h:7090-7162: the digits of the exponent have begun; the number is no integer. -/
def afterExponent : List Char → Option (Token × List Char)
  | c :: t => if isDigit c then some (.float, t.dropWhile isDigit) else none
  | [] => none

/-- json.h:7029-7088: after `e`. -/
def exponent : List Char → Option (Token × List Char)
  | '+' :: t => afterExponent t
  | '-' :: t => afterExponent t
  | t => afterExponent t

/-- json.h:6972-7027: after the decimal point. -/
def fraction : List Char → Option (Token × List Char)
  | c :: t =>
    if isDigit c then
      match t.dropWhile isDigit with
      | 'e' :: r => exponent r
      | 'E' :: r => exponent r
      | r => some (.float, r)
    else none
  | [] => none

/-- json.h:7121-7162: the value of an integer; it is a float if 64 bits do not hold it. -/
def integer (neg : Bool) (ds : List Char) : Token :=
  if neg then (if digitsVal 0 ds ≤ 2 ^ 63 then .lit (.num (-(digitsVal 0 ds : Int))) else .float)
  else if digitsVal 0 ds < 2 ^ 64 then .lit (.num (digitsVal 0 ds)) else .float

/-- json.h:6915-6970: after the digits `ds` before the decimal point. -/
def afterInteger (neg : Bool) (ds : List Char) : List Char → Option (Token × List Char)
  | '.' :: t => fraction t
  | 'e' :: t => exponent t
  | 'E' :: t => exponent t
  | t => some (integer neg ds, t)

/-- json.h:6883-6913: after the sign. -/
def scanDigits (neg : Bool) : List Char → Option (Token × List Char)
  | '0' :: t => afterInteger neg ['0'] t
  | c :: t => if isDigit c then afterInteger neg (c :: t.takeWhile isDigit) (t.dropWhile isDigit) else none
  | [] => none

/-- json.h:6840-7163 `scan_number`. -/
def scanNumber : List Char → Option (Token × List Char)
  | '-' :: t => scanDigits true t
  | t => scanDigits false t

/-- json.h:7377, white space. -/
def isJsonSpace (c : Char) : Bool := c == ' ' || c == '\t' || c == '\n' || c == '\r'

/-- json.h:7171-7184 `scan_literal`: the rest of the literal. -/
def scanLiteral (rest : List Char) (v : Json) (t : List Char) : Option (Token × List Char) :=
  if rest.isPrefixOf t then some (.lit v, t.drop rest.length) else none

/-- json.h:7404-7465, the switch of `scan`, for a character that is neither white space nor a slash. -/
def scanToken (c : Char) (t : List Char) : Option (Token × List Char) :=
  if c = '[' then some (.lbrack, t)
  else if c = ']' then some (.rbrack, t)
  else if c = '{' then some (.lbrace, t)
  else if c = '}' then some (.rbrace, t)
  else if c = ':' then some (.colon, t)
  else if c = ',' then some (.comma, t)
  else if c = 't' then scanLiteral ['r', 'u', 'e'] (.bool true) t
  else if c = 'f' then scanLiteral ['a', 'l', 's', 'e'] (.bool false) t
  else if c = 'n' then scanLiteral ['u', 'l', 'l'] .null t
  else if c = '"' then (scanString (t.length + 1) t).map fun r => (.str r.1, r.2)
  else if c = '-' ∨ isDigit c = true then scanNumber (c :: t)
  else none

/-- json.h:7380-7466 `scan`, called until there is an error or the end: the parser reads the tokens in this order and stops at
the first error.  The null byte is an end of input (7457).  A byte order mark is skipped before (`parse`). -/
def lex : Nat → List Char → List Token
  | 0, _ => []
  | fuel + 1, l =>
    match l.dropWhile isJsonSpace with
    | [] => [.eoi]
    | c :: t =>
      if c = '/' then
        match scanComment t with
        | none => [.bad]
        | some t => lex fuel t
      else if c = '\x00' then [.eoi]
      else
        match scanToken c t with
        | none => [.bad]
        | some (k, t) => k :: lex fuel t

/-! ### Reading: the parser -/

/-- An open array with the elements so far, or an open object with the members so far and the key of the value to come
(`states` of the parser, json.h:10289, and `ref_stack` and `object_element` of the tree builder, json.h:5492-5494). -/
inductive Frame
  | arr (done : List Json)
  | obj (done : List (String × Json)) (key : List Char)

/-- Where the loop is: at a value, or behind the value `v` (`skip_to_state_evaluation`). -/
inductive Mode
  | value
  | behind (v : Json)

/-- The outcome: a value; `error`: a "discarded" value; `float`: a number outside this model was met. -/
inductive Parsed
  | value (j : Json)
  | error
  | float

/-- json.h:10285-10564 `sax_parse_internal` with json.h:5328-5499 `json_sax_dom_parser`, and the check of the end
(json.h:10234).  A key that was there before keeps its place and gets the new value. -/
def parseLoop : List Frame → Mode → List Token → Parsed
  | stack, .value, .lbrace :: .rbrace :: ts => parseLoop stack (.behind (.obj [])) ts
  | stack, .value, .lbrace :: .str k :: .colon :: ts => parseLoop (.obj [] k :: stack) .value ts
  | stack, .value, .lbrack :: .rbrack :: ts => parseLoop stack (.behind (.arr [])) ts
  | stack, .value, .lbrack :: ts => parseLoop (.arr [] :: stack) .value ts
  | stack, .value, .lit j :: ts => parseLoop stack (.behind j) ts
  | stack, .value, .str s :: ts => parseLoop stack (.behind (.str s)) ts
  | _, .value, .float :: _ => .float
  | [], .behind v, .eoi :: _ => .value v
  | .arr d :: stack, .behind v, .comma :: ts => parseLoop (.arr (d ++ [v]) :: stack) .value ts
  | .arr d :: stack, .behind v, .rbrack :: ts => parseLoop stack (.behind (.arr (d ++ [v]))) ts
  | .obj d k :: stack, .behind v, .comma :: .str k' :: .colon :: ts =>
    parseLoop (.obj (insertKey (String.ofList k) v d) k' :: stack) .value ts
  | .obj d k :: stack, .behind v, .rbrace :: ts => parseLoop stack (.behind (.obj (insertKey (String.ofList k) v d))) ts
  | _, _, _ => .error

/-- json.h:7357-7369 `skip_bom`. -/
def skipBom : List Char → Option (List Char)
  | c :: t =>
    if c.toNat = 0xEF then
      match t with
      | a :: b :: t => if a.toNat = 0xBB ∧ b.toNat = 0xBF then some t else none
      | _ => none
    else some (c :: t)
  | [] => some []

/-- json.h:23174-23183 `parse`. -/
def parse (text : List Char) : Parsed :=
  match skipBom text with
  | none => .error
  | some t => parseLoop [] .value (lex (t.length + 1) t)

end Verif.Xchg
