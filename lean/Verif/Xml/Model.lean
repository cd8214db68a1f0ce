import Verif.Scene.Model

/-!
Model of the XML back-end /repo/src/rapidxmlsupport (tinyxml2.cpp, tinyxml2.h, XMLFileImpl.cpp,
XMLFileNodeImpl.cpp): the parser and the printer of XML text.

Simplifications (all of this file):
* this back-end is compiled when `DONT_USE_XERCES_AS_XMLLIB` is defined (CMakeLists.txt:9-24); the one in
  /repo/src/XMLLib, which calls the Xerces library, is not modelled;
* a text is a list of `Char`, one for each byte of the buffer (so the code is below 256);
* the parser works inside of its buffer and cuts strings by writing NULs into places that it has already
  passed; the model copies the strings instead;
* line numbers and error codes are left out: an error is an error;
* memory does not run out, and sizes stay below `INT_MAX`.
-/

namespace Verif.Xml

abbrev Str := List Char

/-- tinyxml2.h:572-574 `IsWhiteSpace` (`isspace` in the C locale; bytes from 128 on are no white space). -/
def isSpace (c : Char) : Bool := (9 ≤ c.toNat && c.toNat ≤ 13) || c.toNat == 32

/-- `isalpha` in the C locale. -/
def isAlpha (c : Char) : Bool :=
  (65 ≤ c.toNat && c.toNat ≤ 90) || (97 ≤ c.toNat && c.toNat ≤ 122)

/-- `isdigit`. -/
def isDigit (c : Char) : Bool := 48 ≤ c.toNat && c.toNat ≤ 57

/-- tinyxml2.h:576-585 `IsNameStartChar`. -/
def isNameStart (c : Char) : Bool := 128 ≤ c.toNat || isAlpha c || c == ':' || c == '_'

/-- tinyxml2.h:587-592 `IsNameChar`. -/
def isNameChar (c : Char) : Bool := isNameStart c || isDigit c || c == '.' || c == '-'

/-- tinyxml2.h:553-565 `SkipWhiteSpace`. -/
def skipWs (s : Str) : Str := s.dropWhile isSpace

/-- tinyxml2.cpp:240-257 `StrPair::ParseName`: the name and what follows it. -/
def parseName : Str → Option (Str × Str)
  | [] => none
  | c :: r =>
    if isNameStart c then some (c :: r.takeWhile isNameChar, r.dropWhile isNameChar) else none

/-- tinyxml2.cpp:215-237 `StrPair::ParseText`: the text before the first `endTag` and what follows it. -/
def parseText (endTag : Str) : Str → Option (Str × Str)
  | [] => none
  | c :: r =>
    if endTag.isPrefixOf (c :: r) then some ([], (c :: r).drop endTag.length)
    else (parseText endTag r).map (fun x => (c :: x.1, x.2))

/-- tinyxml2.cpp:144-157 the table of the entities. -/
def entities : List (Str × Char) :=
  [("quot".toList, '"'), ("amp".toList, '&'), ("apos".toList, '\''), ("lt".toList, '<'), ("gt".toList, '>')]

/-- tinyxml2.cpp:425-475 `ConvertUTF32ToUTF8`: the bytes of a code point; nothing from 0x200000 on. -/
def utf8Bytes (u : Nat) : Str :=
  let tail (x : Nat) : Char := Char.ofNat ((x % 64) + 0x80)
  if u < 0x80 then [Char.ofNat u]
  else if u < 0x800 then [Char.ofNat (0xC0 + u / 64), tail u]
  else if u < 0x10000 then [Char.ofNat (0xE0 + u / 4096), tail (u / 64), tail u]
  else if u < 0x200000 then [Char.ofNat (0xF0 + u / 262144), tail (u / 4096), tail (u / 64), tail u]
  else []

/-- tinyxml2.cpp:510-521, 550-560 the value of a digit; `none` = not a digit. -/
def digitVal (hex : Bool) (c : Char) : Option Nat :=
  if isDigit c then some (c.toNat - 48)
  else if hex && (97 ≤ c.toNat && c.toNat ≤ 102) then some (c.toNat - 97 + 10)
  else if hex && (65 ≤ c.toNat && c.toNat ≤ 70) then some (c.toNat - 65 + 10)
  else none

/-- tinyxml2.cpp:507-530, 549-564 the loop from the last digit backwards to the first `stop` met; `mult` and
the products are `unsigned int`. The argument is the text in reverse order; its end is the place of the
first `stop`. -/
def digitsBack (hex : Bool) (stop : Char) : Str → (mult ucs : Nat) → Option Nat
  | [], _, ucs => some ucs
  | c :: r, mult, ucs =>
    if c = stop then some ucs
    else (digitVal hex c).bind (fun d =>
      digitsBack hex stop r (mult * (if hex then 16 else 10) % 2 ^ 32) (ucs + mult * d % 2 ^ 32))

/-- tinyxml2.cpp:478-571 `GetCharacterRef`, called with the text behind `&#`: the bytes written and the
number of bytes, counted from the `#`, to go on behind; `none` = null pointer (no reference). -/
def charRef : Str → Option (Str × Nat)
  | [] => some ([], 0)
  | c :: r =>
    if c = 'x' then
      (parseText [';'] r).bind (fun x =>
        (digitsBack true 'x' x.1.reverse 1 0).map (fun u => (utf8Bytes u, x.1.length + 3)))
    else
      (parseText [';'] (c :: r)).bind (fun x =>
        (digitsBack false '#' x.1.reverse 1 0).map (fun u => (utf8Bytes u, x.1.length + 2)))

/-- tinyxml2.cpp:349-369 the entity that a text behind `&` starts with. -/
def entityAt (t : Str) : Option (Str × Char) :=
  entities.find? (fun e => (e.1 ++ [';']).isPrefixOf t)

/-- tinyxml2.cpp:301-375 the loop of `StrPair::GetStr` with the flag for newlines and, if `ent`, the one for
entities. `orig` is the text as it was; `out` has been written over its beginning. An unknown entity
advances the place to write without writing, so the byte of `orig` at this place remains. -/
def getStrLoop (ent : Bool) (orig : Str) : Str → (out : Str) → Str
  | [], out => out
  | c :: t, out =>
    if c = '\r' then
      getStrLoop ent orig (if t.head? = some '\n' then t.drop 1 else t) (out ++ ['\n'])
    else if c = '\n' then
      getStrLoop ent orig (if t.head? = some '\r' then t.drop 1 else t) (out ++ ['\n'])
    else if ent && c = '&' then
      if t.head? = some '#' then
        match charRef (t.drop 1) with
        | none => getStrLoop ent orig t (out ++ [c])
        | some (bytes, n) => getStrLoop ent orig (t.drop n) (out ++ bytes)
      else
        match entityAt t with
        | some e => getStrLoop ent orig (t.drop (e.1.length + 1)) (out ++ [e.2])
        | none => getStrLoop ent orig t (out ++ [orig.getD out.length '\x00'])
    else getStrLoop ent orig t (out ++ [c])
termination_by t => t.length
decreasing_by all_goals (simp only [List.length_drop, List.length_cons]; try split) <;>
  (try simp only [List.length_drop]) <;> omega

/-- tinyxml2.cpp:289-387 `StrPair::GetStr`: the C string that the caller sees ends at the first NUL. -/
def getStr (ent : Bool) (raw : Str) : Str :=
  (getStrLoop ent raw raw []).takeWhile (fun c => c ≠ '\x00')

/-- tinyxml2.h:1671-1675 `ElementClosingType`. -/
inductive Closing where
  | opened | closing | closed
deriving DecidableEq, Repr

/-- tinyxml2.cpp:1418-1443 `XMLAttribute::ParseDeep`: name, value, what follows. -/
def parseAttr (p : Str) : Option (Str × Str × Str) :=
  (parseName p).bind fun x =>
  match skipWs x.2 with
  | '=' :: r =>
    match skipWs r with
    | q :: r' =>
      if q = '"' ∨ q = '\'' then (parseText [q] r').map (fun y => (x.1, getStr true y.1, y.2)) else none
    | [] => none
  | _ => none

theorem parseText_length {e s a r : Str} (h : parseText e s = some (a, r)) : r.length ≤ s.length := by
  induction s generalizing a r with
  | nil => simp [parseText] at h
  | cons c s ih =>
    rw [parseText] at h
    split at h
    · cases h; simp only [List.length_drop, List.length_cons]; omega
    · simp only [Option.map_eq_some_iff] at h
      obtain ⟨x, hx, he⟩ := h
      cases he
      have := ih (a := x.1) (r := x.2) hx
      simp only [List.length_cons]
      omega

theorem skipWs_length (s : Str) : (skipWs s).length ≤ s.length := by
  unfold skipWs
  exact (List.dropWhile_sublist _).length_le

theorem parseName_length {s a r : Str} (h : parseName s = some (a, r)) : r.length < s.length := by
  cases s with
  | nil => simp [parseName] at h
  | cons c s =>
    rw [parseName] at h
    split at h
    · cases h
      have := (List.dropWhile_sublist isNameChar (l := s)).length_le
      simp only [List.length_cons]
      omega
    · cases h

theorem parseAttr_length {p n v r : Str} (h : parseAttr p = some (n, v, r)) : r.length < p.length := by
  unfold parseAttr at h
  simp only [Option.bind_eq_some_iff] at h
  obtain ⟨x, hx, h⟩ := h
  have h1 := parseName_length (a := x.1) (r := x.2) hx
  split at h
  · rename_i r1 e1
    have h2 := skipWs_length x.2
    rw [e1] at h2
    split at h
    · rename_i q r2 e2
      have h3 := skipWs_length r1
      rw [e2] at h3
      split at h
      · simp only [Option.map_eq_some_iff] at h
        obtain ⟨y, hy, he⟩ := h
        cases he
        have h4 := parseText_length (a := y.1) (r := y.2) hy
        simp only [List.length_cons] at h2 h3
        omega
      · cases h
    · cases h
  · cases h

/-- tinyxml2.cpp:1935-1992 `XMLElement::ParseAttributes`: whether the tag closes the element, the
attributes, what follows; `none` = error. `cl` is the kind of tag known so far. -/
def parseAttrs (cl : Closing) (acc : List (Str × Str)) (p : Str) :
    Option (Closing × List (Str × Str) × Str) :=
  match _hp : skipWs p with
  | [] => none
  | c :: r =>
    if isNameStart c then
      match _ha : parseAttr (c :: r) with
      | none => none
      | some (n, v, rest) =>
        if acc.any (fun a => a.1 == n) then none else parseAttrs cl (acc ++ [(n, v)]) rest
    else if c = '>' then some (cl, acc, r)
    else if c = '/' ∧ r.head? = some '>' then some (.closed, acc, r.drop 1)
    else none
termination_by p.length
decreasing_by
  have h1 := parseAttr_length _ha
  have h2 := skipWs_length p
  rw [_hp] at h2
  omega

/-- tinyxml2.cpp:2051-2072 the part of `XMLElement::ParseDeep` before the children, called behind the `<`:
kind of tag, name, attributes, what follows. -/
def parseTag (p : Str) : Option (Closing × Str × List (Str × Str) × Str) :=
  let p := skipWs p
  let cl : Closing := if p.head? = some '/' then .closing else .opened
  let p := if p.head? = some '/' then p.drop 1 else p
  (parseName p).bind fun x => (parseAttrs cl [] x.2).map fun y => (y.1, x.1, y.2.1, y.2.2)

/-- tinyxml2.h the classes derived from `XMLNode`. -/
inductive Node where
  | elem (name : Str) (attrs : List (Str × Str)) (kids : List Node)
  | text (value : Str)
  | cdata (value : Str)
  | comment (value : Str)
  | decl (value : Str)
  | unknown (value : Str)

/-- tinyxml2.cpp: `ToDeclaration() != 0`. -/
def Node.isDecl : Node → Bool
  | .decl _ => true
  | _ => false

/-- What `Identify` finds. -/
inductive Head where
  | nothing
  | decl (p : Str) | comment (p : Str) | cdata (p : Str) | unknown (p : Str) | elem (p : Str) | text (p : Str)

/-- tinyxml2.cpp:718-785 `XMLDocument::Identify`. -/
def identify (start : Str) : Head :=
  let p := skipWs start
  if p = [] then .nothing
  else if "<?".toList.isPrefixOf p then .decl (p.drop 2)
  else if "<!--".toList.isPrefixOf p then .comment (p.drop 4)
  else if "<![CDATA[".toList.isPrefixOf p then .cdata (p.drop 9)
  else if "<!".toList.isPrefixOf p then .unknown (p.drop 2)
  else if "<".toList.isPrefixOf p then .elem (p.drop 1)
  else .text start

/-- How `XMLNode::ParseDeep` ends: an error, the end of the text, or a closing tag with its name; with the
children. -/
inductive Out where
  | err
  | eof (kids : List Node)
  | close (name : Str) (kids : List Node) (rest : Str)

/-- tinyxml2.cpp:1209-1233, 1274-1282, 1323-1331, 1371-1379: the nodes that are not elements. -/
def parseLeaf : Head → Option (Node × Str)
  | .decl p => (parseText "?>".toList p).map (fun x => (.decl (getStr false x.1), x.2))
  | .comment p => (parseText "-->".toList p).map (fun x => (.comment (getStr false x.1), x.2))
  | .cdata p => (parseText "]]>".toList p).map (fun x => (.cdata (getStr false x.1), x.2))
  | .unknown p => (parseText ">".toList p).map (fun x => (.unknown (getStr false x.1), x.2))
  | .text p => (parseText "<".toList p).bind (fun x =>
      if x.2 = [] then none else some (.text (getStr true x.1), '<' :: x.2))
  | _ => none

/-- tinyxml2.cpp:1094-1123 a declaration stands at the right place. -/
def declOk (isDoc : Bool) (acc : List Node) : Bool :=
  isDoc && (acc.head?.all Node.isDecl && acc.getLast?.all Node.isDecl)

/-- tinyxml2.h:115, TINYXML2_MAX_ELEMENT_DEPTH. -/
def maxDepth : Nat := 100

/-- tinyxml2.cpp:1050-1162 `XMLNode::ParseDeep` (with 2070-2076): the children `acc` read so far, the text.
`isDoc` = called for the document; `depth` = `_parsingDepth` inside of the call. `none` = the fuel was not
enough. -/
def parseNodes : (fuel : Nat) → (isDoc : Bool) → (depth : Nat) → (acc : List Node) → Str → Option Out
  | 0, _, _, _, _ => none
  | fuel + 1, isDoc, depth, acc, p =>
    match identify p with
    | .nothing => some (.eof acc)
    | .elem q =>
      match parseTag q with
      | none => some .err
      | some (.closing, name, _, rest) => some (.close name acc rest)
      | some (.closed, name, attrs, rest) =>
        parseNodes fuel isDoc depth (acc ++ [.elem name attrs []]) rest
      | some (.opened, name, attrs, rest) =>
        if rest = [] then some .err
        else if depth + 1 = maxDepth then some .err
        else
          match parseNodes fuel false (depth + 1) [] rest with
          | none => none
          | some (.close n kids rest') =>
            if n = name then parseNodes fuel isDoc depth (acc ++ [.elem name attrs kids]) rest'
            else some .err
          | some _ => some .err
    | h =>
      match parseLeaf h with
      | none => some .err
      | some (n, rest) =>
        if n.isDecl && !declOk isDoc acc then some .err
        else parseNodes fuel isDoc depth (acc ++ [n]) rest

/-- A document: whether it starts with a byte order mark (`_writeBOM`) and its nodes. -/
structure Doc where
  bom : Bool
  nodes : List Node

/-- tinyxml2.cpp:137-139, 407-422 the byte order mark of UTF-8. -/
def bomText : Str := [Char.ofNat 0xEF, Char.ofNat 0xBB, Char.ofNat 0xBF]

/-- tinyxml2.cpp:2423-2451, 2525-2539 `XMLDocument::Parse`; `none` = error, then the document has no nodes.
`cut` models the C string: the buffer up to the first NUL. -/
def parseDoc (buffer : Str) : Option Doc :=
  let cut := buffer.takeWhile (fun c => c ≠ '\x00')
  let p := skipWs cut
  let bom := bomText.isPrefixOf p
  let p := if bom then p.drop 3 else p
  if cut = [] ∨ p = [] then none
  else
    match parseNodes (p.length + 1) true 1 [] p with
    | some (.eof nodes) => some ⟨bom, nodes⟩
    | some (.close _ nodes _) => some ⟨bom, nodes⟩
    | _ => none

/-- tinyxml2.h `RootElement`: the first element of the document. -/
def rootElem (nodes : List Node) : Option Node :=
  nodes.find? (fun n => match n with | .elem .. => true | _ => false)

/-- tinyxml2.cpp:1664-1680 `XMLElement::GetText` as text; the null pointer gives the empty text
(GSString.cpp:418-430). -/
def getText : List Node → Str
  | [] => []
  | .comment _ :: r => getText r
  | .text v :: _ => v
  | .cdata v :: _ => v
  | _ => []

mutual
/-- XMLFileNodeImpl.cpp:51-247 what the functions of `IXMLFileNode` show of an element: name, attributes,
text and child elements. -/
def view : Node → List Scene.Xml
  | .elem n a k => [.elem n a (getText k) (viewList k)]
  | _ => []

/-- The elements of a list of nodes. -/
def viewList : List Node → List Scene.Xml
  | [] => []
  | x :: r => view x ++ viewList r
end

/-- XMLFileImpl.cpp:86-101, 120-123 `ReadBuffer` and `GetRootNode`; `none` = one of them fails. -/
def readBuffer (buffer : Str) : Option Scene.Xml :=
  (parseDoc buffer).bind (fun d => (viewList d.nodes).head?)

/-! ## The printer -/

/-- tinyxml2.cpp:2566-2578, 2639-2691 `PrintString`, one byte; `restricted` in texts. -/
def escChar (restricted : Bool) (c : Char) : Str :=
  match entities.find? (fun e => e.2 == c) with
  | some e =>
    if !restricted || (c == '&' || c == '<' || c == '>') then '&' :: e.1 ++ [';'] else [c]
  | none => [c]

/-- tinyxml2.cpp:2639-2691 `PrintString`. -/
def esc (restricted : Bool) (s : Str) : Str := s.flatMap (escChar restricted)

/-- tinyxml2.h `XMLPrinter`: `_elementJustOpened`, `_firstElement`, `_depth`, `_textDepth` (`none` = -1) and
the buffer. -/
structure Printer where
  justOpened : Bool := false
  first : Bool := true
  depth : Nat := 0
  textDepth : Option Nat := none
  out : Str := []

/-- tinyxml2.cpp:2631-2636 `PrintSpace`. -/
def spaces (depth : Nat) : Str := List.replicate (4 * depth) ' '

/-- tinyxml2.cpp:2823-2830 `SealElementIfJustOpened`. -/
def sealTag (s : Printer) : Printer :=
  if s.justOpened then { s with justOpened := false, out := s.out ++ ['>'] } else s

/-- tinyxml2.cpp:2705-2721 `PrepareForNewNode`, not compact. -/
def prepare (s : Printer) : Printer :=
  let s := sealTag s
  let ws := if s.first then spaces s.depth
    else if s.textDepth = none then '\n' :: spaces s.depth else []
  { s with first := false, out := s.out ++ ws }

/-- tinyxml2.cpp:2736-2744 `PushAttribute`. -/
def attrText (a : Str × Str) : Str := ' ' :: a.1 ++ "=\"".toList ++ esc false a.2 ++ "\"".toList

/-- tinyxml2.cpp:2723-2733, 2945-2958 `OpenElement` and the attributes. -/
def openElement (s : Printer) (name : Str) (attrs : List (Str × Str)) : Printer :=
  let s := prepare s
  { s with justOpened := true, depth := s.depth + 1,
           out := s.out ++ '<' :: name ++ attrs.flatMap attrText }

/-- tinyxml2.cpp:2795-2820 `CloseElement`. -/
def closeElement (s : Printer) (name : Str) : Printer :=
  let d := s.depth - 1
  let tag := if s.justOpened then "/>".toList
    else (if s.textDepth = none then '\n' :: spaces d else []) ++ "</".toList ++ name ++ ">".toList
  { s with justOpened := false, depth := d,
           textDepth := if s.textDepth = some d then none else s.textDepth,
           out := s.out ++ tag ++ (if d = 0 then ['\n'] else []) }

/-- tinyxml2.cpp:2833-2846 `PushText`. -/
def pushText (s : Printer) (value : Str) : Printer :=
  let s := sealTag { s with textDepth := if s.depth = 0 then none else some (s.depth - 1) }
  { s with out := s.out ++ value }

/-- tinyxml2.cpp:2905-2932 `PushComment`, `PushDeclaration`, `PushUnknown`. -/
def pushMarkup (s : Printer) (markup : Str) : Printer :=
  let s := prepare s
  { s with out := s.out ++ markup }

mutual
/-- tinyxml2.cpp:2119-2130, 2945-2992 a node printed by `Accept`. -/
def printNode (s : Printer) : Node → Printer
  | .elem n a k => closeElement (printNodes (openElement s n a) k) n
  | .text v => pushText s (esc true v)
  | .cdata v => pushText s ("<![CDATA[".toList ++ v ++ "]]>".toList)
  | .comment v => pushMarkup s ("<!--".toList ++ v ++ "-->".toList)
  | .decl v => pushMarkup s ("<?".toList ++ v ++ "?>".toList)
  | .unknown v => pushMarkup s ("<!".toList ++ v ++ ">".toList)

/-- The children one after the other. -/
def printNodes (s : Printer) : List Node → Printer
  | [] => s
  | x :: r => printNodes (printNode s x) r
end

/-- XMLFileImpl.cpp:111-118 the declaration pushed before the document. -/
def header : Str := "xml version=\"1.0\" encoding=\"UTF-8\"".toList

/-- XMLFileImpl.cpp:111-118 `WriteBuffer` (with tinyxml2.cpp:2454-2463, 2935-2942): the size is
`CStrSize() - 2`, so the last byte is left out. -/
def writeBuffer (d : Doc) : Str :=
  let s := pushMarkup {} ("<?".toList ++ header ++ "?>".toList)
  let s := if d.bom then { s with out := s.out ++ bomText } else s
  (printNodes s d.nodes).out.dropLast

mutual
/-- XMLFileImpl.cpp:68-74 `CreateNew`, XMLFileNodeImpl.cpp:71-79, 102-110, 142-149 `SetNodeValue`,
`SetNodeAttributeValue`, `CreateChildNode`: the element that the calls for this tree make. The text node
stands first (tinyxml2.cpp:1683-1691); for an empty text the value is not set. -/
def ofXml : Scene.Xml → Node
  | .elem n a t k => .elem n a ((if t = [] then [] else [.text t]) ++ ofXmls k)

/-- The child elements. -/
def ofXmls : List Scene.Xml → List Node
  | [] => []
  | x :: r => ofXml x :: ofXmls r
end

/-- `CreateNew`, the calls that build the tree, `WriteBuffer`. -/
def writeXmlText (x : Scene.Xml) : Str := writeBuffer ⟨false, [ofXml x]⟩

end Verif.Xml
