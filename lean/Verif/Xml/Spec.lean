import Verif.Xml.Model
import Verif.Unicode.Spec
import Verif.Scene.Spec

/-!
Specification for the XML text: what a user can rely on, without the functions of the parser and printer.
-/

namespace Verif.Xml

namespace Spec

/-- White space between the tags. -/
def Space (c : Char) : Prop := c = ' ' ∨ c = '\t' ∨ c = '\n' ∨ c = '\x0b' ∨ c = '\x0c' ∨ c = '\r'

instance (c : Char) : Decidable (Space c) := by unfold Space; infer_instance

/-- Bytes that a name can start with. -/
def NameStart (c : Char) : Prop :=
  ('a' ≤ c ∧ c ≤ 'z') ∨ ('A' ≤ c ∧ c ≤ 'Z') ∨ c = ':' ∨ c = '_' ∨ '\x80' ≤ c

/-- Bytes inside of a name. -/
def NameChar (c : Char) : Prop := NameStart c ∨ ('0' ≤ c ∧ c ≤ '9') ∨ c = '.' ∨ c = '-'

/-- A name of an element or an attribute. -/
def Name (n : Str) : Prop := (∃ c r, n = c :: r ∧ NameStart c) ∧ ∀ c ∈ n, NameChar c

/-- A text of white space only (or empty). -/
def Blank (t : Str) : Prop := ∀ c ∈ t, Space c

instance (t : Str) : Decidable (Blank t) := by unfold Blank; infer_instance

/-- Every kind of line end becomes a single line feed. -/
def newlines : Str → Str
  | [] => []
  | '\r' :: '\n' :: r => '\n' :: newlines r
  | '\n' :: '\r' :: r => '\n' :: newlines r
  | '\r' :: r => '\n' :: newlines r
  | c :: r => c :: newlines r

/-- Two texts stand side by side. -/
def Adjacent : List Node → Prop
  | .text _ :: .text _ :: _ => True
  | _ :: r => Adjacent r
  | [] => False

mutual
/-- A tree of elements and texts that the API can build: the names are names, attribute names are distinct,
no NUL inside of a text, texts are not side by side. -/
def Valid : Node → Prop
  | .elem n a k => Name n ∧ (∀ x ∈ a, Name x.1 ∧ '\x00' ∉ x.2) ∧ (a.map (·.1)).Nodup ∧ ¬ Adjacent k ∧ Valids k
  | .text t => '\x00' ∉ t
  | _ => False

/-- All of them are. -/
def Valids : List Node → Prop
  | [] => True
  | x :: r => Valid x ∧ Valids r
end

mutual
/-- The number of elements with content inside of each other. -/
def height : Node → Nat
  | .elem _ _ k => if k.isEmpty then 0 else 1 + heights k
  | _ => 0

/-- The largest one. -/
def heights : List Node → Nat
  | [] => 0
  | x :: r => max (height x) (heights r)
end

mutual
/-- What is left of a tree in the file: blank texts are gone, line ends are line feeds. -/
def kept : Node → List Node
  | .elem n a k => [.elem n (a.map (fun x => (x.1, newlines x.2))) (keptAll k)]
  | .text t => if Blank t then [] else [.text (newlines t)]
  | x => [x]

/-- The same for the nodes of a list. -/
def keptAll : List Node → List Node
  | [] => []
  | x :: r => kept x ++ keptAll r
end

/-- A text that is unchanged by the line ends and by the NUL at the end of a C string. -/
def Clean (t : Str) : Prop := '\r' ∉ t ∧ '\x00' ∉ t

instance (t : Str) : Decidable (Clean t) := by unfold Clean; infer_instance

mutual
/-- A tree as the users of `IXMLFileNode` build it: the names are names, attribute names are distinct, texts
and values are clean, a text is not of white space only. -/
def Plain : Scene.Xml → Prop
  | .elem n a t k => Name n ∧ (∀ x ∈ a, Name x.1 ∧ Clean x.2) ∧ (a.map (·.1)).Nodup ∧ Clean t ∧
      (t = [] ∨ ¬ Blank t) ∧ Plains k

/-- All of them are. -/
def Plains : List Scene.Xml → Prop
  | [] => True
  | x :: r => Plain x ∧ Plains r
end

mutual
/-- The number of elements with content (a text or children) inside of each other. -/
def levels : Scene.Xml → Nat
  | .elem _ _ t k => if t = [] ∧ k.isEmpty then 0 else 1 + levelsAll k

/-- The largest one. -/
def levelsAll : List Scene.Xml → Nat
  | [] => 0
  | x :: r => max (levels x) (levelsAll r)
end

mutual
/-- The number of objects inside of each other. -/
def deep : Scene.Spec.Tree → Nat
  | .node _ _ _ inside => 1 + deeps inside

/-- The largest one. -/
def deeps : List Scene.Spec.Tree → Nat
  | [] => 0
  | t :: ts => max (deep t) (deeps ts)
end

mutual
/-- All names of objects are clean. -/
def CleanTree : Scene.Spec.Tree → Prop
  | .node _ _ n inside => Clean n ∧ CleanTrees inside

/-- All of them are. -/
def CleanTrees : List Scene.Spec.Tree → Prop
  | [] => True
  | t :: ts => CleanTree t ∧ CleanTrees ts
end

/-- All names of a scene are clean. -/
def CleanScene (s : Scene.Scene) : Prop :=
  (∀ l ∈ s.layers, Clean l.name ∧ CleanTrees (Scene.Spec.trees l.kids)) ∧ ∀ p ∈ s.positions, Clean p.name

/-- The bytes of a code point in the file. -/
def codeBytes (u : Nat) : Str := (UnicodeSpec.utf8 u).map (fun b => Char.ofNat b.toNat)

/-- A digit and its value, in base 16 or 10. -/
def Digit (hex : Bool) (c : Char) (d : Nat) : Prop :=
  ('0' ≤ c ∧ c ≤ '9' ∧ c.toNat = '0'.toNat + d) ∨
  (hex = true ∧ 'a' ≤ c ∧ c ≤ 'f' ∧ c.toNat + 10 = 'a'.toNat + d) ∨
  (hex = true ∧ 'A' ≤ c ∧ c ≤ 'F' ∧ c.toNat + 10 = 'A'.toNat + d)

/-- A numeral and its value; the last digit is the unit. -/
inductive Numeral (hex : Bool) : Str → Nat → Prop
  | one {c d} : Digit hex c d → Numeral hex [c] d
  | more {s v c d} : Numeral hex s v → Digit hex c d →
      Numeral hex (s ++ [c]) (v * (if hex then 16 else 10) + d)

/-- The five entities of XML. -/
def Entity (name : String) (c : Char) : Prop :=
  (name = "lt" ∧ c = '<') ∨ (name = "gt" ∧ c = '>') ∨ (name = "amp" ∧ c = '&') ∨
  (name = "quot" ∧ c = '"') ∨ (name = "apos" ∧ c = '\'')

/-- The value that a text in the file stands for: line ends are line feeds, `&name;` and `&#number;` are the
character. -/
inductive Decoded : Str → Str → Prop
  | nil : Decoded [] []
  | plain {c r v} : c ≠ '&' → c ≠ '\r' → c ≠ '\n' → c ≠ '\x00' → Decoded r v → Decoded (c :: r) (c :: v)
  | crlf {r v} : Decoded r v → Decoded ('\r' :: '\n' :: r) ('\n' :: v)
  | lfcr {r v} : Decoded r v → Decoded ('\n' :: '\r' :: r) ('\n' :: v)
  | cr {r v} : r.head? ≠ some '\n' → Decoded r v → Decoded ('\r' :: r) ('\n' :: v)
  | lf {r v} : r.head? ≠ some '\r' → Decoded r v → Decoded ('\n' :: r) ('\n' :: v)
  | entity {n c r v} : Entity n c → Decoded r v → Decoded ('&' :: (n.toList ++ ';' :: r)) (c :: v)
  | dec {s u r v} : Numeral false s u → u ≠ 0 → UnicodeSpec.IsScalar u → Decoded r v →
      Decoded ('&' :: '#' :: (s ++ ';' :: r)) (codeBytes u ++ v)
  | hex {s u r v} : Numeral true s u → u ≠ 0 → UnicodeSpec.IsScalar u → Decoded r v →
      Decoded ('&' :: '#' :: 'x' :: (s ++ ';' :: r)) (codeBytes u ++ v)

/-- The text of the attributes of a tag; white space stands before each one and around the `=`. How the text
between the quotes becomes the value is the subject of `Decoded`. -/
inductive AttrsText : List (Str × Str) → Str → Prop
  | nil : AttrsText [] []
  | cons {w n w1 w2 : Str} {q : Char} {v : Str} {as : List (Str × Str)} {s : Str} :
      Blank w → Name n → Blank w1 → Blank w2 → (q = '"' ∨ q = '\'') → q ∉ v → AttrsText as s →
      AttrsText ((n, getStr true v) :: as) (w ++ (n ++ (w1 ++ '=' :: (w2 ++ q :: (v ++ q :: s)))))

/-- The text of a tag from its `<` on: `slash` behind the `<`, `fin` at the end. Attribute names are
distinct. -/
def TagText (n : Str) (as : List (Str × Str)) (slash fin : Str) (s : Str) : Prop :=
  ∃ w t w', Blank w ∧ Name n ∧ AttrsText as t ∧ (as.map (·.1)).Nodup ∧ Blank w' ∧
    s = '<' :: (w ++ (slash ++ (n ++ (t ++ (w' ++ fin)))))

/-- The end tag of the element `n`. -/
def EndTag (n : Str) (s : Str) : Prop := ∃ as, TagText n as ['/'] ['>'] s

mutual
/-- `s` is the text of the node. The parser is more lenient than XML in two places: an end tag can have
attributes, and `</n/>` is an empty element. -/
inductive Item : Node → Str → Prop
  | empty {n as s} (slash : Str) : (slash = [] ∨ slash = ['/']) → TagText n as slash ['/', '>'] s → Item (.elem n as []) s
  | elem {n as k a b c} : TagText n as [] ['>'] a → Items k b → EndTag n c → Item (.elem n as k) (a ++ b ++ c)
  | text {t : Str} : ¬ Blank t → '<' ∉ t → Item (.text (getStr true t)) t
  | cdata {t : Str} : Item (.cdata (getStr false t)) ("<![CDATA[".toList ++ t ++ "]]>".toList)
  | comment {t : Str} : Item (.comment (getStr false t)) ("<!--".toList ++ t ++ "-->".toList)
  | unknown {t : Str} : Item (.unknown (getStr false t)) ("<!".toList ++ t ++ ">".toList)
  | decl {t : Str} : Item (.decl (getStr false t)) ("<?".toList ++ t ++ "?>".toList)

/-- `s` is the text of the nodes, with white space between them. -/
inductive Items : List Node → Str → Prop
  | nil {w : Str} : Blank w → Items [] w
  | cons {x r w s t} : Blank w → Item x s → Items r t → Items (x :: r) (w ++ (s ++ t))
end

end Spec

end Verif.Xml
