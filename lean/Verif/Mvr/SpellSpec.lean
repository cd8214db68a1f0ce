import Verif.Mvr.FormatSpec
import Verif.Mvr.AbsentSpec
import Verif.Mvr.SaveSpec

/-!
# Specification: what a description in the notation of the MVR standard says, however it is spelled

Other programs write numbers with a plus, with more or fewer digits, without a point, with spaces around them, and words, flags and hexadecimal
digits in upper or lower case.  `Means` is what such a text says.  Not covered: numbers with an exponent.
-/

namespace Verif.Mvr.Spec

open Verif.Real
open Verif.Gdtf.Spec (Digits decimal Listed Row Rows GuidText)

/-- Spaces. -/
def Spaces (s : Text) : Prop := ∀ c ∈ s, c = ' '

/-- A sign or none; `neg` is whether it is a minus. -/
def Sign (neg : Bool) (s : Text) : Prop := (s = [] ∧ neg = false) ∨ (s = ['+'] ∧ neg = false) ∨ (s = ['-'] ∧ neg = true)

/-- A whole number: spaces, a sign, digits, spaces. -/
def Whole (i : Int) (s : Text) : Prop :=
  ∃ (neg : Bool) (p g a q : Text), Spaces p ∧ Sign neg g ∧ Digits a ∧ Spaces q ∧ s = p ++ g ++ a ++ q ∧
    i = (if neg then -1 else 1) * (decimal a : Int)

/-- Digits with or without a point: at least one, before the point or after it. -/
def Plain (x : ℚ) (s : Text) : Prop :=
  (Digits s ∧ x = decimal s) ∨ ∃ a b, Digits (a ++ b) ∧ s = a ++ '.' :: b ∧ x = (decimal (a ++ b) : ℚ) / 10 ^ b.length

/-- The same with or without an exponent: "e" or "E", a sign, digits. -/
def Point (x : ℚ) (s : Text) : Prop :=
  Plain x s ∨ ∃ (y : ℚ) (neg : Bool) (a : Text) (e : Char) (g d : Text), Plain y a ∧ (e = 'e' ∨ e = 'E') ∧ Sign neg g ∧ Digits d ∧
    s = a ++ e :: (g ++ d) ∧ x = if neg then y / 10 ^ decimal d else y * 10 ^ decimal d

/-- A number: spaces, a sign, digits with or without a point and an exponent, spaces. -/
def Num (x : Dbl) (s : Text) : Prop :=
  ∃ (p g a q : Text), Spaces p ∧ Sign x.neg g ∧ Point x.mag a ∧ Spaces q ∧ s = p ++ g ++ a ++ q

/-- The same text up to upper and lower case. -/
def Alike' (s : Text) (w : String) : Prop := s.map upper = w.toList.map upper

/-- One of the words, in upper or lower case. -/
def AnyWord (words : List String) (n : Nat) (s : Text) : Prop := ∃ w, words[n]? = some w ∧ Alike' s w

/-- What a text in the notation says. -/
def Means : Form → Val → Text → Prop
  | .text, .text u, s => s = u
  | .guid, .uuid u, s => GuidText u s
  | .int, .int i, s => Whole i s
  | .bool, .flag b, s => Alike' s (if b then "true" else "false")
  | .float, .real x, s => Num x s
  | .vector, .vec v, s => Row [Num v.x, Num v.y, Num v.z] s
  | .color, .color c, s => Listed [Num c.x, Num c.y, Num c.z] s
  | .matrix, .matrix m, s => Rows [[Num m.u.x, Num m.u.y, Num m.u.z], [Num m.v.x, Num m.v.y, Num m.v.z],
      [Num m.w.x, Num m.w.y, Num m.w.z], [Num m.o.x, Num m.o.y, Num m.o.z]] s
  | .oneOf w, .source v, s => w = sourceWords ∧ AnyWord w v.ctorIdx s
  | .oneOf w, .scale v, s => w = scaleWords ∧ AnyWord w v.ctorIdx s
  | .oneOf w, .transmission v, s => w = transmissionWords ∧ AnyWord w v.ctorIdx s
  | .command, .command fn percent x, s => ∃ t, Num x t ∧ s = fn ++ (if percent then "/percent" else "").toList ++ ",f ".toList ++ t
  | _, _, _ => False

/-- The notation at a place. -/
def Spot.form : Spot → Form
  | .attr _ f => f
  | .optional _ => .text
  | .extra _ => .text
  | .between f => f

/-- The text at a place of a node. -/
def Spot.text? (e : Xml) : Spot → Option Text
  | .attr n _ => e.attr? n.toList
  | .optional n => e.attr? n.toList
  | .extra n => e.attr? n.toList
  | .between _ => some e.text

/-- A number that was rounded to the precision of a `double`. -/
def RoundedNum (x y : Dbl) : Prop := x.neg = y.neg ∧ |y.mag - x.mag| ≤ x.mag / 2 ^ 53

/-- Three of them. -/
def RoundedV (a b : V3) : Prop := RoundedNum a.x b.x ∧ RoundedNum a.y b.y ∧ RoundedNum a.z b.z

/-- A value whose numbers with decimals were. -/
def Rounded : Val → Val → Prop
  | .real x, .real y => RoundedNum x y
  | .vec a, .vec b => RoundedV a b
  | .color a, .color b => RoundedV a b
  | .matrix m, .matrix n => RoundedV m.u n.u ∧ RoundedV m.v n.v ∧ RoundedV m.w n.w ∧ RoundedV m.o n.o
  | .command fn p x, .command gn q y => fn = gn ∧ p = q ∧ RoundedNum x y
  | v, w => v = w

/-! ### Nodes -/

/-- The node that collects the nodes of a member. -/
def collectedIn (cls member : String) : Option String :=
  match member with
  | "fGeometries" => some (if cls = "SceneDataSymDefObj" then "ChildList" else "Geometries")
  | "fCustomCommands" => some "CustomCommands"
  | "fAlignments" => some "Alignments"
  | "fOverwrites" => some "Overwrites"
  | "fConnections" => some "Connections"
  | "fChildObjs" => some (if cls = "Exchange.Scene" then "Layers" else "ChildList")
  | "fAdresses" => some "Addresses"
  | "fMappings" => some "Mappings"
  | "fProtocols" => some "Protocols"
  | "fSource" => if cls = "SceneDataVideoScreenObj" then some "Sources" else none
  | "Projection" => some "Projections"
  | "fProviderObjs" => some "UserData"
  | _ => none

/-- The nodes among which those of a member are: the ones in the node, or in the (first) node that collects them. -/
def nodesAt (e : Xml) : Option String → List Xml
  | none => e.kids
  | some b =>
    match e.kids.find? (fun x => decide (x.name = b.toList)) with
    | some x => x.kids
    | none => []

/-- Layers, and the objects in layers, groups and other objects, need a UUID. -/
def HasUuid (member : String) (x : Xml) : Prop := member = "fChildObjs" → x.attr? "uuid".toList ≠ none

instance (member : String) (x : Xml) : Decidable (HasUuid member x) := by unfold HasUuid; infer_instance

/-- The class of the node: the one of those of the member whose node has the name, in upper or lower case. -/
def classOf (m : Member) (x : Xml) : Option String := m.classes.find? (fun c => decide (Called x (nodeOf c)))

end Verif.Mvr.Spec
