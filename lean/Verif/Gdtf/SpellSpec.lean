import Verif.Gdtf.FormatSpec
import Verif.Gdtf.AbsentSpec
import Verif.Mvr.SpellSpec

/-!
# Specification: what a description in the notation of the GDTF standard says, however it is spelled

The builders of other programs write numbers with a plus, with more or fewer digits, without a point, with spaces around them; words, flags
and hexadecimal digits in upper or lower case; channel values with another number of bytes.  `Means` is what such a text says.  Not covered:
numbers with an exponent; channel values whose number of bytes does not divide that of the channel (unless they are shifted).
-/

namespace Verif.Gdtf.Spec

open Verif.Lookup (Txt)
open Verif.Real Verif.Text Verif.Dmx
open Verif.Mvr.Spec (Num Whole Alike' AnyWord RoundedNum RoundedV)

/-- Byte `i` of a number with `k` bytes, the highest first, over and over again. -/
def byteOf (k w i : Nat) : Nat := w / 256 ^ (k - 1 - i % k) % 256

/-- The number with `n` bytes that are those of `w` (which has `k`), over and over again: "byte mirroring". -/
def mirrored (k n w : Nat) : Nat := (List.range n).foldl (fun v i => 256 * v + byteOf k w i) 0

/-- The number with the bytes of `w` in front, and zeros behind them or without the last ones: "byte shifting". -/
def shiftedTo (k n w : Nat) : Nat := if k ≤ n then w * 256 ^ (n - k) else w / 256 ^ (k - n)

/-- A value of a channel with `n` bytes: a number and how many bytes it has; an "s" behind it is for shifting. -/
def Channel (n v : Nat) (s : List Char) : Prop :=
  ∃ (k w : Nat) (a b : List Char), 1 ≤ k ∧ k ≤ 4 ∧ w < 256 ^ k ∧ NatText w a ∧ NatText k b ∧
    ((s = a ++ '/' :: b ∧ k ∣ n ∧ v = mirrored k n w) ∨ (s = a ++ '/' :: (b ++ ['s']) ∧ v = shiftedTo k n w))

/-- An address: a number, or the universe and the address in it. -/
def Address (a : Nat) (s : List Char) : Prop :=
  Whole a s ∨ ∃ (u b : Nat) (x y : List Char), Whole u x ∧ Whole b y ∧ s = x ++ '.' :: y ∧ 1 ≤ u ∧ 1 ≤ b ∧ b ≤ 512 ∧ a = (u - 1) * 512 + b

/-- What a text in the notation says; `n` is the number of bytes of the channel. -/
def Means (n : Nat) : Form → Val → List Char → Prop
  | .float, .real x, s => Num x s
  | .int, .int _ i, s => Whole i s
  | .matrix, .matrix m, s => Rows [[Num m.u.x, Num m.u.y, Num m.u.z, Num m.o.x], [Num m.v.x, Num m.v.y, Num m.v.z, Num m.o.y],
      [Num m.w.x, Num m.w.y, Num m.w.z, Num m.o.z], [Num zero, Num zero, Num zero, Num one]] s
  | .rotation, .rotation m, s => Rows [[Num m.u.x, Num m.u.y, Num m.u.z], [Num m.v.x, Num m.v.y, Num m.v.z],
      [Num m.w.x, Num m.w.y, Num m.w.z]] s
  | .color, .color c, s => Listed [Num c.x, Num c.y, Num c.z] s
  | .colors, .colors cs, s => Rows (cs.map (fun c => [Num c.x, Num c.y, Num c.z])) s
  | .vec2, .point x y, s => Listed [Num x, Num y] s
  | .vec3, .vec v, s => Row [Num v.x, Num v.y, Num v.z] s
  | .dmx, .dmx v, s => Channel n v s
  | .dmx, .high _ true, s => Alike' s "None"
  | .dmx, .high v false, s => Channel n v s
  | .hex, .hex v, s => ∃ a, a ≠ [] ∧ a.length < 2 ^ 63 ∧ (∀ c ∈ a, IsHex c) ∧ hexNumber a = v ∧ s = '0' :: 'x' :: a
  | .guid, .uuid u, s => GuidText u s
  | .offset, .offset o, s => (o.coarse = 0 ∧ Alike' s "None") ∨
      Listed ((([o.coarse, o.fine, o.ultra, o.uber] : List Nat).takeWhile (fun b => decide (b ≠ 0))).map (fun b => Whole b)) s
  | .brk, .brk i, s => if i = 0 then Alike' s "Overwrite" else Whole i s
  | .date, .date t, s => ∃ y mo d h mi se, NatText t.year y ∧ NatText t.month mo ∧ NatText t.day d ∧ NatText t.hour h ∧
      NatText t.minute mi ∧ NatText t.second se ∧ s = y ++ '-' :: (mo ++ '-' :: (d ++ 'T' :: (h ++ ':' :: (mi ++ ':' :: se))))
  | .address, .address a, s => Address a s
  | .bool, .flag b, s => Alike' s (if b then "true" else "false")
  | .oneOf w, .primitive v, s => w = primitives ∧ AnyWord w v.ctorIdx s
  | .oneOf w, .unit v, s => w = units ∧ AnyWord w v.ctorIdx s
  | .oneOf w, .beam v, s => w = beams ∧ AnyWord w v.ctorIdx s
  | .oneOf w, .lamp v, s => w = lamps ∧ AnyWord w v.ctorIdx s
  | .oneOf w, .snap v, s => w = snaps ∧ AnyWord w v.ctorIdx s
  | .oneOf w, .master v, s => w = masters ∧ AnyWord w v.ctorIdx s
  | .oneOf w, .relation v, s => w = relations ∧ AnyWord w v.ctorIdx s
  | .oneOf w, .sample v, s => w = samples ∧ AnyWord w v.ctorIdx s
  | .oneOf w, .space v, s => w = spaces ∧ AnyWord w v.ctorIdx s
  | .oneOf w, .interpolation v, s => w = interpolations ∧ AnyWord w v.ctorIdx s
  | .oneOf w, .laser v, s => w = laserColors ∧ AnyWord w v.ctorIdx s
  | .oneOf w, .component v, s => w = components ∧ AnyWord w v.ctorIdx s
  | .oneOf w, .orientation v, s => w = orientations ∧ AnyWord w v.ctorIdx s
  | .oneOf w, .fuse v, s => w = fuses ∧ AnyWord w v.ctorIdx s
  | .oneOf w, .truss v, s => w = structures ∧ AnyWord w v.ctorIdx s
  | .oneOf w, .section_ v, s => w = sections ∧ AnyWord w v.ctorIdx s
  | .oneOf w, .support v, s => w = supports ∧ AnyWord w v.ctorIdx s
  | .oneOf w, .subUnit v, s => w = subUnits ∧ AnyWord w v.ctorIdx s
  | .oneOf w, .canHave b, s => w = answers ∧ AnyWord w b.toNat s
  | _, _, _ => False

/-- The text of an attribute says the value.  What is resolved only when the whole description is there (the names of other nodes, and values
of other channels) is first of all a text, and kept as it is. -/
def TellsAny (n : Nat) (f : Form) (v : Val) (t : Txt) : Prop :=
  match v with
  | .text u => t = u
  | v => ∃ s, Spelled t s ∧ Means n f v s

/-- A value whose numbers with decimals were rounded to the precision of a `double`; a rotation is its three axes, and the number of a highlight
value "None" does not matter. -/
def Rounded : Val → Val → Prop
  | .real x, .real y => RoundedNum x y
  | .matrix m, .matrix k => RoundedV m.u k.u ∧ RoundedV m.v k.v ∧ RoundedV m.w k.w ∧ RoundedV m.o k.o
  | .rotation m, .rotation k => RoundedV m.u k.u ∧ RoundedV m.v k.v ∧ RoundedV m.w k.w
  | .color a, .color b => RoundedV a b
  | .colors a, .colors b => OneByOne RoundedV a b
  | .point x y, .point x' y' => RoundedNum x x' ∧ RoundedNum y y'
  | .vec a, .vec b => RoundedV a b
  | .high _ true, .high _ b => b = true
  | v, w => v = w

/-- The attribute "Mode" of a colour space is "Custom". -/
def Custom (node : Attrs) : Prop := ∃ t s, Node.getAttr node "Mode" = some t ∧ Spelled t s ∧ Alike' s "Custom"

/-! ### Nodes in nodes -/

/-- The class for a node in the node of an object of another class: the measurements of a filter have a class of their own, all other classes depend on
the node only. -/
def classFor (cls node : String) : String :=
  if cls = "GdtfFilter" ∧ node = "Measurement" then "GdtfMeasurement(true)" else ((nodeNames.find? (fun p => p.2 == node)).map (·.1)).getD ""

/-- The nodes of which there is at most one. -/
def single : List String :=
  ["AnimationSystem", "MacroDMX", "MacroVisual", "AttributeDefinitions", "PhysicalDescriptions", "Protocols", "FTRDM", "Art-Net", "sACN", "KiNET",
   "PosiStageNet", "OpenSoundControl", "CITP", "Properties", "OperatingTemperature", "Weight", "LegHeight"]

/-- There is one node of the name here: those above, and the colour space that is not one of the additional ones. -/
def Single (box : Option String) (c : String) : Prop := c ∈ single ∨ (c = "ColorSpace" ∧ box = none)

/-- Nodes `c` have their place in nodes `node`: in them, or in the node of the name `box` that collects them. -/
def Placed (node : String) (box : Option String) (c : String) : Prop :=
  match box with
  | none => ∃ l, nesting.lookup node = some l ∧ c ∈ l ∧ c ∉ collects
  | some b => b ∈ collects ∧ (∃ l, nesting.lookup node = some l ∧ b ∈ l) ∧ ∃ l, nesting.lookup b = some l ∧ c ∈ l

/-- The nodes at the place. -/
def nodesAt (e : Elem) : Option String → List Elem
  | none => e.kids
  | some b => match e.kids.find? (fun x => x.name == b) with
    | some x => x.kids
    | none => []

/-- Nodes that are in one list with those of a name: geometries of all kinds; otherwise those of the name. -/
def alongside (c : String) : List String := if c ∈ geometryNames then geometryNames else [c]

/-- The same name, in upper or lower case. -/
def sameWord (a b : String) : Bool := decide (a.toList.map Verif.Mvr.Spec.upper = b.toList.map Verif.Mvr.Spec.upper)

/-- The objects in the child slots. -/
def Kids : Obj Members → List (List (Obj Members))
  | .mk _ _ ks => ks

/-- The members. -/
def ValuesOf : Obj Members → Members
  | .mk _ d _ => d

end Verif.Gdtf.Spec
