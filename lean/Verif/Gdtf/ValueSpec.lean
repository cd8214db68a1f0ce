import Verif.Gdtf.ValueModel
import Verif.Gdtf.Spec
import Verif.Node.Spec
import Verif.Mvr.Spec
import Verif.Dmx.Props
import Verif.Text.Props

/-!
# Specification: which values the members of a GDTF description can have, and what must be left of them after reading
-/

namespace Verif.Gdtf.Spec

open Verif.Lookup (Txt)
open Verif.Real Verif.Text Verif.Dmx Verif.Enum
open Verif.Mvr.Spec (Near NearV)

/-- The type of a member: each converter is for one type, except for those of integers and channel values. -/
inductive Ty where
  | of (cv : Cv)
  | int (w : Width)
  | dmx
  | dmxOrNone
  | text
  | undefined
  deriving DecidableEq

/-- The type of a value. -/
def typeOf : Val → Ty
  | .text _ => .of .text
  | .link _ => .of .link
  | .real _ => .of .real
  | .int w _ => .int w
  | .matrix _ => .of .matrix
  | .rotation _ => .of .rotation
  | .color _ => .of .color
  | .colors _ => .of .colors
  | .point _ _ => .of .point
  | .vec _ => .of .vec
  | .dmx _ => .dmx
  | .high _ _ => .dmxOrNone
  | .raw _ => .text
  | .rawHigh _ => .text
  | .hex _ => .of .hex
  | .uuid _ => .of .uuid
  | .offset _ => .of .offset
  | .brk _ => .of .brk
  | .date _ => .of .date
  | .address _ => .of .address
  | .flag _ => .of .flag
  | .primitive _ => .of .primitive
  | .unit _ => .of .unit
  | .beam _ => .of .beam
  | .lamp _ => .of .lamp
  | .snap _ => .of .snap
  | .master _ => .of .master
  | .relation _ => .of .relation
  | .sample _ => .of .sample
  | .space _ => .of .space
  | .interpolation _ => .of .interpolation
  | .laser _ => .of .laser
  | .component _ => .of .component
  | .orientation _ => .of .orientation
  | .fuse _ => .of .fuse
  | .truss _ => .of .truss
  | .section_ _ => .of .section_
  | .support _ => .of .support
  | .subUnit _ => .of .subUnit
  | .canHave _ => .of .canHave
  | .undef => .undefined

/-- A converter is made for the type. -/
def suits (cv : Cv) (v : Val) : Bool :=
  match typeOf v with
  | .of c => c == cv
  | .int _ => cv == .int
  | .dmx => cv == .dmx
  | .dmxOrNone => cv == .dmx
  | _ => false

/-- Values that agree: texts, numbers without decimals, flags, choices, UUIDs and dates are equal, other numbers are near; a rotation is
its three axes; the number of a highlight value "None" does not matter. -/
def Close : Val → Val → Prop
  | .real x, .real y => Near x y
  | .matrix m, .matrix k => NearV m.u k.u ∧ NearV m.v k.v ∧ NearV m.w k.w ∧ NearV m.o k.o
  | .rotation m, .rotation k => NearV m.u k.u ∧ NearV m.v k.v ∧ NearV m.w k.w
  | .color a, .color b => NearV a b
  | .colors a, .colors b => a.length = b.length ∧ ∀ p ∈ a.zip b, NearV p.1 p.2
  | .point x y, .point x' y' => Near x x' ∧ Near y y'
  | .vec a, .vec b => NearV a b
  | .high _ true, .high _ b => b = true
  | v, w => v = w

/-- A finite number (the model of a `double` has a sign and a magnitude). -/
def Good (x : Dbl) : Prop := 0 ≤ x.mag

/-- Three of them. -/
def GoodV (v : V3) : Prop := Good v.x ∧ Good v.y ∧ Good v.z

/-- The range of a type. -/
def InType : Width → Int → Prop
  | .s32, i => -2 ^ 31 ≤ i ∧ i < 2 ^ 31
  | .u8, i => 0 ≤ i ∧ i < 2 ^ 8
  | .u32, i => 0 ≤ i ∧ i < 2 ^ 31
  | .size, i => 0 ≤ i ∧ i < 2 ^ 31

/-- The values that are expected to come back, in a channel with `n` bytes: numbers in the range of the format (unsigned integers up to the
largest `Sint32`, see C46), channel values up to the largest of the channel, offsets without gaps, complete UUIDs. -/
def Kept (n : Nat) : Val → Prop
  | .real x => Good x
  | .int w i => InType w i
  | .matrix m => GoodV m.u ∧ GoodV m.v ∧ GoodV m.w ∧ GoodV m.o
  | .rotation m => GoodV m.u ∧ GoodV m.v ∧ GoodV m.w
  | .color c => GoodV c
  | .colors cs => ∀ c ∈ cs, GoodV c
  | .point x y => Good x ∧ Good y
  | .vec v => GoodV v
  | .dmx v => v ≤ 256 ^ n - 1
  | .high v b => b = true ∨ v ≤ 256 ^ n - 1
  | .hex v => v ≤ 65535
  | .uuid u => u.length = 16
  | .offset o => o.Valid
  | .brk i => -2 ^ 31 ≤ i ∧ i < 2 ^ 31
  | .date t => t.Fits
  | .address a => 1 ≤ a ∧ a ≤ 65535
  | .rawHigh _ => False
  | .undef => False
  | _ => True

/-- The number of bytes of a channel with the offset; 2 for a virtual channel, which has none. -/
def channelBytes : Val → Nat
  | .offset o => if o.coarse = 0 then 2 else ([o.coarse, o.fine, o.ultra, o.uber].takeWhile (fun b => decide (b ≠ 0))).length
  | _ => 2

/-- The number of bytes that counts at a place: that of the innermost channel on the way to it (`n` if there is none). -/
def bytesAt (n : Nat) : Obj Members → List (Nat × Nat) → Nat
  | .mk cls d ks, p =>
    let m := if cls = "GdtfDmxChannel" then channelBytes (d "fCoarse+fFine+fUltra+fUber") else n
    match p with
    | [] => m
    | (i, j) :: p => match (ks[i]?).bind (fun k => k[j]?) with
      | some o => bytesAt m o p
      | none => m

/-- The members have their types; what the constructors leave in them has, too. -/
def Typed (init : String → Members) (o : Obj Members) : Prop :=
  ∀ p cls d, classAt o p = some cls → dataAt o p = some d → ∀ f, typeOf (d f) = typeOf (init cls f)

/-- All members have values that are expected to come back. -/
def AllKept (o : Obj Members) : Prop :=
  ∀ p cls d, classAt o p = some cls → dataAt o p = some d → ∀ f, Kept (bytesAt 2 o p) (d f)

/-- A channel function has at most one mode master. -/
def OneMaster (o : Obj Members) : Prop :=
  ∀ p d, classAt o p = some "GdtfDmxChannelFunction" → dataAt o p = some d →
    ¬ (set? (d "fModeMaster_Channel") = true ∧ set? (d "fModeMaster_Function") = true)

/-- The name of the fixture has no slash. -/
def NoSlash (d : Members) : Prop := ∀ t, d "fName" = .text t → (47 : BitVec 16) ∉ t

/-- A statement that writes a value of the class, and not a reference or a member that is resolved later. -/
def Writes (cls : String) (i : Node.Item) : Prop :=
  ∃ k ∈ Node.kinds, k.name = cls ∧ i ∈ k.writes ∧ i.codec ≠ .ref ∧ i.codec ≠ .blank ∧ ∀ u, (cls, u, i.field) ∉ Node.Spec.deferred

/-- The constructors give every member that is written a value of the type its converter is for. -/
def Suitable (init : String → Members) : Prop :=
  ∀ cls i cv, Writes cls i → cvOf i.codec = some cv → suits cv (init cls i.field) = true

end Verif.Gdtf.Spec
