import Verif.Gdtf.SpellSpec

/-!
# Specification: GDTF descriptions with numbers of reasonable size, and what may happen to a description between reading and saving

Nothing is said about other nodes and attributes: unknown nodes, missing nodes, repeated nodes, texts that are no numbers, colours, matrices, UUIDs
or words of the format are all allowed, and so are references to nodes that do not exist.
-/

namespace Verif.Gdtf.Spec

open Verif.Lookup (Txt)
open Verif.Real Verif.Text Verif.Dmx

/-- Never more than nine digits in a row. -/
def NineDigits (s : List Char) : Prop := ∀ d, d <:+: s → (∀ c ∈ d, 48 ≤ c.toNat ∧ c.toNat ≤ 57) → d.length ≤ 9

/-- What is asked of the text of an attribute. -/
inductive Limit where
  /-- At most nine digits in a row. -/
  | number
  /-- The same, without a minus. -/
  | count
  /-- If there is a slash: behind it a number of bytes from 1 to 4 (and perhaps an "s"), before it no number or one of so many bytes. -/
  | value
  /-- Empty, or the addresses of a channel without gaps. -/
  | offset
  /-- Empty, or an address. -/
  | address
  /-- At most four characters behind "0x". -/
  | hex
  deriving DecidableEq

/-- The text is like this. -/
def Limit.Meets : Limit → List Char → Prop
  | .number, s => NineDigits s
  | .count, s => NineDigits s ∧ '-' ∉ s
  | .value, s => '/' ∈ s → ∃ (a b : List Char) (k : Nat), (s = a ++ '/' :: b ∨ s = a ++ '/' :: (b ++ ['s'])) ∧ '/' ∉ a ∧ 1 ≤ k ∧ k ≤ 4 ∧ NatText k b ∧
      (Digits a → decimal a < 256 ^ k)
  | .offset, s => s = [] ∨ ∃ o : Offset, o.Valid ∧ Means 2 .offset (.offset o) s
  | .address, s => s = [] ∨ ∃ a, 1 ≤ a ∧ a ≤ 65535 ∧ Address a s
  | .hex, s => s.length ≤ 6

/-- The attributes of which something is asked: node, attribute. -/
def limits : List (String × String × Limit) :=
  [("Slot", "Width", .count), ("Slot", "Height", .count), ("Slot", "FPS", .count), ("Display", "Width", .count), ("Display", "Height", .count),
   ("PinPatch", "FromPin", .count), ("PinPatch", "ToPin", .count), ("WiringObject", "PinCount", .count), ("WiringObject", "SignalLayer", .count),
   ("Inventory", "Count", .count), ("Beam", "ColorRenderingIndex", .number), ("Break", "DMXBreak", .number), ("Break", "DMXOffset", .address),
   ("DMXChannel", "DMXBreak", .number), ("DMXChannel", "Offset", .offset), ("DMXChannel", "Default", .value), ("DMXChannel", "Highlight", .value),
   ("ChannelFunction", "Default", .value), ("ChannelFunction", "DMXFrom", .value), ("ChannelSet", "DMXFrom", .value),
   ("ChannelSet", "WheelSlotIndex", .number), ("Revision", "Date", .number), ("Revision", "UserID", .count),
   ("FixtureType", "ThumbnailOffsetX", .number), ("FixtureType", "ThumbnailOffsetY", .number), ("CRI", "ColorRenderingIndex", .number),
   ("FTRDM", "ManufacturerID", .hex), ("FTRDM", "DeviceModelID", .hex), ("DMXPersonality", "Value", .hex), ("Map", "Key", .count),
   ("Map", "Value", .count), ("SoftwareVersionID", "Value", .hex), ("Connector", "DMXBreak", .count), ("Connector", "Gender", .number)]

/-- The numbers for which there is no value to fall back to. -/
def needed : List (String × String) :=
  [("Display", "Width"), ("Display", "Height"), ("PinPatch", "FromPin"), ("PinPatch", "ToPin"), ("Inventory", "Count"), ("Map", "Key"),
   ("Map", "Value")]

/-- What is asked of a node (its name may be in upper or lower case). -/
structure SaneNode (e : Elem) : Prop where
  limits : ∀ q ∈ limits, sameWord e.name q.1 = true → ∀ t, Node.getAttr e.attrs q.2.1 = some t → q.2.2.Meets (toChars t)
  needed : ∀ q ∈ needed, sameWord e.name q.1 = true → ∃ t, Node.getAttr e.attrs q.2 = some t ∧ t ≠ []

/-- The same for every node of a description. -/
def Sane (e : Elem) : Prop := ∀ x, Inside x e → SaneNode x

/-- The `double`s in the memory are numbers (in the model they have a sign and a magnitude). -/
def Numbers (m : Memory) : Prop := ∀ a b, Good (m.real a b)

/-- The member holds a reference to another object, or a channel value that depends on one. -/
def Later (cls f : String) : Prop := ∃ u, (cls, u, f) ∈ Node.Spec.deferred

/-- The value is of the kind of another one, for the members above: a reference or none, or the text of a channel value. -/
def AlikeLater : Val → Val → Prop
  | .link _, w => ∃ l, w = .link l
  | _, w => ∃ t, w = .raw t

/-- The members of an object after the references are resolved: only those above have changed.  A channel function has not two mode masters. -/
structure Settled (m : Memory) (cls : String) (d d' : Members) : Prop where
  same : ∀ f, ¬ Later cls f → d' f = d f
  later : ∀ f, Later cls f → AlikeLater (ctor m cls f) (d' f)
  master : cls = "GdtfDmxChannelFunction" → ¬ (set? (d' "fModeMaster_Channel") = true ∧ set? (d' "fModeMaster_Function") = true)

/-- A description after the references are resolved, whatever was found for them: the same objects in the same places. -/
inductive Resolved (m : Memory) : Obj Members → Obj Members → Prop
  | mk (cls : String) (d d' : Members) (ks ks' : List (List (Obj Members))) (hd : Settled m cls d d') (hl : ks.length = ks'.length)
      (hn : ∀ (i : Nat) k k', ks[i]? = some k → ks'[i]? = some k' → k.length = k'.length)
      (hk : ∀ (i j : Nat) k k' o o', ks[i]? = some k → ks'[i]? = some k' → k[j]? = some o → k'[j]? = some o' → Resolved m o o') :
      Resolved m (.mk cls d ks) (.mk cls d' ks')

end Verif.Gdtf.Spec
