import Verif.Check.Model
import Verif.Lookup.Spec

/-!
# Specification: attribute errors, and functions that can be active at the same time
-/

namespace Verif.Check.Spec

open Verif.Lookup Verif.Lookup.Spec

/-- The name is in the list up to case. -/
def Listed (a : Txt) (l : List Txt) : Prop := ∃ b ∈ l, SameName a b

/-- With the given DMX values (of all channels), the function of channel `own` is active: its own channel has a value in its
range, and its mode master (a channel, or the channel of a function) has a value in the range given for it. -/
def Active (own : Nat) (channelOf : Nat → Nat) (dmx : Nat → Nat) (f : MFn) : Prop :=
  (f.first ≤ dmx own ∧ dmx own ≤ f.last) ∧
  (∀ c, f.mmChannel = some c → f.mmFirst ≤ dmx c ∧ dmx c ≤ f.mmLast) ∧
  (∀ g, f.mmFunction = some g → f.mmFirst ≤ dmx (channelOf g) ∧ dmx (channelOf g) ≤ f.mmLast)

/-- Two functions can be active together. -/
def Together (own : Nat) (channelOf : Nat → Nat) (f g : MFn) : Prop :=
  ∃ dmx, Active own channelOf dmx f ∧ Active own channelOf dmx g

/-- A function with usable ranges: not empty, at most one master, and the master is not its own channel. -/
structure Usable (own : Nat) (channelOf : Nat → Nat) (f : MFn) : Prop where
  range : f.first ≤ f.last
  mmRange : f.mmFirst ≤ f.mmLast
  one : f.mmChannel = none ∨ f.mmFunction = none
  channel : ∀ c, f.mmChannel = some c → c ≠ own
  function : ∀ g, f.mmFunction = some g → channelOf g ≠ own

end Verif.Check.Spec
