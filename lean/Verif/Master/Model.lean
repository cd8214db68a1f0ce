import Verif.Chan.Model

/-!
# Model: the check for channel functions that can be active at the same time

GDTFManager.cpp:9297-9372 `GdtfFixture::CheckForMissingModeMasters`, called after the references of a fixture have been resolved
(GDTFManager.cpp:8511).  Its reports are the parsing errors a user of the library gets (`AddError`).

Not modelled: the callback that may abort reading (`CheckAbort`, GDTFManager.cpp:92-106); without one it answers `false`.
-/

namespace Verif.Master

/-- What the check looks at in a channel function: `GetStartAdress` and `GetEndAdress` (GDTFManager.cpp:6503-6520), the channel or the function
that is its mode master (9332-9333), by a number for each, and `GetModeMasterDmxStart`, `GetModeMasterDmxEnd` (9350-9351). -/
structure Fn where
  start : Nat
  stop : Nat
  channel : Option Nat
  function : Option Nat
  from_ : Nat
  to_ : Nat
  deriving DecidableEq

/-- GDTFManager.cpp:9339, 9359: `eFixtureChannelFunctionMissingModeMaster` and `eFixtureChannelFunctionModeMasterOverlap`. -/
inductive Report where
  | missing | overlap
  deriving DecidableEq

/-- GDTFManager.cpp:9328: "These two functions have conflicting DMX ranges." -/
def conflicting (f c : Fn) : Bool := decide (f.start ≤ c.stop) && decide (c.start ≤ f.stop)

/-- GDTFManager.cpp:9332-9363: what is reported for two functions with conflicting ranges.  (A pointer that is not null and equal to another one: the
same number.) -/
def judge (f c : Fn) : Option Report :=
  if f.channel = none ∧ f.function = none then some .missing
  else if (f.channel ≠ none ∧ f.channel = c.channel) ∨ (f.function ≠ none ∧ f.function = c.function) then
    if f.from_ ≤ c.to_ ∧ c.from_ ≤ f.to_ then some .overlap else none
  else none

/-- GDTFManager.cpp:9320-9366: a function and those behind it; the loop ends at the first one with a conflicting range. -/
def inner (f : Fn) : List Fn → Option Report
  | [] => none
  | c :: l => if conflicting f c then judge f c else inner f l

/-- GDTFManager.cpp:9308-9368: the functions of a logical channel.  (The loop ends before the last function, which has none behind it.) -/
def checkLogical : List Fn → List Report
  | [] => []
  | f :: l => (inner f l).toList ++ checkLogical l

/-- GDTFManager.cpp:9299-9371: modes, their channels, and the logical channels of these. -/
def check (modes : List (List (List (List Fn)))) : List Report :=
  modes.flatMap (fun channels => channels.flatMap (fun logicals => logicals.flatMap checkLogical))

/-- The functions of a logical channel without mode masters, with the ranges that are reported for their starts (`Chan.fnRanges`). -/
def plain (maxDmx : Nat) (after : Option Nat) (starts : List Nat) : List Fn :=
  (Chan.fnRanges maxDmx after starts).map (fun r => ⟨r.1, r.2, none, none, 0, 0⟩)

end Verif.Master
