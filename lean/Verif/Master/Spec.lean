import Verif.Master.Model

/-!
# Specification: channel functions that can be active at the same time
-/

namespace Verif.Master.Spec

/-- What a mode master is: a channel or a channel function, each with a number. -/
inductive Who where
  | channel (n : Nat)
  | function (n : Nat)

/-- A function is active: the value of its channel is in its range, and the value of its mode master, if it has one, is in the range for it. -/
def Active (value : Nat) (masters : Who → Nat) (f : Fn) : Prop :=
  f.start ≤ value ∧ value ≤ f.stop ∧
  (∀ n, f.channel = some n → f.from_ ≤ masters (.channel n) ∧ masters (.channel n) ≤ f.to_) ∧
  (∀ n, f.function = some n → f.from_ ≤ masters (.function n) ∧ masters (.function n) ≤ f.to_)

/-- Two functions can be active at the same time, for a value of their channel and some values of the mode masters. -/
def Clash (f c : Fn) : Prop := ∃ value masters, Active value masters f ∧ Active value masters c

/-- The ranges are not empty, and there is at most one mode master. -/
def Proper (f : Fn) : Prop := f.start ≤ f.stop ∧ f.from_ ≤ f.to_ ∧ (f.channel = none ∨ f.function = none)

/-- The ranges of two functions have a common value (if they are not empty). -/
def Overlapping (f c : Fn) : Prop := f.start ≤ c.stop ∧ c.start ≤ f.stop

/-- No two functions of a logical channel can be active at the same time. -/
def Exclusive (l : List Fn) : Prop := l.Pairwise (fun f c => ¬ Clash f c)

/-- A function without a mode master. -/
def Free (f : Fn) : Prop := f.channel = none ∧ f.function = none

/-- Two functions have the same mode master. -/
def SameMaster (f c : Fn) : Prop := (∃ n, f.channel = some n ∧ c.channel = some n) ∨ (∃ n, f.function = some n ∧ c.function = some n)

end Verif.Master.Spec
