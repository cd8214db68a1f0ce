import Verif.Gdtf.FileModel
import Verif.Gdtf.ValueSpec

/-!
Specification for the text of a GDTF description.
-/

namespace Verif.Gdtf.Spec

open Verif.Lookup (Txt)
open Verif.UnicodeSpec

/-- A text that XML 1.0 can keep: the UTF-16 form of characters, neither null nor carriage return (which XML takes for a line feed). -/
def Legible (t : Txt) : Prop := ∃ cs : List Nat, (∀ c ∈ cs, IsScalar c ∧ c ≠ 0 ∧ c ≠ 13) ∧ t = cs.flatMap utf16

/-- The texts in a value are. -/
def LegibleVal : Val → Prop
  | .text t => Legible t
  | .link (some t) => Legible t
  | .raw t => Legible t
  | _ => True

/-- All texts of a description are. -/
def AllLegible (o : Obj Members) : Prop := ∀ p d, dataAt o p = some d → ∀ f, LegibleVal (d f)

mutual
/-- The number of objects inside of each other. -/
def nested : Obj Members → Nat
  | .mk _ _ ks => 1 + nestedAll ks

/-- The largest one of all members. -/
def nestedAll : List (List (Obj Members)) → Nat
  | [] => 0
  | k :: ks => max (nestedList k) (nestedAll ks)

/-- And of one member. -/
def nestedList : List (Obj Members) → Nat
  | [] => 0
  | o :: os => max (nested o) (nestedList os)
end

/-- Every member that is written has, at the same place, the value it had (numbers as near as six decimals are). Excluded are the names
of a fixture with a slash in them. -/
def SameValues (o o' : Obj Members) : Prop :=
  ∀ p cls d, classAt o p = some cls → dataAt o p = some d → (cls = "GdtfFixture" → NoSlash d) →
    ∀ i, Writes cls i → i.guard.holds (cond d) = true → ∃ d', dataAt o' p = some d' ∧ Close (d i.field) (d' i.field)

/-- Every reference has the text that it was written with, in the member from which it is resolved. -/
def SameLinks (o o' : Obj Members) : Prop :=
  ∀ p d, dataAt o p = some d → ∀ k ∈ Node.kinds, classAt o p = some k.name →
    ∀ i ∈ k.writes, (∃ u, (k.name, u, i.field) ∈ Node.Spec.deferred) → i.guard.holds (cond d) = true →
    ∀ t, i.codec = .ref → d i.field = .link (some t) →
    ∃ d' u, dataAt o' p = some d' ∧ (k.name, u, i.field) ∈ Node.Spec.deferred ∧ d' u = .text t

/-- The decimal digits of a number. -/
inductive Decimal : List Nat → Nat → Prop
  | one (d : Nat) : d < 10 → Decimal [48 + d] d
  | more (s : List Nat) (n d : Nat) : Decimal s n → d < 10 → Decimal (s ++ [48 + d]) (n * 10 + d)

/-- The text of a version: two numbers with a dot between them. -/
def VersionText (t : Txt) (major minor : Nat) : Prop :=
  ∃ a b, Decimal a major ∧ Decimal b minor ∧ t = (a ++ 46 :: b).map (BitVec.ofNat 16)

end Verif.Gdtf.Spec
