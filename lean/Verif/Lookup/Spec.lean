import Verif.Lookup.Model

/-!
# Specification: names up to case, first element with a name, document order, duplicate channels
-/

namespace Verif.Lookup.Spec

/-- Two UTF-16 units are equal up to the case of ASCII letters. -/
def SameUnit (a b : BitVec 16) : Prop :=
  a = b ∨ (65 ≤ a.toNat ∧ a.toNat ≤ 90 ∧ b.toNat = a.toNat + 32) ∨ (65 ≤ b.toNat ∧ b.toNat ≤ 90 ∧ a.toNat = b.toNat + 32)

/-- Two texts are equal up to the case of ASCII letters. -/
def SameName (s t : Txt) : Prop :=
  s.length = t.length ∧ ∀ (i : Nat) (a b : BitVec 16), s[i]? = some a → t[i]? = some b → SameUnit a b

/-- `r` is the first element of the list with the given name, nothing if there is none. -/
def FirstNamed (l : List Named) (name : Txt) (r : Option Named) : Prop :=
  match r with
  | some x => ∃ pre post, l = pre ++ x :: post ∧ SameName x.ref name ∧ ∀ y ∈ pre, ¬ SameName y.ref name
  | none => ∀ y ∈ l, ¬ SameName y.ref name

/-- All geometries of a forest in document order: each geometry, then its children, then its following siblings. -/
def documentOrder : List GTree → List Named
  | [] => []
  | .node n kids :: rest => n :: (documentOrder kids ++ documentOrder rest)

/-- The logical channels of a mode in document order, each with the geometry of its channel. -/
def items (chans : List DChan) : List (Option Txt × LChan) := chans.flatMap (fun c => c.logicals.map (fun l => (c.geom, l)))

/-- The logical channel has geometry `g` and attribute `a`, and `a` is not one of the attributes that may be repeated. -/
def Counts (it : Option Txt × LChan) (g a : Txt) : Prop :=
  it.1 = some g ∧ it.2.attr = some a ∧ ¬ SameName a (lit "NoFeature") ∧ ¬ SameName a (lit "Dummy")

/-- The logical channel number `k` repeats the geometry and attribute of an earlier one. -/
def Repeats (its : List (Option Txt × LChan)) (k : Nat) : Prop :=
  ∃ i x y g a g' a', i < k ∧ its[k]? = some x ∧ its[i]? = some y ∧ Counts x g a ∧ Counts y g' a' ∧
    SameName g g' ∧ SameName a a'

end Verif.Lookup.Spec
