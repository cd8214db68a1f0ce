import Verif.Mvr.Spec

/-!
# Specification: scenes that are saved as the same text again
-/

namespace Verif.Mvr.Spec

open Verif.Real

/-- The number is at most 2^32, the range in which a `double` has six decimals. -/
def Moderate (x : Dbl) : Prop := x.mag ≤ 2 ^ 32

/-- The same for three numbers. -/
def ModerateV (v : V3) : Prop := Moderate v.x ∧ Moderate v.y ∧ Moderate v.z

/-- The numbers of a value. -/
def ModerateVal : Val → Prop
  | .real x => Moderate x
  | .vec v => ModerateV v
  | .color v => ModerateV v
  | .matrix m => ModerateV m.u ∧ ModerateV m.v ∧ ModerateV m.w ∧ ModerateV m.o
  | .command _ _ x => Moderate x
  | _ => True

/-- A number in millionths: what six decimals show of it. -/
def millionths (x : Dbl) : Int := if x.neg then -(micro x : Int) else micro x

/-- Three numbers in millionths. -/
def Shows (v : V3) (x y z : Int) : Prop := millionths v.x = x ∧ millionths v.y = y ∧ millionths v.z = z

/-- The matrix is not the identity for the library, but six decimals show no difference. -/
def Almost (m : Mat) : Prop :=
  isIdentity m = false ∧ Shows m.u 1000000 0 0 ∧ Shows m.v 0 1000000 0 ∧ Shows m.w 0 0 1000000 ∧ Shows m.o 0 0 0

/-- An object is in another one, at any depth, or it is the other one. -/
inductive Within : Obj → Obj → Prop
  | self (o : Obj) : Within o o
  | inside (x o : Obj) (c : String) (vs : List Val) (ks : List (List Obj)) (k : List Obj) (hk : k ∈ ks) (ho : o ∈ k) (h : Within x o) :
      Within x (.mk c vs ks)

/-- The numbers of the objects are not too large, no matrix is almost the identity, and no group is empty. -/
structure Steady (o : Obj) : Prop where
  numbers : ∀ c vs ks, Within (.mk c vs ks) o → ∀ v ∈ vs, ModerateVal v
  matrices : ∀ c vs ks, Within (.mk c vs ks) o → ∀ m, Val.matrix m ∈ vs → ¬ Almost m
  groups : ∀ x, Within x o → ¬ EmptyGroup x

end Verif.Mvr.Spec
