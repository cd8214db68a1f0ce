import Verif.Mvr.SceneModel
import Verif.Mvr.Spec

/-!
# Specification: texts of a scene, and what a reader has to hold
-/

namespace Verif.Mvr.Spec

open Verif.UnicodeSpec

/-- The bytes, as characters, of a text in UTF-8. -/
def Utf8 (t : Text) : Prop := ∃ cs : List Nat, (∀ c ∈ cs, IsScalar c) ∧ t = (cs.flatMap utf8).map (fun b => Char.ofNat b.toNat)

/-- The texts in a value are. -/
def Utf8Val : Val → Prop
  | .text t => Utf8 t
  | .command fn _ _ => Utf8 fn
  | _ => True

mutual
/-- All texts of the tree are. -/
def Utf8Tree : Obj → Prop
  | .mk _ vs ks => (∀ v ∈ vs, Utf8Val v) ∧ Utf8Kids ks

/-- All members. -/
def Utf8Kids : List (List Obj) → Prop
  | [] => True
  | k :: ks => Utf8List k ∧ Utf8Kids ks

/-- One member. -/
def Utf8List : List Obj → Prop
  | [] => True
  | o :: os => Utf8Tree o ∧ Utf8List os
end

mutual
/-- All names, values and texts are UTF-8. -/
def Utf8Xml : Xml → Prop
  | .elem n a t k => Utf8 n ∧ (∀ p ∈ a, Utf8 p.1 ∧ Utf8 p.2) ∧ Utf8 t ∧ Utf8Xmls k

/-- Those of a list. -/
def Utf8Xmls : List Xml → Prop
  | [] => True
  | x :: r => Utf8Xml x ∧ Utf8Xmls r
end

/-- A scene that the file can keep: built of the right objects with values in range, texts in UTF-8 without carriage returns and nulls. -/
structure Ordinary (w : Exchange) : Prop where
  build : Build w.content
  tidy : TidyTree w.content
  utf8 : Utf8Tree w.content
  provider : Xml.Spec.Clean w.provider ∧ Utf8 w.provider
  providerVersion : Xml.Spec.Clean w.providerVersion ∧ Utf8 w.providerVersion

/-- `r` holds, behind what `e` has held, the scene `w` without its empty groups; the version is the one of this library. -/
structure Gained (e w r : Exchange) : Prop where
  userData : ∃ l, r.userData = e.userData ++ l ∧ SameList (pruneList w.userData) l
  layers : ∃ l, r.layers = e.layers ++ l ∧ SameList (pruneList w.layers) l
  mapDefs : ∃ l, r.mapDefs = e.mapDefs ++ l ∧ SameList (pruneList w.mapDefs) l
  positions : ∃ l, r.positions = e.positions ++ l ∧ SameList (pruneList w.positions) l
  symDefs : ∃ l, r.symDefs = e.symDefs ++ l ∧ SameList (pruneList w.symDefs) l
  version : r.version = (1, 6)

end Verif.Mvr.Spec
