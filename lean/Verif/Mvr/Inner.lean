import Verif.Mvr.Table
import Verif.Mvr.Spec

/-!
# The trees of objects in terms of the table of classes

The same conditions as in the specification, for the way in which each member is written.
-/

namespace Verif.Mvr.Inner

open Verif.Real

/-- The values of a member that come back.  Missing: numbers of an unsigned type from 2^31 on (all values of the type of the
member should come back), channel functions that contain the separators of the text of a custom command. -/
def Kept : Codec → Val → Prop
  | .optText, .text _ => True
  | .text, .text _ => True
  | .uuid, .uuid u => u.length = 16
  | .sint w, .int i => (w = 8 ∨ w = 32) ∧ -(2 ^ (w - 1) : Int) ≤ i ∧ i < 2 ^ (w - 1)
  | .uint32, .int i => 0 ≤ i ∧ i < 2 ^ 31
  | .size, .int i => 0 ≤ i ∧ i < 2 ^ 31
  | .sizeAs32, .int i => 0 ≤ i ∧ i < 2 ^ 31
  | .sizeFrom32, .int i => 0 ≤ i ∧ i < 2 ^ 31
  | .flag, .flag _ => True
  | .real, .real x => 0 ≤ x.mag
  | .vec, .vec v => 0 ≤ v.x.mag ∧ 0 ≤ v.y.mag ∧ 0 ≤ v.z.mag
  | .color, .color v => 0 ≤ v.x.mag ∧ 0 ≤ v.y.mag ∧ 0 ≤ v.z.mag
  | .matrix, .matrix m => (0 ≤ m.u.x.mag ∧ 0 ≤ m.u.y.mag ∧ 0 ≤ m.u.z.mag) ∧ (0 ≤ m.v.x.mag ∧ 0 ≤ m.v.y.mag ∧ 0 ≤ m.v.z.mag) ∧
      (0 ≤ m.w.x.mag ∧ 0 ≤ m.w.y.mag ∧ 0 ≤ m.w.z.mag) ∧ 0 ≤ m.o.x.mag ∧ 0 ≤ m.o.y.mag ∧ 0 ≤ m.o.z.mag
  | .source, .source _ => True
  | .scale, .scale _ => True
  | .transmission, .transmission _ => True
  | .command, .command fn p x => ¬ "/percent".toList <:+: fn ∧ (p = false → ',' ∉ fn) ∧ 0 ≤ x.mag
  | _, _ => False

/-- All values of an object. -/
def KeptAll : List Field → List Val → Prop
  | [], [] => True
  | f :: fs, v :: vs => Kept f.codec v ∧ KeptAll fs vs
  | _, _ => False

/-- The contents of a member are allowed: right classes, right number. -/
def Fits (s : Slot) (k : List Obj) : Prop :=
  (∀ o ∈ k, o.cls ∈ s.holds) ∧
    match s.how with
    | .many => True
    | .first => k.length ≤ 1
    | .needed => k.length = 1
    | .embedded => k.length = 1

/-- A tree of objects in which every member has allowed contents, and a fixture without a gobo has no gobo rotation. -/
inductive Tree : Obj → Prop
  | mk (c : Class) (vs : List Val) (ks : List (List Obj)) (hc : c ∈ classes) (hv : KeptAll c.fields vs)
      (hg : c.name = "fGobo" → vs.head? = some (.text []) → vs = [.text [], .real zero])
      (hn : ks.length = c.slots.length)
      (hf : ∀ p ∈ c.slots.zip ks, Fits p.1 p.2) (hk : ∀ k ∈ ks, ∀ o ∈ k, Tree o) : Tree (.mk c.name vs ks)

/-- Texts without carriage returns and null characters; as the contents of a node, no text of white space only. -/
def CleanVal (p : Place) : Val → Prop
  | .text t => Xml.Spec.Clean t ∧ (p = .own → t = [] ∨ ¬ Xml.Spec.Blank t)
  | .command fn _ _ => Xml.Spec.Clean fn
  | _ => True

/-- All values of an object. -/
def CleanVals : List Field → List Val → Prop
  | f :: fs, v :: vs => CleanVal f.place v ∧ CleanVals fs vs
  | _, _ => True

mutual
/-- All texts of the tree are. -/
def CleanTree : Obj → Prop
  | .mk c vs ks => CleanVals (row classes c).fields vs ∧ CleanKids ks

/-- All members. -/
def CleanKids : List (List Obj) → Prop
  | [] => True
  | k :: ks => CleanList k ∧ CleanKids ks

/-- One member. -/
def CleanList : List Obj → Prop
  | [] => True
  | o :: os => CleanTree o ∧ CleanList os
end

end Verif.Mvr.Inner
