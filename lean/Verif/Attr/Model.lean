import Verif.Basic

/-!
# Model: the attributes that a feature or an activation group lists

`GdtfAttribute::SetFeature` and `GdtfAttribute::SetActivationGroup` (GDTFManager.cpp:754-761, 595-602) are the same code for features and for activation
groups.  Both are modelled once; attributes and their targets (features or activation groups) are numbers that stand for the pointers.
-/

namespace Verif.Attr

/-- What `GetFeature` (or `GetActivationGroup`) of every attribute returns, and `fLinkedAttributes` of every target (GDTFManager.h:140, 176). -/
structure State where
  target : Nat → Option Nat
  linked : Nat → List Nat

/-- The objects after they are constructed (GDTFManager.cpp:559-578): no target, no linked attributes. -/
def fresh : State := ⟨fun _ => none, fun _ => []⟩

/-- GDTFManager.cpp:754-761 `SetFeature`, 595-602 `SetActivationGroup`, with 200-203 and 291-294 `AddLinkedAttribute`: the pointer is assigned, and the
attribute is appended to the list of the new target.  (The assertions do nothing in a release build.) -/
def set (s : State) (a t : Nat) : State where
  target := fun b => if b = a then some t else s.target b
  linked := fun u => if u = t then s.linked u ++ [a] else s.linked u

/-- CGdtfAttribute.cpp:196-236 `SetActivationGroup`, `SetFeature`: a null pointer is refused. -/
def apiSet (s : State) (a : Nat) : Option Nat → State × Bool
  | none => (s, false)
  | some t => (set s a t, true)

/-- GDTFManager.cpp:8672-8721 `ResolveAttribRefs`: every attribute of the fixture is set to what its reference names, if anything.  (`found` is the result
of the search, which is that of `Verif.Link.Model`.) -/
def resolve (found : Nat → Option Nat) (s : State) : List Nat → State
  | [] => s
  | a :: l => resolve found (match found a with | some t => set s a t | none => s) l

/-- CGdtfActivationGroup.cpp:55-62, CGdtfFeature.cpp:71-78 `GetAttributeCount`. -/
def count (s : State) (t : Nat) : Nat := (s.linked t).length

/-- CGdtfActivationGroup.cpp:64-73, CGdtfFeature.cpp:80-89 `GetAttributeAt`: nothing behind the end. -/
def attributeAt (s : State) (t i : Nat) : Option Nat := (s.linked t)[i]?

end Verif.Attr
