import Verif.Mvr.ForeignSpec

/-!
# Specification: descriptions of scenes with numbers of reasonable size and without the gaps that lead to undefined values

Nothing is said about the other nodes and attributes: unknown nodes, missing nodes, repeated nodes, texts that are no UUIDs, numbers, matrices or
words of the format are all allowed.
-/

namespace Verif.Mvr.Spec

/-- The node has a name, in upper or lower case. -/
def Called (e : Xml) (m : String) : Prop := e.name.map upper = m.toList.map upper

instance (e : Xml) (m : String) : Decidable (Called e m) := by unfold Called; infer_instance

/-- A text of at most nine characters. -/
def Short (t : Text) : Prop := t.length ≤ 9

instance (t : Text) : Decidable (Short t) := by unfold Short; infer_instance

/-- The nodes whose text is a number without a sign. -/
def counts : List String := ["FixtureIDNumeric", "CustomId", "Address", "ux", "uy", "ox", "oy", "SizeX", "SizeY"]

/-- The nodes whose text is a number that may have a sign. -/
def signedCounts : List String := ["UnitNumber", "FixtureTypeId"]

/-- The nodes for which there is no value to fall back to. -/
def filled : List String := ["ux", "uy", "ox", "oy", "rz"]

/-- Nodes in nodes without which there is no value to fall back to, or no object. -/
def required : List (String × String) :=
  [("Mapping", "ux"), ("Mapping", "uy"), ("Mapping", "ox"), ("Mapping", "oy"), ("Mapping", "rz"), ("MappingDefinition", "Source"),
   ("Projector", "Projections"), ("Projections", "Projection"), ("Projection", "ScaleHandling")]

/-- What is asked of a node. -/
structure SaneNode (e : Xml) : Prop where
  count : ∀ m ∈ counts, Called e m → Short e.text ∧ '-' ∉ e.text
  signedCount : ∀ m ∈ signedCounts, Called e m → Short e.text
  break' : ∀ t, e.attr? "break".toList = some t → Short t ∧ '-' ∉ t
  filled : ∀ m ∈ filled, Called e m → e.text ≠ []
  gobo : Called e "Gobo" → e.text = [] → e.attr? "rotation".toList = none
  required : ∀ p ∈ required, Called e p.1 → ∃ x ∈ e.kids, x.name = p.2.toList

mutual
/-- The same for every node of a document. -/
def Sane : Xml → Prop
  | .elem n a t k => SaneNode (.elem n a t k) ∧ SaneAll k

/-- The nodes in a node. -/
def SaneAll : List Xml → Prop
  | [] => True
  | x :: k => Sane x ∧ SaneAll k
end

end Verif.Mvr.Spec
