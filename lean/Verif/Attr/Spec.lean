import Verif.Attr.Model

/-!
# Specification: the attributes of a feature or an activation group
-/

namespace Verif.Attr.Spec

/-- What a user does, one after the other: an attribute is given a target, or the null pointer. -/
abbrev History := List (Nat × Option Nat)

/-- The state after that. -/
def run (s : State) (h : History) : State := h.foldl (fun s c => (apiSet s c.1 c.2).1) s

/-- The attributes that are listed, by count and index as a user asks for them. -/
def listed (s : State) (t : Nat) : List (Option Nat) := (List.range (count s t)).map (attributeAt s t)

/-- The lists are right: a target lists exactly the attributes that have it, each one once. -/
def Right (s : State) : Prop :=
  ∀ t, (listed s t).Nodup ∧ ∀ a, some a ∈ listed s t ↔ s.target a = some t

/-- No attribute is given a target twice. -/
def Once (h : History) : Prop := ((h.filter (fun c => c.2.isSome)).map (·.1)).Nodup

end Verif.Attr.Spec
