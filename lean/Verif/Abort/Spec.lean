import Verif.Abort.Model

/-!
# C99: what someone who cancels can expect

Independent of the loops: what the whole file says, the order of the file, and what it means to be a beginning or a part of it.
-/

namespace Verif.Abort

mutual
/-- The objects that a node stands for. -/
def objOf : Nd → List Ob
  | .mk id known kids => if known then [.mk id (objsOf kids)] else []
/-- All objects of a list of nodes. -/
def objsOf : List Nd → List Ob
  | [] => []
  | t :: ts => objOf t ++ objsOf ts
end

/-- All auxiliary objects of the file. -/
def auxOf : Option (List AuxNd) → List Nat
  | some as => (as.filter (·.known)).map (·.id)
  | none => []

/-- All layers of the file, with everything in them. -/
def layersOf : Option (List Nd) → List Ob
  | some ls => objsOf ls
  | none => []

/-- Everything the file says, with links. -/
def whole (f : File) : Scene where
  data := f.data
  aux := match f.scene with
    | some s => auxOf s.aux
    | none => []
  layers := match f.scene with
    | some s => layersOf s.layers
    | none => []
  linked := true

/-- An entry of a document: a user data node, an auxiliary object, or an object at a depth. -/
inductive Entry where
  | data (id : Nat)
  | aux (id : Nat)
  | obj (depth id : Nat)
deriving DecidableEq, Repr

mutual
/-- An object and the objects in it in the order of the file, each with its depth. -/
def entry (d : Nat) : Ob → List Entry
  | .mk id kids => .obj d id :: entries (d + 1) kids
/-- The objects of a list in the order of the file. -/
def entries (d : Nat) : List Ob → List Entry
  | [] => []
  | o :: os => entry d o ++ entries d os
end

/-- The scene in the order of the file. -/
def Scene.doc (s : Scene) : List Entry :=
  s.data.map .data ++ (s.aux.map .aux ++ entries 0 s.layers)

/-- Some objects are left out, each with everything in it; all others are there, in their places and in order. -/
inductive Part : List Ob → List Ob → Prop where
  | nil : Part [] []
  | skip {a b : List Ob} (o : Ob) : Part a b → Part a (o :: b)
  | keep {a b ka kb : List Ob} (id : Nat) : Part ka kb → Part a b → Part (.mk id ka :: a) (.mk id kb :: b)

/-- Who once wants to stop stays with it. -/
def Sticky (cb : Answers) : Prop := ∀ n m, n ≤ m → cb n = true → cb m = true

end Verif.Abort
