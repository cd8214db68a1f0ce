import Verif.Scene.Model

/-!
Specification side of C42–C44: what a user sees of a scene, defined on the objects only.
-/

namespace Verif.Scene.Spec

open Verif.Scene

/-- What C42 is about: an object with its kind, UUID and name and the objects inside of it, in order. -/
inductive Tree where
  | node (kind : Kind) (uuid : Uuid) (name : Text) (inside : List Tree)

/-- A layer with the objects inside of it. -/
structure LayerTree where
  uuid : Uuid
  name : Text
  inside : List Tree

mutual
/-- The tree of an object. -/
def tree {α : Type} : Obj α → Tree
  | .mk k u n _ _ kids => .node k u n (trees kids)
/-- The trees of a list of objects. -/
def trees {α : Type} : List (Obj α) → List Tree
  | [] => []
  | o :: os => tree o :: trees os
end

/-- The tree of a layer. -/
def layerTree {α : Type} (l : Layer α) : LayerTree := { uuid := l.uuid, name := l.name, inside := trees l.kids }

mutual
/-- No group, at any depth, is empty. -/
def NoEmptyGroup : Tree → Prop
  | .node k _ _ inside => (k = .group → inside ≠ []) ∧ NoEmptyGroups inside
/-- The same for a list. -/
def NoEmptyGroups : List Tree → Prop
  | [] => True
  | t :: ts => NoEmptyGroup t ∧ NoEmptyGroups ts
end

mutual
/-- The tree without the groups that contain nothing. -/
def prune : Tree → List Tree
  | .node k u n inside => if k = .group ∧ inside.isEmpty then [] else [.node k u n (prunes inside)]
/-- The same for a list. -/
def prunes : List Tree → List Tree
  | [] => []
  | t :: ts => prune t ++ prunes ts
end

mutual
/-- All objects of a tree, the object itself included, as (kind, UUID, what it points to). -/
def objects {α : Type} : Obj α → List (Kind × Uuid × α)
  | .mk k u _ _ a kids => (k, u, a) :: objectsL kids
/-- All objects of a list. -/
def objectsL {α : Type} : List (Obj α) → List (Kind × Uuid × α)
  | [] => []
  | o :: os => objects o ++ objectsL os
end

/-- All objects in the layers of a scene. -/
def sceneObjects {α : Type} (ls : List (Layer α)) : List (Kind × Uuid × α) := ls.flatMap fun l => objectsL l.kids

/-- All UUIDs of a scene have 16 bytes, those of layers, objects and everything they point to. This is the
C++ type `VWUUID`, the model has lists. -/
def LinksOk (l : Links) : Prop :=
  (∀ c, l.cls = some c → c.uuid.length = 16) ∧ (∀ p, l.position = some p → p.uuid.length = 16) ∧
  (∀ f, l.focus = some f → f.length = 16)

mutual
/-- 16 bytes in every UUID of an object. -/
def Typed : Obj Links → Prop
  | .mk _ u _ m l kids => u.length = 16 ∧ (∀ v, m = some v → v.length = 16) ∧ LinksOk l ∧ TypedL kids
/-- The same for a list. -/
def TypedL : List (Obj Links) → Prop
  | [] => True
  | o :: os => Typed o ∧ TypedL os
end

/-- 16 bytes in every UUID of a scene. -/
def TypedScene (s : Scene) : Prop :=
  (∀ l ∈ s.layers, l.uuid.length = 16 ∧ (∀ v, l.multipatch = some v → v.length = 16) ∧ LinksOk l.info ∧ TypedL l.kids) ∧
  (∀ c ∈ s.classes, c.uuid.length = 16) ∧ (∀ p ∈ s.positions, p.uuid.length = 16)

/-! ### C44: the object nodes of a file -/

/-- The node names of scene objects other than groups. -/
def objectNames : List Text :=
  ["Fixture", "SceneObject", "FocusPoint", "Truss", "VideoScreen", "Support", "Projector"].map String.toList

mutual
/-- The UUIDs of the scene objects (not the groups) given by a node of a `ChildList`, from the outside to the
inside. A node counts if it has a `uuid` attribute and one of the names; inside of it the first `ChildList` is
looked at. -/
def nodeUuids : Xml → List Uuid
  | .elem n as tx kids =>
    match (Xml.elem n as tx kids).attr? "uuid".toList with
    | none => []
    | some t =>
      if objectNames.any (eqText n) then guid t :: listUuids kids
      else if eqText n "GroupObject".toList then listUuids kids
      else []
/-- The first `ChildList` in a list of nodes. -/
def listUuids : List Xml → List Uuid
  | [] => []
  | .elem n _ _ kids :: rest => if n = "ChildList".toList then nodesUuids kids else listUuids rest
/-- All nodes of a `ChildList`. -/
def nodesUuids : List Xml → List Uuid
  | [] => []
  | x :: xs => nodeUuids x ++ nodesUuids xs
end

/-- The UUIDs of the scene objects in a layer node. -/
def layerUuids (x : Xml) : List Uuid :=
  if eqText x.name "Layer".toList ∧ (x.attr? "uuid".toList).isSome then listUuids x.kids else []

/-- The UUIDs of the scene objects of a file. -/
def fileUuids (root : Xml) : List Uuid :=
  match root.child? "Scene".toList with
  | none => []
  | some sc => (((sc.child? "Layers".toList).map Xml.kids).getD []).flatMap layerUuids

/-- The UUIDs of the objects (not the groups) of a scene. -/
def sceneUuids (s : Scene) : List Uuid :=
  (sceneObjects s.layers).filterMap fun p => if p.1 = .group then none else some p.2.1

/-! ### C43: a file that lists its classes -/

/-- The file with one `Class` node per class in its auxiliary data, as other programs write it. -/
def withClasses (classes : List Aux) : Xml → Xml
  | .elem n a t kids => .elem n a t (kids.map fun
    | .elem n' a' t' kids' =>
      if n' = "Scene".toList then .elem n' a' t' (kids'.map fun
        | .elem n'' a'' t'' kids'' =>
          if n'' = "AUXData".toList then .elem n'' a'' t'' (kids'' ++ classes.map (printAux "Class".toList))
          else .elem n'' a'' t'' kids'')
      else .elem n' a' t' kids')

/-! ### Multipatch: the order of the file -/

/-- Beginning and end of the objects of a scene in the order of the file. -/
inductive Event where
  /-- An object or layer begins; it names another object as its multipatch parent, or not. -/
  | opens (parent : Option Uuid)
  /-- A scene object (not a group, not a layer) ends. -/
  | closes (uuid : Uuid)
deriving DecidableEq

mutual
/-- The events of an object; an empty group is not in the file. -/
def events {α : Type} : Obj α → List Event
  | .mk k u _ m _ kids =>
    if k = .group ∧ kids.isEmpty then []
    else [.opens m] ++ eventsL kids ++ (if k = .group then [] else [.closes u])
/-- The events of a list of objects. -/
def eventsL {α : Type} : List (Obj α) → List Event
  | [] => []
  | o :: os => events o ++ eventsL os
end

/-- The events of the layers. -/
def sceneEvents {α : Type} (ls : List (Layer α)) : List Event :=
  ls.flatMap fun l => .opens l.multipatch :: eventsL l.kids

/-- The parents of all objects, in the order in which the objects begin, if only parents that have ended
before are known. -/
def known : List Uuid → List Event → List (Option Uuid)
  | _, [] => []
  | seen, .opens p :: es => p.filter (· ∈ seen) :: known seen es
  | seen, .closes u :: es => known (seen ++ [u]) es

mutual
/-- The multipatch parents of an object and the objects inside of it. -/
def parents {α : Type} : Obj α → List (Option Uuid)
  | .mk _ _ _ m _ kids => m :: parentsL kids
/-- The same for a list. -/
def parentsL {α : Type} : List (Obj α) → List (Option Uuid)
  | [] => []
  | o :: os => parents o ++ parentsL os
end

/-- The multipatch parents of all layers and objects. -/
def sceneParents {α : Type} (ls : List (Layer α)) : List (Option Uuid) :=
  ls.flatMap fun l => l.multipatch :: parentsL l.kids

end Verif.Scene.Spec

namespace Verif.Scene.Spec

open Verif.Scene

/-- The objects of the layers that are not groups, in the order of the file. -/
def things {α : Type} (ls : List (Layer α)) : List (Kind × Uuid × α) := (sceneObjects ls).filter (·.1 ≠ .group)

/-- The UUIDs of the focus points of a scene. -/
def focusPoints {α : Type} (ls : List (Layer α)) : List Uuid :=
  (sceneObjects ls).filterMap fun p => if p.1 = .focusPoint then some p.2.1 else none

/-- Different entries of a list have different UUIDs. -/
def DistinctUuids (l : List Aux) : Prop := ∀ a ∈ l, ∀ b ∈ l, a.uuid = b.uuid → a = b

end Verif.Scene.Spec
