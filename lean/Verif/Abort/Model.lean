/-!
# C99: cancelling the reading of an MVR file

An application can register a function that the library calls again and again while it reads a file; the function says whether
reading should be given up.  This is a model of the part of `SceneDataExchange` that reads the tree of a scene and asks.

Simplifications.  A node of the XML is the number `id` (it stands for all that `ReadFromNode` takes from it) with the nodes of its
`ChildList`.  The answers of the function are an arbitrary `Nat → Bool`: answer `n` is given to the question number `n`; the model
carries the number of questions asked.  That links between objects are looked up is one truth value (the lookup itself is C28).
The flat list of scene objects (`fSceneObjects`) is not kept: it is filled for the objects of the tree.
-/

namespace Verif.Abort

/-- The answers of the function of the application, by number of the question (SceneDataExchange.cpp:12). -/
abbrev Answers := Nat → Bool

/-- A node of a child list.  `known`: it has a uuid and one of the eight names (SceneDataExchange.cpp:4066-4077). -/
inductive Nd where
  | mk (id : Nat) (known : Bool) (kids : List Nd)

/-- An object of the scene with the objects in it (`SceneDataGroupObj`, SceneDataExchange.h:586-605). -/
inductive Ob where
  | mk (id : Nat) (kids : List Ob)
deriving Repr

/-- A node of the auxiliary data.  `known`: it has one of the four names (SceneDataExchange.cpp:3873-3876). -/
structure AuxNd where
  id : Nat
  known : Bool

/-- The `Scene` node: the auxiliary data and the layers, each of which may be missing (SceneDataExchange.cpp:3851-3918). -/
structure SceneNd where
  aux : Option (List AuxNd)
  layers : Option (List Nd)

/-- The description file: the `Data` nodes of `UserData`, and the scene (SceneDataExchange.cpp:3824-3851). -/
structure File where
  data : List Nat
  scene : Option SceneNd

/-- What the document holds afterwards (SceneDataExchange.h:978-989); `linked`: the lookup of links was done.  Simplification: the
auxiliary objects are one list in the order of the file, in the code there is one for each of the four kinds. -/
structure Scene where
  data : List Nat
  aux : List Nat
  layers : List Ob
  linked : Bool
deriving Repr

mutual
/-- Body of the loop of `ReadChildObjs` behind the first question, for one node (SceneDataExchange.cpp:4058-4101): the reader of the
kind asks once more and gives no object if it should stop (3203, 3233, 3266, 3324, 3356, 3382, 3408, 3434); otherwise the object is put
into its parent and its children are read.  All eight kinds are `SceneDataGroupObj`s (4079). -/
def readObj (cb : Answers) : Nat → Nd → List Ob × Nat
  | n, .mk id known kids =>
    if known then
      if cb n then ([], n + 1)
      else
        let k := readKids cb (n + 1) kids
        ([.mk id k.1], k.2)
    else ([], n)
/-- The loop of `ReadChildObjs` (SceneDataExchange.cpp:4055-4108): `return` leaves only the innermost call. -/
def readKids (cb : Answers) : Nat → List Nd → List Ob × Nat
  | n, [] => ([], n)
  | n, t :: ts =>
    if cb n then ([], n + 1)
    else
      let o := readObj cb (n + 1) t
      let r := readKids cb o.2 ts
      (o.1 ++ r.1, r.2)
end

/-- The nodes of the user data (SceneDataExchange.cpp:3829-3844 with XmlFileHelper.cpp:2433-2446): `return` leaves the lambda, the
walk goes on with the next node. -/
def readData (cb : Answers) : Nat → List Nat → List Nat × Nat
  | n, [] => ([], n)
  | n, d :: ds =>
    let r := readData cb (n + 1) ds
    if cb n then r else (d :: r.1, r.2)

/-- The loop over the auxiliary data (SceneDataExchange.cpp:3864-3883) with the question of the four readers (2994, 3085, 3134, 3174).
The last part says that the loop came to its end. -/
def readAux (cb : Answers) : Nat → List AuxNd → List Nat × Nat × Bool
  | n, [] => ([], n, true)
  | n, a :: as =>
    if cb n then ([], n + 1, false)
    else if a.known then
      let r := readAux cb (n + 2) as
      if cb (n + 1) then r else (a.id :: r.1, r.2)
    else readAux cb (n + 1) as

/-- The loop over the layers (SceneDataExchange.cpp:3898-3915) with `ProcessLayer` (4029-4043); making a layer asks nothing. -/
def readLayers (cb : Answers) : Nat → List Nd → List Ob × Nat × Bool
  | n, [] => ([], n, true)
  | n, .mk id known kids :: ls =>
    if cb n then ([], n + 1, false)
    else if known then
      let k := readKids cb (n + 1) kids
      let r := readLayers cb k.2 ls
      (.mk id k.1 :: r.1, r.2)
    else readLayers cb (n + 1) ls

/-- The `Layers` node (SceneDataExchange.cpp:3889-3918). -/
def readLayersNode (cb : Answers) (n : Nat) : Option (List Nd) → List Ob × Nat × Bool
  | none => ([], n, true)
  | some ls => if cb n then ([], n + 1, false) else readLayers cb (n + 1) ls

/-- The `AUXData` node (SceneDataExchange.cpp:3856-3886). -/
def readAuxNode (cb : Answers) (n : Nat) : Option (List AuxNd) → List Nat × Nat × Bool
  | none => ([], n, true)
  | some as => if cb n then ([], n + 1, false) else readAux cb (n + 1) as

/-- `ReadFromGeneralSceneDescription` (SceneDataExchange.cpp:3792-4027): the scene, and the number of questions asked.  Each `return`
also skips the lookup of links (3929-4025). -/
def read (cb : Answers) (f : File) : Scene × Nat :=
  let d := readData cb 0 f.data
  match f.scene with
  | none => (⟨d.1, [], [], true⟩, d.2)
  | some s =>
    if cb d.2 then (⟨d.1, [], [], false⟩, d.2 + 1)
    else
      let a := readAuxNode cb (d.2 + 1) s.aux
      if a.2.2 then
        let l := readLayersNode cb a.2.1 s.layers
        (⟨d.1, a.1, l.1, l.2.2⟩, l.2.1)
      else (⟨d.1, a.1, [], false⟩, a.2.1)

/-- The results of the API that occur here (VCOMError). -/
inductive Res where
  | noError | failed
deriving DecidableEq, Repr

/-- `CheckAbort` without a function says no (SceneDataExchange.cpp:4183-4197); with one it gives its answer. -/
def answersOf : Option Answers → Answers
  | none => fun _ => false
  | some cb => cb

/-- `OpenForRead` of a file that can be opened (CMediaRessourceVectorImpl.cpp:999-1023, SceneDataExchange.cpp:3781-3787), on a new
document, with the function that is registered in the process. -/
def openForRead (cb : Option Answers) (f : File) : Res × Scene := (.noError, (read (answersOf cb) f).1)

/-- `SetAbortCallback` of document `doc` (CMediaRessourceVectorImpl.cpp:1524-1531, SceneDataExchange.cpp:4171-4175).  The variable is
static (SceneDataExchange.cpp:12): the document does not matter.  An empty function is refused. -/
def setAbort (cur : Option Answers) (_doc : Nat) : Option Answers → Res × Option Answers
  | none => (.failed, cur)
  | some cb => (.noError, some cb)

/-- A history of calls of `SetAbortCallback` on any documents. -/
def setAll (cur : Option Answers) : List (Nat × Option Answers) → Option Answers
  | [] => cur
  | (d, c) :: h => setAll (setAbort cur d c).2 h

end Verif.Abort
