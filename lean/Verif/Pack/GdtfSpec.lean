import Verif.Zip.Spec
import Verif.Pack.Spec
import Verif.Pack.GdtfModel

/-!
# Specification: what belongs into a GDTF package
-/

namespace Verif.Pack.Spec

open Verif.Zip Verif.Path.Spec

/-- Where a resource is in a GDTF archive: folders below each other. -/
def location : Res → List (List Char)
  | .fixture => []
  | .imageWheel => ["wheels".toList]
  | .model3DS => ["models".toList, "3ds".toList]
  | .model3DSLow => ["models".toList, "3ds_low".toList]
  | .model3DSHigh => ["models".toList, "3ds_high".toList]
  | .modelSVG => ["models".toList, "svg".toList]
  | .modelSVGSide => ["models".toList, "svg_side".toList]
  | .modelSVGFront => ["models".toList, "svg_front".toList]
  | .modelGLTF => ["models".toList, "gltf".toList]
  | .modelGLTFLow => ["models".toList, "gltf_low".toList]
  | .modelGLTFHigh => ["models".toList, "gltf_high".toList]

/-- A resource. -/
structure Item where
  res : Res
  name : List Char
  data : List Byte
  deriving DecidableEq

/-- Its path in the archive. -/
def Item.entry (i : Item) : List Char := (location i.res).flatMap (· ++ ['/']) ++ i.name

/-- The folder below the working folder it is unpacked to: the folders of the archive in one word. -/
def Item.folder (i : Item) : List (List Char) := if location i.res = [] then [] else [(location i.res).flatten]

/-- The path it is unpacked to. -/
def Item.place (W : List (List Char)) (i : Item) : List Char := folderText (W ++ i.folder) ++ i.name

/-- The calls that give a resource: a file, with the name it is to have (empty: that of the file), or a buffer. -/
inductive GCall
  | file (p : Place) (res : Res) (newName : List Char)
  | buffer (name : List Char) (data : List Byte) (res : Res)

def GCall.Usual : GCall → Prop
  | .file p _ n => p.Usual ∧ (n = [] ∨ Plain n)
  | .buffer n _ _ => Plain n

/-- Making the calls on an object, each at its time and on the disk there is then. -/
def gperform (codec : Codec) (fuel : Nat) : Fix → List (Stamp × Fs × GCall) → M Fix
  | o, [] => .ok o
  | o, (s, fs, .file p res n) :: t => do
    let (_, o) ← o.addFile codec fuel s fs p.text res n
    gperform codec fuel o t
  | o, (s, _, .buffer n d res) :: t => do
    let (_, o) ← o.addBuffer codec fuel s n d res
    gperform codec fuel o t

/-- What a call gives: nothing when the file does not exist. -/
def GCall.item (fs : Fs) : GCall → Option Item
  | .file p res n => (fs.file p.text).map (fun d => ⟨res, if n = [] then p.name else n, d⟩)
  | .buffer n d res => some ⟨res, n, d⟩

/-- The items whose path in the archive has not been used before. -/
def once : List (List Char) → List Item → List Item
  | _, [] => []
  | used, i :: t => if i.entry ∈ used then once used t else i :: once (used ++ [i.entry]) t

/-- What the calls give. -/
def items (calls : List (Stamp × Fs × GCall)) : List Item := calls.filterMap (fun c => c.2.2.item c.2.1)

/-- The buffers among the calls. -/
def bufferItems (calls : List (Stamp × Fs × GCall)) : List Item :=
  calls.filterMap (fun c => match c.2.2 with
    | .buffer n d res => some ⟨res, n, d⟩
    | .file .. => none)

/-- What is in the package: the paths and the contents. -/
def package (l : List Item) : List (List Char × List Byte) := l.map (fun i => (i.entry, i.data))

/-- The state after a package has been read: `r` is the object and `fs` the disk, `r0` and `fs0` are those before. The description is
the one of the package; the resources are listed, in their order, with the files they have been unpacked to; the mesh of a model is the
last one that has the name, in any case of the letters; nothing else on the disk has changed but the working folder and the files of
the fixture that the object had before. -/
structure Restored (W : List (List Char)) (l : List Item) (xml : List Byte) (r0 : Fix) (fs0 : Fs) (r : Fix) (fs : Fs) : Prop where
  desc : r.desc = some xml
  count : r.count = l.length
  files : ∀ i (h : i < l.length), r.at_ i = l[i].place W ∧ fs.file (r.at_ i) = some l[i].data
  mesh : ∀ file ext, r.mesh file ext = (l.reverse.find? (fun i => Verif.Str.eqNoCase i.name (file ++ ext))).map (·.data)
  others : ∀ q, Outside W q → (∀ i < r0.count, r0.at_ i ≠ q) → fs.file q = fs0.file q

/-- The bytes are an archive with these entries, in this order: walking through it shows them, each has its content. -/
def Holds (codec : Codec) (fuel : Nat) (data : List Byte) (es : List (List Char × List Byte)) : Prop :=
  (∀ stale, ∃ e, Verif.Zip.Spec.walk fuel data stale fuel [] = .ok (es.map (fun e => enc e.1), e)) ∧
  ∀ garbage, ∀ e ∈ es, getFile codec fuel data garbage (enc e.1) = .ok (.noError, some e.2)

/-- What is left of a resource when a fixture that has been read is written again: its name ends as that of a mesh, and it is put
where the main meshes of that kind are. -/
def keep (i : Item) : Option Item :=
  if "glb".toList <:+ i.name then some { i with res := .modelGLTF }
  else if "svg".toList <:+ i.name then some { i with res := .modelSVG }
  else if "3ds".toList <:+ i.name then some { i with res := .model3DS }
  else none

/-- A main mesh or symbol, named as usual. -/
def MainMesh (i : Item) : Prop :=
  (i.res = .modelGLTF ∧ "glb".toList <:+ i.name) ∨ (i.res = .modelSVG ∧ "svg".toList <:+ i.name) ∨
  (i.res = .model3DS ∧ "3ds".toList <:+ i.name)

end Verif.Pack.Spec
