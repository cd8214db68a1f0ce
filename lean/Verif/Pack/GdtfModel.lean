import Verif.Pack.Model

/-!
# Model: a GDTF file as a package

`CGdtfFixtureImpl` (/repo/src/Implementation/CGdtfFixture.cpp) with `GdtfFixture` (/repo/src/GDTFManager.cpp) as far as the files of the
package are concerned.

Simplifications: those of `Verif/Pack/Model.lean`; the text of the description is an argument of the functions that write (how it is
made is the subject of `Verif/Gdtf`), and what is read from it is left out, except for the meshes of the models
(GDTFManager.cpp:1632-1677). The order in which a `std::map` is walked is a parameter (`order`), any permutation.
-/

namespace Verif.Pack

open Verif.Zip Verif.Path Verif.Str

/-- `ERessourceType`, Include/GDTFPrefix.h:19-32. -/
inductive Res
  | modelSVG | model3DS | imageWheel | fixture | modelGLTF | model3DSLow | model3DSHigh | modelGLTFLow | modelGLTFHigh | modelSVGSide
  | modelSVGFront
  deriving DecidableEq, Repr

/-- `GetResourceSubFolder`, XmlFileHelper.cpp:2273-2306; the separator is `/` (Linux). -/
def Res.sub : Res → List Char
  | .imageWheel => "wheels/".toList
  | .model3DS => "models/3ds/".toList
  | .model3DSLow => "models/3ds_low/".toList
  | .model3DSHigh => "models/3ds_high/".toList
  | .modelSVG => "models/svg/".toList
  | .modelGLTF => "models/gltf/".toList
  | .modelGLTFLow => "models/gltf_low/".toList
  | .modelGLTFHigh => "models/gltf_high/".toList
  | .modelSVGSide => "models/svg_side/".toList
  | .modelSVGFront => "models/svg_front/".toList
  | .fixture => []

/-- CGdtfFixture.h and GDTFManager.h, the members used here: whether there is a fixture, the archive and its file, the buffers that
have been added, the bytes handed out by `ToBuffer`; of the fixture the files it has written, the map of contents, and the text of the
description (`none`: not found). -/
structure Fix where
  open_ : Bool := false
  zip : Option Zip := none
  path : Option File := none
  added : List (List Char × List Byte) := []
  buffer : List Byte := []
  locals : List (Option File) := []
  meshes : List (List Char × List Byte) := []
  desc : Option (List Byte) := none

/-- `GdtfFixture::~GdtfFixture`, GDTFManager.cpp:9385-9409: the files it has written are deleted. -/
def Fix.dropFixture (fs : Fs) (o : Fix) : Fs := o.locals.foldl Fs.remove fs

/-- `OpenForWrite`, CGdtfFixture.cpp:60-94 and 96-131 (with an empty text). -/
def Fix.openWrite (fs : Fs) (o : Fix) (text : List Char) : Err × Fix × Fs :=
  let f := setText text
  let fs := if (fs.content f).isSome then fs.remove f else fs
  (.noError, { o with open_ := true, zip := some (openNewWrite false), path := f, added := [], locals := [], meshes := [], desc := none },
    o.dropFixture fs)

/-- CGdtfFixture.cpp:149-156: the name of the entry. -/
def entryText (res : Res) (name : List Char) : List Char := res.sub ++ name

/-- `fZipFile->AddFile`; what it returns is ignored (CGdtfFixture.cpp:158, 177). -/
def addOne (codec : Codec) (fuel : Nat) (z : Zip) (s : Stamp) (name : List Char) (data : List Byte) : M Zip := do
  let (_, z) ← addFile codec fuel z ⟨enc name, data, s.crc, s.date, s.time⟩
  .ok z

/-- `AddFileToGdtfFile`, CGdtfFixture.cpp:133-162. -/
def Fix.addFile (codec : Codec) (fuel : Nat) (s : Stamp) (fs : Fs) (o : Fix) (text : List Char) (res : Res) (newName : List Char) :
    M (Err × Fix) :=
  if o.open_ = false then .ok (.failed, o)
  else match o.zip with
    | none => .ok (.failed, o)
    | some z => match setText text with
      | none => .ok (.failed, o)
      | some f => match fs.file f.fullPath with
        | none => .ok (.failed, o)
        | some data => do
          let z ← addOne codec fuel z s (entryText res (if newName = [] then f.name else newName)) data
          .ok (.noError, { o with zip := some z })

/-- `AddBufferToGdtfFile`, CGdtfFixture.cpp:164-181. -/
def Fix.addBuffer (codec : Codec) (fuel : Nat) (s : Stamp) (o : Fix) (name : List Char) (data : List Byte) (res : Res) : M (Err × Fix) :=
  if o.open_ = false then .ok (.failed, o)
  else match o.zip with
    | none => .ok (.failed, o)
    | some z => do
      let z ← addOne codec fuel z s (entryText res name) data
      .ok (.noError, { o with zip := some z, added := o.added ++ [(entryText res name, data)] })

/-- The name of the description, GDTFManager.cpp:7884, 9901. -/
def gdtfDesc : List Char := "description.xml".toList

/-- `EndsWith`, GSString.cpp:2196-2199: case-sensitive. -/
def endsWith (s t : List Char) : Bool := t.isSuffixOf s

/-- GDTFManager.cpp:9908-9923: where a content of the map is written, if at all. -/
def meshName (key : List Char) : Option (List Char) :=
  if endsWith key "glb".toList then some (entryText .modelGLTF key)
  else if endsWith key "svg".toList then some (entryText .modelSVG key)
  else if endsWith key "3ds".toList then some (entryText .model3DS key)
  else none

/-- `ExportToFile`, GDTFManager.cpp:9858-9936: the description, then some contents of the map. -/
def Fix.exports (order : List (List Char × List Byte) → List (List Char × List Byte)) (o : Fix) (xml : List Byte) :
    List (List Char × List Byte) :=
  (gdtfDesc, xml) :: (order o.meshes).filterMap (fun e => (meshName e.1).map (fun n => (n, e.2)))

/-- `CZIPFileImpl::Close`, ZIPFileImpl.cpp:221-231: an archive is saved when there is one; no more additions. -/
def saveZip (fs : Fs) (path : Option File) (z : Zip) : Fs := if z.data = [] then fs else fs.write path z.data

/-- `Close`, CGdtfFixture.cpp:183-197. -/
def Fix.close (codec : Codec) (fuel : Nat) (order : List (List Char × List Byte) → List (List Char × List Byte)) (stamps : Nat → Stamp)
    (fs : Fs) (o : Fix) (xml : List Byte) : M (Err × Fix × Fs) :=
  if o.open_ = false then .ok (.failed, o, fs)
  else match o.zip with
    | none => .ok (.failed, o, fs)
    | some z => do
      let z ← addEntries codec fuel z (stampAll stamps 0 (o.exports order xml))
      .ok (.noError, { o with zip := some { z with write := false }, buffer := z.data }, saveZip fs o.path z)

/-- `RefreshBuffer`, CGdtfFixture.cpp:2474-2502. -/
def Fix.refresh (codec : Codec) (fuel : Nat) (order : List (List Char × List Byte) → List (List Char × List Byte)) (stamps : Nat → Stamp)
    (o : Fix) (xml : List Byte) : M (Err × Fix) :=
  if o.open_ = false then .ok (.failed, o)
  else do
    let z ← addEntries codec fuel (openNewWrite false) (stampAll stamps 0 (o.exports order xml ++ o.added))
    .ok (.noError, { o with zip := some { z with write := false }, path := none, buffer := z.data })

/-! ## Reading -/

/-- What the loop over the archive changes. -/
structure GGot where
  fs : Fs
  locals : List (Option File)
  meshes : List (List Char × List Byte)
  desc : Option (List Byte)

/-- `fFileBuffers[key] = value`, GDTFManager.cpp:7916: keys are compared without case; a key that is there stays as it is. -/
def setMesh (l : List (List Char × List Byte)) (k : List Char) (v : List Byte) : List (List Char × List Byte) :=
  if l.any (fun e => eqNoCase e.1 k) then l.map (fun e => if eqNoCase e.1 k then (e.1, v) else e) else l ++ [(k, v)]

/-- GDTFManager.cpp:7901-7924: the folder an entry is written to. -/
def gdtfFolder (working : List (List Char)) (entry : List Char) : Option (List (List Char)) :=
  setFolder working ('/' :: replace ['/'] [] (extractFolder [] (replace ['\\'] ['/'] entry)).1)

/-- GDTFManager.cpp:7919-7924: made when it does not exist. -/
def Fs.ensure (fs : Fs) (h : Option (List (List Char))) : Fs :=
  match h with
  | some h => if fs.dir (getFullPath h) then fs else fs.mkdir h
  | none => fs

/-- GDTFManager.cpp:7882-7942: one entry, whose content has been read. -/
def GGot.take (working : List (List Char)) (g : GGot) (name : List Byte) (c : List Byte) : GGot :=
  if name = enc gdtfDesc then { g with desc := some c }
  else
    let f := gdtfTarget working (dec name)
    { g with
      fs := (g.fs.ensure (gdtfFolder working (dec name))).write f c
      locals := g.locals ++ [f]
      meshes := setMesh g.meshes (gdtfBufferKey (dec name)) c }

/-- GDTFManager.cpp:7876-7945. -/
def gdtfLoop (codec : Codec) (fuel : Nat) (stale : Byte) (garbage : FileInfo) (working : List (List Char)) (data : List Byte) :
    Nat → List Byte → GGot → M GGot
  | 0, _, _ => .error .fuel
  | rounds + 1, path, g => do
    let (e, name) ← getNextFile fuel data stale path
    if e = .noError then do
      let (e, c) ← getFile codec fuel data garbage name
      gdtfLoop codec fuel stale garbage working data rounds name (if e = .noError then g.take working name (c.getD []) else g)
    else .ok g

/-- `PrepareWorkingFolder`, GDTFManager.cpp:7837-7865: the folder above is made, then the folder (see `Fs.fresh`). -/
def prepare (fs : Fs) (working : List (List Char)) : Fs := (fs.mkdir working.dropLast).fresh working

/-- `FromBuffer`, CGdtfFixture.cpp:2442-2472, and `ImportFromBuffer`, GDTFManager.cpp:7827-7835, 7867-8014. -/
def Fix.fromBuffer (codec : Codec) (fuel : Nat) (stale : Byte) (garbage : FileInfo) (working : List (List Char)) (fs : Fs) (o : Fix)
    (bytes : List Byte) : M (Err × Fix × Fs) := do
  let g ← gdtfLoop codec fuel stale garbage working bytes fuel [] ⟨prepare (o.dropFixture fs) working, [], [], none⟩
  .ok (if g.desc.isSome then .noError else .invalidArg,
    { o with open_ := true, added := [], buffer := bytes, locals := g.locals, meshes := g.meshes, desc := g.desc }, g.fs)

/-- `ReadFromFile`, CGdtfFixture.cpp:49-58, 199-220. -/
def Fix.readFile (codec : Codec) (fuel : Nat) (stale : Byte) (garbage : FileInfo) (working : List (List Char)) (fs : Fs) (o : Fix)
    (text : List Char) : M (Err × Fix × Fs) :=
  match fs.content (setText text) with
  | none => .ok (.failed, o, fs)
  | some data => if data.length > 0 then o.fromBuffer codec fuel stale garbage working fs data else .ok (.failed, o, fs)

/-- `GetImageRessourcesCount`, CGdtfFixture.cpp:2403-2410. -/
def Fix.count (o : Fix) : Nat := o.locals.length

/-- `GetImageRessourcesPathAt`, CGdtfFixture.cpp:2412-2425. -/
def Fix.at_ (o : Fix) (i : Nat) : List Char :=
  match o.locals[i]? with
  | some (some f) => f.fullPath
  | _ => []

/-- GDTFManager.cpp:1632-1677: the mesh of a model that names `file`, of the kind with the extension `ext`. -/
def Fix.mesh (o : Fix) (file ext : List Char) : Option (List Byte) :=
  (o.meshes.find? (fun e => eqNoCase e.1 (file ++ ext))).map (·.2)

end Verif.Pack
