import Verif.Zip.Model
import Verif.Path.Model
import Verif.Pack.Utf8

/-!
# Model: an MVR file as a package

`CMediaRessourceVectorImpl` (/repo/src/Implementation/CMediaRessourceVectorImpl.cpp) with `SceneDataExchange`
(/repo/src/SceneDataExchange.cpp): the files, buffers and GDTF files that are put into the archive next to the description of the
scene, and what a reader finds. The archive is that of `Verif/Zip/Model.lean`, the paths are those of `Verif/Path/Model.lean`.

Simplifications: the text of the description and the GDTF names of the scene are arguments of `close` (how they are made is the
subject of `Verif/Mvr` and `Verif/Scene`); files and folders are named by the text of their full path (folders end with `/`), there
are no links and no permissions, every write to an existing folder succeeds (what happens otherwise is the subject of
`Verif/Disk`), a folder is not a file; the file lists of other kinds (`f3DS_FilesToAdd`, …) are left out: no function of the
interface fills them (SceneDataExchange.cpp:4128-4146 is only called with `RessoureFixture`).
-/

namespace Verif.Pack

open Verif.Zip Verif.Path Verif.Str

/-! ## Files and folders -/

/-- The disk: the content of every file (`none` = there is none) and the existing folders. -/
structure Fs where
  file : List Char → Option (List Byte)
  dir : List Char → Bool

def Fs.put (fs : Fs) (p : List Char) (v : Option (List Byte)) : Fs := { fs with file := fun q => if q = p then v else fs.file q }

/-- `IFileIdentifier::ExistsOnDisk`, FileIdentifier.cpp:205-223: an identifier that is not set does not exist. -/
def Fs.content (fs : Fs) (f : Option File) : Option (List Byte) := f.bind (fun f => fs.file f.fullPath)

/-- `fopen` for writing (RawOSFileimpl.cpp:21-46), `fwrite` and `fclose`: nothing happens when the folder does not exist or the
identifier is not set. -/
def Fs.write (fs : Fs) (f : Option File) (data : List Byte) : Fs :=
  match f with
  | some f => if fs.dir (getFullPath f.folder) then fs.put f.fullPath (some data) else fs
  | none => fs

/-- `CFileIdentifier::DeleteOnDisk`, FileIdentifier.cpp:514-540. -/
def Fs.remove (fs : Fs) (f : Option File) : Fs :=
  match f with
  | some f => fs.put f.fullPath none
  | none => fs

/-- `CFolderIdentifier::CreateOnDisk`, FolderIdentifier.cpp:800-818: `mkdir`, which needs the folder above. -/
def Fs.mkdir (fs : Fs) (h : List (List Char)) : Fs :=
  if fs.dir (getFullPath h.dropLast) then { fs with dir := fun q => if q = getFullPath h then true else fs.dir q } else fs

/-- SceneDataExchange.cpp:2865-2871 and GDTFManager.cpp:7853-7859: the working folder.  An existing one should be deleted with everything
in it (`CFolderIdentifier::DeleteOnDisk`, FolderIdentifier.cpp:820-924), but `EnumerateContents` (735-763) never calls its listener, so no
file and no folder in it is found; `remove` (FilingWrapper.cpp:130-133) then deletes the folder only if it is empty.  An empty folder that
is deleted and made again is the same folder: what is left is `CreateOnDisk`. -/
def Fs.fresh (fs : Fs) (h : List (List Char)) : Fs := fs.mkdir h

/-! ## The object -/

/-- SceneDataExchange.h and CMediaRessourceVectorImpl.h, the members used here. `desc` is the text that the last
`ReadFromFile` gave to `ReadFromGeneralSceneDescription` (SceneDataExchange.cpp:3784), `none` if it has found none. -/
structure Mvr where
  path : Option File := none
  write : Bool := false
  read : Bool := false
  files : List File := []
  buffers : List (List Char × List Byte) := []
  folders : List (List (List Char)) := []
  needed : List (List Char) := []
  attached : List (Option File) := []
  desc : Option (List Byte) := none

/-- SceneDataExchange.cpp:2856-2879: a new object. `working` is the folder `MVR_Export` — the same for every object. -/
def Mvr.new (working : List (List Char)) (fs : Fs) : Mvr × Fs := ({}, fs.fresh working)

/-- SceneDataExchange.cpp:2881-2897: the destructor deletes the files it has listed. -/
def Mvr.delete (fs : Fs) (o : Mvr) : Fs := o.attached.foldl Fs.remove fs

/-- `CFileIdentifier::Set(const TXString&)`, FileIdentifier.cpp:101-111. -/
def setText (text : List Char) : Option File := if text = [] then none else setFileFullPath text

/-- `AddFileToMvrFile`, CMediaRessourceVectorImpl.cpp:26-44. -/
def Mvr.addFile (fs : Fs) (o : Mvr) (text : List Char) : Err × Mvr :=
  match setText text with
  | some f => if (fs.content (some f)).isSome then (.noError, { o with files := o.files ++ [f] }) else (.failed, o)
  | none => (.failed, o)

/-- `AddBufferToMvrFile`, CMediaRessourceVectorImpl.cpp:46-61. A null pointer is `none`. -/
def Mvr.addBuffer (o : Mvr) (name : List Char) (data : Option (List Byte)) : Err × Mvr :=
  if name = [] then (.invalidArg, o)
  else match data with
    | some data => if data.length = 0 then (.invalidArg, o) else (.noError, { o with buffers := o.buffers ++ [(name, data)] })
    | none => (.invalidArg, o)

/-- `AddGdtfFolderLocation`, CMediaRessourceVectorImpl.cpp:63-74. -/
def Mvr.addFolder (o : Mvr) (text : List Char) : Err × Mvr := (.noError, { o with folders := o.folders ++ [setFullPath text] })

/-- `OpenForWrite`, CMediaRessourceVectorImpl.cpp:87-101. -/
def Mvr.openWrite (o : Mvr) (text : List Char) : Err × Mvr :=
  match setText text with
  | some f => (.noError, { o with path := some f, write := true })
  | none => (.failed, { o with path := none })

/-! ## Writing -/

/-- `AddNeededGdtfFile`, SceneDataExchange.cpp:3692-3706, called for every object with a GDTF while the description is written
(SceneDataExchange.cpp:97-102). -/
def addNeeded (names : List (List Char)) (n : List Char) : List (List Char) :=
  if names.any (fun m => eqNoCase m n) then names else names ++ [n]

/-- `SceneDataZip::AddFileToZip` for a file, XmlFileHelper.cpp:2231-2264: its name and content, when it exists. -/
def fileEntry (fs : Fs) (f : Option File) : Option (List Char × List Byte) :=
  f.bind (fun f => (fs.file f.fullPath).map (fun c => (f.name, c)))

/-- SceneDataExchange.cpp:3558-3575: the first folder in which the GDTF file exists. -/
def locate (fs : Fs) (folders : List (List (List Char))) (n : List Char) : Option (List Char × List Byte) :=
  folders.findSome? (fun h => fileEntry fs (setFile h n))

/-- The name of the description, SceneDataExchange.cpp:3473. -/
def descName : List Char := "GeneralSceneDescription.xml".toList

/-- SceneDataExchange.cpp:3473-3575: what is added to the archive, in order. -/
def Mvr.entries (fs : Fs) (o : Mvr) (xml : List Byte) : List (List Char × List Byte) :=
  (descName, xml) :: (o.files.filterMap (fun f => fileEntry fs (some f)) ++ (o.buffers ++ o.needed.filterMap (locate fs o.folders)))

/-- The circumstances of an addition: checksum, date and time. -/
structure Stamp where
  crc : Nat
  date : Nat
  time : Nat

/-- The calls of `AddFile` for some entries; the name is converted at ZIPFileImpl.cpp:482. -/
def stampAll (stamps : Nat → Stamp) : Nat → List (List Char × List Byte) → List Add
  | _, [] => []
  | k, e :: t => ⟨enc e.1, e.2, (stamps k).crc, (stamps k).date, (stamps k).time⟩ :: stampAll stamps (k + 1) t

/-- `AddFile` for one entry after the other; what it returns is ignored (XmlFileHelper.cpp:2254, 2270). -/
def addEntries (codec : Codec) (fuel : Nat) : Zip → List Add → M Zip
  | z, [] => .ok z
  | z, a :: t => do
    let (_, z) ← addFile codec fuel z a
    addEntries codec fuel z t

/-- `Close`, CMediaRessourceVectorImpl.cpp:979-997, and `WriteToFile`, SceneDataExchange.cpp:3457-3584. `gdtfs` are the GDTF names
of the objects of the scene. The buffers are gone afterwards (3554). -/
def Mvr.close (codec : Codec) (fuel : Nat) (stamps : Nat → Stamp) (fs : Fs) (o : Mvr) (xml : List Byte) (gdtfs : List (List Char)) :
    M (Err × Mvr × Fs) :=
  if o.write then do
    let o := { o with needed := gdtfs.foldl addNeeded o.needed }
    let z ← addEntries codec fuel (openNewWrite true) (stampAll stamps 0 (o.entries fs xml))
    .ok (.noError, { o with buffers := [] }, fs.write o.path z.data)
  else if o.read then .ok (.noError, o, fs)
  else .ok (.failed, o, fs)

/-! ## Reading -/

/-- What the loop over the archive changes. -/
structure Got where
  fs : Fs
  attached : List (Option File)
  desc : Option (List Byte)

/-- SceneDataExchange.cpp:3744-3768: one entry. `c` is what `GetFile` has put into the buffer (nothing when it has failed). -/
def Got.take (working : List (List Char)) (g : Got) (name : List Byte) (c : Option (List Byte)) : Got :=
  if name = enc descName then { g with desc := some (c.getD []) }
  else
    let f := mvrTarget working (dec name)
    { g with fs := g.fs.write f (c.getD []), attached := g.attached ++ [f] }

/-- SceneDataExchange.cpp:3735-3770. `stale` and `garbage` are memory that has not been initialised (see `Verif/Zip/Model.lean`). -/
def readLoop (codec : Codec) (fuel : Nat) (stale : Byte) (garbage : FileInfo) (working : List (List Char)) (data : List Byte) :
    Nat → List Byte → Got → M Got
  | 0, _, _ => .error .fuel
  | rounds + 1, path, g => do
    let (e, name) ← getNextFile fuel data stale path
    if e = .noError then do
      let (_, c) ← getFile codec fuel data garbage name
      readLoop codec fuel stale garbage working data rounds name (g.take working name c)
    else .ok g

/-- `OpenForRead`, CMediaRessourceVectorImpl.cpp:999-1023, and `ReadFromFile`, SceneDataExchange.cpp:3714-3788, which always returns
true; a file that does not exist is an empty archive (ZIPFileBuffer.cpp:33-50). -/
def Mvr.openRead (codec : Codec) (fuel : Nat) (stale : Byte) (garbage : FileInfo) (working : List (List Char)) (fs : Fs) (o : Mvr)
    (text : List Char) : M (Err × Mvr × Fs) :=
  match setText text with
  | none => .ok (.failed, { o with path := none }, fs)
  | some f => do
    let g ← readLoop codec fuel stale garbage working ((fs.file f.fullPath).getD []) fuel [] ⟨fs, o.attached, none⟩
    .ok (.noError, { o with path := some f, read := true, attached := g.attached, desc := g.desc }, g.fs)

/-- `GetAttachedFileCount`, CMediaRessourceVectorImpl.cpp:1492-1498. -/
def Mvr.count (o : Mvr) : Nat := o.attached.length

/-- `GetAttachedFileCountAt`, CMediaRessourceVectorImpl.cpp:1500-1510. -/
def Mvr.at_ (o : Mvr) (i : Nat) : List Char :=
  match o.attached[i]? with
  | some (some f) => f.fullPath
  | _ => []

end Verif.Pack
