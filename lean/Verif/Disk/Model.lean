import Verif.Zip.Model

/-!
# Model of the files behind the archives

`CZIPFileImpl` (/repo/src/Wrapper/ZIPFileImpl.cpp) keeps an archive in a `ZIPFileBuffer`
(/repo/src/Wrapper/ZIPFileBuffer.cpp), which writes it to the disk through `CRawOSFileImpl`
(/repo/src/Wrapper/RawOSFileimpl.cpp).  The contents of the buffers are those of `Verif/Zip/Model.lean`; here are
the object with its file identifiers, the files, and what reaches them in which order.

Simplifications: a file is named by a number (its full path); an existing file can be read; other programs change
files between the calls, not within one; the positions given to `Write` are 0, so a file is written from its
beginning; `fsync` of the directory and the reordering of writes within one file are left out.
-/

namespace Verif.Disk

open Verif.Zip

abbrev FileId := Nat

/-- The files: `none` = there is none. -/
abbrev Files := FileId → Option (List Byte)

/-- What happens to the files: `create` = `fopen(path, "wb")`, which empties an existing file; `byte` = one more byte
reaches the operating system; `sync` = `fsync`; `other` = another program puts something in the place of a file. -/
inductive Ev
  | create (f : FileId)
  | byte (f : FileId) (b : Byte)
  | sync (f : FileId)
  | other (f : FileId) (v : Option (List Byte))
  deriving DecidableEq, Repr

def put (d : Files) (f : FileId) (v : Option (List Byte)) : Files := fun g => if g = f then v else d g

def Ev.apply (d : Files) : Ev → Files
  | .create f => put d f (some [])
  | .byte f b => put d f (some ((d f).getD [] ++ [b]))
  | .sync _ => d
  | .other f v => put d f v

/-- The files after the events. -/
def after (d : Files) (evs : List Ev) : Files := evs.foldl Ev.apply d

/-- How the operating system treats one save: whether `fopen` succeeds, how many bytes `fwrite` has handed over when
it returns (the rest is still in the buffer of the stream), how many bytes there is room for. -/
structure Os where
  opens : Bool
  early : Nat
  room : Nat
  deriving DecidableEq, Repr

/-- RawOSFileimpl.cpp:21-61, 101-115 as used by ZIPFileBuffer.cpp:74-83: `Open` for writing without
`bTruncateExisting` is `fopen(path, "wb")` (41); `Write` is one `fwrite` (109); `Close` calls `fsync` (53) and only
then `fclose` (55), which hands over what the stream still holds. Nothing is written when `fopen` has failed (103). -/
def save (os : Os) (f : FileId) (data : List Byte) : List Ev :=
  if os.opens then
    .create f :: (((data.take os.room).take os.early).map (.byte f) ++
      .sync f :: ((data.take os.room).drop os.early).map (.byte f))
  else []

/-- ZIPFileBuffer.h:28-32. `bytes = none`: `fpZIPFileBuffer` is null. -/
structure Buf where
  file : Option FileId
  forRead : Bool
  bytes : Option (List Byte)
  deriving DecidableEq, Repr

/-- ZIPFileBuffer.cpp:70-87 `Close`: what the calls on the file return is ignored. Without a file identifier
`CRawOSFileImpl::Open` fails (RawOSFileimpl.cpp:23-24). -/
def Buf.close (os : Os) (b : Buf) : List Ev :=
  if b.forRead then []
  else match b.bytes, b.file with
    | some data, some f => save os f data
    | _, _ => []

/-- ZIPFileImpl.h:126-130. -/
structure Obj where
  buf : Option Buf
  file : Option FileId
  write : Bool
  compress : Bool
  deriving DecidableEq, Repr

/-- ZIPFileImpl.cpp:115-126: the constructor. -/
def fresh : Obj := { buf := none, file := none, write := false, compress := true }

/-- What the reading functions of the object work on. -/
def Obj.data (o : Obj) : List Byte := (o.buf.bind (·.bytes)).getD []

def Obj.zip (o : Obj) : Zip := { data := o.data, write := o.write, compress := o.compress }

/-- What a call depends on besides its arguments: the operating system at the first and at the second save, and
memory that has not been initialised. -/
structure Env where
  os1 : Os
  os2 : Os
  stale : Byte
  garbage : FileInfo
  junk : List Byte
  deriving DecidableEq, Repr

/-- The calls that change an archive object or a file. -/
inductive Op
  | openRead (f : FileId)
  | openMem (bytes : List Byte)
  | openWrite (f : FileId)
  | openNew (f : FileId) (compress : Bool)
  | close
  | add (a : Add)
  | remove (path : List Byte)
  deriving DecidableEq, Repr

/-- ZIPFileImpl.cpp:139-143 and the same lines of the other opening functions: the buffer opened before is closed
(again). -/
def Obj.leave (os : Os) (o : Obj) : List Ev :=
  match o.buf with
  | some b => b.close os
  | none => []

/-- ZIPFileBuffer.cpp:36-46: a file that does not exist is an empty buffer. -/
def load (d : Files) (f : FileId) : List Byte := (d f).getD []

/-- One call: its result, the object, and what happens to the files.

* `openRead`: ZIPFileImpl.cpp:137-157; `openMem`: 159-173, which leaves `fpOpenedFileID` as it was;
* `openWrite`: 175-196; `openNew`: 198-219; `close`: 221-231, which keeps the buffer;
* `add`: 473-667. When there is no archive in the buffer yet, the object is closed and opened again (650-651);
* `remove`: 677-782. The buffer is closed, opened for writing, closed and opened again (755-773), also when the
  archive has been opened for reading; then the file is loaded again, and when there is none the new buffer has
  indeterminate bytes. -/
def step (codec : Codec) (fuel : Nat) (same : List Byte → List Byte → Bool) (env : Env) (d : Files) (o : Obj) :
    Op → M (Err × Obj × List Ev)
  | .openRead f =>
    let evs := o.leave env.os1
    .ok (.noError, { o with buf := some ⟨some f, true, some (load (after d evs) f)⟩, file := some f, write := false }, evs)
  | .openMem bytes =>
    .ok (.noError, { o with buf := some ⟨none, true, some bytes⟩, write := false }, o.leave env.os1)
  | .openWrite f =>
    .ok (.noError, ⟨some ⟨some f, false, none⟩, some f, true, true⟩, o.leave env.os1)
  | .openNew f c =>
    .ok (.noError, ⟨some ⟨some f, false, none⟩, some f, true, c⟩, o.leave env.os1)
  | .close =>
    match o.buf with
    | none => .ok (.noError, o, [])
    | some b => .ok (.noError, { o with write := false }, b.close env.os1)
  | .add a =>
    match o.buf with
    | none => .ok (.notInitialized, o, [])
    | some b =>
      if o.write = false then .ok (.notInitialized, o, [])
      else do
        let (e, z) ← addFile codec fuel o.zip a
        if e = .invalidArg then .ok (e, o, [])
        else do
          let cd ← getCentralDirPosition o.data
          let ed ← getEndOfCentralDirPosition o.data
          if o.data.length ≠ 0 ∧ cd ≠ 0 ∧ ed ≠ 0 then
            .ok (e, { o with buf := some { b with bytes := some z.data } }, [])
          else
            .ok (e, { o with buf := some ⟨o.file, false, some z.data⟩ }, b.close env.os1 ++ b.close env.os2)
  | .remove path =>
    match o.buf with
    | none => .ok (.notInitialized, o, [])
    | some b => do
      let cpos ← getFileCentralHeaderPosition fuel o.data path
      if cpos = 0 then .ok (.noError, o, [])
      else do
        let (e, z) ← removeFile same fuel o.zip env.stale env.garbage path
        let b2 : Buf := ⟨o.file, false, some z.data⟩
        let evs := b.close env.os1 ++ b2.close env.os2
        if o.write then .ok (e, { o with buf := some b2 }, evs)
        else
          let bytes := match o.file with
            | some f => ((after d evs) f).getD env.junk
            | none => env.junk
          .ok (e, { o with buf := some { b2 with forRead := true, bytes := some bytes } }, evs)

/-- What happens: a call on the object, or another program at work. -/
inductive Act
  | call (env : Env) (op : Op)
  | other (f : FileId) (v : Option (List Byte))
  deriving DecidableEq, Repr

/-- A history of one archive object: the results of the calls, the object and everything that has happened to the
files. -/
def run (codec : Codec) (fuel : Nat) (same : List Byte → List Byte → Bool) : Files → Obj → List Act →
    M (List Err × Obj × List Ev)
  | _, o, [] => .ok ([], o, [])
  | d, o, .other f v :: t => do
    let (es, o, evs) ← run codec fuel same (put d f v) o t
    .ok (es, o, .other f v :: evs)
  | d, o, .call env op :: t => do
    let (e, o, evs) ← step codec fuel same env d o op
    let (es, o, evs') ← run codec fuel same (after d evs) o t
    .ok (e :: es, o, evs ++ evs')

end Verif.Disk
