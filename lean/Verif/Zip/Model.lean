import Verif.Basic

/-!
# Model of the ZIP archive, `/repo/src/Wrapper/ZIPFileImpl.cpp`

An opened archive is the list of bytes held by `ZIPFileBuffer` and the two flags of `CZIPFileImpl`.
`ZIPFileBuffer::Read` (ZIPFileBuffer.cpp:95-99) is a `memcpy` without any check: reading outside the buffer is
the fault `ub`.  `ZIPFileBuffer::Write` (101-136) always appends.

Simplifications: positions are `Uint32` (written out as `% 2^32`), the host is little endian, allocation never
fails; paths are their UTF-8 bytes; an archive object without an opened file is not modelled; zlib is an
arbitrary pair of functions (`Codec`), the CRC and the DOS time are arbitrary numbers given with every call.
-/

namespace Verif.Zip

/-- `ub` = undefined behaviour, `fuel` = the loop has not finished within the given number of rounds. -/
inductive Fault
  | ub | fuel
  deriving DecidableEq, Repr

abbrev M := Except Fault

/-- The `VCOMError` values used. -/
inductive Err
  | noError | failed | false_ | invalidArg | notInitialized
  deriving DecidableEq, Repr

/-- Little-endian bytes of a 16 bit number; ZIPFileImpl.cpp:955-969 `WriteShort`. -/
def le2 (v : Nat) : List Byte := [BitVec.ofNat 8 v, BitVec.ofNat 8 (v / 256)]

/-- Little-endian bytes of a 32 bit number; ZIPFileImpl.cpp:935-953 `WriteLong`. -/
def le4 (v : Nat) : List Byte :=
  [BitVec.ofNat 8 v, BitVec.ofNat 8 (v / 256), BitVec.ofNat 8 (v / 65536), BitVec.ofNat 8 (v / 16777216)]

/-- Value of little-endian bytes in memory. -/
def valLE : List Byte → Nat
  | [] => 0
  | b :: t => b.toNat + 256 * valLE t

/-- `Uint32` addition. -/
def adv (pos k : Nat) : Nat := (pos + k) % 4294967296

/-- ZIPFileBuffer.cpp:95-99 `Read`. A copy of zero bytes touches nothing. -/
def readAt (data : List Byte) (pos n : Nat) : M (List Byte) :=
  if n = 0 then .ok []
  else if pos + n ≤ data.length then .ok ((data.drop pos).take n)
  else .error .ub

/-- ZIPFileImpl.cpp:1004-1022 `ReadLong`: value and new position; at or after the end 0, position unchanged. -/
def readLong (data : List Byte) (pos : Nat) : M (Nat × Nat) :=
  if data.length ≤ pos then .ok (0, pos)
  else do
    let bs ← readAt data pos 4
    .ok (valLE bs, adv pos 4)

/-- ZIPFileImpl.cpp:1024-1042 `ReadShort`. -/
def readShort (data : List Byte) (pos : Nat) : M (Nat × Nat) :=
  if data.length ≤ pos then .ok (0, pos)
  else do
    let bs ← readAt data pos 2
    .ok (valLE bs, adv pos 2)

/-- ZIPFileImpl.cpp:1044-1051 `ReadFromFile`. -/
def readFromFile (data : List Byte) (pos n : Nat) : M (List Byte × Nat) := do
  let bs ← readAt data pos n
  .ok (bs, adv pos n)

/-- Reading a name into `char fReadFileName[1024]` (ZIPFileImpl.h:134): more bytes overflow the member. -/
def readName (data : List Byte) (pos n : Nat) : M (List Byte × Nat) :=
  if n ≤ 1024 then readFromFile data pos n else .error .ub

/-- ZIPFileImpl.h:21-23 -/
def sigLocal : Nat := 0x04034b50
def sigCentral : Nat := 0x02014b50
def sigEnd : Nat := 0x06054b50

/-- The common backward loop of ZIPFileImpl.cpp:1149-1160 and 1173-1184: `readBytes` from the argument down to
1; the position of the first end signature met, if any. -/
def searchEnd (data : List Byte) : Nat → M (Option Nat)
  | 0 => .ok none
  | p+1 => do
    let (v, q) ← readLong data (p+1)
    if p + 1 < q ∧ v = sigEnd then .ok (some (p+1)) else searchEnd data p

/-- `(Uint32)fileSize - kLongLength - 1` -/
def searchStart (data : List Byte) : Nat := (data.length % 4294967296 + 4294967296 - 5) % 4294967296

/-- ZIPFileImpl.cpp:1136-1162 `GetCentralDirPosition`. -/
def getCentralDirPosition (data : List Byte) : M Nat :=
  if data.length < 22 then .ok 0
  else do
    match ← searchEnd data (searchStart data) with
    | none => .ok 0
    | some p => do
      let (v, _) ← readLong data (adv p 16)
      .ok v

/-- ZIPFileImpl.cpp:1164-1186 `GetEndOfCentralDirPosition`. -/
def getEndOfCentralDirPosition (data : List Byte) : M Nat :=
  if data.length < 22 then .ok 0
  else do
    match ← searchEnd data (searchStart data) with
    | none => .ok 0
    | some p => .ok p

/-- One round of ZIPFileImpl.cpp:1254-1290 (`GetFileCentralHeaderPosition`): whether the loop ends and with which
`outPosition`, or the next position. After a wrong signature the round is finished before the loop ends. -/
def findRound (data path : List Byte) (pos : Nat) : M (Option Nat ⊕ Nat) := do
  let startOffset := pos
  let (signature, pos) ← readLong data pos
  let bError := decide (signature ≠ sigCentral)
  let pos := adv pos 24
  let (fileNameLength, pos) ← readShort data pos
  let (extraFieldLength, pos) ← readShort data pos
  let (fileCommentLength, pos) ← readShort data pos
  let pos := adv pos 8
  let (_localHeaderOffset, pos) ← readLong data pos
  let (name, pos) ← readName data pos fileNameLength
  let bFound := decide (path.length = fileNameLength ∧ name = path)
  let pos := adv pos (extraFieldLength + fileCommentLength)
  if bFound then .ok (.inl (some startOffset))
  else if bError then .ok (.inl none)
  else .ok (.inr pos)

/-- The loop of ZIPFileImpl.cpp:1254-1290. -/
def findLoop (data path : List Byte) : Nat → Nat → M Nat
  | 0, _ => .error .fuel
  | fuel+1, pos => do
    match ← findRound data path pos with
    | .inl (some p) => .ok p
    | .inl none => .ok 0
    | .inr pos => findLoop data path fuel pos

/-- ZIPFileImpl.cpp:1240-1291 `GetFileCentralHeaderPosition` (0 = not found). -/
def getFileCentralHeaderPosition (fuel : Nat) (data path : List Byte) : M Nat := do
  let cd ← getCentralDirPosition data
  if cd = 0 ∨ path = [] then .ok 0 else findLoop data path fuel cd

/-- ZIPFileImpl.cpp:1188-1238 `GetFileLocalHeaderPosition`: the same walk, but a match yields the offset found
in the entry. (In this variant `inOutReadSize != fileNameLength` cannot happen.) -/
def findLocalRound (data path : List Byte) (pos : Nat) : M (Option Nat ⊕ Nat) := do
  let (signature, pos) ← readLong data pos
  let bError := decide (signature ≠ sigCentral)
  let pos := adv pos 24
  let (fileNameLength, pos) ← readShort data pos
  let (extraFieldLength, pos) ← readShort data pos
  let (fileCommentLength, pos) ← readShort data pos
  let pos := adv pos 8
  let (localHeaderOffset, pos) ← readLong data pos
  let (name, pos) ← readName data pos fileNameLength
  let bFound := decide (path.length = fileNameLength ∧ name = path)
  let pos := adv pos (extraFieldLength + fileCommentLength)
  if bFound then .ok (.inl (some localHeaderOffset))
  else if bError then .ok (.inl none)
  else .ok (.inr pos)

def findLocalLoop (data path : List Byte) : Nat → Nat → M Nat
  | 0, _ => .error .fuel
  | fuel+1, pos => do
    match ← findLocalRound data path pos with
    | .inl (some p) => .ok p
    | .inl none => .ok 0
    | .inr pos => findLocalLoop data path fuel pos

def getFileLocalHeaderPosition (fuel : Nat) (data path : List Byte) : M Nat := do
  let cd ← getCentralDirPosition data
  if cd = 0 ∨ path = [] then .ok 0 else findLocalLoop data path fuel cd

/-- ZIPFileImpl.cpp:252-302 `GetNextFile(path, outPath)`. `stale` is the first byte of `fReadFileName` before the
call, looked at only when the name has length 0. -/
def getNextFile (fuel : Nat) (data : List Byte) (stale : Byte) (path : List Byte) : M (Err × List Byte) := do
  let cd ← getCentralDirPosition data
  if cd = 0 then .ok (.failed, [])
  else do
    let pos ←
      if path ≠ [] then do
        let pos ← getFileCentralHeaderPosition fuel data path
        let pos := adv pos 28
        let (fileNameLength, pos) ← readShort data pos
        let (extraFieldLength, pos) ← readShort data pos
        let (fileCommentLength, pos) ← readShort data pos
        .ok (adv pos (12 + fileNameLength + extraFieldLength + fileCommentLength))
      else .ok cd
    let (signature, pos) ← readLong data pos
    if signature ≠ sigCentral then .ok (.false_, [])
    else do
      let pos := adv pos 24
      let (fileNameLength, pos) ← readShort data pos
      let pos := adv pos 16
      let (name, _) ← readName data pos fileNameLength
      if name.headD stale ≠ 0#8 then .ok (.noError, name) else .ok (.failed, [])

/-- ZIPFileImpl.cpp:304-334 `GetNextFile(path, extension, outPath)`: `while ( bFound )` with `bFound = false` never
runs, `outPath` stays as it was and the result is always `kVCOMError_NoError`. -/
def getNextFileExt (_fuel : Nat) (_data _path _extension outPath : List Byte) : M (Err × List Byte) :=
  .ok (.noError, outPath)

/-- IZIPFile.h:17-35 `SZIPFileInfo` (without `bFolder`, which is never read). -/
structure FileInfo where
  name : List Byte
  comment : List Byte
  version : Nat
  flags : Nat
  method : Nat
  dosTime : Nat
  dosDate : Nat
  crc : Nat
  compressedSize : Nat
  uncompressedSize : Nat
  internalAttrib : Nat
  externalAttrib : Nat
  offset : Nat
  deriving DecidableEq, Repr

/-- ZIPFileImpl.cpp:336-408 `GetFileInfo`. The second component is what has been stored in `outInfo`; `none` =
nothing has been stored. -/
def getFileInfo (fuel : Nat) (data path : List Byte) : M (Err × Option FileInfo) := do
  let pos ← getFileCentralHeaderPosition fuel data path
  let (signature, pos) ← readLong data pos
  if signature ≠ sigCentral then .ok (.false_, none)
  else do
    let (_version, pos) ← readShort data pos
    let (version, pos) ← readShort data pos
    let (flags, pos) ← readShort data pos
    let (method, pos) ← readShort data pos
    let (dosTime, pos) ← readShort data pos
    let (dosDate, pos) ← readShort data pos
    let (crc, pos) ← readLong data pos
    let (compressedSize, pos) ← readLong data pos
    let (uncompressedSize, pos) ← readLong data pos
    let (fileNameLength, pos) ← readShort data pos
    let (extraFieldLength, pos) ← readShort data pos
    let (fileCommentLength, pos) ← readShort data pos
    let (_dummy, pos) ← readShort data pos
    let (internalAttrib, pos) ← readShort data pos
    let (externalAttrib, pos) ← readLong data pos
    let (offset, pos) ← readLong data pos
    let (name, pos) ← readFromFile data pos fileNameLength
    let pos := adv pos extraFieldLength
    let (comment, _) ← readFromFile data pos fileCommentLength
    .ok (.noError, some (FileInfo.mk name comment version flags method dosTime dosDate crc compressedSize
      uncompressedSize internalAttrib externalAttrib offset))

/-- zlib: raw deflate and inflate (`none` = error). -/
structure Codec where
  comp : List Byte → List Byte
  decomp : List Byte → Option (List Byte)

/-- ZIPFileImpl.cpp:410-456 `GetFile`. The result of `GetFileInfo` is ignored; without it `fileInfo` is
uninitialised: `garbage`. The second component is the data given to `outputBuffer->SetData`. -/
def getFile (codec : Codec) (fuel : Nat) (data : List Byte) (garbage : FileInfo) (path : List Byte) :
    M (Err × Option (List Byte)) := do
  let (_err, info) ← getFileInfo fuel data path
  let info := info.getD garbage
  let pos := adv info.offset 26
  let (fileNameLength, pos) ← readShort data pos
  let (extraFieldLength, pos) ← readShort data pos
  let pos := adv pos (fileNameLength + extraFieldLength)
  let (raw, _) ← readFromFile data pos info.compressedSize
  if info.method = 12 then .ok (.failed, none)
  else if info.method = 0 then .ok (.noError, some raw)
  else match codec.decomp raw with
    | some d => .ok (.noError, some d)
    | none => .ok (.failed, none)

/-- ZIPFileImpl.h:26-38 `SZIPArchiveInfo`. -/
structure ArchiveInfo where
  comment : List Byte
  thisDisk : Nat
  centralDisk : Nat
  entriesOnDisk : Nat
  totalEntries : Nat
  sizeOfCentral : Nat
  offsetCentral : Nat
  startingDisk : Nat
  commentLength : Nat
  deriving DecidableEq, Repr

/-- ZIPFileImpl.cpp:1293-1327 `GetZipArchiveInfo`; `none` = nothing stored. -/
def getZipArchiveInfo (data : List Byte) : M (Option ArchiveInfo) := do
  let pos ← getEndOfCentralDirPosition data
  if pos = 0 then .ok none
  else do
    let (v, pos) ← readLong data pos
    if v ≠ sigEnd then .ok none
    else do
      let (thisDisk, pos) ← readShort data pos
      let (centralDisk, pos) ← readShort data pos
      let (entriesOnDisk, pos) ← readShort data pos
      let (totalEntries, pos) ← readShort data pos
      let (sizeOfCentral, pos) ← readLong data pos
      let (offsetCentral, pos) ← readLong data pos
      let (commentLength, pos) ← readShort data pos
      let (comment, _) ← readFromFile data pos commentLength
      .ok (some (ArchiveInfo.mk comment thisDisk centralDisk entriesOnDisk totalEntries sizeOfCentral offsetCentral
        centralDisk commentLength))

/-- ZIPFileImpl.cpp:1053-1067 `WriteLocalFileHeader`: the bytes written. -/
def localHeader (i : FileInfo) : List Byte :=
  le4 sigLocal ++ (le2 i.version ++ (le2 i.flags ++ (le2 i.method ++ (le2 i.dosTime ++ (le2 i.dosDate ++
  (le4 i.crc ++ (le4 i.compressedSize ++ (le4 i.uncompressedSize ++ (le2 i.name.length ++ (le2 0 ++ i.name))))))))))

/-- ZIPFileImpl.cpp:1098-1121 `WriteCentralDirectoryHeader`: the bytes written. -/
def centralHeader (a : ArchiveInfo) (i : FileInfo) : List Byte :=
  le4 sigCentral ++ (le2 i.version ++ (le2 i.version ++ (le2 i.flags ++ (le2 i.method ++ (le2 i.dosTime ++
  (le2 i.dosDate ++ (le4 i.crc ++ (le4 i.compressedSize ++ (le4 i.uncompressedSize ++ (le2 i.name.length ++
  (le2 0 ++ (le2 i.comment.length ++ (le2 a.startingDisk ++ (le2 i.internalAttrib ++ (le4 i.externalAttrib ++
  (le4 i.offset ++ (i.name ++ a.comment.take a.commentLength)))))))))))))))))

/-- ZIPFileImpl.cpp:1123-1134 `WriteEndHeader`: the bytes written. -/
def endHeader (a : ArchiveInfo) : List Byte :=
  le4 sigEnd ++ (le2 a.thisDisk ++ (le2 a.centralDisk ++ (le2 a.entriesOnDisk ++ (le2 a.totalEntries ++
  (le4 a.sizeOfCentral ++ (le4 a.offsetCentral ++ (le2 a.commentLength ++ a.comment.take a.commentLength)))))))

/-- An opened archive. -/
structure Zip where
  data : List Byte
  write : Bool
  compress : Bool
  deriving DecidableEq, Repr

/-- ZIPFileImpl.cpp:198-219 `OpenNewWrite` (and 175-196 `OpenWrite`): the buffer starts empty, whatever the file
contains (ZIPFileBuffer.cpp:28-53: only `openForRead` loads it). -/
def openNewWrite (compress : Bool) : Zip := { data := [], write := true, compress := compress }

/-- ZIPFileImpl.cpp:137-173 `OpenRead`: the bytes of the file or of the buffer. -/
def openRead (bytes : List Byte) : Zip := { data := bytes, write := false, compress := true }

/-- What `AddFile` is called with, and the environment of the call (CRC of the content, DOS date and time). -/
structure Add where
  path : List Byte
  content : List Byte
  crc : Nat
  dosDate : Nat
  dosTime : Nat
  deriving DecidableEq, Repr

/-- ZIPFileImpl.cpp:475-476 `path.Replace("\\", "/")`. -/
def normPath (path : List Byte) : List Byte := path.map (fun b => if b = 0x5C#8 then 0x2F#8 else b)

/-- ZIPFileImpl.cpp:519-539, 596-616: what is stored and the compression method. -/
def stored (codec : Codec) (compress : Bool) (content : List Byte) : List Byte × Nat :=
  if compress then (codec.comp content, 8) else (content, 0)

/-- ZIPFileImpl.cpp:544-558, 621-635: the description of the new entry. -/
def newInfo (codec : Codec) (compress : Bool) (a : Add) (offset : Nat) : FileInfo :=
  { name := normPath a.path, comment := [], version := 20, flags := 0, method := (stored codec compress a.content).2,
    dosTime := a.dosTime, dosDate := a.dosDate, crc := a.crc,
    compressedSize := (stored codec compress a.content).1.length, uncompressedSize := a.content.length,
    internalAttrib := 0, externalAttrib := 0, offset := offset }

/-- ZIPFileImpl.cpp:541-542, 618-619: nothing stored is reported as a failure (after the archive has been changed). -/
def addErr (out : List Byte) : Err := if out.length = 0 then .failed else .noError

/-- ZIPFileImpl.cpp:560-563: the archive information after one more entry. -/
def ArchiveInfo.addEntry (ai : ArchiveInfo) (cd outLength nameLength : Nat) : ArchiveInfo := { ai with
  entriesOnDisk := ai.entriesOnDisk + 1
  totalEntries := ai.totalEntries + 1
  offsetCentral := cd + outLength + nameLength + 30
  sizeOfCentral := ai.sizeOfCentral + 46 + nameLength }

/-- ZIPFileImpl.cpp:637-645: the archive information of the first entry. -/
def ArchiveInfo.first (outLength nameLength : Nat) : ArchiveInfo :=
  { comment := [], thisDisk := 0, centralDisk := 0, entriesOnDisk := 1, totalEntries := 1,
    sizeOfCentral := 46 + nameLength, offsetCentral := 30 + nameLength + outLength,
    startingDisk := 0, commentLength := 0 }

/-- ZIPFileImpl.cpp:473-667 `AddFile(path, buffer)`. -/
def addFile (codec : Codec) (fuel : Nat) (z : Zip) (a : Add) : M (Err × Zip) :=
  if z.write = false then .ok (.notInitialized, z)
  else do
    let existing ← getFileCentralHeaderPosition fuel z.data (normPath a.path)
    if existing ≠ 0 then .ok (.invalidArg, z)
    else do
      let cd ← getCentralDirPosition z.data
      let ed ← getEndOfCentralDirPosition z.data
      let out := (stored codec z.compress a.content).1
      if z.data.length ≠ 0 ∧ cd ≠ 0 ∧ ed ≠ 0 then do
        let (data1, _) ← readFromFile z.data 0 cd
        let (data2, _) ← readFromFile z.data cd ((ed + 4294967296 - cd) % 4294967296)
        match ← getZipArchiveInfo z.data with
        | none => .error .ub
        | some ai =>
          let info := newInfo codec z.compress a cd
          let ai := ai.addEntry cd out.length info.name.length
          .ok (addErr out, { z with data := data1 ++ (localHeader info ++ (out ++ (data2 ++
            (centralHeader ai info ++ endHeader ai)))) })
      else
        let info := newInfo codec z.compress a 0
        let ai := ArchiveInfo.first out.length info.name.length
        .ok (addErr out, { z with data := localHeader info ++ (out ++ (centralHeader ai info ++ endHeader ai)) })

/-- The entries collected by the loop of ZIPFileImpl.cpp:719-741 (`RemoveFile`): `n` rounds. `garbage` is the
uninitialised `SZIPFileInfo` of a round. `same` is the comparison of line 733, `TXString::operator==`, which
ignores case (GSString.cpp:2203-2242). -/
def removeLoop (same : List Byte → List Byte → Bool) (fuel : Nat) (data path : List Byte) (stale : Byte)
    (garbage : FileInfo) (removed : Nat) :
    Nat → List Byte → Bool → List FileInfo → M (List FileInfo)
  | 0, _, _, acc => .ok acc
  | n+1, current, found, acc => do
    let (e, next) ← getNextFile fuel data stale current
    let next := if e = .noError then next else []
    let (_, info) ← getFileInfo fuel data current
    let info := info.getD garbage
    let info := if found then { info with offset := (info.offset + 4294967296 - removed) % 4294967296 } else info
    let (found, acc) := if same current path then (true, acc) else (found, acc ++ [info])
    if next = [] then .ok acc else removeLoop same fuel data path stale garbage removed n next found acc

/-- ZIPFileImpl.cpp:742-745: the archive information after the removal. -/
def ArchiveInfo.removeEntry (ai : ArchiveInfo) (removedLocal removedCentral : Nat) : ArchiveInfo := { ai with
  offsetCentral := (ai.offsetCentral + 4294967296 - removedLocal) % 4294967296
  sizeOfCentral := (ai.sizeOfCentral + 4294967296 - removedCentral) % 4294967296
  entriesOnDisk := (ai.entriesOnDisk + 65535) % 65536
  totalEntries := (ai.totalEntries + 65535) % 65536 }

/-- ZIPFileImpl.cpp:677-782 `RemoveFile`. `fpOpenedFile->Close(); Open(…, false)` does not empty the buffer, and the
writes append (and are skipped when the archive is opened for reading). For an archive opened for reading, the
last `Open(…, true)` loads the file again, which is what is in the buffer. The result is always
`kVCOMError_NoError`. -/
def removeFile (same : List Byte → List Byte → Bool) (fuel : Nat) (z : Zip) (stale : Byte) (garbage : FileInfo) (path : List Byte) :
    M (Err × Zip) := do
  let cpos ← getFileCentralHeaderPosition fuel z.data path
  if cpos = 0 then .ok (.noError, z)
  else do
    let lpos ← getFileLocalHeaderPosition fuel z.data path
    let (compressedSize, pos) ← readLong z.data (adv lpos 18)
    let pos := adv pos 4
    let (fileNameLength, pos) ← readShort z.data pos
    let (extraFieldLength, _) ← readShort z.data pos
    let removedLocal := (30 + fileNameLength + extraFieldLength + compressedSize) % 4294967296
    let (fileNameLength, pos) ← readShort z.data (adv cpos 28)
    let (extraFieldLength, pos) ← readShort z.data pos
    let (fileCommentLength, _) ← readShort z.data pos
    let removedCentral := 46 + fileNameLength + extraFieldLength + fileCommentLength
    match ← getZipArchiveInfo z.data with
    | none => .error .ub
    | some ai =>
      let (e, first) ← getNextFile fuel z.data stale []
      let first := if e = .noError then first else []
      let infos ← removeLoop same fuel z.data path stale garbage removedLocal ai.totalEntries first false []
      let ai := ai.removeEntry removedLocal removedCentral
      let readSize2 := (cpos + 8589934592 - lpos - removedLocal) % 4294967296
      let data1 ← readAt z.data 0 lpos
      let data2 ← readAt z.data (adv lpos removedLocal) readSize2
      if z.write = false then .ok (.noError, z)
      else .ok (.noError, { z with data := z.data ++ (data1 ++ (data2 ++
        ((infos.map (centralHeader ai)).flatten ++ endHeader ai))) })

end Verif.Zip
