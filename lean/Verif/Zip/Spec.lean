import Verif.Zip.Model

/-!
# Specification of the ZIP archive, in terms of the calls a user makes
-/

namespace Verif.Zip.Spec

open Verif.Zip

/-- The name under which a file is listed: its path with `/` for every `\`. -/
def entryName (path : List Byte) : List Byte := path.map (fun b => if b = 0x5C#8 then 0x2F#8 else b)

/-- How many bytes a file takes in the archive, without its headers. -/
def storedLength (codec : Codec) (compress : Bool) (a : Add) : Nat :=
  if compress then (codec.comp a.content).length else a.content.length

/-- The files that end up in the archive: those whose name has not been used before. -/
def firsts : List Add → List Add → List Add
  | kept, [] => kept
  | kept, a :: t => if entryName a.path ∈ kept.map (fun b => entryName b.path) then firsts kept t else firsts (kept ++ [a]) t

/-- What the calls are to return: `kVCOMError_InvalidArg` for a name already used, otherwise success — with
`kVCOMError_Failed` where nothing had to be stored. -/
def results (codec : Codec) (compress : Bool) : List Add → List Add → List Err
  | _, [] => []
  | kept, a :: t =>
    if entryName a.path ∈ kept.map (fun b => entryName b.path) then .invalidArg :: results codec compress kept t
    else (if storedLength codec compress a = 0 then .failed else .noError) :: results codec compress (kept ++ [a]) t

/-- What has to hold of the files of an archive: fewer than 19280 of them, names of 1 to 1024 bytes that do not
start with a zero byte, all bytes together less than 4 GiB, and the local part of the archive never exactly
0x06054b50 bytes long. -/
structure InLimits (codec : Codec) (compress : Bool) (as : List Add) : Prop where
  entries : as.length < 19280
  names : ∀ a ∈ as, a.path ≠ [] ∧ a.path.length ≤ 1024 ∧ a.path.headD 0#8 ≠ 0#8
  size : (as.map (fun a => 76 + 2 * a.path.length + storedLength codec compress a)).sum + 122 < 4294967296
  notEnd : ∀ k, ((as.take k).map (fun a => 30 + a.path.length + storedLength codec compress a)).sum ≠ 0x06054b50

/-- zlib gives back what it has been given. -/
def Lossless (codec : Codec) : Prop := ∀ d, codec.decomp (codec.comp d) = some d

/-- Adding files one after the other. -/
def addAll (codec : Codec) (fuel : Nat) : Zip → List Add → M (List Err × Zip)
  | z, [] => .ok ([], z)
  | z, a :: t => do
    let (e, z) ← addFile codec fuel z a
    let (es, z) ← addAll codec fuel z t
    .ok (e :: es, z)

/-- Walking an archive with `GetNextFile`, beginning with the empty name, until it does not succeed: the names
and the error that ended the walk. `rounds` bounds the calls. -/
def walk (fuel : Nat) (data : List Byte) (stale : Byte) : Nat → List Byte → M (List (List Byte) × Err)
  | 0, _ => .error .fuel
  | rounds+1, path => do
    let (e, next) ← getNextFile fuel data stale path
    if e = .noError then do
      let (names, e) ← walk fuel data stale rounds next
      .ok (next :: names, e)
    else .ok ([], e)

end Verif.Zip.Spec
