import Verif.Path.Spec
import Verif.Pack.Model

/-!
# Specification: what belongs into a package, in terms of the calls of an application
-/

namespace Verif.Pack.Spec

open Verif.Zip Verif.Path.Spec

/-- A file in folders below each other. -/
structure Place where
  folders : List (List Char)
  name : List Char

/-- Its path. -/
def Place.text (p : Place) : List Char := folderText p.folders ++ p.name

/-- With usual names. -/
def Place.Usual (p : Place) : Prop := (∀ q ∈ p.folders, Plain q) ∧ Plain p.name

/-- The calls that give something to an MVR file: a file, a buffer with a name, a folder in which GDTF files are. -/
inductive Call
  | file (p : Place)
  | buffer (name : List Char) (data : List Byte)
  | folder (l : List (List Char))

def Call.Usual : Call → Prop
  | .file p => p.Usual
  | .buffer n _ => Plain n
  | .folder l => ∀ q ∈ l, Plain q

/-- Making the calls on an object. -/
def perform (fs : Fs) (o : Mvr) : List Call → Mvr
  | [] => o
  | .file p :: t => perform fs (o.addFile fs p.text).2 t
  | .buffer n d :: t => perform fs (o.addBuffer n (some d)).2 t
  | .folder l :: t => perform fs (o.addFolder (folderText l)).2 t

/-- The files among the calls that exist, with their contents. -/
def files (fs : Fs) (calls : List Call) : List (List Char × List Byte) :=
  calls.filterMap (fun c => match c with
    | .file p => (fs.file p.text).map (fun d => (p.name, d))
    | _ => none)

/-- The buffers that are not empty. -/
def buffers (calls : List Call) : List (List Char × List Byte) :=
  calls.filterMap (fun c => match c with
    | .buffer n d => if d = [] then none else some (n, d)
    | _ => none)

/-- The folders. -/
def folders (calls : List Call) : List (List (List Char)) :=
  calls.filterMap (fun c => match c with
    | .folder l => some l
    | _ => none)

/-- The GDTF files of the scene that are in one of the folders, each from the first folder that has it. -/
def gdtfFiles (fs : Fs) (calls : List Call) (names : List (List Char)) : List (List Char × List Byte) :=
  names.filterMap (fun n => (folders calls).findSome? (fun l => (fs.file (folderText l ++ n)).map (fun d => (n, d))))

/-- Everything that has been given: files, buffers, GDTF files. -/
def given (fs : Fs) (calls : List Call) (names : List (List Char)) : List (List Char × List Byte) :=
  files fs calls ++ (buffers calls ++ gdtfFiles fs calls names)

/-- Those whose name has not been used before. -/
def unused : List (List Char) → List (List Char × List Byte) → List (List Char × List Byte)
  | _, [] => []
  | used, e :: t => if e.1 ∈ used then unused used t else e :: unused (used ++ [e.1]) t

/-- No two names are different and equal up to upper and lower case. -/
def OneCase (names : List (List Char)) : Prop := ∀ a ∈ names, ∀ b ∈ names, Verif.Str.eqNoCase a b = true → a = b

/-- How many bytes a content takes in the archive. -/
def packed (codec : Codec) (compress : Bool) (d : List Byte) : Nat := if compress then (codec.comp d).length else d.length

/-- What the entries of an archive have to satisfy: fewer than 19280, names of 1 to 1024 bytes that do not begin with a zero
character, less than 4 GiB together, and the part with the contents never exactly 0x06054b50 bytes long. -/
structure Fits (codec : Codec) (compress : Bool) (l : List (List Char × List Byte)) : Prop where
  entries : l.length < 19280
  names : ∀ e ∈ l, e.1 ≠ [] ∧ (enc e.1).length ≤ 1024 ∧ e.1.head? ≠ some (Char.ofNat 0)
  size : (l.map (fun e => 76 + 2 * (enc e.1).length + packed codec compress e.2)).sum + 122 < 4294967296
  notEnd : ∀ k, ((l.take k).map (fun e => 30 + (enc e.1).length + packed codec compress e.2)).sum ≠ 0x06054b50

/-- The path is not below the folder. -/
def Outside (w : List (List Char)) (p : List Char) : Prop := ¬ ∃ rest, p = folderText w ++ rest

end Verif.Pack.Spec
