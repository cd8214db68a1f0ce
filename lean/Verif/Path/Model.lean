import Verif.Str.Model

/-!
# Model: folder and file identifiers, and where the entries of an archive are written

The build for Linux and macOS (`_WINDOWS` not defined). Texts are lists of characters. Simplification: UTF-8 and UTF-16
conversions of the texts are left out, and `char firstCh = GetAt(0)` (FolderIdentifier.cpp:75) is taken to keep the character.
-/

namespace Verif.Path

open Verif.Str

/-- `TXString::Replace`, GSString.cpp:1345-1381, with the number of rounds that suffices for a non-empty pattern. -/
def replace (old new s : List Char) : List Char := (replaceLoop old new (s.length + 1) (s, 0)).getD s

/-- `CFolderIdentifier::ValidateFoldername` FolderIdentifier.cpp:1002-1023 and `CFileIdentifier::ValidateFilename`
FileIdentifier.cpp:679-700. -/
def validate (s : List Char) : List Char := replace [':'] "%3A".toList (replace ['/'] "%5C".toList s)

/-- `CFolderIdentifier::ConvertFoldername` FolderIdentifier.cpp:1026-1041 and `CFileIdentifier::ConvertFilename`
FileIdentifier.cpp:702-717. -/
def convert (s : List Char) : List Char :=
  let s := replace "%2F".toList ['\\'] s
  let s := replace "%2A".toList ['*'] s
  let s := replace "%3F".toList ['?'] s
  let s := replace "%22".toList ['"'] s
  let s := replace "%3C".toList ['<'] s
  let s := replace "%3E".toList ['>'] s
  let s := replace "%7C".toList ['|'] s
  replace "%5C".toList [':'] s

/-- FolderIdentifier.cpp:51-70 and FileIdentifier.cpp:43-64: whether a path is taken for a Windows path. -/
def isWinPath (s : List Char) : Bool :=
  match findCh s '\\', findCh s '/' with
  | none, some _ => false
  | some at0, some at1 => decide (¬ at1 < at0)
  | _, none => true

/-- FolderIdentifier.cpp:74-90: everything before the first separator is cut off. -/
def cutFront (s : List Char) : List Char :=
  match s with
  | [] => []
  | c :: _ =>
    if c ≠ '/' ∧ c ≠ '\\' ∧ c ≠ ':' then
      let at0 := findCh s '\\'
      let at1 := findCh s '/'
      let pos := match at0, at1 with
        | none, b => b
        | some a, some b => if b < a then some b else some a
        | some a, none => some a
      match pos with
      | some p => s.drop p
      | none => s
    else s

/-- FolderIdentifier.cpp:131-141: the texts between separators, found one after the other with `Find` and `Mid`; what follows the
last separator is not used. `cur` is the current text, backwards. -/
def pieces (sep : Char) : List Char → List Char → List (List Char)
  | _, [] => []
  | cur, c :: t => if c = sep then cur.reverse :: pieces sep [] t else pieces sep (c :: cur) t

/-- FolderIdentifier.cpp:143-158: a piece of a path as it is kept. -/
def keepPiece (win : Bool) (p : List Char) : List Char :=
  validate (if win then p else replace [':'] ['/'] p)

/-- FolderIdentifier.cpp:164-178: `..` removes the previous piece. -/
def resolve (acc : List (List Char)) : List (List Char) → List (List Char)
  | [] => acc
  | p :: rest => if p ≠ ['.', '.'] then resolve (acc ++ [p]) rest else resolve acc.dropLast rest

/-- `CFolderIdentifier::SetFullPath`, FolderIdentifier.cpp:39-183: the hierarchy. An empty path clears it. -/
def setFullPath (s : List Char) : List (List Char) :=
  if s = [] then [] else
  let win := isWinPath s
  let full := cutFront s ++ [if win then '\\' else '/']
  let start : List (List Char) := if !win && full.head? == some '/' then [[]] else []
  resolve start (((pieces (if win then '\\' else '/') [] full).filter (· ≠ [])).map (keepPiece win))

/-- `CFolderIdentifier::GetFullPath`, FolderIdentifier.cpp:185-215. -/
def getFullPath (h : List (List Char)) : List Char :=
  '/' :: h.flatMap (fun p => if convert p ≠ [] then convert p ++ ['/'] else [])

/-- A file identifier: the hierarchy of its folder and the file name. -/
structure File where
  folder : List (List Char)
  name : List Char
deriving DecidableEq, Repr

/-- `CFileIdentifier::GetFileFullPath`, FileIdentifier.cpp:24-33. -/
def File.fullPath (f : File) : List Char := getFullPath f.folder ++ convert f.name

/-- `CFileIdentifier::SetFileFullPath`, FileIdentifier.cpp:35-99; `none` is the error (no separator). -/
def setFileFullPath (s : List Char) : Option File :=
  let win := isWinPath s
  match reverseFind s [if win then '\\' else '/'] with
  | some p =>
    let path := s.take p
    let name := s.drop (p + 1)
    let folder := if !win && path = [] then setFullPath ['/'] else setFullPath path
    some ⟨folder, validate (if win then name else replace [':'] ['/'] name)⟩
  | none => none

/-- `CFileIdentifier::Set(IFolderIdentifier*, const TXString&)`, FileIdentifier.cpp:147-179. -/
def setFile (folder : List (List Char)) (name : List Char) : Option File :=
  if name = [] then none else setFileFullPath (getFullPath folder ++ name.dropWhile (· == '/'))

/-- `CFolderIdentifier::Set(IFolderIdentifier*, const TXString&)`, FolderIdentifier.cpp:269-292. -/
def setFolder (parent : List (List Char)) (name : List Char) : Option (List (List Char)) :=
  if parent = [] ∨ name = [] then none else some (setFullPath (getFullPath parent ++ name))

/-- `SystemUtil::ExtractFolderFromPath`, Utility.cpp:63-84: the folder and what remains of the path. -/
def extractFolder (folder path : List Char) : List Char × List Char :=
  match h : findCh path '/' with
  | some (p + 1) => extractFolder (folder ++ path.take (p + 2)) (path.drop (p + 2))
  | _ => (folder, path)
termination_by path.length
decreasing_by
  rcases path with _ | ⟨c, t⟩
  · simp [findCh, stdFind, findAt] at h
  · simp; omega

/-- SceneDataExchange.cpp:3758-3766: the file an entry of an MVR archive is written to. -/
def mvrTarget (working : List (List Char)) (entry : List Char) : Option File := setFile working entry

/-- GDTFManager.cpp:7901-7928: the file an entry of a GDTF archive is written to. The texts: with `\` replaced, without folder;
the folder without separators, after one separator. -/
def gdtfTarget (working : List (List Char)) (entry : List Char) : Option File :=
  let r := extractFolder [] (replace ['\\'] ['/'] entry)
  let subFolder := '/' :: replace ['/'] [] r.1
  match setFolder working subFolder with
  | some target => setFile target r.2
  | none => none

/-- GDTFManager.cpp:7916: the key under which the content of the entry is kept in memory. -/
def gdtfBufferKey (entry : List Char) : List Char := (extractFolder [] (replace ['\\'] ['/'] entry)).2

end Verif.Path
