/-!
# Specification: files inside a folder
-/

namespace Verif.Path.Spec

/-- `p` is one of the parts of the path text `s` between `/`. -/
def IsPart (p s : List Char) : Prop :=
  '/' ∉ p ∧ ∃ a b, s = a ++ p ++ b ∧ (a = [] ∨ ∃ a', a = a' ++ ['/']) ∧ (b = [] ∨ ∃ b', b = '/' :: b')

/-- The text that leads to the parent folder. -/
def parent : List Char := ['.', '.']

/-- A path inside a folder (whose text ends with `/`): it begins with the text of the folder and does not lead back. -/
def Inside (folder s : List Char) : Prop := ∃ rest, s = folder ++ rest ∧ ¬ IsPart parent rest

/-- A usual name of a file or folder. -/
def Plain (p : List Char) : Prop := p ≠ [] ∧ p ≠ parent ∧ ∀ c ∈ p, c ≠ '/' ∧ c ≠ '\\' ∧ c ≠ ':' ∧ c ≠ '%'

/-- The text of the folders below each other. -/
def folderText (l : List (List Char)) : List Char := '/' :: l.flatMap (· ++ ['/'])

end Verif.Path.Spec
