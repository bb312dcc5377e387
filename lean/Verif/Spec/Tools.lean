import Verif.Spec.Text

/-! Independent specification of path resolution. -/

namespace PT.Spec

/-- One component of a path, walked from the directory `dir` (components from the root). `link` tells where a symbolic link points. -/
def walkStep (link : List (List Char) → Option (List (List Char))) (dir : List (List Char)) (comp : List Char) : List (List Char) :=
  if comp = [] ∨ comp = ['.'] then dir
  else if comp = ['.', '.'] then dir.dropLast
  else (link (dir ++ [comp])).getD (dir ++ [comp])

/-- Walking the components of a path as the kernel does. -/
def walk (link : List (List Char) → Option (List (List Char))) (dir : List (List Char)) (comps : List (List Char)) : List (List Char) :=
  comps.foldl (walkStep link) dir

/-- An absolute path in normal form and its components. -/
def IsAbsPath (p : List Char) (comps : List (List Char)) : Prop :=
  (∀ c ∈ comps, c ≠ [] ∧ c ≠ ['.'] ∧ c ≠ ['.', '.'] ∧ '/' ∉ c) ∧ p = '/' :: ['/'].intercalate comps

/-- A file in a directory of `PATH`; an empty directory is the working directory. -/
def InDir (dir name file : List Char) : Prop :=
  (dir = [] ∧ file = name) ∨ (∃ d, dir = d ++ ['/'] ∧ file = dir ++ name) ∨
    (dir ≠ [] ∧ (∀ d, dir ≠ d ++ ['/']) ∧ file = dir ++ '/' :: name)

end PT.Spec
