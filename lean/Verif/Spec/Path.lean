import Verif.Go.Bytes

/-!
# Specification: the place that a path names

Places are given by the names of the directories on the way from the root. There are no symbolic links.
-/

namespace Verif.Spec
open Verif.Go

/-- The parts of a path between slashes. -/
def components : Bytes → List Bytes
  | [] => [[]]
  | b :: p =>
    if b = 47 then [] :: components p
    else match components p with
      | [] => [[b]]
      | c :: cs => (b :: c) :: cs

/-- Where a component leads: nothing between two slashes and one dot lead nowhere, two dots to the directory above (the root is above itself), and anything else is a name. -/
def enter (place : List Bytes) (c : Bytes) : List Bytes :=
  if c = [] ∨ c = str "." then place else if c = str ".." then place.dropLast else place ++ [c]

/-- The place that a path names in a process with this working directory. -/
def place (cwd : List Bytes) (p : Bytes) : List Bytes :=
  (components p).foldl enter (if p.head? = some 47 then [] else cwd)

end Verif.Spec
