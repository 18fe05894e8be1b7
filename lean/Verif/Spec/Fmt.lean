import Verif.Model.Fmt
import Verif.Spec.Tensor

/-!
# What `{:?}` of a tensor should print
-/

namespace Essay

/-- Texts joined by a separator. -/
def joinWith (sep : String) : List String → String
  | [] => ""
  | [a] => a
  | a :: b :: l => a ++ sep ++ joinWith sep (b :: l)

/-- The separator between the parts of an array whose parts have the given dimensions. -/
def debugSep : List Nat → String
  | [] => " "
  | [_] => ",\n "
  | _ => ",\n\n "

/-- The nested text of an array with dimensions `ds` and printed elements `xs` (row-major). -/
def nested : List Nat → List String → String
  | [], xs => xs.headD ""
  | d :: ds, xs =>
    "[" ++ joinWith (debugSep ds)
      ((List.range d).map fun j => nested ds ((xs.drop (j * ds.prod)).take ds.prod)) ++ "]"

/-- The whole text: type, nested elements, shape. -/
def debugText (name : String) (ds : List Nat) (xs : List String) : String :=
  "Tensor<" ++ name ++ "> {" ++ (if ds.length > 1 then "\n" else "") ++ nested ds xs ++ ", shape: [" ++
    joinWith ", " (ds.map toString) ++ "]}"

/-- The number of spaces in a text. -/
def spaces (s : String) : Nat := s.toList.count ' '

end Essay
