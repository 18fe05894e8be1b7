import Verif.Model.Tensor

/-!
# Model of `Debug for Tensor`, tensor.rs:310-387

The formatter is a string being appended to; errors of the formatter are not modelled. `fmt` is `Debug` of the element
type, `name` is `type_name::<T>()`.
-/

namespace Essay

variable [Build]

namespace Fmt

variable {α : Type}

/-- `fmt_tensor_rec`, tensor.rs:328-387: the text appended. -/
def fmtRec (fmt : α → String) (tensor : Tensor α) : Nat → Nat → Res String
  | 0, offset => do
    match ← tensor.get offset with
    | some v => return fmt v
    | none => return "None"
  | 1, offset => do
    let cols ← tensor.shape.cols
    let s ← forR 0 cols "[" fun j s => do
      let s := if j > 0 then s ++ " " else s
      let e ← fmtRec fmt tensor 0 (offset + j)
      return s ++ e
    return s ++ "]"
  | 2, offset => do
    let stride ← tensor.shape.cols
    let rows ← tensor.shape.rows
    let s ← forR 0 rows "[" fun j s => do
      let s := if j > 0 then s ++ ",\n " else s
      let e ← fmtRec fmt tensor 1 (offset + j * stride)
      return s ++ e
    return s ++ "]"
  | n + 3, offset => do
    let stride ← tensor.shape.rsublen 0 (n + 2)
    let d ← tensor.shape.rdim (n + 2)
    let s ← forR 0 d "[" fun j s => do
      let s := if j > 0 then s ++ ",\n\n " else s
      let e ← fmtRec fmt tensor (n + 2) (offset + j * stride)
      return s ++ e
    return s ++ "]"

/-- `{:?}` of a `Vec<usize>` (standard library). -/
def fmtVec (ds : List Nat) : String :=
  (ds.foldl (fun (st : String × Bool) d => (st.1 ++ (if st.2 then ", " else "") ++ toString d, true)) ("[", false)).1 ++ "]"

/-- `Debug for Shape`, shape.rs:421-425. -/
def debugShape (s : Shape) : Res String := do
  let v ← s.asVec
  return "Shape" ++ fmtVec v

/-- `Debug for Tensor`, tensor.rs:310-326. -/
def debug (fmt : α → String) (name : String) (tensor : Tensor α) : Res String := do
  let s := "Tensor<" ++ name ++ "> {"
  let s := if tensor.shape.rank > 1 then s ++ "\n" else s
  let e ← fmtRec fmt tensor tensor.shape.rank 0
  let v ← tensor.shape.asVec
  return s ++ e ++ ", shape: " ++ fmtVec v ++ "}"

/-- `assert!(c, "Index={:?} is invalid for {:?}", index, self)`, index.rs:29-30: if the condition fails the message is
formatted, which prints the tensor, and then the call panics. The text itself is not kept: whether printing is defined does
not depend on the texts of the elements. -/
def ensureShown (tensor : Tensor α) (c : Prop) [Decidable c] : Res Unit :=
  if c then .ok ()
  else do
    let _ ← debug (fun _ => "") "" tensor
    panicked

end Fmt

/-- `Index<(usize, usize)>`, index.rs:21-38. -/
def Tensor.index2 {α : Type} (t : Tensor α) (i0 i1 : Nat) : Res α := do
  ensure (t.shape.rank > 1)
  let d1 ← t.shape.rdim 1
  Fmt.ensureShown t (i0 < d1)
  let d0 ← t.shape.rdim 0
  Fmt.ensureShown t (i1 < d0)
  let offset := i1 + d0 * i0
  ensure (offset < t.size)
  t.index1 offset

end Essay
