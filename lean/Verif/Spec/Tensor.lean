import Verif.Spec.Shape
import Verif.Model.Tensor

/-!
# Specification vocabulary for tensors

`Rep t ds xs`: the tensor `t` shows its user the dimensions `ds` (outermost first, by `as_vec`) and the flat elements
`xs` (by `as_slice`), and is a valid view of its buffer. `ravel ds idx` is the row-major position of a multi-index.
-/

namespace Essay

/-- The element count of every trailing group of dimensions fits in 32 bits. For dimensions that are all positive this
just says that the product is below 2^32. -/
def Fits (ds : List Nat) : Prop := ∀ k, (ds.drop k).prod < 2 ^ 32

/-- Row-major position of the multi-index `idx` in an array of dimensions `ds`; `none` when it is out of range or has
the wrong length. -/
def ravel : List Nat → List Nat → Option Nat
  | [], [] => some 0
  | d :: ds, i :: is => if i < d then (ravel ds is).map (i * ds.prod + ·) else none
  | _, _ => none

namespace Tensor

variable {α : Type}

/-- The elements the view covers. -/
def elems (t : Tensor α) : List α := (t.data.drop t.offset).take t.size

/-- A valid view: well-formed shape, `size` is the shape's element count, and the range lies inside the buffer. -/
structure WF (t : Tensor α) : Prop where
  shape : t.shape.WF
  size : t.shape.size = .ok t.size
  bound : t.offset + t.size ≤ t.data.length

end Tensor

/-- `t` is a valid view showing dimensions `ds` and elements `xs`. -/
structure Rep {α : Type} (t : Tensor α) (ds : List Nat) (xs : List α) : Prop where
  wf : t.WF
  dims : t.shape.asVec = .ok ds
  elems : t.asSlice = .ok xs

/-- `RepAll ts ps`: the tensors `ts` show, one by one, the dimensions and elements listed in `ps`. -/
inductive RepAll {α : Type} : List (Tensor α) → List (List Nat × List α) → Prop
  | nil : RepAll [] []
  | cons {t ds xs ts ps} : Rep t ds xs → RepAll ts ps → RepAll (t :: ts) ((ds, xs) :: ps)

/-- The element of an array (dimensions `ds`, flat elements `xs`) at a multi-index. -/
def at? {α : Type} (ds : List Nat) (xs : List α) (idx : List Nat) : Option α :=
  (ravel ds idx).bind fun p => xs[p]?

/-- `Yields x y ds`: from every closure state, the operation `x` behaves as the computation `y` (same calls, same final
closure state, same failure), and when `y` returns the list `ys`, `x` returns a tensor with dimensions `ds` and
elements `ys`. -/
def Yields {σ α : Type} (x : Exec σ (Tensor α)) (y : Exec σ (List α)) (ds : List Nat) : Prop :=
  ∀ s, match y.run s with
    | .error e => x.run s = .error e
    | .ok (ys, s') => ∃ t, x.run s = .ok (t, s') ∧ Rep t ds ys

end Essay
