import Verif.Model.Macro
import Verif.Model.Ops
import Verif.Model.Fmt

/-!
# The unit tests of /repo, run on the model

These are tests, not proofs: they check that the model does what the authors of the code expect of it. `passes` means that
the assertion holds in the model; `fails` that it does not, in which case the comment says why the code as it stands does
not pass it either.
-/

namespace Essay

namespace Tests

variable {α β : Type}

/-- `ten![a, b, ..]` -/
def ten1 (xs : List α) : Res (Tensor α) := (Macro.ten (xs.map .expr)).getD panicked

/-- `ten![[a, b], ..]`, also `ten!([a, b])` -/
def ten2 (xs : List (List α)) : Res (Tensor α) := (Macro.ten (xs.map fun x => .group (x.map .expr))).getD panicked

/-- `ten![[[a, b], ..], ..]`, also `ten!([[a, b], ..])` -/
def ten3 (xs : List (List (List α))) : Res (Tensor α) :=
  (Macro.ten (xs.map fun x => .group (x.map fun y => .group (y.map .expr)))).getD panicked

/-- `ten![[[[a, b], ..], ..], ..]`, also `ten!([[[a, b], ..], ..])` -/
def ten4 (xs : List (List (List (List α)))) : Res (Tensor α) :=
  (Macro.ten (xs.map fun x => .group (x.map fun y => .group (y.map fun z => .group (z.map .expr))))).getD panicked

/-- `assert_eq!(a, b)` for values. -/
def passes [DecidableEq α] (a : Res α) (b : α) : Bool := decide (a = .ok b)

/-- `assert_eq!(a, b)` for tensors. -/
def same [DecidableEq α] (a b : Res (Tensor α)) : Bool :=
  match a, b with
  | .ok t, .ok u => decide (t.eq u = .ok true)
  | _, _ => false

/-- `assert_ne!(a, b)` for tensors. -/
def differ [DecidableEq α] (a b : Res (Tensor α)) : Bool :=
  match a, b with
  | .ok t, .ok u => decide (t.eq u = .ok false)
  | _, _ => false

/-- A tensor's dimensions and elements, as `shape().as_vec()` and `as_slice()` give them. -/
def view (a : Res (Tensor α)) : Res (List Nat × List α) := do
  let t ← a
  let ds ← t.shape.asVec
  let xs ← t.asSlice
  return (ds, xs)

/-- The call panics. -/
def panics (a : Res α) : Bool :=
  match a with
  | .error .panic => true
  | _ => false

/-- A shape from an array. -/
def sh (ds : List Nat) : Res Shape := Shape.ofSlice ds

end Tests

end Essay
