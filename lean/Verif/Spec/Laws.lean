import Verif.Spec.Ops
import Verif.Spec.Array
import Verif.Model.Linalg

/-!
# Specification vocabulary for laws between operations
-/

namespace Essay

variable {T V : Type}

/-- Two calls agree: both fail in the same way, or both return tensors with the same dimensions and elements. -/
def Agree (x y : Res (Tensor V)) : Prop :=
  (∃ e, x = .error e ∧ y = .error e) ∨ ∃ t u ds xs, x = .ok t ∧ y = .ok u ∧ Rep t ds xs ∧ Rep u ds xs

/-- Two calls both succeed, with the dimensions `ds` and the same elements. -/
def Same (x y : Res (Tensor V)) (ds : List Nat) : Prop :=
  ∃ t u xs, x = .ok t ∧ y = .ok u ∧ Rep t ds xs ∧ Rep u ds xs

/-- A matrix product with its dimensions put right: `matmul` returns the elements of `m x n` matrices with the dimensions
`[n, m]` (C39), so reshape to `[m, n]`. -/
def product {F : Type} (fo : FOps F) (A : List Nat) (m n : Nat) (a b : Tensor F) : Res (Tensor F) := do
  let t ← Linalg.matmul fo a b
  t.reshape (Shape.ofDims (A ++ [m, n]))

/-- An arithmetic expression a user can write with tensors as variables: operators between tensors, operators with a
scalar on either side, and elementwise methods. -/
inductive TExpr (T : Type) where
  | var (n : Nat)
  | un (f : T → Res T) (e : TExpr T)
  | bin (op : Tensor.OpName) (e1 e2 : TExpr T)
  | scalR (op : Tensor.OpName) (e : TExpr T) (y : T)
  | scalL (op : Tensor.OpName) (x : T) (e : TExpr T)

namespace TExpr

/-- The variables of an expression. -/
def vars : TExpr T → List Nat
  | var n => [n]
  | un _ e => e.vars
  | bin _ e1 e2 => e1.vars ++ e2.vars
  | scalR _ e _ => e.vars
  | scalL _ _ e => e.vars

/-- The expression evaluated with tensors for the variables, by the tensor operations. -/
def eval (ar : Arith T T T) (ρ : Nat → Tensor T) : TExpr T → Res (Tensor T)
  | var n => .ok (ρ n)
  | un f e => do
    let t ← e.eval ar ρ
    Tensor.unary f t
  | bin op e1 e2 => do
    let t ← e1.eval ar ρ
    let u ← e2.eval ar ρ
    Tensor.binary ar op t u
  | scalR op e y => do
    let t ← e.eval ar ρ
    Tensor.binaryScalar ar op t y
  | scalL op x e => do
    let t ← e.eval ar ρ
    Tensor.scalarBinary ar op x t

/-- The same expression evaluated with one number for each variable. -/
def value (ar : Arith T T T) (v : Nat → T) : TExpr T → Res T
  | var n => .ok (v n)
  | un f e => do
    let x ← e.value ar v
    f x
  | bin op e1 e2 => do
    let x ← e1.value ar v
    let y ← e2.value ar v
    meaning ar op x y
  | scalR op e y => do
    let x ← e.value ar v
    meaning ar op x y
  | scalL op x e => do
    let y ← e.value ar v
    meaning ar op x y

/-- The element functions of an expression have no undefined behaviour (they may panic). -/
def Safe (ar : Arith T T T) : TExpr T → Prop
  | var _ => True
  | un f e => (∀ x, f x ≠ .error .ub) ∧ e.Safe ar
  | bin op e1 e2 => (∀ x y, meaning ar op x y ≠ .error .ub) ∧ e1.Safe ar ∧ e2.Safe ar
  | scalR op e y => (∀ x, meaning ar op x y ≠ .error .ub) ∧ e.Safe ar
  | scalL op x e => (∀ y, meaning ar op x y ≠ .error .ub) ∧ e.Safe ar

end TExpr

/-- `big` is the common shape of the variables `ns`: the dimensions of each are a suffix of it, and one has it. -/
def CommonShape (ns : List Nat) (ds : Nat → List Nat) (big : List Nat) : Prop :=
  (∀ n ∈ ns, ds n <:+ big) ∧ ∃ n ∈ ns, ds n = big

/-- `v` gives each of the variables `ns` its element at the trailing coordinates of the index `idx` of `big`. -/
def ElementsAt (ns : List Nat) (ds : Nat → List Nat) (xs : Nat → List T) (big idx : List Nat) (v : Nat → T) : Prop :=
  (∃ p, ravel big idx = some p) ∧
    ∀ n ∈ ns, at? (ds n) (xs n) (idx.drop (big.length - (ds n).length)) = some (v n)

/-- The sums of the first 1, 2, .. numbers of a list, each increased by `acc`. -/
def runningSums : Nat → List Nat → List Nat
  | _, [] => []
  | acc, d :: ds => (acc + d) :: runningSums (acc + d) ds

end Essay
