import Verif.Model.Map

/-!
# Model of `src/math/num.rs` and of `zeros`/`ones`/`fill` in `src/init/mod.rs`

The element arithmetic (`std::ops` on the element type) is a parameter: `Arith T U V` gives each operator as a function
that may panic (overflow, division by zero). Taking operands by value or by reference makes no difference here.
-/

namespace Essay

variable [Build]

/-- The element operators used by num.rs: `T op U -> V` for the ten binary operators of `std::ops`. Not from /repo. -/
structure Arith (T U V : Type) where
  add : T → U → Res V
  sub : T → U → Res V
  mul : T → U → Res V
  div : T → U → Res V
  rem : T → U → Res V
  bitand : T → U → Res V
  bitor : T → U → Res V
  bitxor : T → U → Res V
  shl : T → U → Res V
  shr : T → U → Res V

namespace Tensor

variable {T U V : Type}

/-- Runs an operation whose closures capture no mutable state. -/
def runPure {α : Type} (x : Exec Unit α) : Res α := do
  let r ← x.run ()
  return r.1

/-- `impl ops::$op<Tensor<U>> for Tensor<T>` and the three by-reference variants, `tensor_ops2!`, num.rs:105-155. -/
def opTT (binop : T → U → Res V) (self : Tensor T) (rhs : Tensor U) : Res (Tensor V) :=
  runPure (self.map2 rhs fun x y => (liftM (binop x y) : Exec Unit V))

/-- `impl ops::$op<U> for Tensor<T>` and `&Tensor<T>`, `tensor_ops2!`, num.rs:157-181. -/
def opTS (binop : T → U → Res V) (self : Tensor T) (y : U) : Res (Tensor V) :=
  runPure (self.map fun x => (liftM (binop x y) : Exec Unit V))

/-- `impl ops::$op<Tensor<$sty>> for $sty` and `&Tensor<$sty>`, `tensor_ops2!`, num.rs:183-202. -/
def opST (binop : T → U → Res V) (self : T) (tensor : Tensor U) : Res (Tensor V) :=
  let x := self
  runPure (tensor.map fun y => (liftM (binop x y) : Exec Unit V))

/-- The operators of a tensor, `tensor_ops2!(Add, add, x, y, x.clone() + y.clone(), ..)` and the nine others,
num.rs:206-254. -/
inductive OpName where
  | add | sub | mul | div | rem | bitand | bitor | bitxor | shl | shr
  deriving DecidableEq, Repr

/-- The `$binop` expression of each `tensor_ops2!` instance, num.rs:206-254. -/
def OpName.binop (ar : Arith T U V) : OpName → T → U → Res V
  | add => fun x y => ar.add x y
  | sub => fun x y => ar.sub x y
  | mul => fun x y => ar.mul x y
  | div => fun x y => ar.div x y
  | rem => fun x y => ar.rem x y
  | bitand => fun x y => ar.bitand x y
  | bitor => fun x y => ar.bitor x y
  | bitxor => fun x y => ar.bitxor x y
  | shl => fun x y => ar.shl x y
  | shr => fun x y => ar.shr x y

/-- `a $op b` for tensors, num.rs:206-254. -/
def binary (ar : Arith T U V) (op : OpName) (a : Tensor T) (b : Tensor U) : Res (Tensor V) := opTT (op.binop ar) a b

/-- `a $op y` for a tensor and a scalar, num.rs:206-254. -/
def binaryScalar (ar : Arith T U V) (op : OpName) (a : Tensor T) (y : U) : Res (Tensor V) := opTS (op.binop ar) a y

/-- `x $op b` for a primitive scalar and a tensor, num.rs:206-254. -/
def scalarBinary (ar : Arith T U V) (op : OpName) (x : T) (b : Tensor U) : Res (Tensor V) := opST (op.binop ar) x b

/-- The unary elementwise methods `abs`, `neg`, `is_negative`, `is_positive`, `square` and the operators `-`, `!`:
num.rs:7-12, 19-32, 52-57, 63-97. `f` is the element operation. -/
def unary (f : T → Res V) (a : Tensor T) : Res (Tensor V) :=
  runPure (a.map fun v => (liftM (f v) : Exec Unit V))

/-- `Tensor::square`, num.rs:52-57. -/
def square (ar : Arith T T V) (a : Tensor T) : Res (Tensor V) := unary (fun v => ar.mul v v) a

/-- `Tensor::min`, num.rs:36-39, for an element order `le` (`Ord::min` returns the first argument on ties). -/
def min (le : T → T → Bool) (a rhs : Tensor T) : Res (Tensor T) :=
  opTT (fun x y => .ok (if le x y then x else y)) a rhs

/-- `Tensor::max`, num.rs:41-44 (`Ord::max` returns the second argument on ties). -/
def max (le : T → T → Bool) (a rhs : Tensor T) : Res (Tensor T) :=
  opTT (fun x y => .ok (if le x y then y else x)) a rhs

/-- `Tensor::abs_sub`, num.rs:14-17. -/
def absSub (f : T → T → Res T) (a rhs : Tensor T) : Res (Tensor T) := opTT f a rhs

/-- `Iterator::partial_cmp` of the standard library: the first element pair that is not `Equal` decides; then the
lengths. -/
def iterPartialCmp (cmp : T → T → Option Ordering) : List T → List T → Option Ordering
  | [], [] => some .eq
  | [], _ :: _ => some .lt
  | _ :: _, [] => some .gt
  | x :: xs, y :: ys =>
    match cmp x y with
    | some .eq => iterPartialCmp cmp xs ys
    | r => r

/-- `PartialOrd for Tensor`, num.rs:46-50. -/
def partialCmp (cmp : T → T → Option Ordering) (t u : Tensor T) : Res (Option Ordering) := do
  let xs ← t.asSlice
  let ys ← u.asSlice
  return iterPartialCmp cmp xs ys

/-- `fill`, init/mod.rs:36-38, and `Tensor::fill`, init/mod.rs:54-59. -/
def fill (shape : Shape) (value : V) : Res (Tensor V) := runPure (init shape (pure value : Exec Unit V))

/-- `zeros`, init/mod.rs:32-34, and `Tensor::zeros`, init/mod.rs:40-45. -/
def zeros [Zero V] (shape : Shape) : Res (Tensor V) := runPure (init shape (pure 0 : Exec Unit V))

/-- `ones`, init/mod.rs:28-30, and `Tensor::ones`, init/mod.rs:47-52. -/
def ones [One V] (shape : Shape) : Res (Tensor V) := runPure (init shape (pure 1 : Exec Unit V))

/-- `Tensor::init_default`, tensor.rs:256-261; `default` is `T::default()` of the element type. -/
def initDefault (default : V) (shape : Shape) : Res (Tensor V) := runPure (init shape (pure default : Exec Unit V))

end Tensor

end Essay
