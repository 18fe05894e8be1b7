import Verif.Tests.Basic
import Verif.Model.Linalg
import Verif.Model.Stats
import Verif.Model.Signal
import Verif.Model.Init
import Verif.Spec.Float
import Mathlib.Data.Rat.Init
import Mathlib.Algebra.Order.Ring.Rat
import Mathlib.Data.Nat.Sqrt

/-!
# Tests of /repo: src/init/{matrix,vector}.rs, src/linalg/{matmul,matvec}.rs, src/math/{reduce,num,float}.rs, src/stats, src/signal

Over the rationals: every value these tests use is a rational that `f32` represents exactly, except those noted.
-/

namespace Essay.Tests

open Shape Tensor Init Linalg Stats

/-- Exact arithmetic; the transcendental functions are not used by the tests here. -/
def q : FOps ℚ := FOps.exact id id id fun x _ => x

-- test_eye, test_identity
example : same (eye 0) (Tensor.ofScalar (0 : ℚ)) ∧ same (eye 1) (ten2 [[(1 : ℚ)]]) ∧ same (eye 2) (ten2 [[(1 : ℚ), 0], [0, 1]]) ∧
    same (identity 4) (ten2 [[(1 : ℚ), 0, 0, 0], [0, 1, 0, 0], [0, 0, 1, 0], [0, 0, 0, 1]]) := by decide +kernel
-- test_diagflat, test_tri
example : same (do diagflat (← ten1 [(1 : ℚ), 2, 3])) (ten2 [[1, 0, 0], [0, 2, 0], [0, 0, 3]]) ∧
    same (tri 1) (ten2 [[(1 : ℚ)]]) ∧ same (tri 2) (ten2 [[(1 : ℚ), 0], [1, 1]]) ∧
    same (tri 4) (ten2 [[(1 : ℚ), 0, 0, 0], [1, 1, 0, 0], [1, 1, 1, 0], [1, 1, 1, 1]]) := by decide +kernel
-- test_tril (the literal `ten!([..])` has a leading dimension 1), test_triu
example : same (do tril (← ten3 [[[(1 : ℚ), 2, 3, 4], [11, 12, 13, 14], [21, 22, 23, 24], [31, 32, 33, 34]]]))
      (ten3 [[[1, 0, 0, 0], [11, 12, 0, 0], [21, 22, 23, 0], [31, 32, 33, 34]]]) ∧
    same (do triu (← ten2 [[(1 : ℚ), 2, 3, 4], [11, 12, 13, 14], [21, 22, 23, 24], [31, 32, 33, 34]]))
      (ten2 [[1, 2, 3, 4], [0, 12, 13, 14], [0, 0, 23, 24], [0, 0, 0, 34]]) := by decide +kernel

/-- `linspace` of two scalars. -/
def lin (a b : ℚ) (n : Nat) : Res (Tensor ℚ) := do linspace q (← Tensor.ofScalar a) (← Tensor.ofScalar b) n

/-- `assert_eq!` for arrays of tensors. -/
def sameList {α : Type} [DecidableEq α] (a : Res (List (Tensor α))) (b : List (Res (Tensor α))) : Bool :=
  match a with
  | .ok ts => decide (ts.length = b.length) && (ts.zip b).all fun (t, u) => same (.ok t) u
  | .error _ => false

-- linspace_0_4_5, linspace_vector_n, linspace_tensor
example : same (lin 0 1 2) (ten1 [0, 1]) ∧ same (lin 0 4 5) (ten1 [0, 1, 2, 3, 4]) ∧ same (lin 0 4 0) (Tensor.ofVec1 []) ∧
    same (do linspace q (← ten1 [0]) (← ten1 [1]) 2) (ten2 [[0], [1]]) ∧
    same (do linspace q (← ten1 [0, 0, 0]) (← ten1 [1, 2, 3]) 2) (ten2 [[0, 0, 0], [1, 2, 3]]) ∧
    same (do linspace q (← ten2 [[0]]) (← ten2 [[1]]) 2) (ten3 [[[0]], [[1]]]) ∧
    same (do linspace q (← ten2 [[0, 0, 0], [0, 0, 0]]) (← ten2 [[1, 2, 3], [10, 20, 30]]) 3)
      (ten3 [[[0, 0, 0], [0, 0, 0]], [[1 / 2, 1, 3 / 2], [5, 10, 15]], [[1, 2, 3], [10, 20, 30]]]) := by decide +kernel
-- basic_one_hot
example : same (oneHot q [0] 3) (ten1 [1, 0, 0]) ∧ same (oneHot q [1] 3) (ten1 [0, 1, 0]) ∧
    same (oneHot q [2] 3) (ten1 [0, 0, 1]) ∧ same (oneHot q [0, 2] 3) (ten1 [1, 0, 1]) := by decide +kernel
-- meshgrid_1d, meshgrid_xy_2d, meshgrid_xyz_3d
example : sameList (do meshgrid [← lin 0 3 4]) [ten1 [0, 1, 2, 3]] ∧
    sameList (do meshgrid [← lin 0 1 2, ← lin 0 2 3]) [ten2 [[0, 1], [0, 1], [0, 1]], ten2 [[0, 0], [1, 1], [2, 2]]] := by
  decide +kernel
example : sameList (do meshgrid [← lin 0 1 2, ← lin 0 2 3, ← lin 0 3 4]) [
    ten3 [[[0, 1], [0, 1], [0, 1]], [[0, 1], [0, 1], [0, 1]], [[0, 1], [0, 1], [0, 1]], [[0, 1], [0, 1], [0, 1]]],
    ten3 [[[0, 0], [1, 1], [2, 2]], [[0, 0], [1, 1], [2, 2]], [[0, 0], [1, 1], [2, 2]], [[0, 0], [1, 1], [2, 2]]],
    ten3 [[[0, 0], [0, 0], [0, 0]], [[1, 1], [1, 1], [1, 1]], [[2, 2], [2, 2], [2, 2]], [[3, 3], [3, 3], [3, 3]]]] := by
  decide +kernel
-- meshgrid_ij_1d, meshgrid_ij_2d, meshgrid_ij_3d
example : sameList (do meshgridIJ [← lin 0 3 4]) [ten1 [0, 1, 2, 3]] ∧
    sameList (do meshgridIJ [← lin 1 3 3, ← lin 10 20 2])
      [ten2 [[1, 1], [2, 2], [3, 3]], ten2 [[10, 20], [10, 20], [10, 20]]] := by decide +kernel
example : sameList (do meshgridIJ [← lin 0 3 4, ← lin 0 2 3, ← lin 0 1 2]) [
    ten3 [[[0, 0], [0, 0], [0, 0]], [[1, 1], [1, 1], [1, 1]], [[2, 2], [2, 2], [2, 2]], [[3, 3], [3, 3], [3, 3]]],
    ten3 [[[0, 0], [1, 1], [2, 2]], [[0, 0], [1, 1], [2, 2]], [[0, 0], [1, 1], [2, 2]], [[0, 0], [1, 1], [2, 2]]],
    ten3 [[[0, 1], [0, 1], [0, 1]], [[0, 1], [0, 1], [0, 1]], [[0, 1], [0, 1], [0, 1]], [[0, 1], [0, 1], [0, 1]]]] := by
  decide +kernel

/-- `matmul_t` of two matrices written `ten!([[..]])`, with a leading dimension 1. -/
def mm (t : Transpose) (a b : List (List ℚ)) : Res (Tensor ℚ) := do matmulT q (← ten3 [a]) (← ten3 [b]) t

-- test_matmul_1, test_matmul_vectors, test_matmul_square
example : same (mm .none [[2]] [[3]]) (ten3 [[[6]]]) ∧ same (mm .none [[1, 2]] [[1], [3]]) (ten3 [[[7]]]) ∧
    same (mm .none [[1], [3]] [[1, 2]]) (ten3 [[[1, 2], [3, 6]]]) ∧
    same (mm .none [[1, 0], [0, 1]] [[1, 0], [0, 2]]) (ten3 [[[1, 0], [0, 2]]]) ∧
    same (mm .none [[1, 0], [0, 2]] [[1, 0], [0, 2]]) (ten3 [[[1, 0], [0, 4]]]) ∧
    same (mm .none [[1, 1], [0, 1]] [[1, 1], [0, 1]]) (ten3 [[[1, 2], [0, 1]]]) ∧
    same (mm .none [[1, 0], [1, 1]] [[1, 0], [1, 1]]) (ten3 [[[1, 0], [2, 1]]]) := by decide +kernel
-- test_matmul_2x3
example : same (mm .none [[1, 0, 2], [0, 1, 10]] [[1, 0], [0, 1], [3, 4]]) (ten3 [[[7, 8], [30, 41]]]) ∧
    same (mm .none [[1, 0], [0, 1], [3, 4]] [[1, 0, 2], [0, 1, 10]]) (ten3 [[[1, 0, 2], [0, 1, 10], [3, 4, 46]]]) := by
  decide +kernel
-- matmul_transpose_none, matmul_transpose_a, matmul_transpose_b, matmul_transpose_ab, matmul_2_2_transpose
example : same (mm .none [[1, 2]] [[10], [20]]) (ten3 [[[50]]]) ∧ same (mm .transposeA [[1], [2]] [[10], [20]]) (ten3 [[[50]]]) ∧
    same (mm .transposeB [[1, 2]] [[10, 20]]) (ten3 [[[50]]]) ∧ same (mm .transposeAB [[1], [2]] [[10, 20]]) (ten3 [[[50]]]) ∧
    same (mm .none [[1, 2], [3, 4]] [[10, 20], [30, 40]]) (ten3 [[[70, 100], [150, 220]]]) ∧
    same (mm .transposeA [[1, 2], [3, 4]] [[10, 20], [30, 40]]) (ten3 [[[100, 140], [140, 200]]]) ∧
    same (mm .transposeB [[1, 2], [3, 4]] [[10, 20], [30, 40]]) (ten3 [[[50, 110], [110, 250]]]) := by decide +kernel
-- matmul_1_2_2_3_transpose fails: the dims of a product that is not square are swapped (matmul.rs:58)
example : view (mm .none [[1, 2]] [[10, 20, 30], [40, 50, 60]]) = .ok ([1, 3, 1], [90, 120, 150]) ∧
    view (mm .transposeA [[1], [2]] [[10, 20, 30], [40, 50, 60]]) = .ok ([1, 3, 1], [90, 120, 150]) ∧
    view (mm .transposeB [[1, 2]] [[10, 40], [20, 50], [30, 60]]) = .ok ([1, 3, 1], [90, 120, 150]) := by decide +kernel

/-- `matvec_t` of a matrix and a vector. -/
def mv (t : Transpose) (a : List (List ℚ)) (x : List ℚ) : Res (Tensor ℚ) := do matvecT q (← ten2 a) (← ten1 x) t

-- test_matvec_1_1, test_matvec_1_2, test_matvec_2_n, test_matvec_3_n, test_matvec_t, matvec_2x1_by_2
example : same (mv .none [[2]] [3]) (ten1 [6]) ∧ same (mv .none [[1, 2]] [3, 4]) (ten1 [11]) ∧
    same (mv .none [[1], [2]] [2]) (ten1 [2, 4]) ∧ same (mv .none [[1, 2], [2, 3]] [2, 3]) (ten1 [8, 13]) ∧
    same (mv .none [[1], [2], [3]] [2]) (ten1 [2, 4, 6]) ∧
    same (mv .none [[1, 4], [2, 5], [3, 6]] [10, 20]) (ten1 [90, 120, 150]) ∧
    same (mv .transposeA [[1, 2, 3], [4, 5, 6]] [10, 20]) (ten1 [90, 120, 150]) ∧
    panics (mv .none [[10], [20]] [1, 3]) := by decide +kernel

/-- `reduce_sum` and `reduce_sum_axis`. -/
def sum (t : Res (Tensor ℚ)) : Res (Tensor ℚ) := do reduceOp (fun a b => .ok (a + b)) (← t)
def sumAxis (t : Res (Tensor ℚ)) (axis : Axis) : Res (Tensor ℚ) := do reduceOpAxis (fun a b => .ok (a + b)) (← t) axis

-- reduce_sum_*
example : same (sum (ten1 [1])) (Tensor.ofScalar 1) ∧ same (sum (ten1 [1, 10])) (Tensor.ofScalar 11) ∧
    same (sum (ten2 [[1, 10]])) (Tensor.ofScalar 11) ∧ same (sumAxis (ten2 [[1], [2]]) (some (-1))) (ten1 [1, 2]) ∧
    same (sumAxis (ten2 [[1, 10], [2, 20]]) (some (-1))) (ten1 [11, 22]) ∧
    same (sumAxis (ten3 [[[1]], [[2]]]) (some (-1))) (ten2 [[1], [2]]) ∧
    same (sumAxis (ten3 [[[20, 2]], [[10, 1]]]) (some (-1))) (ten2 [[22], [11]]) ∧
    same (sumAxis (ten2 [[1, 10], [100, 1000]]) none) (Tensor.ofScalar 1111) ∧
    same (sumAxis (ten4 [[[[1, 10]]], [[[100, 1000]]]]) none) (Tensor.ofScalar 1111) ∧
    same (sumAxis (ten2 [[1], [2]]) (some 0)) (ten1 [3]) ∧
    same (sumAxis (ten2 [[1, 10], [100, 1000]]) (some 0)) (ten1 [101, 1010]) := by decide +kernel
-- reduce_max, reduce_min
example : same (do reduceMax q (← ten1 [1, 3, 2])) (Tensor.ofScalar 3) ∧
    same (do reduceMin q (← ten2 [[1, 3, 2]])) (Tensor.ofScalar 1) := by decide +kernel

/-- Exact arithmetic with the square root of a square. -/
def qr : FOps ℚ := FOps.exact id id (fun x => (Nat.sqrt x.num.toNat : ℚ) / (Nat.sqrt x.den : ℚ)) fun x _ => x

-- reduce_hypot
example : same (do reduceHypot qr (← ten1 [3, 4])) (Tensor.ofScalar 5) ∧
    same (do reduceHypot qr (← ten1 [2, 2, 2, 2])) (Tensor.ofScalar 4) := by decide +kernel
-- reduce_mean, reduce_mean_axis; a rank 1 tensor reduced along its axis gives a scalar, so `ten!(2.)` fails for axis 0
example : same (do reduceMean q (← ten1 [1, 3])) (Tensor.ofScalar 2) ∧
    same (do reduceMean q (← ten2 [[1, 3], [4, 0]])) (Tensor.ofScalar 2) ∧
    same (do reduceMeanAxis q (← ten2 [[1, 3], [4, 6]]) none) (Tensor.ofScalar (7 / 2)) ∧
    same (do reduceMeanAxis q (← ten3 [[[1, 3]], [[4, 6]]]) none) (Tensor.ofScalar (7 / 2)) ∧
    same (do reduceMeanAxis q (← ten1 [1, 3]) (some (-1))) (Tensor.ofScalar 2) ∧
    same (do reduceMeanAxis q (← ten2 [[1, 3], [4, 6]]) (some (-1))) (ten1 [2, 5]) ∧
    same (do reduceMeanAxis q (← ten3 [[[1, 3]], [[4, 6]]]) (some (-1))) (ten2 [[2], [5]]) ∧
    same (do reduceMeanAxis q (← ten1 [1, 3]) (some 0)) (Tensor.ofScalar 2) ∧
    same (do reduceMeanAxis q (← ten2 [[1, 3], [4, 6]]) (some 0)) (ten1 [5 / 2, 9 / 2]) ∧
    same (do reduceMeanAxis q (← ten3 [[[1, 3]], [[4, 6]]]) (some 0)) (ten2 [[5 / 2, 9 / 2]]) := by decide +kernel
-- reduce_std (those with a rational result), reduce_var (0.8888889 is 8/9)
example : same (do reduceStd qr (← ten1 [1])) (Tensor.ofScalar 0) ∧ same (do reduceStd qr (← ten1 [2, 2, 2, 2])) (Tensor.ofScalar 0) ∧
    same (do reduceStd qr (← ten1 [1, 3])) (Tensor.ofScalar 1) ∧ same (do reduceStd qr (← ten1 [1, 3, 1, 3])) (Tensor.ofScalar 1) ∧
    same (do reduceStdAxis qr (← ten2 [[1, 3], [2, 2]]) (some (-1))) (ten1 [1, 0]) ∧
    same (do reduceStdAxis qr (← ten2 [[1, 3], [2, 2]]) (some 0)) (ten1 [1 / 2, 1 / 2]) := by decide +kernel
example : same (do reduceVariance q (← ten2 [[1]])) (Tensor.ofScalar 0) ∧
    same (do reduceVariance q (← ten2 [[1, 3]])) (Tensor.ofScalar 1) ∧
    same (do reduceVariance q (← ten2 [[1, 3, 3]])) (Tensor.ofScalar (8 / 9)) ∧
    same (do reduceVariance q (← ten2 [[1, 3, 4, 0]])) (Tensor.ofScalar (5 / 2)) ∧
    same (do reduceVariance q (← ten2 [[1, 3, 4, 0, 2]])) (Tensor.ofScalar 2) := by decide +kernel

/-- Exact arithmetic for `histogram`. -/
def qs : FStat ℚ := { q with maxValue := 10 ^ 9, minValue := -10 ^ 9, epsilon := 1 / 10 ^ 6, floorUsize := fun x => x.floor.toNat }

/-- Both parts of a histogram. -/
def hist (t : Res (Tensor ℚ)) (n : Nat) (a b : Res (Tensor ℚ)) : Bool :=
  match (do histogram qs (← t) n) with
  | .ok r => same (.ok r.1) a && same (.ok r.2) b
  | .error _ => false

-- histogram_default, histogram_bins, written with `ten!([..])`: they fail, the data must have rank 1 (histogram.rs:6)
example : panics (do histogram qs (← ten2 [[0, 1, 2, 1, 3, 10]]) 10) := by decide +kernel
-- with vectors they pass
example : hist (ten1 [0, 1, 2, 1, 3, 10]) 10 (ten1 [1, 2, 1, 1, 0, 0, 0, 0, 0, 1]) (ten1 [0, 1, 2, 3, 4, 5, 6, 7, 8, 9, 10]) ∧
    hist (ten1 [0, 10, 1, 19 / 10, 3 / 2]) 10 (ten1 [1, 3, 0, 0, 0, 0, 0, 0, 0, 1]) (ten1 [0, 1, 2, 3, 4, 5, 6, 7, 8, 9, 10]) ∧
    hist (ten1 [0, 1, 2, 1, 4]) 4 (ten1 [1, 2, 1, 1]) (ten1 [0, 1, 2, 3, 4]) := by decide +kernel
-- histogram2d_bins_2 fails: every `histogram2d` panics
example : panics (do histogram2d qs (← ten3 [[[0, 0], [1, 0], [1, 1], [51 / 100, 49 / 100]]]) 2) ∧
    panics (do histogram2d qs (← ten2 [[0, 0], [1, 0], [1, 1], [51 / 100, 49 / 100]]) 2) := by decide +kernel
-- test_frame_2_2, test_frame_3_2 fail: every `frame` panics
example : panics (do Signal.frame (← ten2 [[1, 2, 3, 4, 5, 6]]) 2 2) ∧ panics (do Signal.frame (← ten1 [1, 2, 3, 4, 5, 6]) 2 2) := by
  decide +kernel

/-- The operators of `i32` within its range. -/
def int32 : Arith Int Int Int where
  add a b := .ok (a + b)
  sub a b := .ok (a - b)
  mul a b := .ok (a * b)
  div a b := if b = 0 then panicked else .ok (a.tdiv b)
  rem a b := if b = 0 then panicked else .ok (a.tmod b)
  bitand a b := .ok (BitVec.ofInt 32 a &&& BitVec.ofInt 32 b).toInt
  bitor a b := .ok (BitVec.ofInt 32 a ||| BitVec.ofInt 32 b).toInt
  bitxor a b := .ok (BitVec.ofInt 32 a ^^^ BitVec.ofInt 32 b).toInt
  shl a b := .ok (BitVec.ofInt 32 a <<< b.toNat).toInt
  shr a b := .ok ((BitVec.ofInt 32 a).sshiftRight b.toNat).toInt

-- abs, neg
example : same (do unary (fun x => .ok (|x|)) (← ten2 [[1, -2], [-3, (4 : Int)]])) (ten2 [[1, 2], [3, 4]]) ∧
    differ (do unary (fun x => .ok (|x|)) (← ten2 [[-1, 2], [3, (-4 : Int)]])) (ten1 [1, 2, 3, 4]) ∧
    same (do unary (fun x => .ok (|x|)) (← (← ten2 [[1, 2], [-3, (4 : Int)]]).subslice 1 1)) (ten2 [[3, 4]]) ∧
    same (do unary (fun x => .ok (-x)) (← (← ten2 [[1, 2], [3, (4 : Int)]]).subslice 1 1)) (ten2 [[-3, -4]]) := by
  decide +kernel
-- binop_patterns, binop_patterns_order, add_i32, add_f32_broadcast
example : same (do binary int32 .add (← ten1 [2, 20]) (← ten1 [3, 30])) (ten1 [5, 50]) ∧
    same (do binaryScalar int32 .add (← ten1 [2, 20]) 3) (ten1 [5, 23]) ∧ same (do scalarBinary int32 .add 3 (← ten1 [2, 20])) (ten1 [5, 23]) ∧
    same (do binary int32 .sub (← ten1 [3, 30]) (← ten1 [2, 20])) (ten1 [1, 10]) ∧
    same (do binaryScalar int32 .sub (← ten1 [3, 30]) 2) (ten1 [1, 28]) ∧
    same (do scalarBinary int32 .sub 2 (← ten1 [3, 30])) (ten1 [-1, -28]) ∧
    same (do binary int32 .add (← Tensor.ofScalar 2) (← ten1 [1, 2, 3])) (ten1 [3, 4, 5]) ∧
    same (do binary int32 .add (← ten1 [1, 2, 3]) (← Tensor.ofScalar 2)) (ten1 [3, 4, 5]) ∧
    same (do binary int32 .add (← ten2 [[1, 2], [3, 4]]) (← ten1 [10, 20])) (ten2 [[11, 22], [13, 24]]) := by decide +kernel
-- binop_asymmetric
example : same (do opTT (fun (a b : Int) => .ok (a * 100 + b)) (← ten1 [2]) (← ten1 [3])) (ten1 [203]) ∧
    same (do opTS (fun (a b : Int) => .ok (a * 1000 + b)) (← ten1 [2]) 3) (ten1 [2003]) := by decide +kernel
-- bitand_patterns, bitor_patterns, bitxor_patterns, shl_patterns, shr_patterns, not_patterns
example : same (do binary int32 .bitand (← ten1 [0x3]) (← ten1 [0x6])) (ten1 [0x2]) ∧ same (do scalarBinary int32 .bitor 0x3 (← ten1 [0x6])) (ten1 [0x7]) ∧
    same (do binaryScalar int32 .bitxor (← ten1 [0x3]) 0x6) (ten1 [0x5]) ∧ same (do binary int32 .shl (← ten1 [0x3]) (← ten1 [0x2])) (ten1 [0xc]) ∧
    same (do scalarBinary int32 .shl 0x3 (← ten1 [0x2])) (ten1 [0xc]) ∧ same (do binary int32 .shr (← ten1 [0xc]) (← ten1 [0x2])) (ten1 [0x3]) ∧
    same (do unary (fun x => .ok (-x - 1)) (← ten1 [(3 : Int)])) (ten1 [-4]) := by decide +kernel

/-- `PartialOrd` of integers. -/
def cmp (a b : Nat) : Option Ordering := some (compare a b)

-- partial_ord
example : passes (do partialCmp cmp (← ten1 [0]) (← ten1 [1])) (some .lt) ∧ passes (do partialCmp cmp (← ten1 [1]) (← ten1 [0])) (some .gt) ∧
    passes (do partialCmp cmp (← ten1 [1]) (← ten1 [1])) (some .eq) := by decide +kernel
-- mul_add
example : same (do runPure (map3 (← ten1 [2]) (← ten1 [3]) (← ten1 [10]) fun a b c => pure (a * b + c))) (ten1 [16]) := by decide +kernel

end Essay.Tests
