import Verif.Tests.Basic
import Verif.Model.Array

/-! # Tests of /repo: src/array/{split,stack,tile,transpose}.rs -/

namespace Essay.Tests

open Shape Tensor

/-- `assert_eq!` for vectors of tensors. -/
def sameAll {α : Type} [DecidableEq α] (a : Res (List (Tensor α))) (b : List (Res (Tensor α))) : Bool :=
  match a with
  | .ok ts => decide (ts.length = b.length) && (ts.zip b).all fun (t, u) => same (.ok t) u
  | .error _ => false

-- test_split, test_split_axis, test_vsplit, test_hsplit, test_dsplit
example : sameAll (do (← ten2 [[1, 2], [3, 4]]).split (.splitEqual 2)) [ten2 [[1, 2]], ten2 [[3, 4]]] ∧
    sameAll (do (← ten1 [1, 2, 3, 4]).split (.splitCuts [1, 3])) [ten1 [1], ten1 [2, 3], ten1 [4]] ∧
    sameAll (do (← ten2 [[1, 2], [3, 4]]).splitAxis (some 1) (.splitEqual 2)) [ten2 [[1], [3]], ten2 [[2], [4]]] ∧
    sameAll (do (← ten2 [[1, 2], [3, 4]]).vsplit (.splitEqual 2)) [ten2 [[1, 2]], ten2 [[3, 4]]] ∧
    sameAll (do (← ten1 [1, 2, 3, 4]).vsplit (.splitCuts [1, 3])) [ten1 [1], ten1 [2, 3], ten1 [4]] ∧
    sameAll (do (← ten2 [[1, 2], [3, 4]]).hsplit (.splitEqual 2)) [ten2 [[1], [3]], ten2 [[2], [4]]] ∧
    sameAll (do (← ten3 [[[1, 2], [3, 4]], [[5, 6], [7, 8]]]).dsplit (.splitEqual 2))
      [ten3 [[[1], [3]], [[5], [7]]], ten3 [[[2], [4]], [[6], [8]]]] := by decide +kernel

-- test_concat
example : same (do concatenate [← ten1 [1], ← ten1 [10]]) (ten1 [1, 10]) ∧
    same (do concatenate [← ten1 [1, 2], ← ten1 [10, 20, 30]]) (ten1 [1, 2, 10, 20, 30]) ∧
    same (do concatenate [← ten2 [[1], [2]], ← ten2 [[10], [20], [30]]]) (ten2 [[1], [2], [10], [20], [30]]) ∧
    same (do concatenate [← ten2 [[1, 2]], ← ten2 [[10, 20], [30, 40]]]) (ten2 [[1, 2], [10, 20], [30, 40]]) ∧
    same (do concatenate [← ten3 [[[1, 2]]], ← ten3 [[[10, 20]], [[30, 40]]]]) (ten3 [[[1, 2]], [[10, 20]], [[30, 40]]]) := by
  decide +kernel
-- test_concat_axis
example : same (do concatenateAxis (some 0) [← ten1 [1], ← ten1 [10]]) (ten1 [1, 10]) ∧
    same (do concatenateAxis (some (-1)) [← ten1 [1, 2], ← ten1 [10, 20, 30]]) (ten1 [1, 2, 10, 20, 30]) ∧
    same (do concatenateAxis (some 0) [← ten2 [[1, 2]], ← ten2 [[10, 20]]]) (ten2 [[1, 2], [10, 20]]) ∧
    same (do concatenateAxis (some 1) [← ten2 [[1, 2]], ← ten2 [[10, 20]]]) (ten2 [[1, 2, 10, 20]]) ∧
    same (do concatenateAxis (some 1) [← ten2 [[1, 2], [3, 4]], ← ten2 [[10], [20]]]) (ten2 [[1, 2, 10], [3, 4, 20]]) := by
  decide +kernel
-- test_stack, test_stack_axis
example : same (do stack [← ten1 [1], ← ten1 [10]]) (ten2 [[1], [10]]) ∧
    same (do stack [← ten1 [1, 2, 3, 4], ← ten1 [10, 20, 30, 40]]) (ten2 [[1, 2, 3, 4], [10, 20, 30, 40]]) ∧
    same (do stackVec (some (-1)) [← ten1 [1], ← ten1 [10]]) (ten2 [[1, 10]]) ∧
    same (do stackVec (some (-1)) [← ten1 [1, 2, 3, 4], ← ten1 [10, 20, 30, 40]]) (ten2 [[1, 10], [2, 20], [3, 30], [4, 40]]) := by
  decide +kernel
-- test_dstack
example : same (do dstack [← ten1 [1], ← ten1 [10]]) (ten3 [[[1, 10]]]) ∧
    same (do dstack [← ten1 [1, 2], ← ten1 [10, 20]]) (ten3 [[[1, 10], [2, 20]]]) ∧
    same (do dstack [← ten2 [[1], [2], [3]], ← ten2 [[10], [20], [30]]]) (ten3 [[[1, 10]], [[2, 20]], [[3, 30]]]) := by
  decide +kernel
-- test_hstack
example : same (do hstack [← ten1 [1, 2], ← ten1 [10, 20, 30]]) (ten1 [1, 2, 10, 20, 30]) ∧
    same (do hstack [← ten2 [[1, 2]], ← ten2 [[10, 20]]]) (ten2 [[1, 2, 10, 20]]) ∧
    same (do hstack [← ten2 [[1], [2]], ← ten2 [[10], [20]]]) (ten2 [[1, 10], [2, 20]]) := by decide +kernel
-- test_vstack
example : same (do vstack [← ten1 [1], ← ten1 [10]]) (ten2 [[1], [10]]) ∧
    same (do vstack [← ten2 [[1, 2]], ← ten2 [[10, 20]]]) (ten3 [[[1, 2]], [[10, 20]]]) := by decide +kernel

/-- `tile(x, [..])`; the multiples are converted by `Tensor::from`. -/
def tiled (x : Res (Tensor Nat)) (m : List Nat) : Res (Tensor Nat) := do (← x).tile (← Tensor.ofVec1 m)

-- test_tile, tile_i32
example : same (tiled (ten1 [1]) [3]) (ten1 [1, 1, 1]) ∧ same (tiled (ten1 [1]) [2, 3]) (ten2 [[1, 1, 1], [1, 1, 1]]) ∧
    same (tiled (ten1 [1, 2]) [3]) (ten1 [1, 2, 1, 2, 1, 2]) ∧
    same (tiled (ten2 [[1], [2]]) [3]) (ten2 [[1, 1, 1], [2, 2, 2]]) ∧
    same (tiled (ten1 [1, 2]) [2, 3]) (ten2 [[1, 2, 1, 2, 1, 2], [1, 2, 1, 2, 1, 2]]) := by decide +kernel

-- test_transpose
example : same (do (← ten1 [1, 2]).transpose) (ten2 [[1], [2]]) ∧
    same (do (← ten2 [[1, 2], [3, 4], [5, 6]]).transpose) (ten2 [[1, 3, 5], [2, 4, 6]]) := by decide +kernel

end Essay.Tests
