import Verif.Tests.Basic
import Verif.Model.Signal
import Verif.Model.Fmt

/-!
# Tests of /repo: src/tensor/test/{from,tensor}.rs, src/tensor/{tensor,index,slice}.rs

The drop tests are in Tests/Heap.
-/

namespace Essay.Tests

open Shape

-- tensor_0_from_scalar, tensor_from_f32, tensor_scalar, tensor_rank_0
example : view (Tensor.ofScalar 10) = .ok ([], [10]) ∧ passes (do (← Tensor.ofScalar 10).get 0) (some 10) ∧
    passes (do (← Tensor.ofScalar 10).get 1) none ∧ passes (do (← Tensor.ofScalar 10).index1 0) 10 ∧
    passes (do (← Tensor.ofScalar 10).shape.cols) 0 := by decide +kernel
example : same (Tensor.ofScalar 10) (Tensor.ofScalar 10) ∧ differ (Tensor.ofScalar 10) (Tensor.ofScalar 11) ∧
    differ (Tensor.ofScalar 10) (Tensor.ofVec1 []) ∧ differ (Tensor.ofScalar 10) (Tensor.ofVec1 [10]) ∧
    same (Tensor.ofScalar 10) (do (← Tensor.ofScalar 10).reshape (← sh [])) ∧
    differ (Tensor.ofScalar 10) (do (← Tensor.ofScalar 10).reshape (← sh [1])) ∧
    same (do (← Tensor.ofScalar 10).reshape (← sh [1])) (do (← Tensor.ofScalar 10).reshape (← sh [1])) := by decide +kernel
-- tensor_empty, tensor_rank_1_empty
example : view (Tensor.ofVec1 ([] : List Nat)) = .ok ([0], []) ∧ passes (do (← Tensor.ofVec1 ([] : List Nat)).shape.cols) 0 ∧
    passes (do (← Tensor.ofVec1 ([] : List Nat)).shape.dim 0) 0 ∧ passes (do (← Tensor.ofVec1 ([] : List Nat)).get 0) none ∧
    differ (Tensor.ofVec1 []) (Tensor.ofScalar 0) ∧ differ (Tensor.ofVec1 []) (Tensor.ofVec1 [0]) ∧
    same (Tensor.ofVec1 ([] : List Nat)) (do (← Tensor.ofVec1 []).reshape (← sh [0])) := by decide +kernel
-- tensor_from_vec, tensor_rank_1
example : view (Tensor.ofVec1 [10, 11, 12]) = .ok ([3], [10, 11, 12]) ∧
    passes (do (← Tensor.ofVec1 [10, 11, 12]).shape.cols) 3 ∧ passes (do (← Tensor.ofVec1 [10, 11, 12]).get 2) (some 12) ∧
    passes (do (← Tensor.ofVec1 [10, 11, 12]).get 4) none := by decide +kernel
example : differ (Tensor.ofVec1 [0, 1, 2]) (Tensor.ofVec1 [0, 1, 3]) ∧ differ (Tensor.ofVec1 [0, 1, 2]) (Tensor.ofVec1 [0, 1]) ∧
    differ (Tensor.ofVec1 [0, 1, 2]) (Tensor.ofVec1 [0, 1, 3, 4]) ∧
    same (Tensor.ofVec1 [0, 1, 2]) (do (← Tensor.ofVec1 [0, 1, 2]).reshape (← sh [3])) ∧
    differ (Tensor.ofVec1 [0, 1, 2]) (do (← Tensor.ofVec1 [0, 1, 2]).reshape (← sh [1, 3])) ∧
    differ (Tensor.ofVec1 [0, 1, 2]) (do (← Tensor.ofVec1 [0, 1, 2]).reshape (← sh [3, 1])) ∧
    differ (do (← Tensor.ofVec1 [0, 1, 2]).reshape (← sh [1, 3])) (do (← Tensor.ofVec1 [0, 1, 2]).reshape (← sh [3, 1])) := by
  decide +kernel
-- tensor_from_vec_rows, tensor_from_array_2d
example : view (Tensor.ofVecRows [#v[10, 20, 30], #v[11, 21, 31]]) = .ok ([2, 3], [10, 20, 30, 11, 21, 31]) ∧
    view (Tensor.ofRows [#v[10, 11], #v[110, 111], #v[210, 211]]) = .ok ([3, 2], [10, 11, 110, 111, 210, 211]) ∧
    view (Tensor.ofArr2 #v[#v[10, 11], #v[110, 111], #v[210, 211]]) = .ok ([3, 2], [10, 11, 110, 111, 210, 211]) := by
  decide +kernel
-- tensor_from_tensor_slice
example : view (do Tensor.ofTensors [← Tensor.ofScalar 2, ← Tensor.ofScalar 1, ← Tensor.ofScalar 3]) = .ok ([3], [2, 1, 3]) ∧
    view (do Tensor.ofTensors [← ten1 [1, 2], ← ten1 [2, 3], ← ten1 [3, 4]]) = .ok ([3, 2], [1, 2, 2, 3, 3, 4]) := by
  decide +kernel
-- tensor_from_vec_slice fails: `ten!(2.)` has dims [1] and not [], and `ten!([1., 2.])` has dims [1, 2]
example : view (do Tensor.ofTensors [← ten1 [2], ← ten1 [1], ← ten1 [3]]) = .ok ([3, 1], [2, 1, 3]) ∧
    view (do Tensor.ofTensors [← ten2 [[1, 2]], ← ten2 [[2, 3]], ← ten2 [[3, 4]]]) = .ok ([3, 1, 2], [1, 2, 2, 3, 3, 4]) := by
  decide +kernel
-- tensor_macro_float, tensor_macro_string
example : view (ten1 [1]) = .ok ([1], [1]) ∧ view (ten1 [1, 2, 3]) = .ok ([3], [1, 2, 3]) ∧
    view (ten2 [[1, 2, 3], [4, 5, 6]]) = .ok ([2, 3], [1, 2, 3, 4, 5, 6]) ∧ view (ten1 ["test"]) = .ok ([1], ["test"]) ∧
    passes (do (← ten1 ["t1", "t2", "t3"]).index1 2) "t3" := by decide +kernel

/-- The tensor of tensor_rank_3 and basic_tensor. -/
def rank3 : Res (Tensor Nat) := Tensor.ofVec3 [
  [[101, 102, 103, 104], [111, 112, 113, 114], [121, 122, 123, 124]],
  [[201, 202, 203, 204], [211, 212, 213, 214], [221, 222, 223, 224]]]

-- tensor_rank_3, basic_tensor
example : view rank3 = .ok ([2, 3, 4], [101, 102, 103, 104, 111, 112, 113, 114, 121, 122, 123, 124,
      201, 202, 203, 204, 211, 212, 213, 214, 221, 222, 223, 224]) ∧
    passes (do let s := (← rank3).shape; return [s.rank, ← s.dim 0, ← s.dim 1, ← s.dim 2, ← s.rdim 0, ← s.rdim 1, ← s.rdim 2])
      [3, 2, 3, 4, 4, 3, 2] ∧
    passes (do let s := (← rank3).shape; return [← s.cols, ← s.rows]) [4, 3] ∧
    passes (do (List.range 24).mapM (← rank3).get) ([101, 102, 103, 104, 111, 112, 113, 114, 121, 122, 123, 124,
      201, 202, 203, 204, 211, 212, 213, 214, 221, 222, 223, 224].map some) ∧
    differ rank3 (do Tensor.ofVec1 (← (← rank3).asSlice)) ∧
    same rank3 (do (← Tensor.ofVec1 (← (← rank3).asSlice)).reshape (← sh [2, 3, 4])) := by decide +kernel
-- tensor_iter_slice
example : passes (do (← ten1 [1, 2, 3, 4]).iterRow) [[1], [2], [3], [4]] ∧
    passes (do (← ten2 [[1, 2], [3, 4]]).iterRow) [[1, 2], [3, 4]] := by decide +kernel
-- index_rank_2, index_rank_1
example : passes (do let t ← ten2 [[1, 2], [3, 4], [5, 6]]; (List.range 3).mapM t.index1) [1, 2, 3] ∧
    passes (do let t ← ten2 [[1, 2], [3, 4], [5, 6]]
               return [← t.index2 0 0, ← t.index2 0 1, ← t.index2 1 0, ← t.index2 1 1, ← t.index2 2 0, ← t.index2 2 1])
      [1, 2, 3, 4, 5, 6] ∧
    passes (do let t ← ten1 [1, 2, 3, 4]; (List.range 4).mapM t.index1) [1, 2, 3, 4] := by decide +kernel
-- slice_usize, index_rank_1_slice, slice_usize_usize fail: every `slice` panics (slice.rs:20-43)
example : panics (do Signal.sliceUsize 0 (← ten2 [[1, 2], [3, 4], [5, 6]])) ∧
    panics (do Signal.sliceUsize 0 (← ten1 [1, 2, 3, 4])) := by decide +kernel

-- debug_rank_0 .. debug_rank_4
example : passes (do Fmt.debug (fun n : Nat => s!"T({n})") "T" (← Tensor.ofScalar 0)) "Tensor<T> {T(0), shape: []}" ∧
    passes (do Fmt.debug (fun n : Nat => s!"T({n})") "T" (← Tensor.ofVec1 [])) "Tensor<T> {[], shape: [0]}" ∧
    passes (do Fmt.debug (fun n : Nat => s!"T({n})") "T" (← Tensor.ofVec1 [0, 1])) "Tensor<T> {[T(0) T(1)], shape: [2]}" ∧
    passes (do Fmt.debug (toString : Nat → String) "i32" (← Tensor.ofVec1 [1, 2, 3, 4, 5])) "Tensor<i32> {[1 2 3 4 5], shape: [5]}" := by
  decide +kernel
example : passes (do Fmt.debug (toString : Nat → String) "i32" (← ten2 [[10]])) "Tensor<i32> {\n[[10]], shape: [1, 1]}" ∧
    passes (do Fmt.debug (toString : Nat → String) "i32" (← ten2 [[1, 2]])) "Tensor<i32> {\n[[1 2]], shape: [1, 2]}" ∧
    passes (do Fmt.debug (toString : Nat → String) "i32" (← ten2 [[1], [2]])) "Tensor<i32> {\n[[1],\n [2]], shape: [2, 1]}" ∧
    passes (do Fmt.debug (toString : Nat → String) "i32" (← ten2 [[1, 2, 3], [4, 5, 6]]))
      "Tensor<i32> {\n[[1 2 3],\n [4 5 6]], shape: [2, 3]}" := by decide +kernel
example : passes (do Fmt.debug (toString : Nat → String) "i32" (← ten3 [[[10]]])) "Tensor<i32> {\n[[[10]]], shape: [1, 1, 1]}" ∧
    passes (do Fmt.debug (toString : Nat → String) "i32" (← ten3 [[[1]], [[101]]]))
      "Tensor<i32> {\n[[[1]],\n\n [[101]]], shape: [2, 1, 1]}" ∧
    passes (do Fmt.debug (toString : Nat → String) "i32" (← ten3 [[[1], [101]]]))
      "Tensor<i32> {\n[[[1],\n [101]]], shape: [1, 2, 1]}" ∧
    passes (do Fmt.debug (toString : Nat → String) "i32" (← ten3 [[[1, 2, 3, 4], [5, 6, 7, 8], [9, 10, 11, 12]],
        [[101, 102, 103, 104], [105, 106, 107, 108], [109, 110, 111, 112]]]))
      "Tensor<i32> {\n[[[1 2 3 4],\n [5 6 7 8],\n [9 10 11 12]],\n\n [[101 102 103 104],\n [105 106 107 108],\n [109 110 111 112]]], shape: [2, 3, 4]}" ∧
    passes (do Fmt.debug (toString : Nat → String) "i32" (← ten4 [[[[10, 11]]]]))
      "Tensor<i32> {\n[[[[10 11]]]], shape: [1, 1, 1, 2]}" := by decide +kernel

end Essay.Tests
