import Verif.Tests.Basic

/-! # Tests of /repo: src/tensor/test/shape.rs, src/tensor/shape.rs:572-640 -/

namespace Essay.Tests

open Shape

-- shape_from_slice
example : passes (do let s ← sh [4]; return [s.rank, ← s.size, ← s.cols, ← s.rows, ← s.dim 0, ← s.rdim 0]) [1, 4, 4, 0, 4, 4] ∧
    passes (do (← sh [4]).asVec) [4] := by decide +kernel
example : passes (do let s ← sh [2, 4]; return [s.rank, ← s.size, ← s.cols, ← s.rows]) [2, 8, 4, 2] ∧
    passes (do let s ← sh [2, 4]; return [← s.dim 0, ← s.dim 1, ← s.rdim 0, ← s.rdim 1]) [2, 4, 4, 2] ∧
    passes (do (← sh [2, 4]).asVec) [2, 4] := by decide +kernel
-- src/tensor/test/shape.rs fails here: it expects rank 1 and size 0 for `Shape::from([])`; the code makes a scalar shape,
-- as the test in src/tensor/shape.rs expects
example : passes (do let s ← sh []; return [s.rank, ← s.size, ← s.cols, ← s.rows]) [0, 1, 0, 0] ∧
    passes (do (← sh []).asVec) [] := by decide +kernel
-- shape_debug (derived `Debug` prints the fields)
example : sh [] = .ok ⟨[0, 0, 0, 0, 0, 0], 0⟩ ∧ sh [4] = .ok ⟨[4, 0, 0, 0, 0, 0], 1⟩ ∧
    sh [4, 2] = .ok ⟨[2, 4, 0, 0, 0, 0], 2⟩ := by decide +kernel
-- shape_insert
example : passes (do (← (← sh [1]).insert 0 4).asVec) [4, 1] ∧ passes (do (← (← sh [1]).insert 1 4).asVec) [1, 4] ∧
    passes (do (← (← sh [1, 2]).insert 0 4).asVec) [4, 1, 2] ∧ passes (do (← (← sh [1, 2]).insert 1 4).asVec) [1, 4, 2] ∧
    passes (do (← (← sh [1, 2]).insert 2 4).asVec) [1, 2, 4] := by decide +kernel
-- shape_rinsert
example : passes (do (← (← sh [1]).rinsert 0 4).asVec) [1, 4] ∧ passes (do (← (← sh [1]).rinsert 1 4).asVec) [4, 1] ∧
    passes (do (← (← sh [1, 2]).rinsert 0 4).asVec) [1, 2, 4] ∧ passes (do (← (← sh [1, 2]).rinsert 1 4).asVec) [1, 4, 2] ∧
    passes (do (← (← sh [1, 2]).rinsert 2 4).asVec) [4, 1, 2] := by decide +kernel
-- shape_replace
example : passes (do (← (← sh [1]).replace 0 4).asVec) [4] ∧ passes (do (← (← sh [1, 2, 3]).replace 0 4).asVec) [4, 2, 3] ∧
    passes (do (← (← sh [1, 2, 3]).replace 1 4).asVec) [1, 4, 3] ∧
    passes (do (← (← sh [1, 2, 3]).replace 2 4).asVec) [1, 2, 4] := by decide +kernel
-- shape_rreplace
example : passes (do (← (← sh [1]).rreplace 0 4).asVec) [4] ∧ passes (do (← (← sh [1, 2, 3]).rreplace 0 4).asVec) [1, 2, 4] ∧
    passes (do (← (← sh [1, 2, 3]).rreplace 1 4).asVec) [1, 4, 3] ∧
    passes (do (← (← sh [1, 2, 3]).rreplace 2 4).asVec) [4, 2, 3] := by decide +kernel
-- shape_remove
example : passes (do (← (← sh [1]).remove 0).asVec) [] ∧ passes (do (← (← sh [1, 2, 3]).remove 0).asVec) [2, 3] ∧
    passes (do (← (← sh [1, 2, 3]).remove 1).asVec) [1, 3] ∧
    passes (do (← (← sh [1, 2, 3]).remove 2).asVec) [1, 2] := by decide +kernel
-- shape_rremove
example : passes (do (← (← sh [1]).rremove 0).asVec) [] ∧ passes (do (← (← sh [1, 2, 3]).rremove 0).asVec) [1, 2] ∧
    passes (do (← (← sh [1, 2, 3]).rremove 1).asVec) [1, 3] ∧
    passes (do (← (← sh [1, 2, 3]).rremove 2).asVec) [2, 3] := by decide +kernel
-- test_expand_dims
example : same (do (← ten1 [1, 2]).expandDims (some 0)) (ten2 [[1, 2]]) ∧
    same (do (← ten1 [1, 2]).expandDims (some 1)) (ten2 [[1], [2]]) ∧
    same (do (← ten1 [1, 2]).expandDims (some (-1))) (ten2 [[1], [2]]) ∧
    same (do (← ten2 [[1, 2], [3, 4]]).expandDims (some 0)) (ten3 [[[1, 2], [3, 4]]]) ∧
    same (do (← ten2 [[1, 2], [3, 4]]).expandDims (some 1)) (ten3 [[[1, 2]], [[3, 4]]]) ∧
    same (do (← ten2 [[1, 2], [3, 4]]).expandDims (some 2)) (ten3 [[[1], [2]], [[3], [4]]]) ∧
    same (do (← ten2 [[1, 2], [3, 4]]).expandDims (some (-1))) (ten3 [[[1], [2]], [[3], [4]]]) ∧
    same (do (← ten2 [[1, 2], [3, 4]]).expandDims (some (-2))) (ten3 [[[1, 2]], [[3, 4]]]) := by decide +kernel

end Essay.Tests
