import Verif.Tests.Basic

/-! # Tests of /repo: src/tensor/test/map.rs, src/tensor/map.rs:631-735, src/math/reduce.rs `reduce`, `reduce_axis` -/

namespace Essay.Tests

open Shape Tensor

/-- A closure that counts its calls from `start`. -/
def counting (start : Nat) : Exec Nat Nat := fun s => .ok (start + s, s + 1)

/-- Run a call with a counter at 0. -/
def counted {α : Type} (x : Exec Nat α) : Res α := do return (← x 0).1

-- tensor_init_count, init
example : same (do counted (init (← sh [4]) (counting 0))) (ten1 [0, 1, 2, 3]) ∧
    same (do counted (init (← sh [3, 2]) (counting 0))) (ten2 [[0, 1], [2, 3], [4, 5]]) ∧
    same (do counted (init (← sh [3, 2]) (counting 10))) (ten2 [[10, 11], [12, 13], [14, 15]]) := by decide +kernel
-- tensor_init_count asserts `ten!([0, 1, 2, 3])`, which has dims [1, 4], and fails
example : differ (do counted (init (← sh [4]) (counting 0))) (ten2 [[0, 1, 2, 3]]) := by decide +kernel

/-- `init_rindexed` with a closure that keeps no state. -/
def rindexed (ds : List Nat) (f : List Nat → Nat) : Res (Tensor Nat) := do
  runPure (initRindexed (← sh ds) fun i => pure (f i))

-- tensor_init_indexed, init
example : same (rindexed [4] fun i => i.getD 0 9) (ten1 [0, 1, 2, 3]) ∧
    same (rindexed [3, 2] fun i => i.getD 0 9) (ten2 [[0, 1], [0, 1], [0, 1]]) ∧
    same (rindexed [3, 2] fun i => i.getD 1 9) (ten2 [[0, 0], [1, 1], [2, 2]]) ∧
    same (rindexed [3, 2] fun i => if i.getD 1 9 = i.getD 0 9 then 1 else 0) (ten2 [[1, 0], [0, 1], [0, 0]]) ∧
    same (rindexed [3, 2] fun i => 100 * i.getD 1 9 + i.getD 0 9) (ten2 [[0, 1], [100, 101], [200, 201]]) := by decide +kernel
-- tensor_fill, tensor_zeros, fill_basic, test_zeros, test_ones
example : same (do fill (← sh [4]) 0) (ten1 [0, 0, 0, 0]) ∧ same (do fill (← sh [3, 2]) 0) (ten2 [[0, 0], [0, 0], [0, 0]]) ∧
    same (do fill (← sh []) 0) (Tensor.ofScalar 0) ∧ same (do fill (← sh [3, 2, 1]) 4) (ten3 [[[4], [4]], [[4], [4]], [[4], [4]]]) ∧
    same (do zeros (← sh [2, 3])) (ten2 [[0, 0, 0], [0, 0, 0]]) ∧ same (do ones (← sh [2, 3])) (ten2 [[1, 1, 1], [1, 1, 1]]) := by
  decide +kernel

-- map_i32, map_fnmut
example : same (do runPure (map (← ten2 [[1, 2, 3], [4, 5, 6]]) fun v => pure (10 + v))) (ten2 [[11, 12, 13], [14, 15, 16]]) ∧
    same (do counted (map (← ten1 [1, 2, 3, 4]) fun v s => .ok (10 * (s + 1) + v, s + 1))) (ten1 [11, 22, 33, 44]) := by
  decide +kernel
-- tensor_map_slice_4x1_to_4, map_row, map_row_combine
example : same (do runPure (mapRow (← (← ten1 [1, 2, 3, 4]).reshape (← sh [4, 1])) 1 fun v => pure #v[2 * v.getD 0 0]))
      (ten1 [2, 4, 6, 8]) ∧
    same (do runPure (mapRow (← ten2 [[1, 20], [3, 40], [5, 60]]) 4 fun v => pure #v[10 * v.getD 0 0, 10 * v.getD 1 0,
        v.getD 0 0 + v.getD 1 0, 10 * (v.getD 0 0 + v.getD 1 0)]))
      (ten2 [[10, 200, 21, 210], [30, 400, 43, 430], [50, 600, 65, 650]]) ∧
    same (do runPure (mapRow (← ten2 [[1, 20], [3, 40], [5, 60]]) 1 fun v => pure #v[v.getD 0 0 + 10 * v.getD 1 0]))
      (ten1 [201, 403, 605]) := by decide +kernel
-- tensor_map_expand_to_3
example : same (do runPure (mapExpand (← ten1 [1, 2, 3, 4]) 3 fun v => pure #v[v, v * 10, v * 100]))
    (ten2 [[1, 10, 100], [2, 20, 200], [3, 30, 300], [4, 40, 400]]) := by decide +kernel
-- map2, map2_fnmut, map3
example : same (do runPure (map2 (← ten2 [[1, 20], [3, 40], [5, 60]]) (← ten2 [[100, 2000], [300, 4000], [500, 6000]])
        fun a b => pure (a + b))) (ten2 [[101, 2020], [303, 4040], [505, 6060]]) ∧
    same (do counted (map2 (← ten2 [[1, 20], [3, 40], [5, 60]]) (← ten2 [[100, 2000], [300, 4000], [500, 6000]])
        fun a b s => .ok (10000 * (s + 1) + a + b, s + 1))) (ten2 [[10101, 22020], [30303, 44040], [50505, 66060]]) ∧
    same (do runPure (map3 (← ten2 [[1, 20], [3, 40], [5, 60]]) (← ten2 [[100, 2000], [300, 4000], [500, 6000]])
        (← ten2 [[10000, 200000], [30000, 400000], [50000, 600000]]) fun a b c => pure (a + b + c)))
      (ten2 [[10101, 202020], [30303, 404040], [50505, 606060]]) := by decide +kernel
-- map2_row fails: `map2_row` is `todo!()`
example : panics (do runPure (map2Row (← ten2 [[1, 2], [3, 4], [5, 6]]) (← ten2 [[10, 200], [30, 40], [50, 60]]) 1
    fun a b => pure #v[a.getD 0 0 + b.getD 0 0])) := by decide +kernel

-- fold_i32 fails: `fold` makes a scalar (map.rs:336-341), and the test expects dims [1]
example : same (do runPure (fold (← ten2 [[1, 2, 3], [4, 5, 6]]) 100 (fun s v => pure (s + v)) id)) (Tensor.ofScalar 121) := by
  decide +kernel
-- fold
example : same (do runPure (fold (← ten2 [[1, 200], [3, 400], [5, 600]]) 10000 (fun s v => pure (s + v)) id))
      (Tensor.ofScalar 11209) ∧
    same (do runPure (foldAxis (← ten2 [[1, 200], [3, 400], [5, 600]]) none 10000 (fun s v => pure (s + v)) id))
      (Tensor.ofScalar 11209) ∧
    same (do runPure (foldAxis (← ten2 [[1, 200], [3, 400], [5, 600]]) (some (-1)) 10000 (fun s v => pure (s + v)) id))
      (ten1 [10201, 10403, 10605]) ∧
    same (do runPure (foldAxis (← ten2 [[1, 200], [3, 400], [5, 600]]) (some 0) 10000 (fun s v => pure (s + v)) id))
      (ten1 [10009, 11200]) := by decide +kernel

/-- The tensor of fold_axis. -/
def folded : Res (Tensor Nat) := ten3 [[[1, 2], [11, 12], [21, 22], [31, 32]],
  [[101, 102], [111, 112], [121, 122], [131, 132]], [[301, 302], [311, 312], [321, 322], [331, 332]]]

-- fold_axis; without an axis the result is a scalar and not `ten![4596]`
example : same (do runPure (foldAxis (← folded) none 1000 (fun s v => pure (s + v)) id)) (Tensor.ofScalar 4596) ∧
    same (do runPure (foldAxis (← folded) (some (-1)) 1000 (fun s v => pure (s + v)) id))
      (ten2 [[1003, 1023, 1043, 1063], [1203, 1223, 1243, 1263], [1603, 1623, 1643, 1663]]) ∧
    same (do runPure (foldAxis (← folded) (some 2) 1000 (fun s v => pure (s + v)) id))
      (ten2 [[1003, 1023, 1043, 1063], [1203, 1223, 1243, 1263], [1603, 1623, 1643, 1663]]) ∧
    same (do runPure (foldAxis (← folded) (some 0) 1000 (fun s v => pure (s + v)) id))
      (ten2 [[1403, 1406], [1433, 1436], [1463, 1466], [1493, 1496]]) ∧
    same (do runPure (foldAxis (← folded) (some 1) 1000 (fun s v => pure (s + v)) id))
      (ten2 [[1064, 1068], [1464, 1468], [2264, 2268]]) := by decide +kernel
-- fold_row_i32
example : same (do runPure (foldRow (← ten3 [[[1, 2], [11, 12]]]) none 2 #v[1000, 2000]
        (fun s v => pure #v[s[0] + v.getD 0 0, s[1] + v.getD 1 0]) id)) (ten1 [1012, 2014]) ∧
    same (do runPure (foldRow (← ten3 [[[1, 2], [10, 20], [100, 200]], [[3, 4], [30, 40], [300, 400]],
          [[5, 6], [50, 60], [500, 600]]]) (some (-2)) 3 #v[1000, 2000, 3000]
        (fun s v => pure #v[s[0] + v.getD 0 0, s[1] + v.getD 1 0, s[2] + v.getD 0 0 + v.getD 1 0]) id))
      (ten2 [[1111, 2222, 3333], [1333, 2444, 3777], [1555, 2666, 4221]]) := by decide +kernel

-- src/tensor/test/map.rs reduce_shape, tensor_reduce, reduce_fnmut fail: they expect a reduction of each row, or dims [1].
-- src/tensor/map.rs and src/math/reduce.rs expect what the code does.
example : same (do runPure (reduce (← ten2 [[1, 200], [3, 400], [5, 600]]) fun a b => pure (a + b))) (Tensor.ofScalar 1209) ∧
    same (do runPure (reduceAxis (← ten2 [[1, 200], [3, 400], [5, 600]]) none fun a b => pure (a + b))) (Tensor.ofScalar 1209) ∧
    same (do runPure (reduceAxis (← ten2 [[1, 200], [3, 400], [5, 600]]) (some (-1)) fun a b => pure (a + b)))
      (ten1 [201, 403, 605]) ∧
    same (do runPure (reduceAxis (← ten2 [[1, 200], [3, 400], [5, 600]]) (some 0) fun a b => pure (a + b))) (ten1 [9, 1200]) ∧
    same (do runPure (reduce (← ten1 [1, 2, 3, 4]) fun a b => pure (a + b))) (Tensor.ofScalar 10) ∧
    same (do runPure (reduceAxis (← ten2 [[1, 2], [3, 4]]) (some 1) fun a b => pure (a + b))) (ten1 [3, 7]) ∧
    same (do runPure (reduceAxis (← ten2 [[1, 2], [3, 4]]) (some 0) fun a b => pure (a + b))) (ten1 [4, 6]) := by decide +kernel

end Essay.Tests
