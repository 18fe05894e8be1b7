import Verif.Tests.Basic
import Verif.Model.Heap
import Verif.Model.Signal

/-!
# Tests of /repo: src/tensor/test/data.rs, src/tensor/test/tensor.rs `clone_drop`, src/signal/rfft.rs

`drops` lists the slots whose values were dropped, as (buffer, position); the tests of /repo print the values.
-/

namespace Essay.Tests

open Heap

/-- What was dropped and freed in a history, and how many handles are left. -/
def report {α : Type} (ops : Res (List (Op α))) : Res (List (Nat × Nat) × List Nat × Nat) := do
  let w ← run (← ops)
  return (w.mem.drops, w.mem.frees, w.handles.length)

-- from_boxed_slice_drop, from_boxed_rows_drop, data_drop_from_vec, data_drop_from_boxed_slice
example : report (do return [.fromBox [0x10, 0x11] (← sh [2]), .drop 0, .destroy 0]) = .ok ([(0, 0), (0, 1)], [0], 0) ∧
    report (do return [.fromBox [0x10, 0x11, 0x20, 0x21] (← sh [2, 2]), .drop 0, .destroy 0]) =
      .ok ([(0, 0), (0, 1), (0, 2), (0, 3)], [0], 0) := by decide +kernel
-- from_boxed_slice_empty_panic, from_boxed_rows_empty_panic, unsafe_init_empty_panic: no handle, the buffer is freed
-- (the last one allocates 0 bytes before it panics, which is undefined)
example : report (do return [.fromBox ([] : List Nat) Shape.scalar]) = .ok ([], [0], 0) ∧
    report (do return [(.init 0 Shape.scalar [] false : Op Nat)]) = .error .ub := by decide +kernel
-- unsafe_init_drop_scalar, unsafe_init_drop_matrix, unsafe_init_dead: overwritten values are not dropped
example : report (do return [.init 1 Shape.scalar [(0, 0x10)] false, .drop 0, .destroy 0]) = .ok ([(0, 0)], [0], 0) ∧
    report (do return [.init 4 (← sh [2, 2]) [(0, 0x10), (1, 0x11), (2, 0x20), (3, 0x21), (3, 0x31)] false, .drop 0, .destroy 0]) =
      .ok ([(0, 0), (0, 1), (0, 2), (0, 3)], [0], 0) := by decide +kernel
-- clone_drop, test_drop_clone: the elements are dropped once, when the last handle goes
example : report (do return [.fromBox [0x10, 0x20] (← sh [2]), .clone 0, .clone 0, .clone 0, .drop 3, .drop 2, .drop 1]) =
      .ok ([], [], 1) ∧
    report (do return [.fromBox [0x10, 0x20] (← sh [2]), .clone 0, .clone 0, .clone 0, .drop 3, .drop 2, .drop 1, .drop 0,
      .destroy 0]) = .ok ([(0, 0), (0, 1)], [0], 0) := by decide +kernel

-- from_boxed_slice_scalar, unsafe_init_tensor, from_boxed_rows_scalar, test_vec_rows_basic
example : view (Tensor.new [0xaaaa5555] Shape.scalar) = .ok ([], [0xaaaa5555]) ∧
    view (do Tensor.unsafeInit 4 (← sh [2, 2]) fun o => do
      let o ← o.write 0 0x10; let o ← o.write 1 0x11; let o ← o.write 2 0x20; o.write 3 0x21) =
      .ok ([2, 2], [0x10, 0x11, 0x20, 0x21]) ∧
    view (do Tensor.fromBoxedRows [#v[0xaaaa5555], #v[0x5555aaaa]] (← sh [2, 1])) = .ok ([2, 1], [0xaaaa5555, 0x5555aaaa]) := by
  decide +kernel
-- unsafe_init_scalar fails: it expects size 2 and rank 2 of a scalar
example : view (Tensor.unsafeInit 1 Shape.scalar fun o => o.write 0 0x10) = .ok ([], [0x10]) := by decide +kernel
-- test_slice
example : passes (do (← ten1 [10]).asSlice) [10] ∧ passes (do (← ten2 [[10, 20, 30]]).asSlice) [10, 20, 30] ∧
    passes (do (← ten3 [[[10, 20], [30, 40]]]).asSlice) [10, 20, 30, 40] := by decide +kernel
-- src/signal/rfft.rs test_fft_shape, test_fft_len fail: a tensor of rank 2 always panics (`len()` is the first dimension,
-- rfft.rs:12), and `ten!([..])` has rank 2; test_fft_norm expects the transform without the window of rfft.rs:37-39
example : panics (do
    let fo : FFft Int := ⟨⟨0, 1, (· + ·), (· - ·), (· * ·), (· / ·), Int.ofNat, (· == ·), (fun a b => decide (a < b)),
      (fun a b => decide (a ≤ b)), id, id, id, fun x _ => x⟩, 3, id, id, fun z => z.1⟩
    Signal.rfftNorm fo (← ten2 [[0, 0, 1, 1]]) none) := by decide +kernel

end Essay.Tests
