import Verif.Model.Map
import Verif.Model.Init
import Verif.Model.Float

/-!
# Model of `src/signal/frame.rs`, `src/signal/rfft.rs` and `src/tensor/slice.rs`
-/

namespace Essay

variable [Build]

/-- What `rfft_norm` uses besides `FOps`: `f32::consts::PI`, `f32::sin`, the transform of `rustfft` (in place, keeps the
length) and `Complex::norm`. Not from /repo. -/
structure FFft (F : Type) extends FOps F where
  pi : F
  sin : F → F
  fft : List (F × F) → List (F × F)
  norm : F × F → F

namespace Signal

variable {α F : Type}

/-- `hann_window`, rfft.rs:61-68. -/
def hannWindow (fo : FFft F) (len : Nat) : Res (Tensor F) := do
  let step := fo.div fo.pi (fo.ofNat len)
  let shape ← Shape.ofSlice [len]
  Tensor.runPure (Tensor.initRindexed shape fun index => liftM (do
    let i ← idx index 0
    let tmp := fo.sin (fo.mul step (fo.ofNat i))
    return fo.mul tmp tmp : Res F))

/-- The loop filling the FFT buffer, rfft.rs:37-39. -/
def fillBuffer (fo : FFft F) (window : Tensor F) (x : List F) (len : Nat) (buffer : List (F × F)) : Res (List (F × F)) :=
  forR 0 len buffer fun i buffer => do
    let xi ← idx x i
    let w ← window.index1 i
    setIdx buffer i (fo.mul xi w, fo.zero)

/-- The loops writing one row of the result, rfft.rs:46-52. -/
def writeNorms (fo : FFft F) (fft : List (F × F)) (offset fftOut lenOut : Nat) (o : Buf F) : Res (Buf F) := do
  let o ← forR 0 (min fftOut lenOut) o fun i o => do
    let v ← idx fft i
    o.write (offset + i) (fo.norm v)
  forR fftOut lenOut o fun i o => o.write (offset + i) fo.zero

/-- `rfft_norm`, rfft.rs:8-59; `fftLength` is the option of `FftArg`. -/
def rfftNorm (fo : FFft F) (tensor : Tensor F) (fftLength : Option Nat) : Res (Tensor F) := do
  let len ← tensor.shape.cols
  let n ← tensor.shape.len
  let batch ← udiv n len
  let buffer := List.replicate len (fo.zero, fo.zero)
  let window ← hannWindow fo len
  let fftOut := len / 2 + 1
  let lenOut := fftLength.getD fftOut
  let shape ← tensor.shape.withCols lenOut
  Tensor.unsafeInit (batch * lenOut) shape fun o => do
    let st ← forR 0 batch (o, buffer) fun n st => do
      let x ← tensor.asWrapSlice (n * len)
      let buffer ← fillBuffer fo window x len st.2
      let buffer := fo.fft buffer
      let o ← writeNorms fo buffer (n * lenOut) fftOut lenOut st.1
      return (o, buffer)
    return st.1

/-- `x / y` on `isize` (truncating, overflow checks on). Not from /repo. -/
def idiv (x y : Int) : Res Int :=
  if y = 0 ∨ x = -9223372036854775808 ∧ y = -1 then .error .panic else .ok (x.tdiv y)

/-- `frame`, frame.rs:3-27. The body ends with `todo!()`. Memory use of the loop is not modelled. -/
def frame (x : Tensor α) (len step : Nat) : Res (Tensor α) := do
  let d ← x.shape.dim 0
  let r ← iadd d (-isizeOfUsize len)
  let q ← idiv r (isizeOfUsize step)
  let n ← iadd 1 q
  let nFrames := isizeAsUsize n
  let _vec ← forR 0 nFrames [] fun i vec => do
    let s ← x.subslice (i * step) len
    return vec ++ [s]
  panicked
where
  /-- `n as isize` (two's complement). -/
  isizeOfUsize (n : Nat) : Int := if n < 9223372036854775808 then n else (n : Int) - 18446744073709551616

/-- `TensorSlice for usize`, slice.rs:15-26. The body ends with `todo!()`. -/
def sliceUsize (i : Nat) (tensor : Tensor α) : Res (Tensor α) := do
  ensure (tensor.shape.rank > 0)
  let d ← tensor.shape.dim 0
  ensure (i < d)
  panicked

/-- `TensorSlice for (usize, usize)`, slice.rs:28-43. The body ends with `todo!()`. -/
def slicePair (i j : Nat) (tensor : Tensor α) : Res (Tensor α) := do
  ensure (tensor.shape.rank > 1)
  let d0 ← tensor.shape.dim 0
  ensure (i < d0)
  let d1 ← tensor.shape.dim 1
  ensure (j < d1)
  panicked

end Signal

end Essay
