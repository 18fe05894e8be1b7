import Verif.Model.Signal
import Verif.Spec.Tensor

/-!
# What `rfft_norm` should compute for one row
-/

namespace Essay

variable {F : Type}

/-- The `i`-th weight of a Hann window of length `len`: `sin²(i · π / len)`. -/
def hannWeight (fo : FFft F) (len i : Nat) : F :=
  let s := fo.sin (fo.mul (fo.div fo.pi (fo.ofNat len)) (fo.ofNat i))
  fo.mul s s

/-- A row of samples, weighted by the window, as complex numbers. -/
def windowed (fo : FFft F) (row : List F) : List (F × F) :=
  row.mapIdx fun i x => (fo.mul x (hannWeight fo row.length i), fo.zero)

/-- The first `n` absolute values of the spectrum of a row: the transform is cut after the `row.length / 2 + 1`
frequencies up to half the sampling rate, and filled with zeros behind them. -/
def spectrum (fo : FFft F) (n : Nat) (row : List F) : List F :=
  (((fo.fft (windowed fo row)).take (row.length / 2 + 1)).map fo.norm ++ List.replicate n fo.zero).take n

end Essay
