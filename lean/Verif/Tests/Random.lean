import Verif.Model.Random

/-! # Tests of /repo: src/random/random.rs:190-330 -/

namespace Essay.Tests

open Random

/-- The first `n` values of a generator. -/
def draws (n : Nat) (s : BitVec 64) : List Nat :=
  match n with
  | 0 => []
  | n + 1 => (next32 s).1.toNat :: draws n (next32 s).2

-- rand32_u32_seed_0
example : draws 10 0 = [2719371262, 3366669408, 1060708876, 3350485177, 0266455276, 3435573958, 1339492206, 1385110079,
    0222350999, 0936719904] := by decide +kernel
-- rand32_u32_seeds
example : draws 1 1 = [0067131503] ∧ draws 1 2 = [3750639004] ∧ draws 1 10 = [0613872473] ∧ draws 1 (fromStr32 []) = [2719371262] ∧
    draws 1 (fromStr32 [97]) = [2183894628] ∧ draws 1 (fromStr32 [32]) = [3200514678] ∧
    draws 1 (fromStr32 [97, 97]) = [3194888993] := by decide +kernel
-- rand32_uniform_seed_0: 0.63315296, 0.7838638, 0.24696553, the integers above divided by `u32::MAX` (there in f32)
example : (draws 3 0).map (fun n => n * 10000000 / 4294967295) = [6331529, 7838638, 2469655] := by decide +kernel

/-- The float operations of the Lean runtime (`f64`). -/
def runtime : FRand Float :=
  ⟨⟨0, 1, (· + ·), (· - ·), (· * ·), (· / ·), Float.ofNat, (· == ·), (fun a b => decide (a < b)), (fun a b => decide (a ≤ b)),
    Float.log, Float.exp, Float.sqrt, Float.pow⟩, -2, 6.283185307179586, Float.cos, max⟩

/-- The elements are the expected ones up to the precision of `f32`. -/
def close (a : Res (Tensor Float)) (b : List Float) : Bool :=
  match a >>= (·.asSlice) with
  | .ok xs => decide (xs.length = b.length) && (xs.zip b).all fun (x, y) => decide ((x - y).abs ≤ 1e-6 * (1 + y.abs))
  | .error _ => false

/-- A process where no random number was drawn yet. -/
def process : Process := ⟨0, fun _ => none, []⟩

-- These three are evaluated with the machine's floats when the file is compiled, and produce no theorem.
-- normal_seed, test_normal_mean, test_normal_stddev
#guard close (do return (← randomNormal runtime (← Shape.ofSlice [4]) (Normal.ofOption runtime.toFOps (some 100)) 0 process).1)
  [0.28612638, -0.4481697, -1.3627453, 0.61000276]
#guard close (do return (← randomNormal runtime (← Shape.ofSlice [3, 2, 2]) (Normal.ofSeed runtime.toFOps 100) 0 process).1)
  [0.28612638, -0.4481697, -1.3627453, 0.61000276, 0.5581478, 1.159134, -0.5566373, -0.2761264, 0.9464901, -0.254632,
    1.2101488, -0.34107557]
#guard close (do return (← randomNormal runtime (← Shape.ofSlice [4]) ((Normal.ofSeed runtime.toFOps 100).withMean (-10)) 0
  process).1) [-9.713874, -10.44817, -11.362745, -9.3899975]
#guard close (do return (← randomNormal runtime (← Shape.ofSlice [4]) ((Normal.ofStd runtime.toFOps 10).withSeed 100) 0
  process).1) [2.8612638, -4.481697, -13.627453, 6.1000276]
-- test_uniform: `random_uniform` draws from the normal distribution, and the test expects that
#guard close (do return (← randomUniform runtime (← Shape.ofSlice [4]) (Uniform.ofSeed runtime.toFOps 100) 0 process).1)
  [0.28612638, -0.4481697, -1.3627453, 0.61000276]
-- rand32_uniform and rand32_new expect different values for a first `Rand32::new()`, so they depend on the order in which the
-- test threads start; they are not transcribed.

end Essay.Tests
