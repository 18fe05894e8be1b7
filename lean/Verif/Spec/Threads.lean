import Verif.Spec.Random

/-!
# Programs that draw random numbers in several threads

A program is a list of calls in the order in which they happen, each with the thread that makes it.
-/

namespace Essay

namespace Random

variable {F : Type}

/-- A call that uses the process-wide random state. The draws are those without an explicit seed. -/
inductive Event (F : Type) where
  | new32
  | new64
  | normal (shape : Shape) (mean std : F)
  | uniform (shape : Shape) (min max : F)

/-- What a call returns. -/
inductive Outcome (F : Type) where
  | gen32 (state : BitVec 64)
  | gen64 (state : BitVec 128)
  | tensor (t : Tensor F)

/-- A call, or `random_seed`. -/
inductive Action (F : Type) where
  | call (e : Event F)
  | reseed (s : BitVec 64)

/-- One call from thread `tid`. -/
def perform (fr : FRand F) (tid : Nat) (p : Process) : Event F → Res (Outcome F × Process)
  | .new32 => .ok (.gen32 (newRand32 tid p).1, (newRand32 tid p).2)
  | .new64 => .ok (.gen64 (newRand64 tid p).1, (newRand64 tid p).2)
  | .normal s mean std => (randomNormal fr s ⟨mean, std, none⟩ tid p).map fun r => (.tensor r.1, r.2)
  | .uniform s min max => (randomUniform fr s ⟨min, max, none⟩ tid p).map fun r => (.tensor r.1, r.2)

/-- A program: what its calls return, with the thread that made them, in order. -/
def runAll (fr : FRand F) : List (Nat × Action F) → Process → Res (List (Nat × Outcome F) × Process)
  | [], p => .ok ([], p)
  | (_, .reseed s) :: as, p => runAll fr as (randomSeed s p)
  | (tid, .call e) :: as, p => do
    let r ← perform fr tid p e
    let rest ← runAll fr as r.2
    return ((tid, r.1) :: rest.1, rest.2)

/-- The calls of one thread. -/
def callsOf (tid : Nat) : List (Nat × Action F) → List (Event F)
  | [] => []
  | (_, .reseed _) :: as => callsOf tid as
  | (i, .call e) :: as => if i = tid then e :: callsOf tid as else callsOf tid as

/-- What one thread got. -/
def resultsOf (tid : Nat) (os : List (Nat × Outcome F)) : List (Outcome F) :=
  (os.filter fun o => o.1 = tid).map Prod.snd

/-- `o` is what the call returns when the seed `x` is given explicitly, whatever thread and state. -/
def FromSeed (fr : FRand F) (x : BitVec 64) : Event F → Outcome F → Prop
  | .new32, o => o = .gen32 x
  | .new64, o => o = .gen64 (x.setWidth 128)
  | .normal s mean std, o => ∃ t, o = .tensor t ∧ ∀ tid p, randomNormal fr s ⟨mean, std, some x⟩ tid p = .ok (t, p)
  | .uniform s min max, o => ∃ t, o = .tensor t ∧ ∀ tid p, randomUniform fr s ⟨min, max, some x⟩ tid p = .ok (t, p)

/-- The calls `es` return `os` when the `k`-th is given the `k`-th value of a `Rand64` in state `l` as seed. -/
def FromGenerator (fr : FRand F) : BitVec 128 → List (Event F) → List (Outcome F) → Prop
  | _, [], os => os = []
  | l, e :: es, os => ∃ o os', os = o :: os' ∧ FromSeed fr (next64 l).1 e o ∧ FromGenerator fr (next64 l).2 es os'

end Random

end Essay
