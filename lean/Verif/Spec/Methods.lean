import Verif.Model.Methods

/-!
# Specification vocabulary for option structs
-/

namespace Essay

variable {F : Type}

namespace Random

/-- A write to an option struct of `random_normal`: what a constructor or a setter sets. -/
inductive NormalWrite (F : Type) where
  | mean (x : F)
  | std (x : F)
  | seed (s : BitVec 64)

/-- The ways to start an option struct of `random_normal`. -/
inductive NormalStart (F : Type) where
  | default
  | mean (x : F)
  | std (x : F)
  | seed (s : BitVec 64)
  | option (s : Option (BitVec 64))
  | pair (mean std : F)

/-- What each start sets. -/
def NormalStart.writes : NormalStart F → List (NormalWrite F)
  | .default => []
  | .mean x => [.mean x]
  | .std x => [.std x]
  | .seed s => [.seed s]
  | .option none => []
  | .option (some s) => [.seed s]
  | .pair m d => [.mean m, .std d]

def NormalWrite.mean? : NormalWrite F → Option F
  | .mean x => some x
  | _ => none
def NormalWrite.std? : NormalWrite F → Option F
  | .std x => some x
  | _ => none
def NormalWrite.seed? : NormalWrite F → Option (BitVec 64)
  | .seed s => some s
  | _ => none

/-- The call the code has for a start. -/
def NormalStart.run (fo : FOps F) : NormalStart F → Normal F
  | .default => .ofOption fo none
  | .mean x => .ofMean fo x
  | .std x => .ofStd fo x
  | .seed s => .ofSeed fo s
  | .option s => .ofOption fo s
  | .pair m d => .ofPair fo m d

/-- The setter the code has for a write. -/
def NormalWrite.run (n : Normal F) : NormalWrite F → Normal F
  | .mean x => n.withMean x
  | .std x => n.withStd x
  | .seed s => n.withSeed s

/-- A write to an option struct of `random_uniform`. -/
inductive UniformWrite (F : Type) where
  | min (x : F)
  | max (x : F)
  | seed (s : BitVec 64)

/-- The ways to start an option struct of `random_uniform`. -/
inductive UniformStart (F : Type) where
  | default
  | min (x : F)
  | max (x : F)
  | seed (s : BitVec 64)
  | option (s : Option (BitVec 64))
  | pair (min max : F)

/-- What each start sets. -/
def UniformStart.writes : UniformStart F → List (UniformWrite F)
  | .default => []
  | .min x => [.min x]
  | .max x => [.max x]
  | .seed s => [.seed s]
  | .option none => []
  | .option (some s) => [.seed s]
  | .pair a b => [.min a, .max b]

def UniformWrite.min? : UniformWrite F → Option F
  | .min x => some x
  | _ => none
def UniformWrite.max? : UniformWrite F → Option F
  | .max x => some x
  | _ => none
def UniformWrite.seed? : UniformWrite F → Option (BitVec 64)
  | .seed s => some s
  | _ => none

/-- The call the code has for a start. -/
def UniformStart.run (fo : FOps F) : UniformStart F → Uniform F
  | .default => .ofOption fo none
  | .min x => .ofMin fo x
  | .max x => .ofMax fo x
  | .seed s => .ofSeed fo s
  | .option s => .ofOption fo s
  | .pair a b => .ofPair fo a b

/-- The setter the code has for a write. -/
def UniformWrite.run (n : Uniform F) : UniformWrite F → Uniform F
  | .min x => n.withMin x
  | .max x => n.withMax x
  | .seed s => n.withSeed s

end Random

/-- The last value among `ws` that `f` selects. -/
def lastOf {W V : Type} (f : W → Option V) (ws : List W) : Option V := (ws.filterMap f).getLast?

end Essay
