import Mathlib.Logic.Function.Basic
import Verif.Model.Map
import Verif.Model.Float

/-!
# Model of `src/random/random.rs` and `src/init/random.rs`
-/

namespace Essay

variable [Build]

/-- The float operations the random generators use besides `FOps`: `-2.`, `TAU`, `cos`, `f32::max`. Not from /repo. -/
structure FRand (F : Type) extends FOps F where
  minusTwo : F
  tau : F
  cos : F → F
  max : F → F → F

namespace Random

variable {F : Type}

/-- `Rand32::A`, random.rs:10. -/
def a32 : BitVec 64 := 0x4822581B885237D5#64
/-- `Rand32::C`, random.rs:11. -/
def c32 : BitVec 64 := 0x6ED29E641A5F9CE5#64
/-- `Rand32::M`, random.rs:12. -/
def m32 : BitVec 32 := 0x8A53002D#32

/-- The state update of `Rand32::next`, random.rs:21. -/
def step32 (s : BitVec 64) : BitVec 64 := s * a32 + c32

/-- The value `Rand32::next` makes of the new state, random.rs:23-26. -/
def output32 (s : BitVec 64) : BitVec 32 :=
  let r := (s >>> 32).setWidth 32
  let r := r ^^^ (r >>> 16)
  r * m32

/-- `Rand32::next`, random.rs:20-27. -/
def next32 (s : BitVec 64) : BitVec 32 × BitVec 64 := (output32 (step32 s), step32 s)

/-- `Rand64::A`, random.rs:58. -/
def a64 : BitVec 128 := 0xACAEAEFB4BF4A6A78B6E278B66409E7D#128
/-- `Rand64::C`, random.rs:59. -/
def c64 : BitVec 128 := 0x351402A3544A25016AEE39FBBADBB38D#128
/-- `Rand64::M`, random.rs:60. -/
def m64 : BitVec 64 := 0xA18E4C689403AE2D#64

/-- The state update of `Rand64::next`, random.rs:69. -/
def step64 (s : BitVec 128) : BitVec 128 := s * a64 + c64

/-- The value `Rand64::next` makes of the new state, random.rs:71-74. -/
def output64 (s : BitVec 128) : BitVec 64 :=
  let r := (s >>> 32).setWidth 64
  let r := r ^^^ (r >>> 32)
  r * m64

/-- `Rand64::next`, random.rs:68-75. -/
def next64 (s : BitVec 128) : BitVec 64 × BitVec 128 := (output64 (step64 s), step64 s)

/-- `Rand32::next_uniform`, random.rs:30-32. -/
def nextUniform32 (fo : FOps F) (s : BitVec 64) : F × BitVec 64 :=
  let r := next32 s
  (fo.div (fo.ofNat r.1.toNat) (fo.ofNat 4294967295), r.2)

/-- `Rand64::next_uniform`, random.rs:78-80. -/
def nextUniform64 (fo : FOps F) (s : BitVec 128) : F × BitVec 128 :=
  let r := next64 s
  (fo.div (fo.ofNat r.1.toNat) (fo.ofNat 4294967295), r.2)

/-- The Box-Muller formula, random.rs:40, 88. -/
def boxMuller (fr : FRand F) (a b : F) : F :=
  fr.mul (fr.sqrt (fr.mul fr.minusTwo (fr.ln a))) (fr.cos (fr.mul fr.tau b))

/-- `Rand32::next_normal`, random.rs:35-41. -/
def nextNormal32 (fr : FRand F) (s : BitVec 64) : F × BitVec 64 :=
  let a := nextUniform32 fr.toFOps s
  let b := nextUniform32 fr.toFOps a.2
  (boxMuller fr a.1 b.1, b.2)

/-- `Rand64::next_normal`, random.rs:83-89. -/
def nextNormal64 (fr : FRand F) (s : BitVec 128) : F × BitVec 128 :=
  let a := nextUniform64 fr.toFOps s
  let b := nextUniform64 fr.toFOps a.2
  (boxMuller fr a.1 b.1, b.2)

/-- `Rand32::from(&str)`, random.rs:44-54, on the bytes of the string. -/
def fromStr32 (bytes : List (BitVec 8)) : BitVec 64 :=
  bytes.foldl (fun seed v => seed * a32 + c32 + v.setWidth 64) 0

/-- `Rand64::from(&str)`, random.rs:92-102. -/
def fromStr64 (bytes : List (BitVec 8)) : BitVec 128 :=
  bytes.foldl (fun seed v => seed * a64 + c64 + v.setWidth 128) 0

/-! ### process-wide seeding -/

/-- The seed a thread computes from the value `old` it read, random.rs:119-127; `fresh` is what
`rand::thread_rng().next_u64()` returned (the constant 42 in tests). -/
def seedFrom (old fresh : BitVec 64) : BitVec 64 :=
  if old = 0 then fresh else (next64 (old.setWidth 128)).1

/-- The state shared by all calls: the static `SEED` (random.rs:137), the thread-local generators (112-136, `none` before
first use), and the values the operating system's generator will return. Threads are numbered. -/
structure Process where
  seed : BitVec 64
  locals : Nat → Option (BitVec 128)
  entropy : List (BitVec 64)

/-- `random_seed`, random.rs:104-106. -/
def randomSeed (seed : BitVec 64) (p : Process) : Process := { p with seed }

/-- The next value of `rand::thread_rng().next_u64()`; 0 once the list is used up (the list is arbitrary). Not from
/repo. -/
def Process.fresh (p : Process) : BitVec 64 × List (BitVec 64) := (p.entropy.headD 0, p.entropy.tail)

/-- The thread-local generator of thread `tid`, initialised on first use, random.rs:112-136. Simplification: the call runs
without interference here, so the compare-exchange succeeds; all interleavings are in `SeedStep`. -/
def localRng (tid : Nat) (p : Process) : BitVec 128 × Process :=
  match p.locals tid with
  | some s => (s, p)
  | none =>
    let f := p.fresh
    let seed := seedFrom p.seed f.1
    let s := seed.setWidth 128
    (s, ⟨seed, Function.update p.locals tid (some s), if p.seed = 0 then f.2 else p.entropy⟩)

/-- `next_u64`, random.rs:108-110, called from thread `tid`. -/
def nextU64 (tid : Nat) (p : Process) : BitVec 64 × Process :=
  let l := localRng tid p
  let r := next64 l.1
  (r.1, { l.2 with locals := Function.update l.2.locals tid (some r.2) })

/-- `Rand32::new`, random.rs:15-17. -/
def newRand32 (tid : Nat) (p : Process) : BitVec 64 × Process := nextU64 tid p

/-- `Rand64::new`, random.rs:63-65. -/
def newRand64 (tid : Nat) (p : Process) : BitVec 128 × Process :=
  let r := nextU64 tid p
  (r.1.setWidth 128, r.2)

/-! ### interleaved initialisation of the thread-local generators -/

/-- Where a thread is in the loop random.rs:116-132. -/
inductive Phase where
  /-- before the load -/
  | start
  /-- has loaded `old` -/
  | loaded (old : BitVec 64)
  /-- finished, generator seeded with `seed` -/
  | done (seed : BitVec 64)
  deriving DecidableEq

/-- The memory and threads during initialisation: `history` are the values of `SEED` in modification order, latest first;
`log` the initialisations since `random_seed` was last called, latest first: the thread and the seed it got. -/
structure SeedState where
  history : List (BitVec 64)
  phase : Nat → Phase
  log : List (Nat × BitVec 64)

/-- At the start of the process: `SEED` is 0 (random.rs:137), no thread has a generator. -/
def SeedState.initial : SeedState := ⟨[0], fun _ => .start, []⟩

/-- `random_seed`, random.rs:104-106, while other threads may be initialising. -/
def SeedState.reseed (st : SeedState) (seed : BitVec 64) : SeedState := ⟨seed :: st.history, st.phase, []⟩

/-- One atomic step of one thread. A load may return any earlier value of `SEED` (an over-approximation of what `Acquire`
loads may return); a compare-exchange acts on the latest value. -/
inductive SeedStep : SeedState → SeedState → Prop where
  /-- `SEED.load`, random.rs:117. -/
  | load (st : SeedState) (tid : Nat) (old : BitVec 64) :
      st.phase tid = .start → old ∈ st.history →
      SeedStep st { st with phase := Function.update st.phase tid (.loaded old) }
  /-- `SEED.compare_exchange` succeeds, random.rs:129-131. -/
  | casOk (st : SeedState) (tid : Nat) (old fresh : BitVec 64) :
      st.phase tid = .loaded old → st.history.head? = some old →
      SeedStep st ⟨seedFrom old fresh :: st.history, Function.update st.phase tid (.done (seedFrom old fresh)),
        (tid, seedFrom old fresh) :: st.log⟩
  /-- `SEED.compare_exchange` fails, random.rs:129: back to the load. -/
  | casFail (st : SeedState) (tid : Nat) (old : BitVec 64) :
      st.phase tid = .loaded old → st.history.head? ≠ some old →
      SeedStep st { st with phase := Function.update st.phase tid .start }

/-! ### random tensors -/

/-- `Normal`, init/random.rs:42-47. -/
structure Normal (F : Type) where
  mean : F
  std : F
  seed : Option (BitVec 64)

/-- `Normal::mean`, init/random.rs:50-56. -/
def Normal.ofMean (fo : FOps F) (mean : F) : Normal F := ⟨mean, fo.one, none⟩
/-- `Normal::with_mean`, init/random.rs:58-63. -/
def Normal.withMean (n : Normal F) (mean : F) : Normal F := { n with mean }
/-- `Normal::std`, init/random.rs:65-71. -/
def Normal.ofStd (fo : FOps F) (std : F) : Normal F := ⟨fo.zero, std, none⟩
/-- `Normal::with_std`, init/random.rs:73-78. -/
def Normal.withStd (n : Normal F) (std : F) : Normal F := { n with std }
/-- `Normal::seed`, init/random.rs:80-86. -/
def Normal.ofSeed (fo : FOps F) (seed : BitVec 64) : Normal F := ⟨fo.zero, fo.one, some seed⟩
/-- `Normal::with_seed`, init/random.rs:88-93. -/
def Normal.withSeed (n : Normal F) (seed : BitVec 64) : Normal F := { n with seed := some seed }
/-- `Normal::from((f32, f32))`, init/random.rs:123-127. -/
def Normal.ofPair (fo : FOps F) (mean std : F) : Normal F := (Normal.ofMean fo mean).withStd std
/-- `Normal::from(Option<u64>)`, init/random.rs:113-121 (`default` 103-111 with `none`). -/
def Normal.ofOption (fo : FOps F) (seed : Option (BitVec 64)) : Normal F := ⟨fo.zero, fo.one, seed⟩

/-- `Uniform`, init/random.rs:129-134. -/
structure Uniform (F : Type) where
  min : F
  max : F
  seed : Option (BitVec 64)

/-- `Uniform::min`, init/random.rs:137-143. -/
def Uniform.ofMin (fo : FOps F) (min : F) : Uniform F := ⟨min, fo.one, none⟩
/-- `Uniform::with_min`, init/random.rs:145-150. -/
def Uniform.withMin (n : Uniform F) (min : F) : Uniform F := { n with min }
/-- `Uniform::max`, init/random.rs:152-158. -/
def Uniform.ofMax (fo : FOps F) (max : F) : Uniform F := ⟨fo.zero, max, none⟩
/-- `Uniform::with_max`, init/random.rs:160-165. -/
def Uniform.withMax (n : Uniform F) (max : F) : Uniform F := { n with max }
/-- `Uniform::seed`, init/random.rs:167-173. -/
def Uniform.ofSeed (fo : FOps F) (seed : BitVec 64) : Uniform F := ⟨fo.zero, fo.one, some seed⟩
/-- `Uniform::with_seed`, init/random.rs:175-180. -/
def Uniform.withSeed (n : Uniform F) (seed : BitVec 64) : Uniform F := { n with seed := some seed }
/-- `Uniform::from((f32, f32))`, init/random.rs:210-214. -/
def Uniform.ofPair (fo : FOps F) (min max : F) : Uniform F := (Uniform.ofMin fo min).withMax max
/-- `Uniform::from(Option<u64>)`, init/random.rs:200-208 (`default` 190-198 with `none`). -/
def Uniform.ofOption (fo : FOps F) (seed : Option (BitVec 64)) : Uniform F := ⟨fo.zero, fo.one, seed⟩

/-- `Normal::init` and `Uniform::init`, init/random.rs:95-100, 182-187. -/
def initRand (seed : Option (BitVec 64)) (tid : Nat) (p : Process) : BitVec 64 × Process :=
  match seed with
  | some seed => (seed, p)
  | none => newRand32 tid p

/-- The closure of `random_normal`, init/random.rs:11-15. -/
def drawNormal (fr : FRand F) (opt : Normal F) : Exec (BitVec 64) F := fun s =>
  let v := nextNormal32 fr s
  .ok (fr.add opt.mean (fr.mul v.1 opt.std), v.2)

/-- `random_normal`, init/random.rs:4-16, called from thread `tid`. -/
def randomNormal (fr : FRand F) (shape : Shape) (opt : Normal F) (tid : Nat) (p : Process) :
    Res (Tensor F × Process) := do
  let r := initRand opt.seed tid p
  let t ← (Tensor.init shape (drawNormal fr opt)).run r.1
  return (t.1, r.2)

/-- The closure of `random_uniform`, init/random.rs:25-29. -/
def drawUniform (fr : FRand F) (opt : Uniform F) : Exec (BitVec 64) F := fun s =>
  let v := nextNormal32 fr s
  .ok (fr.add opt.min (fr.mul v.1 (fr.max (fr.sub opt.max opt.min) fr.zero)), v.2)

/-- `random_uniform`, init/random.rs:18-30, called from thread `tid`. -/
def randomUniform (fr : FRand F) (shape : Shape) (opt : Uniform F) (tid : Nat) (p : Process) :
    Res (Tensor F × Process) := do
  let r := initRand opt.seed tid p
  let t ← (Tensor.init shape (drawUniform fr opt)).run r.1
  return (t.1, r.2)

end Random

end Essay
