/-!
# Outcomes, loops, uninitialised buffers

The outcome of a Rust call: a value, a panic, or undefined behaviour made visible.
Nothing in this file models a particular function of /repo; it is the vocabulary the model is written in.
-/

namespace Essay

/-- How a Rust call can fail to return.
`panic`: any panic (failed assert, slice index out of bounds, checked arithmetic, `todo!`, division by zero).
`ub`: undefined behaviour (raw pointer access outside the allocation, uninitialised memory exposed or dropped). -/
inductive Err where
  | panic
  | ub
  deriving DecidableEq, Repr

/-- Outcome of a call. -/
abbrev Res (α : Type u) := Except Err α

/-- Outcome of a call running `FnMut` closures whose captured state is `σ`. -/
abbrev Exec (σ : Type u) (α : Type u) := StateT σ (Except Err) α

instance [DecidableEq α] : DecidableEq (Res α) := fun a b =>
  match a, b with
  | .ok x, .ok y => if h : x = y then isTrue (by rw [h]) else isFalse (by intro h'; cases h'; exact h rfl)
  | .error x, .error y => if h : x = y then isTrue (by rw [h]) else isFalse (by intro h'; cases h'; exact h rfl)
  | .ok _, .error _ => isFalse (by intro h; cases h)
  | .error _, .ok _ => isFalse (by intro h; cases h)

/-- A panic. -/
def panicked {α : Type u} : Res α := .error .panic

/-- `assert!(c)`. -/
def ensure (c : Prop) [Decidable c] : Res Unit := if c then .ok () else .error .panic

/-- A build of the crate: what becomes of an arithmetic operation that overflows. -/
class Build where
  /-- `a - b` on `usize` with `a < b`. -/
  subOverflow : Nat → Nat → Res Nat
  /-- `a * b` on `u32` with `a * b` at least 2^32. -/
  mulOverflow : Nat → Nat → Res Nat
  /-- `a + b` on `isize` outside the range. -/
  addOverflow : Int → Int → Res Int
  /-- A sum or product on `usize`, given its exact value. -/
  wrap : Nat → Nat

/-- A build with overflow checks (`cargo build`): an overflow panics. All theorems are about this build unless they name
another. Exact `usize` sums and products are only used where an overflow fails the check that follows, see
`Build.release`. -/
instance Build.checked : Build where
  subOverflow _ _ := .error .panic
  mulOverflow _ _ := .error .panic
  addOverflow _ _ := .error .panic
  wrap n := n

/-- A build without overflow checks (`cargo build --release`): results are taken modulo 2^64 (`usize`, `isize`) or 2^32
(`u32`). -/
@[instance_reducible] def Build.release : Build where
  subOverflow a b := .ok (18446744073709551616 + a - b)
  mulOverflow a b := .ok (a * b % 4294967296)
  addOverflow a b := .ok ((a + b + 9223372036854775808) % 18446744073709551616 - 9223372036854775808)
  wrap n := n % 18446744073709551616

@[simp] theorem subOverflow_checked (a b : Nat) : Build.subOverflow a b = .error .panic := rfl
@[simp] theorem mulOverflow_checked (a b : Nat) : Build.mulOverflow a b = .error .panic := rfl
@[simp] theorem addOverflow_checked (a b : Int) : Build.addOverflow a b = .error .panic := rfl
@[simp] theorem wrap_checked (n : Nat) : Build.wrap n = n := rfl

/-- `a - b` on `usize`. -/
def usub [Build] (a b : Nat) : Res Nat := if b ≤ a then .ok (a - b) else Build.subOverflow a b

/-- `a / b` on `usize`. -/
def udiv (a b : Nat) : Res Nat := if b = 0 then .error .panic else .ok (a / b)

/-- `a % b` on `usize`. -/
def umod (a b : Nat) : Res Nat := if b = 0 then .error .panic else .ok (a % b)

/-- `x as u32`. -/
def asU32 (n : Nat) : Nat := n % 4294967296

/-- `a * b` on `u32`. -/
def mulU32 [Build] (a b : Nat) : Res Nat := if a * b < 4294967296 then .ok (a * b) else Build.mulOverflow a b

/-- `a + b` on `isize`. -/
def iadd [Build] (a b : Int) : Res Int :=
  if -9223372036854775808 ≤ a + b ∧ a + b < 9223372036854775808 then .ok (a + b) else Build.addOverflow a b

/-- `x as usize` for `x : isize` (two's complement). -/
def isizeAsUsize (x : Int) : Nat := (x % 18446744073709551616).toNat

/-- `a % b` on `isize` (truncated remainder). -/
def imod (a b : Int) : Res Int := if b = 0 then .error .panic else .ok (a.tmod b)

/-- `xs[i]` on a slice or array (bounds checked). -/
def idx (xs : List α) (i : Nat) : Res α :=
  match xs[i]? with
  | some x => .ok x
  | none => .error .panic

/-- `xs[i] = v` on a slice or array (bounds checked). -/
def setIdx (xs : List α) (i : Nat) (v : α) : Res (List α) :=
  if i < xs.length then .ok (xs.set i v) else .error .panic

/-- `for i in lo..hi { body }` with loop state `s`. -/
def forR {m : Type u → Type v} [Monad m] {β : Type u} (lo hi : Nat) (s : β) (body : Nat → β → m β) : m β :=
  (List.range' lo (hi - lo)).foldlM (fun s i => body i s) s

/-- `for x in xs { body }` with loop state `s`. -/
def forL {m : Type u → Type v} [Monad m] {γ : Type w} {β : Type u} (xs : List γ) (s : β)
    (body : γ → β → m β) : m β :=
  xs.foldlM (fun s x => body x s) s

/-- A heap block of slots, `none` = uninitialised. -/
abbrev Buf (α : Type u) := List (Option α)

/-- A fresh uninitialised block of `n` slots. -/
def Buf.uninit (n : Nat) : Buf α := List.replicate n none

/-- `o.add(i).write(v)`: a raw write; outside the block it is undefined behaviour. -/
def Buf.write (b : Buf α) (i : Nat) (v : α) : Res (Buf α) :=
  if i < b.length then .ok (b.set i (some v)) else .error .ub

/-- The contents if every slot is initialised. -/
def Buf.complete (b : Buf α) : Option (List α) := b.mapM id

/-- `ptr::slice_from_raw_parts(p.add(off), len)` over a block with contents `xs`: outside the block it is undefined
behaviour. -/
def rawSlice (xs : List α) (off len : Nat) : Res (List α) :=
  if off + len ≤ xs.length then .ok ((xs.drop off).take len) else .error .ub

/-- `*p.add(i)` over a block with contents `xs`: outside the block it is undefined behaviour. -/
def rawRead (xs : List α) (i : Nat) : Res α :=
  match xs[i]? with
  | some x => .ok x
  | none => .error .ub

/-- `p.add(i)` over a block with contents `xs`: computing a pointer past the end of the block is undefined behaviour even
if it is not read. -/
def rawAdd (xs : List α) (i : Nat) : Res Nat := if i ≤ xs.length then .ok i else .error .ub

end Essay
