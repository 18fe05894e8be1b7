import Mathlib.Algebra.Order.Field.Basic
import Mathlib.Order.WithBot
import Verif.Spec.Stats
import Verif.Spec.Float

/-!
# Floating point values with infinities, signed zeros and NaN

`FOps.rounded` has no overflow and no special values. Here the same operations are given for all the values of an IEEE
754 format: a finite result is the rounded exact one, a rounded result above the largest finite number becomes an
infinity, and invalid operations give NaN.
-/

namespace Essay

/-- A floating point value: NaN, an infinity, a zero (`true`: negative) or another number. -/
inductive Fp (K : Type) where
  | nan
  | inf (neg : Bool)
  | zero (neg : Bool)
  | num (x : K)
  deriving DecidableEq

namespace Fp

variable {K : Type} [Field K] [LinearOrder K]

/-- The real number a finite value stands for. -/
def val : Fp K → Option K
  | .zero _ => some 0
  | .num x => some x
  | _ => none

/-- Position in the order of the values that are not NaN; the two zeros are equal. -/
def key : Fp K → Option (WithBot (WithTop K))
  | .nan => none
  | .inf true => some ⊥
  | .inf false => some ((⊤ : WithTop K) : WithBot (WithTop K))
  | .zero _ => some ((0 : K) : WithTop K)
  | .num x => some (x : WithTop K)

/-- The sign bit. -/
def sign : Fp K → Bool
  | .nan => false
  | .inf s => s
  | .zero s => s
  | .num x => decide (x < 0)

/-- Values from zero on, both zeros and `+inf` included. -/
def NonNeg : Fp K → Prop
  | .nan => False
  | .inf s => s = false
  | .zero _ => True
  | .num x => 0 ≤ x

/-- The value for the exact result `x`, with `s` the sign of an exact zero. -/
def pack (rnd : K → K) (big : K) (s : Bool) (x : K) : Fp K :=
  if rnd x = 0 then .zero (if x = 0 then s else decide (x < 0))
  else if |rnd x| ≤ big then .num (rnd x)
  else .inf (decide (x < 0))

/-- Negation. -/
def neg : Fp K → Fp K
  | .nan => .nan
  | .inf s => .inf (!s)
  | .zero s => .zero (!s)
  | .num x => .num (-x)

/-- Addition. -/
def add (rnd : K → K) (big : K) (x y : Fp K) : Fp K :=
  match x, y with
  | .nan, _ => .nan
  | _, .nan => .nan
  | .inf s, .inf t => if s = t then .inf s else .nan
  | .inf s, _ => .inf s
  | _, .inf t => .inf t
  | x, y => pack rnd big (x.sign && y.sign) (x.val.getD 0 + y.val.getD 0)

/-- Subtraction. -/
def sub (rnd : K → K) (big : K) (x y : Fp K) : Fp K := add rnd big x y.neg

/-- Multiplication. -/
def mul (rnd : K → K) (big : K) (x y : Fp K) : Fp K :=
  match x, y with
  | .nan, _ => .nan
  | _, .nan => .nan
  | .inf _, .zero _ => .nan
  | .zero _, .inf _ => .nan
  | .inf s, y => .inf (s ^^ y.sign)
  | x, .inf t => .inf (x.sign ^^ t)
  | x, y => pack rnd big (x.sign ^^ y.sign) (x.val.getD 0 * y.val.getD 0)

/-- Fused multiply-add: `x * y + z` rounded once. -/
def fma (rnd : K → K) (big : K) (x y z : Fp K) : Fp K :=
  match x.val, y.val, z.val with
  | some a, some b, some c => pack rnd big ((x.sign ^^ y.sign) && z.sign) (a * b + c)
  | some _, some _, none => z
  | _, _, _ => add rnd big (mul rnd big x y) z

/-- Division. -/
def div (rnd : K → K) (big : K) (x y : Fp K) : Fp K :=
  match x, y with
  | .nan, _ => .nan
  | _, .nan => .nan
  | .inf _, .inf _ => .nan
  | .inf s, y => .inf (s ^^ y.sign)
  | x, .inf t => .zero (x.sign ^^ t)
  | .zero _, .zero _ => .nan
  | x, .zero t => .inf (x.sign ^^ t)
  | x, y => pack rnd big (x.sign ^^ y.sign) (x.val.getD 0 / y.val.getD 0)

/-- Square root; `sq` is the rounded square root of a positive number. -/
def sqrt (sq : K → K) : Fp K → Fp K
  | .nan => .nan
  | .inf s => if s then .nan else .inf false
  | .zero s => .zero s
  | .num x => if x < 0 then .nan else if sq x = 0 then .zero false else .num (sq x)

/-- Comparisons are false if an argument is NaN. -/
def cmp (r : WithBot (WithTop K) → WithBot (WithTop K) → Bool) (x y : Fp K) : Bool :=
  match x.key, y.key with
  | some a, some b => r a b
  | _, _ => false

end Fp

/-- IEEE 754 arithmetic with the rounding `rnd` and the largest finite number `big`. Logarithm, exponential and power
are arbitrary. -/
def FOps.ieee {K : Type} [Field K] [LinearOrder K] (rnd : K → K) (big : K) (ln exp : Fp K → Fp K) (sq : K → K)
    (powf : Fp K → Fp K → Fp K) : FOps (Fp K) where
  zero := .zero false
  one := .num 1
  add := Fp.add rnd big
  sub := Fp.sub rnd big
  mul := Fp.mul rnd big
  div := Fp.div rnd big
  ofNat n := Fp.pack rnd big false n
  eq := Fp.cmp fun a b => decide (a = b)
  lt := Fp.cmp fun a b => decide (a < b)
  le := Fp.cmp fun a b => decide (a ≤ b)
  ln := ln
  exp := exp
  sqrt := Fp.sqrt sq
  powf := powf

end Essay
