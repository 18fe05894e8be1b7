import Verif.Model.Ops

/-!
# Model of `src/math/float.rs`, `src/math/integer.rs` and `src/math/complex.rs`

The scalar functions come from the standard library, `num_traits` and `num_complex`; they are parameters (`FloatLib`) or
are written out from their documentation (`BitVec` functions, `Cx`). None of them panics.
-/

namespace Essay

variable [Build]

/-! ## float.rs -/

/-- The functions of `num_traits::Float` that float.rs lifts to tensors. Not from /repo. -/
structure FloatLib (F : Type) where
  floor : F → F
  ceil : F → F
  round : F → F
  trunc : F → F
  fract : F → F
  signum : F → F
  recip : F → F
  sqrt : F → F
  exp : F → F
  exp2 : F → F
  ln : F → F
  log2 : F → F
  log10 : F → F
  toDegrees : F → F
  toRadians : F → F
  cbrt : F → F
  sin : F → F
  asin : F → F
  sinh : F → F
  asinh : F → F
  cos : F → F
  acos : F → F
  cosh : F → F
  acosh : F → F
  tan : F → F
  atan : F → F
  tanh : F → F
  atanh : F → F
  expM1 : F → F
  ln1p : F → F
  powf : F → F → F
  log : F → F → F
  hypot : F → F → F
  atan2 : F → F → F
  copysign : F → F → F
  powi : F → Int → F
  sinCos : F → F × F
  mulAdd : F → F → F → F

namespace Tensor

variable {F : Type}

/-- `map!`, float.rs:5-12, integer.rs:5-12, complex.rs:9-16, and `map_to_u32!`, `map_to_re!`: `self.map(|a| a.$id())`. -/
def mapMethod {T V : Type} (f : T → V) (t : Tensor T) : Res (Tensor V) := unary (fun a => .ok (f a)) t

/-- `map2!`, float.rs:14-21, complex.rs:27-52 (and the `map2_type!`, `map2_re!` there):
`self.map2(b, |a, b| a.$id(b.clone()))`. -/
def map2Method {T U V : Type} (f : T → U → V) (t : Tensor T) (b : Tensor U) : Res (Tensor V) :=
  opTT (fun a b => .ok (f a b)) t b

/-- `map!(floor)`, float.rs:24. -/
def floor (m : FloatLib F) (t : Tensor F) : Res (Tensor F) := mapMethod m.floor t

/-- `map!(ceil)`, float.rs:25. -/
def ceil (m : FloatLib F) (t : Tensor F) : Res (Tensor F) := mapMethod m.ceil t

/-- `map!(round)`, float.rs:26. -/
def round (m : FloatLib F) (t : Tensor F) : Res (Tensor F) := mapMethod m.round t

/-- `map!(trunc)`, float.rs:27. -/
def trunc (m : FloatLib F) (t : Tensor F) : Res (Tensor F) := mapMethod m.trunc t

/-- `map!(fract)`, float.rs:28. -/
def fract (m : FloatLib F) (t : Tensor F) : Res (Tensor F) := mapMethod m.fract t

/-- `map!(signum)`, float.rs:29. -/
def signum (m : FloatLib F) (t : Tensor F) : Res (Tensor F) := mapMethod m.signum t

/-- `map!(recip)`, float.rs:30. -/
def recip (m : FloatLib F) (t : Tensor F) : Res (Tensor F) := mapMethod m.recip t

/-- `map!(sqrt)`, float.rs:39. -/
def sqrt (m : FloatLib F) (t : Tensor F) : Res (Tensor F) := mapMethod m.sqrt t

/-- `map!(exp)`, float.rs:40. -/
def exp (m : FloatLib F) (t : Tensor F) : Res (Tensor F) := mapMethod m.exp t

/-- `map!(exp2)`, float.rs:41. -/
def exp2 (m : FloatLib F) (t : Tensor F) : Res (Tensor F) := mapMethod m.exp2 t

/-- `map!(ln)`, float.rs:42. -/
def ln (m : FloatLib F) (t : Tensor F) : Res (Tensor F) := mapMethod m.ln t

/-- `map!(log2)`, float.rs:44. -/
def log2 (m : FloatLib F) (t : Tensor F) : Res (Tensor F) := mapMethod m.log2 t

/-- `map!(log10)`, float.rs:45. -/
def log10 (m : FloatLib F) (t : Tensor F) : Res (Tensor F) := mapMethod m.log10 t

/-- `map!(to_degrees)`, float.rs:46. -/
def toDegrees (m : FloatLib F) (t : Tensor F) : Res (Tensor F) := mapMethod m.toDegrees t

/-- `map!(to_radians)`, float.rs:47. -/
def toRadians (m : FloatLib F) (t : Tensor F) : Res (Tensor F) := mapMethod m.toRadians t

/-- `map!(cbrt)`, float.rs:48. -/
def cbrt (m : FloatLib F) (t : Tensor F) : Res (Tensor F) := mapMethod m.cbrt t

/-- `map!(sin)`, float.rs:50. -/
def sin (m : FloatLib F) (t : Tensor F) : Res (Tensor F) := mapMethod m.sin t

/-- `map!(asin)`, float.rs:51. -/
def asin (m : FloatLib F) (t : Tensor F) : Res (Tensor F) := mapMethod m.asin t

/-- `map!(sinh)`, float.rs:52. -/
def sinh (m : FloatLib F) (t : Tensor F) : Res (Tensor F) := mapMethod m.sinh t

/-- `map!(asinh)`, float.rs:53. -/
def asinh (m : FloatLib F) (t : Tensor F) : Res (Tensor F) := mapMethod m.asinh t

/-- `map!(cos)`, float.rs:54. -/
def cos (m : FloatLib F) (t : Tensor F) : Res (Tensor F) := mapMethod m.cos t

/-- `map!(acos)`, float.rs:55. -/
def acos (m : FloatLib F) (t : Tensor F) : Res (Tensor F) := mapMethod m.acos t

/-- `map!(cosh)`, float.rs:56. -/
def cosh (m : FloatLib F) (t : Tensor F) : Res (Tensor F) := mapMethod m.cosh t

/-- `map!(acosh)`, float.rs:57. -/
def acosh (m : FloatLib F) (t : Tensor F) : Res (Tensor F) := mapMethod m.acosh t

/-- `map!(tan)`, float.rs:64. -/
def tan (m : FloatLib F) (t : Tensor F) : Res (Tensor F) := mapMethod m.tan t

/-- `map!(atan)`, float.rs:65. -/
def atan (m : FloatLib F) (t : Tensor F) : Res (Tensor F) := mapMethod m.atan t

/-- `map!(tanh)`, float.rs:66. -/
def tanh (m : FloatLib F) (t : Tensor F) : Res (Tensor F) := mapMethod m.tanh t

/-- `map!(atanh)`, float.rs:67. -/
def atanh (m : FloatLib F) (t : Tensor F) : Res (Tensor F) := mapMethod m.atanh t

/-- `map!(exp_m1)`, float.rs:69. -/
def expM1 (m : FloatLib F) (t : Tensor F) : Res (Tensor F) := mapMethod m.expM1 t

/-- `map!(ln_1p)`, float.rs:70. -/
def ln1p (m : FloatLib F) (t : Tensor F) : Res (Tensor F) := mapMethod m.ln1p t

/-- `map2!(powf)`, float.rs:37. -/
def powf (m : FloatLib F) (t b : Tensor F) : Res (Tensor F) := map2Method m.powf t b

/-- `map2!(log)`, float.rs:43. -/
def log (m : FloatLib F) (t b : Tensor F) : Res (Tensor F) := map2Method m.log t b

/-- `map2!(hypot)`, float.rs:49. -/
def hypot (m : FloatLib F) (t b : Tensor F) : Res (Tensor F) := map2Method m.hypot t b

/-- `map2!(atan2)`, float.rs:68. -/
def atan2 (m : FloatLib F) (t b : Tensor F) : Res (Tensor F) := map2Method m.atan2 t b

/-- `map2!(copysign)`, float.rs:71. -/
def copysign (m : FloatLib F) (t b : Tensor F) : Res (Tensor F) := map2Method m.copysign t b

/-- `Tensor::powi`, float.rs:32-35. -/
def powi (m : FloatLib F) (t : Tensor F) (rhs : Tensor Int) : Res (Tensor F) := map2Method m.powi t rhs

/-- `Tensor::sin_cos`, float.rs:59-62. -/
def sinCos (m : FloatLib F) (t : Tensor F) : Res (Tensor (F × F)) := mapMethod m.sinCos t

/-- `MulAdd for Tensor`, float.rs:73-79. -/
def mulAdd {T : Type} (f : T → T → T → T) (t b c : Tensor T) : Res (Tensor T) :=
  runPure (t.map3 b c fun a b c => (pure (f a b c) : Exec Unit T))

/-- The names of the one-argument methods of float.rs:24-71. -/
inductive Float1 where
  | floor | ceil | round | trunc | fract | signum | recip | sqrt | exp | exp2 | ln | log2 | log10 | toDegrees | toRadians | cbrt | sin | asin | sinh | asinh | cos | acos | cosh | acosh | tan | atan | tanh | atanh | expM1 | ln1p
  deriving DecidableEq, Repr

/-- Calls the method of that name, float.rs:24-71. -/
def Float1.call (m : FloatLib F) : Float1 → Tensor F → Res (Tensor F)
  | .floor, t => t.floor m
  | .ceil, t => t.ceil m
  | .round, t => t.round m
  | .trunc, t => t.trunc m
  | .fract, t => t.fract m
  | .signum, t => t.signum m
  | .recip, t => t.recip m
  | .sqrt, t => t.sqrt m
  | .exp, t => t.exp m
  | .exp2, t => t.exp2 m
  | .ln, t => t.ln m
  | .log2, t => t.log2 m
  | .log10, t => t.log10 m
  | .toDegrees, t => t.toDegrees m
  | .toRadians, t => t.toRadians m
  | .cbrt, t => t.cbrt m
  | .sin, t => t.sin m
  | .asin, t => t.asin m
  | .sinh, t => t.sinh m
  | .asinh, t => t.asinh m
  | .cos, t => t.cos m
  | .acos, t => t.acos m
  | .cosh, t => t.cosh m
  | .acosh, t => t.acosh m
  | .tan, t => t.tan m
  | .atan, t => t.atan m
  | .tanh, t => t.tanh m
  | .atanh, t => t.atanh m
  | .expM1, t => t.expM1 m
  | .ln1p, t => t.ln1p m

/-- The names of the two-argument methods of float.rs:24-71. -/
inductive Float2 where
  | powf | log | hypot | atan2 | copysign
  deriving DecidableEq, Repr

/-- Calls the method of that name, float.rs:24-71. -/
def Float2.call (m : FloatLib F) : Float2 → Tensor F → Tensor F → Res (Tensor F)
  | .powf, t, b => t.powf m b
  | .log, t, b => t.log m b
  | .hypot, t, b => t.hypot m b
  | .atan2, t, b => t.atan2 m b
  | .copysign, t, b => t.copysign m b

end Tensor

/-! ## integer.rs -/

namespace Bits

variable {w : Nat}

/-- `count_ones` of a `w`-bit integer. Not from /repo. -/
def countOnes (x : BitVec w) : Nat := (List.range w).countP fun i => x.getLsbD i

/-- `count_zeros`. Not from /repo. -/
def countZeros (x : BitVec w) : Nat := (List.range w).countP fun i => !x.getLsbD i

/-- `trailing_zeros`: low zero bits before the first one bit (all `w` if there is none). Not from /repo. -/
def trailingZeros (x : BitVec w) : Nat := ((List.range w).takeWhile fun i => !x.getLsbD i).length

/-- `trailing_ones`. Not from /repo. -/
def trailingOnes (x : BitVec w) : Nat := ((List.range w).takeWhile fun i => x.getLsbD i).length

/-- `leading_zeros`. Not from /repo. -/
def leadingZeros (x : BitVec w) : Nat := ((List.range w).takeWhile fun i => !x.getMsbD i).length

/-- `leading_ones`. Not from /repo. -/
def leadingOnes (x : BitVec w) : Nat := ((List.range w).takeWhile fun i => x.getMsbD i).length

/-- `swap_bytes` of an integer of `n` bytes. Not from /repo. -/
def swapBytes {n : Nat} (x : BitVec (8 * n)) : BitVec (8 * n) :=
  (BitVec.iunfoldr (fun i _ => ((), x.getLsbD (8 * (n - 1 - i.1 / 8) + i.1 % 8))) ()).2

end Bits

namespace Tensor

variable {w n : Nat}

/-- `map_to_u32!(count_ones)`, integer.rs:24. -/
def countOnes (t : Tensor (BitVec w)) : Res (Tensor Nat) := mapMethod Bits.countOnes t

/-- `map_to_u32!(count_zeros)`, integer.rs:25. -/
def countZeros (t : Tensor (BitVec w)) : Res (Tensor Nat) := mapMethod Bits.countZeros t

/-- `map_to_u32!(leading_ones)`, integer.rs:26. -/
def leadingOnes (t : Tensor (BitVec w)) : Res (Tensor Nat) := mapMethod Bits.leadingOnes t

/-- `map_to_u32!(leading_zeros)`, integer.rs:27. -/
def leadingZeros (t : Tensor (BitVec w)) : Res (Tensor Nat) := mapMethod Bits.leadingZeros t

/-- `map_to_u32!(trailing_ones)`, integer.rs:28. -/
def trailingOnes (t : Tensor (BitVec w)) : Res (Tensor Nat) := mapMethod Bits.trailingOnes t

/-- `map_to_u32!(trailing_zeros)`, integer.rs:29. -/
def trailingZeros (t : Tensor (BitVec w)) : Res (Tensor Nat) := mapMethod Bits.trailingZeros t

/-- `Tensor::rotate_left`, integer.rs:31-34; the scalar `rotate_left` is `BitVec.rotateLeft`. -/
def rotateLeft (t : Tensor (BitVec w)) (b : Tensor Nat) : Res (Tensor (BitVec w)) :=
  map2Method (fun x n => x.rotateLeft n) t b

/-- `Tensor::rotate_right`, integer.rs:36-39. -/
def rotateRight (t : Tensor (BitVec w)) (b : Tensor Nat) : Res (Tensor (BitVec w)) :=
  map2Method (fun x n => x.rotateRight n) t b

/-- `map!(swap_bytes)`, integer.rs:41. -/
def swapBytes (t : Tensor (BitVec (8 * n))) : Res (Tensor (BitVec (8 * n))) := mapMethod Bits.swapBytes t

/-- `map!(reverse_bits)`, integer.rs:42. -/
def reverseBits (t : Tensor (BitVec w)) : Res (Tensor (BitVec w)) := mapMethod BitVec.reverse t

/-- `map!(to_be)`, integer.rs:43, on a machine whose byte order is `bigEndian`. -/
def toBe (bigEndian : Bool) (t : Tensor (BitVec (8 * n))) : Res (Tensor (BitVec (8 * n))) :=
  mapMethod (fun x => if bigEndian then x else Bits.swapBytes x) t

/-- `map!(to_le)`, integer.rs:44. -/
def toLe (bigEndian : Bool) (t : Tensor (BitVec (8 * n))) : Res (Tensor (BitVec (8 * n))) :=
  mapMethod (fun x => if bigEndian then Bits.swapBytes x else x) t

end Tensor

/-! ## complex.rs -/

/-- `num_complex::Complex`. Not from /repo. -/
structure Cx (F : Type) where
  re : F
  im : F
  deriving DecidableEq, Repr

/-- The real operations `num_complex` uses. Not from /repo. -/
structure CxLib (F : Type) where
  zero : F
  one : F
  add : F → F → F
  sub : F → F → F
  mul : F → F → F
  div : F → F → F
  neg : F → F
  abs : F → F
  hypot : F → F → F
  atan2 : F → F → F
  sin : F → F
  cos : F → F
  exp : F → F
  ln : F → F
  powf : F → F → F

namespace Cx

variable {F : Type}

/-- `Complex::norm_sqr` of `num_complex`. Not from /repo. -/
def normSqr (m : CxLib F) (z : Cx F) : F := m.add (m.mul z.re z.re) (m.mul z.im z.im)

/-- `Complex::scale`. Not from /repo. -/
def scale (m : CxLib F) (z : Cx F) (t : F) : Cx F := ⟨m.mul z.re t, m.mul z.im t⟩

/-- `Complex::unscale`. Not from /repo. -/
def unscale (m : CxLib F) (z : Cx F) (t : F) : Cx F := ⟨m.div z.re t, m.div z.im t⟩

/-- `Complex * Complex`. Not from /repo. -/
def mul (m : CxLib F) (z w : Cx F) : Cx F :=
  ⟨m.sub (m.mul z.re w.re) (m.mul z.im w.im), m.add (m.mul z.re w.im) (m.mul z.im w.re)⟩

/-- `Complex::powu`. Simplification: repeated multiplication where `num_traits` squares repeatedly. Not from /repo. -/
def powu (m : CxLib F) (z : Cx F) : Nat → Cx F
  | 0 => ⟨m.one, m.zero⟩
  | k + 1 => mul m (powu m z k) z

/-- `Complex::conj`. Not from /repo. -/
def conj (m : CxLib F) (z : Cx F) : Cx F := ⟨z.re, m.neg z.im⟩

/-- `Complex::inv`. Not from /repo. -/
def inv (m : CxLib F) (z : Cx F) : Cx F := ⟨m.div z.re (z.normSqr m), m.div (m.neg z.im) (z.normSqr m)⟩

/-- `Complex::l1_norm`. Not from /repo. -/
def l1Norm (m : CxLib F) (z : Cx F) : F := m.add (m.abs z.re) (m.abs z.im)

/-- `Complex::norm`. Not from /repo. -/
def norm (m : CxLib F) (z : Cx F) : F := m.hypot z.re z.im

/-- `Complex::arg`. Not from /repo. -/
def arg (m : CxLib F) (z : Cx F) : F := m.atan2 z.im z.re

/-- `Complex::to_polar`. Not from /repo. -/
def toPolar (m : CxLib F) (z : Cx F) : F × F := (z.norm m, z.arg m)

/-- `Complex::from_polar`. Not from /repo. -/
def fromPolar (m : CxLib F) (r theta : F) : Cx F := ⟨m.mul r (m.cos theta), m.mul r (m.sin theta)⟩

/-- `Complex::finv`: the inverse computed with two divisions by the norm. Not from /repo. -/
def finv (m : CxLib F) (z : Cx F) : Cx F := unscale m (unscale m (z.conj m) (z.norm m)) (z.norm m)

/-- `Complex::fdiv`. Not from /repo. -/
def fdiv (m : CxLib F) (z w : Cx F) : Cx F := mul m z (w.finv m)

/-- `Complex::expf`: `base` to the power `z`. Not from /repo. -/
def expf (m : CxLib F) (z : Cx F) (base : F) : Cx F := fromPolar m (m.powf base z.re) (m.mul z.im (m.ln base))

/-- `Complex::powc`: `z` to the power `w`; `z ^ 0 = 1`. Not from /repo. -/
def powc (m : CxLib F) (isZero : Cx F → Bool) (z w : Cx F) : Cx F :=
  if isZero w then ⟨m.one, m.zero⟩
  else
    let r := z.norm m
    let theta := z.arg m
    fromPolar m (m.mul (m.powf r w.re) (m.exp (m.neg (m.mul w.im theta))))
      (m.add (m.mul w.re theta) (m.mul w.im (m.ln r)))

end Cx

namespace Tensor

variable {F : Type}

/-- `Tensor::re`, complex.rs:58-60. -/
def re (t : Tensor (Cx F)) : Res (Tensor F) := mapMethod (fun a => a.re) t

/-- `Tensor::im`, complex.rs:62-64. -/
def im (t : Tensor (Cx F)) : Res (Tensor F) := mapMethod (fun a => a.im) t

/-- `map_to_re!(norm_sqr)`, complex.rs:68. -/
def normSqr (m : CxLib F) (t : Tensor (Cx F)) : Res (Tensor F) := mapMethod (Cx.normSqr m) t

/-- `map2_re!(scale)`, complex.rs:69. -/
def scale (m : CxLib F) (t : Tensor (Cx F)) (b : Tensor F) : Res (Tensor (Cx F)) := map2Method (Cx.scale m) t b

/-- `map2_re!(unscale)`, complex.rs:70. -/
def unscale (m : CxLib F) (t : Tensor (Cx F)) (b : Tensor F) : Res (Tensor (Cx F)) := map2Method (Cx.unscale m) t b

/-- `map2_type!(powu, u32)`, complex.rs:71. -/
def powu (m : CxLib F) (t : Tensor (Cx F)) (b : Tensor Nat) : Res (Tensor (Cx F)) := map2Method (Cx.powu m) t b

/-- `map!(conj)`, complex.rs:75. -/
def conj (m : CxLib F) (t : Tensor (Cx F)) : Res (Tensor (Cx F)) := mapMethod (Cx.conj m) t

/-- `map!(inv)`, complex.rs:76. -/
def inv (m : CxLib F) (t : Tensor (Cx F)) : Res (Tensor (Cx F)) := mapMethod (Cx.inv m) t

/-- `map_to_re!(l1_norm)`, complex.rs:81. -/
def l1Norm (m : CxLib F) (t : Tensor (Cx F)) : Res (Tensor F) := mapMethod (Cx.l1Norm m) t

/-- `map_to_re!(norm)`, complex.rs:85. -/
def norm (m : CxLib F) (t : Tensor (Cx F)) : Res (Tensor F) := mapMethod (Cx.norm m) t

/-- `map_to_re!(arg)`, complex.rs:86. -/
def arg (m : CxLib F) (t : Tensor (Cx F)) : Res (Tensor F) := mapMethod (Cx.arg m) t

/-- `Tensor::to_polar`, complex.rs:88-91. -/
def toPolar (m : CxLib F) (t : Tensor (Cx F)) : Res (Tensor (F × F)) := mapMethod (Cx.toPolar m) t

/-- `Tensor::from_polar`, complex.rs:93-96. -/
def fromPolar (m : CxLib F) (polar : Tensor (F × F)) : Res (Tensor (Cx F)) :=
  mapMethod (fun a => Cx.fromPolar m a.1 a.2) polar

/-- `map2!(powc)`, complex.rs:103. -/
def powc (m : CxLib F) (isZero : Cx F → Bool) (t b : Tensor (Cx F)) : Res (Tensor (Cx F)) :=
  map2Method (Cx.powc m isZero) t b

/-- `map2_type!(expf, T)`, complex.rs:104. -/
def expf (m : CxLib F) (t : Tensor (Cx F)) (b : Tensor F) : Res (Tensor (Cx F)) := map2Method (Cx.expf m) t b

/-- `map!(finv)`, complex.rs:117. -/
def finv (m : CxLib F) (t : Tensor (Cx F)) : Res (Tensor (Cx F)) := mapMethod (Cx.finv m) t

/-- `map2!(fdiv)`, complex.rs:118. -/
def fdiv (m : CxLib F) (t b : Tensor (Cx F)) : Res (Tensor (Cx F)) := map2Method (Cx.fdiv m) t b

end Tensor

end Essay
