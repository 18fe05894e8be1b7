import Verif.Model.From
import Verif.Model.Float

/-!
# Model of `src/io/decode_wav.rs` and `src/io/read_file.rs`
-/

namespace Essay

variable [Build]

namespace Io

variable {F : Type}

/-- An arithmetic result on an unsigned integer of `w` bits (overflow checks on). Not from /repo. -/
def chk (w n : Nat) : Res Nat := if n < 2 ^ w then .ok n else .error .panic

/-- `x as i16` for `x : u16` (two's complement). Not from /repo. -/
def asI16 (x : Nat) : Int := if x < 32768 then x else x - 65536

/-! ### `Cursor`, decode_wav.rs:65-115; the state is `index`, `slice` is the argument -/

/-- `Cursor::read`, decode_wav.rs:78-82. -/
def read (slice : List (BitVec 8)) : Exec Nat Nat := do
  let index ← get
  let v ← (idx slice index : Res (BitVec 8))
  set (index + 1)
  return v.toNat

/-- `Cursor::read_u16_little`, decode_wav.rs:88-90. -/
def readU16Little (slice : List (BitVec 8)) : Exec Nat Nat := do
  let b0 ← read slice
  let b1 ← read slice
  let m1 ← (chk 16 (0x100 * b1) : Res Nat)
  (chk 16 (b0 + m1) : Res Nat)

/-- `Cursor::read_i16_little`, decode_wav.rs:92-94. -/
def readI16Little (slice : List (BitVec 8)) : Exec Nat Int := do
  let b0 ← read slice
  let b1 ← read slice
  let m1 ← (chk 16 (0x100 * b1) : Res Nat)
  let v ← (chk 16 (b0 + m1) : Res Nat)
  return asI16 v

/-- `Cursor::read_u32_big`, decode_wav.rs:96-101. -/
def readU32Big (slice : List (BitVec 8)) : Exec Nat Nat := do
  let b0 ← read slice
  let m0 ← (chk 32 (0x1000000 * b0) : Res Nat)
  let b1 ← read slice
  let m1 ← (chk 32 (0x10000 * b1) : Res Nat)
  let s1 ← (chk 32 (m0 + m1) : Res Nat)
  let b2 ← read slice
  let m2 ← (chk 32 (0x100 * b2) : Res Nat)
  let s2 ← (chk 32 (s1 + m2) : Res Nat)
  let b3 ← read slice
  (chk 32 (s2 + b3) : Res Nat)

/-- `Cursor::read_u32_little`, decode_wav.rs:103-108. -/
def readU32Little (slice : List (BitVec 8)) : Exec Nat Nat := do
  let b0 ← read slice
  let b1 ← read slice
  let m1 ← (chk 32 (0x100 * b1) : Res Nat)
  let s1 ← (chk 32 (b0 + m1) : Res Nat)
  let b2 ← read slice
  let m2 ← (chk 32 (0x10000 * b2) : Res Nat)
  let s2 ← (chk 32 (s1 + m2) : Res Nat)
  let b3 ← read slice
  let m3 ← (chk 32 (0x1000000 * b3) : Res Nat)
  (chk 32 (s2 + m3) : Res Nat)

/-- The part of `decode_wav` that moves the cursor, decode_wav.rs:10-43: number of channels, sample rate and data.
`ofInt` is the conversion of integers to `f32`. Failed memory allocation (line 38) is not modelled. -/
def parseWav (fo : FOps F) (ofInt : Int → F) (slice : List (BitVec 8)) : Exec Nat (Nat × Nat × List F) := do
  let riff ← readU32Big slice
  ensure (riff = 0x52494646)
  let total ← readU32Little slice
  let expected ← (usub slice.length 8 : Res Nat)
  ensure (total = asU32 expected)
  let wave ← readU32Big slice
  ensure (wave = 0x57415645)
  let tag ← readU32Big slice
  ensure (tag = 0x666d7420)
  let metaLen ← readU32Little slice
  ensure (metaLen = 16)
  let fmt ← readU16Little slice
  let nChannels ← readU16Little slice
  let sampleRate ← readU32Little slice
  let _byteRate ← readU32Little slice
  let _blockAlign ← readU16Little slice
  let bitsPerSample ← readU16Little slice
  ensure (fmt = 1)
  ensure (bitsPerSample = 16)
  let tag ← readU32Big slice
  ensure (tag = 0x64617461)
  let size ← readU32Little slice
  let nSamples := size / 2
  let data ← forR 0 nSamples [] fun _ data => do
    let item ← readI16Little slice
    return data ++ [fo.div (ofInt item) (ofInt 0x8000)]
  return (nChannels, sampleRate, data)

/-- `decode_wav`, decode_wav.rs:3-53. `n_samples` is the length of `data`. -/
def decodeWav (fo : FOps F) (ofInt : Int → F) (contents : Tensor (BitVec 8)) : Res (Tensor F × Tensor Nat) := do
  let slice ← contents.asSlice
  let ((nChannels, sampleRate, data), _) ← (parseWav fo ofInt slice).run 0
  let frames ← udiv data.length nChannels
  let shape ← Shape.ofSlice [frames, nChannels]
  let audio ← Tensor.fromVec data shape
  let rate ← Tensor.ofScalar sampleRate
  return (audio, rate)

/-! ### `read_file` -/

/-- An open file as the operating system presents it to `read_file`: its contents, the length `metadata` reports (or an
error), and the number of bytes the call of `read` with a buffer of the given size delivers (or an error). Not from
/repo. -/
structure OpenFile where
  contents : List (BitVec 8)
  metaLen : Except Unit Nat
  deliver : Nat → Except Unit Nat

/-- `read_file`, read_file.rs:5-16. `fs` is the file system: what opening a path gives. `Read::read` fills the front of the
buffer with the next bytes of the file and leaves the rest alone. The outer outcome is the panic of `filename[0]` on an
empty tensor or of the conversion to a tensor, the inner one the `Result` returned. -/
def readFile (fs : String → Except Unit OpenFile) (filename : Tensor String) :
    Res (Except Unit (Tensor (BitVec 8))) := do
  let name ← filename.index1 0
  match fs name with
  | .error e => return .error e
  | .ok file =>
    match file.metaLen with
    | .error e => return .error e
    | .ok len =>
      let data := List.replicate len (0 : BitVec 8)
      match file.deliver data.length with
      | .error e => return .error e
      | .ok n =>
        let data := file.contents.take n ++ data.drop n
        let t ← Tensor.ofVec1 data
        return .ok t

end Io

end Essay
