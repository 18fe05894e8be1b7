import Verif.Model.Io

/-!
# Specification vocabulary for files
-/

namespace Essay.Io

/-- The low `n` bytes of `v`, least significant first. -/
def leBytes : Nat → Nat → List (BitVec 8)
  | 0, _ => []
  | n + 1, v => BitVec.ofNat 8 v :: leBytes n (v / 256)

/-- The two bytes of a signed sample, least significant first. -/
def sampleBytes (x : Int) : List (BitVec 8) := leBytes 2 (x % 65536).toNat

/-- The bytes of an ASCII string. -/
def ascii (s : String) : List (BitVec 8) := s.toList.map fun c => BitVec.ofNat 8 c.toNat

/-- `bytes` is a canonical 16-bit PCM file: RIFF header, 16 byte format chunk, data chunk. The byte rate and block alignment
fields may be anything, `size` is the size field of the data chunk (an odd last byte belongs to `rest`), and `rest` are
bytes after the samples. -/
structure IsWav (bytes : List (BitVec 8)) (channels rate size : Nat) (samples : List Int) (byteRate blockAlign rest :
    List (BitVec 8)) : Prop where
  layout : bytes = ascii "RIFF" ++ leBytes 4 (bytes.length - 8) ++ ascii "WAVE" ++
    (ascii "fmt " ++ leBytes 4 16 ++ leBytes 2 1 ++ leBytes 2 channels ++ leBytes 4 rate ++ byteRate ++ blockAlign ++
      leBytes 2 16) ++
    (ascii "data" ++ leBytes 4 size ++ samples.flatMap sampleBytes) ++ rest
  byteRate_len : byteRate.length = 4
  blockAlign_len : blockAlign.length = 2
  channels_lt : channels < 2 ^ 16
  rate_lt : rate < 2 ^ 32
  size_lt : size < 2 ^ 32
  count : samples.length = size / 2
  range : ∀ x ∈ samples, -32768 ≤ x ∧ x < 32768

end Essay.Io
