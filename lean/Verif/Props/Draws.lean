import Mathlib.Algebra.BigOperators.Ring.Finset
import Mathlib.Algebra.BigOperators.Field
import Verif.Lemmas.Ieee
import Verif.Props.Random
import Verif.Props.RandomMore

/-!
# Property C97: the numbers drawn over a whole period

The uniform draws of `Rand32` have the distribution, mean and mean square of the uniform distribution over a whole
period, those of `Rand64` have not; normal draws are the Box-Muller transform of two successive uniform draws each.
-/

set_option linter.unusedSectionVars false

namespace Essay

open Shape Random

variable {F K : Type}

/-! ## Sums over a period -/

section sums

variable [Field K] [LinearOrder K] [IsStrictOrderedRing K]

theorem sum_of_draws {v N k : Nat} (f : Nat → BitVec v) (h : ∀ x, ((Finset.range N).filter fun n => f n = x).card = k)
    (g : BitVec v → K) : ∑ n ∈ Finset.range N, g (f n) = (k : K) * ∑ x : BitVec v, g x := by
  rw [← Finset.sum_fiberwise (Finset.range N) f fun n => g (f n), Finset.mul_sum]
  apply Finset.sum_congr rfl
  intro x _
  rw [Finset.sum_congr rfl (g := fun _ => g x) (by intro n hn; rw [(Finset.mem_filter.1 hn).2]), Finset.sum_const, h x,
    nsmul_eq_mul]

theorem card_of_draws {v N k : Nat} (f : Nat → BitVec v) (h : ∀ x, ((Finset.range N).filter fun n => f n = x).card = k)
    (P : BitVec v → Prop) [DecidablePred P] :
    ((Finset.range N).filter fun n => P (f n)).card = (Finset.univ.filter P).card * k := by
  rw [Finset.card_eq_sum_card_fiberwise (s := (Finset.range N).filter fun n => P (f n)) (f := f)
    (t := Finset.univ.filter P) (by intro n hn; simpa using (Finset.mem_filter.1 hn).2),
    Finset.sum_congr rfl (g := fun _ => k), Finset.sum_const, smul_eq_mul]
  intro x hx
  rw [← h x, Finset.filter_filter]
  congr 1
  apply Finset.filter_congr
  intro n _
  have := (Finset.mem_filter.1 hx).2
  constructor
  · exact fun h => h.2
  · intro h; exact ⟨by rw [h]; exact this, h⟩

theorem card_le {v k : Nat} (hk : k < 2 ^ v) : (Finset.univ.filter fun x : BitVec v => x.toNat ≤ k).card = k + 1 := by
  have : (Finset.range (k + 1)).card = k + 1 := by simp
  rw [← this]
  apply Finset.card_bij (fun x _ => x.toNat)
  · intro x hx; simpa [Nat.lt_succ_iff] using hx
  · intro x _ y _ h; exact BitVec.eq_of_toNat_eq h
  · intro n hn
    have hn := Finset.mem_range.1 hn
    have e : (BitVec.ofNat v n).toNat = n := by rw [BitVec.toNat_ofNat]; exact Nat.mod_eq_of_lt (by omega)
    exact ⟨BitVec.ofNat v n, by simp only [Finset.mem_filter, Finset.mem_univ, true_and, e]; omega, e⟩

theorem sum_bitVec {v : Nat} (g : Nat → K) : ∑ x : BitVec v, g x.toNat = ∑ i ∈ Finset.range (2 ^ v), g i := by
  apply Finset.sum_bij (fun x _ => x.toNat)
  · intro x _; simp [x.isLt]
  · intro x _ y _ h; exact BitVec.eq_of_toNat_eq h
  · intro n hn
    exact ⟨BitVec.ofNat v n, Finset.mem_univ _, by simpa using Nat.mod_eq_of_lt (Finset.mem_range.1 hn)⟩
  · intro x _; rfl

theorem sum_first (n : Nat) : ∑ i ∈ Finset.range n, (i : K) = n * ((n : K) - 1) / 2 := by
  induction n with
  | zero => simp
  | succ n ih => rw [Finset.sum_range_succ, ih]; push_cast; ring

theorem sum_squares (n : Nat) : ∑ i ∈ Finset.range n, (i : K) * i = n * ((n : K) - 1) * (2 * n - 1) / 6 := by
  induction n with
  | zero => simp
  | succ n ih => rw [Finset.sum_range_succ, ih]; push_cast; ring

variable (ln exp sqrt : K → K) (powf : K → K → K)

/-- C97, the distribution of `Rand32::next_uniform`: of any 2^64 successive draws exactly `(k + 1) * 2^32` are at most
`k / (2^32 - 1)`: the fraction `(k + 1) / 2^32`. -/
theorem C97_uniform32_distribution (s : BitVec 64) {k : Nat} (hk : k < 2 ^ 32) :
    ((Finset.range (2 ^ 64)).filter fun n => (nextUniform32 (.exact ln exp sqrt powf)
        ((fun s => (nextUniform32 (.exact ln exp sqrt powf) s).2)^[n] s)).1 ≤ (k : K) / (2 ^ 32 - 1)).card =
      (k + 1) * 2 ^ 32 := by
  have e : ∀ n, (nextUniform32 (.exact ln exp sqrt powf) ((fun s => (nextUniform32 (.exact ln exp sqrt powf) s).2)^[n] s)).1 ≤
      (k : K) / (2 ^ 32 - 1) ↔ (next32 ((fun s => (next32 s).2)^[n] s)).1.toNat ≤ k := by
    intro n
    have e1 : (fun s => (nextUniform32 (.exact ln exp sqrt powf) s).2) = fun s => (next32 s).2 := rfl
    rw [e1]
    generalize (fun s => (next32 s).2)^[n] s = t
    show ((next32 t).1.toNat : K) / ((4294967295 : Nat) : K) ≤ _ ↔ _
    rw [show (2 : K) ^ 32 - 1 = ((4294967295 : Nat) : K) by norm_num, div_le_div_iff_of_pos_right (by norm_num)]
    exact Nat.cast_le
  rw [Finset.filter_congr fun n _ => e n]
  exact (card_of_draws (fun n => (next32 ((fun s => (next32 s).2)^[n] s)).1) (C48_rand32 s)
    fun x : BitVec 32 => x.toNat ≤ k).trans (congrArg (· * 2 ^ 32) (card_le hk))

/-- Half of the draws are at most the middle, whatever the seed. -/
example : ((Finset.range (2 ^ 64)).filter fun n => (nextUniform32 (.exact ln exp sqrt powf)
    ((fun s => (nextUniform32 (.exact ln exp sqrt powf) s).2)^[n] 7#64)).1 ≤ ((2147483647 : Nat) : K) / (2 ^ 32 - 1)).card =
      (2147483647 + 1) * 2 ^ 32 :=
  C97_uniform32_distribution ln exp sqrt powf 7#64 (by norm_num)

theorem uniform32_sum (g : K → K) (s : BitVec 64) :
    ∑ n ∈ Finset.range (2 ^ 64), g (nextUniform32 (.exact ln exp sqrt powf)
        ((fun s => (nextUniform32 (.exact ln exp sqrt powf) s).2)^[n] s)).1 =
      2 ^ 32 * ∑ i ∈ Finset.range (2 ^ 32), g ((i : K) / 4294967295) := by
  have h := sum_of_draws (K := K) _ (fun x => C48_rand32 s x) fun x => g ((x.toNat : K) / 4294967295)
  rw [sum_bitVec (v := 32) fun i => g ((i : K) / 4294967295)] at h
  rw [show ((2 ^ 32 : Nat) : K) = 2 ^ 32 by norm_num] at h
  exact h

/-- C97: the mean of any 2^64 successive uniform draws of `Rand32` is exactly 1/2. -/
theorem C97_uniform32_mean (s : BitVec 64) :
    (∑ n ∈ Finset.range (2 ^ 64), (nextUniform32 (.exact ln exp sqrt powf)
        ((fun s => (nextUniform32 (.exact ln exp sqrt powf) s).2)^[n] s)).1) / (2 ^ 64 : K) = 1 / 2 := by
  rw [uniform32_sum ln exp sqrt powf (fun x => x) s, ← Finset.sum_div, sum_first]
  norm_num

/-- C97: their mean square is `1/3 + 1 / (6 * (2^32 - 1))`, so the variance is above 1/12 by that little. -/
theorem C97_uniform32_mean_square (s : BitVec 64) :
    (∑ n ∈ Finset.range (2 ^ 64), (nextUniform32 (.exact ln exp sqrt powf)
        ((fun s => (nextUniform32 (.exact ln exp sqrt powf) s).2)^[n] s)).1 ^ 2) / (2 ^ 64 : K) =
      1 / 3 + 1 / (6 * (2 ^ 32 - 1)) := by
  rw [uniform32_sum ln exp sqrt powf (fun x => x ^ 2) s]
  have : ∀ i ∈ Finset.range (2 ^ 32), ((i : K) / 4294967295) ^ 2 = (i : K) * i / 4294967295 ^ 2 := by
    intro i _; rw [div_pow, sq]
  rw [Finset.sum_congr rfl this, ← Finset.sum_div, sum_squares]
  norm_num

/-- With a particular seed. -/
example : (∑ n ∈ Finset.range (2 ^ 64), (nextUniform32 (.exact ln exp sqrt powf)
    ((fun s => (nextUniform32 (.exact ln exp sqrt powf) s).2)^[n] 7#64)).1) / (2 ^ 64 : K) = 1 / 2 :=
  C97_uniform32_mean ln exp sqrt powf 7#64

/-- C97 fails for `Rand64::next_uniform`: the mean over a period is `(2^32 + 1) / 2` instead of 1/2, because outputs of
64 bits are divided by 2^32 - 1. -/
theorem C97_uniform64_mean_violates (s : BitVec 128) :
    (∑ n ∈ Finset.range (2 ^ 128), (nextUniform64 (.exact ln exp sqrt powf)
        ((fun s => (nextUniform64 (.exact ln exp sqrt powf) s).2)^[n] s)).1) / (2 ^ 128 : K) = (2 ^ 32 + 1) / 2 := by
  have h := sum_of_draws (K := K) _ (fun x => C48_rand64 s x) fun x => (x.toNat : K) / 4294967295
  have e : ∑ i ∈ Finset.range (2 ^ 64), (i : K) / 4294967295 = ((2 ^ 64 : Nat) : K) * (((2 ^ 64 : Nat) : K) - 1) / 2 / 4294967295 := by
    rw [← Finset.sum_div, sum_first]
  rw [sum_bitVec (v := 64) fun i => (i : K) / 4294967295, e, show ((2 ^ 64 : Nat) : K) = 2 ^ 64 by norm_num] at h
  have h' : ∑ n ∈ Finset.range (2 ^ 128), (nextUniform64 (.exact ln exp sqrt powf)
      ((fun s => (nextUniform64 (.exact ln exp sqrt powf) s).2)^[n] s)).1 =
      2 ^ 64 * (2 ^ 64 * ((2 ^ 64 : K) - 1) / 2 / 4294967295) := h
  rw [h']
  norm_num

end sums

/-! ## Normal draws -/

/-- The `j`-th value of `Rand32::next` from the state `s`, as a fraction. -/
def fraction32 (fo : FOps F) (s : BitVec 64) (j : Nat) : F :=
  fo.div (fo.ofNat (next32 ((fun s => (next32 s).2)^[j] s)).1.toNat) (fo.ofNat (2 ^ 32 - 1))

/-- The `j`-th value of `Rand64::next` from the state `s`, over 2^32 - 1. -/
def fraction64 (fo : FOps F) (s : BitVec 128) (j : Nat) : F :=
  fo.div (fo.ofNat (next64 ((fun s => (next64 s).2)^[j] s)).1.toNat) (fo.ofNat (2 ^ 32 - 1))

theorem normal32_state (fr : FRand F) (s : BitVec 64) (i : Nat) :
    (fun s => (nextNormal32 fr s).2)^[i] s = (fun s => (next32 s).2)^[2 * i] s := by
  rw [Function.iterate_mul]
  rfl

theorem normal64_state (fr : FRand F) (s : BitVec 128) (i : Nat) :
    (fun s => (nextNormal64 fr s).2)^[i] s = (fun s => (next64 s).2)^[2 * i] s := by
  rw [Function.iterate_mul]
  rfl

/-- C97: the `i`-th call of `Rand32::next_normal` returns `sqrt(-2 ln a) * cos(2 pi b)` where `a` and `b` are the uniform
numbers numbered `2 i` and `2 i + 1`: no uniform number is used twice, none is left out. -/
theorem C97_normal32 (fr : FRand F) (s : BitVec 64) (i : Nat) :
    (nextNormal32 fr ((fun s => (nextNormal32 fr s).2)^[i] s)).1 =
      fr.mul (fr.sqrt (fr.mul fr.minusTwo (fr.ln (fraction32 fr.toFOps s (2 * i)))))
        (fr.cos (fr.mul fr.tau (fraction32 fr.toFOps s (2 * i + 1)))) := by
  rw [normal32_state]
  unfold fraction32
  rw [Function.iterate_succ_apply']
  rfl

/-- C97 for `Rand64::next_normal`. -/
theorem C97_normal64 (fr : FRand F) (s : BitVec 128) (i : Nat) :
    (nextNormal64 fr ((fun s => (nextNormal64 fr s).2)^[i] s)).1 =
      fr.mul (fr.sqrt (fr.mul fr.minusTwo (fr.ln (fraction64 fr.toFOps s (2 * i)))))
        (fr.cos (fr.mul fr.tau (fraction64 fr.toFOps s (2 * i + 1)))) := by
  rw [normal64_state]
  unfold fraction64
  rw [Function.iterate_succ_apply']
  rfl

/-- C97: the state returns after `n` normal draws exactly if 2^63 (`Rand32`) or 2^127 (`Rand64`) divides `n`. -/
theorem C97_normal_period (fr : FRand F) (s : BitVec 64) (s' : BitVec 128) (n : Nat) :
    ((fun s => (nextNormal32 fr s).2)^[n] s = s ↔ 2 ^ 63 ∣ n) ∧
      ((fun s => (nextNormal64 fr s).2)^[n] s' = s' ↔ 2 ^ 127 ∣ n) := by
  rw [normal32_state, normal64_state, (C47_rand32 s).1, (C47_rand64 s').1, show 2 ^ 64 = 2 * 2 ^ 63 by norm_num,
    show 2 ^ 128 = 2 * 2 ^ 127 by norm_num]
  exact ⟨Nat.mul_dvd_mul_iff_left (by norm_num), Nat.mul_dvd_mul_iff_left (by norm_num)⟩

/-- C97 for `random_normal` with a seed: element number `i` is `mean + std * sqrt(-2 ln a) * cos(2 pi b)` with `a` and `b`
the fractions numbered `2 i` and `2 i + 1` of the generator with that seed. -/
theorem C97_random_normal (fr : FRand F) {s : Shape} {ds : List Nat} (hs : s.WF) (hds : s.asVec = .ok ds) (hf : Fits ds)
    (mean std : F) (seed : BitVec 64) :
    ∃ t, (∀ tid p, randomNormal fr s ⟨mean, std, some seed⟩ tid p = .ok (t, p)) ∧
      Rep t ds ((List.range ds.prod).map fun i => fr.add mean (fr.mul
        (fr.mul (fr.sqrt (fr.mul fr.minusTwo (fr.ln (fraction32 fr.toFOps seed (2 * i)))))
          (fr.cos (fr.mul fr.tau (fraction32 fr.toFOps seed (2 * i + 1))))) std)) := by
  obtain ⟨t, e, ht⟩ := C49_normal fr hs hds hf mean std seed
  refine ⟨t, e, ?_⟩
  simpa only [C97_normal32] using ht

/-- Two rows of three numbers each: element number 4 comes from the fractions 8 and 9. -/
example (fr : FRand F) (mean std : F) : ∃ t, (∀ tid p, randomNormal fr (Shape.ofDims [2, 3]) ⟨mean, std, some 7#64⟩ tid p =
      .ok (t, p)) ∧
    Rep t [2, 3] ((List.range 6).map fun i => fr.add mean (fr.mul
      (fr.mul (fr.sqrt (fr.mul fr.minusTwo (fr.ln (fraction32 fr.toFOps 7#64 (2 * i)))))
        (fr.cos (fr.mul fr.tau (fraction32 fr.toFOps 7#64 (2 * i + 1))))) std)) :=
  C97_random_normal fr (wf_ofDims ⟨by simp, by simp⟩) rfl (fits_of_pos (by decide) (by decide)) mean std 7#64

/-- C97 for `random_uniform` with a seed: what is added to `min` is a normal draw times the length of the interval. -/
theorem C97_random_uniform_actual (fr : FRand F) {s : Shape} {ds : List Nat} (hs : s.WF) (hds : s.asVec = .ok ds)
    (hf : Fits ds) (min max : F) (seed : BitVec 64) :
    ∃ t, (∀ tid p, randomUniform fr s ⟨min, max, some seed⟩ tid p = .ok (t, p)) ∧
      Rep t ds ((List.range ds.prod).map fun i => fr.add min (fr.mul
        (fr.mul (fr.sqrt (fr.mul fr.minusTwo (fr.ln (fraction32 fr.toFOps seed (2 * i)))))
          (fr.cos (fr.mul fr.tau (fraction32 fr.toFOps seed (2 * i + 1))))) (fr.max (fr.sub max min) fr.zero))) := by
  obtain ⟨t, e, ht⟩ := C49_uniform fr hs hds hf min max seed
  refine ⟨t, e, ?_⟩
  simpa only [C97_normal32] using ht

/-- Two rows of three numbers between 1 and 2. -/
example (fr : FRand F) (one two : F) := C97_random_uniform_actual fr (s := Shape.ofDims [2, 3]) (wf_ofDims ⟨by simp, by simp⟩) rfl
  (fits_of_pos (by decide) (by decide)) one two 7#64

/-! ## The end of the interval in `f32` -/

section ieee

variable [Field K] [LinearOrder K] [IsStrictOrderedRing K] [FloorRing K]

theorem f32_near {x : K} {n : Int} (h1 : 2 ^ 31 ≤ x) (h2 : x < 2 ^ 32) (hn : Ieee.nearestEven (x / 2 ^ 8) = n) :
    Ieee.f32 x = n * 2 ^ 8 := by
  have h0 : (0 : K) < x := lt_of_lt_of_le (by positivity) h1
  have hlog : Int.log 2 x = 31 := by
    have ha : Int.log 2 x < 32 := Ieee.log_lt h0 (by exact_mod_cast h2)
    have hb := Ieee.lt_zpow_log x
    by_contra hc
    have : (2 : K) ^ (Int.log 2 x + 1) ≤ 2 ^ (31 : Int) := zpow_le_zpow_right₀ (by norm_num) (by omega)
    have e : (2 : K) ^ (31 : Int) = 2 ^ 31 := by norm_cast
    rw [e] at this
    linarith
  have hu : Ieee.ulpExp 24 (-149) x = 8 := by unfold Ieee.ulpExp; rw [hlog]; rfl
  have e : (2 : K) ^ (8 : Int) = 2 ^ 8 := by norm_cast
  rw [show (Ieee.f32 : K → K) = Ieee.round 24 (-149) from rfl, Ieee.round_of_nonneg h0.le, Ieee.roundPos, hu, e, hn]

theorem near_eq {x : K} {n : Int} {d : K} (h : x = n - d) (h0 : 0 < d) (h1 : d < 1 / 2 ∨ d = 1 / 2 ∧ Even n) :
    Ieee.nearestEven x = n := by
  have hf : ⌊x⌋ = n - 1 := by
    rw [Int.floor_eq_iff]
    push_cast
    rcases h1 with h1 | ⟨h1, _⟩ <;> constructor <;> linarith
  unfold Ieee.nearestEven
  rw [hf]
  push_cast
  rcases h1 with h1 | ⟨h1, he⟩
  · rw [if_neg (by linarith), if_pos (by linarith)]; ring
  · rw [if_neg (by linarith), if_neg (by linarith), if_neg (by rw [Int.even_sub_one]; exact not_not.2 he)]; ring

theorem near_eq' {x : K} {n : Int} {d : K} (h : x = n + d) (h0 : 0 ≤ d) (h1 : d < 1 / 2) : Ieee.nearestEven x = n := by
  have hf : ⌊x⌋ = n := by
    rw [Int.floor_eq_iff]
    constructor <;> linarith
  unfold Ieee.nearestEven
  rw [hf, if_pos (by linarith)]

/-- A 32-bit number becomes 2^32 in `f32` exactly from 2^32 - 128 on; smaller ones become at most 2^32 - 256. -/
theorem f32_top {n : Nat} (hn : n < 2 ^ 32) :
    (2 ^ 32 - 128 ≤ n → Ieee.f32 (n : K) = 2 ^ 32) ∧ (n < 2 ^ 32 - 128 → Ieee.f32 (n : K) ≤ 2 ^ 32 - 256) := by
  have h1 : Ieee.f32 ((2 : K) ^ 32 - 128) = 2 ^ 32 := by
    rw [f32_near (n := 2 ^ 24) (by norm_num) (by norm_num) (near_eq (d := 1 / 2) (by push_cast; norm_num) (by norm_num)
      (.inr ⟨rfl, by decide⟩))]
    norm_num
  have h2 : Ieee.f32 ((2 : K) ^ 32 - 129) = 2 ^ 32 - 256 := by
    rw [f32_near (n := 2 ^ 24 - 1) (by norm_num) (by norm_num)
      (near_eq' (d := 127 / 256) (by push_cast; norm_num) (by norm_num) (by norm_num))]
    norm_num
  have h3 : Ieee.f32 ((2 : K) ^ 32) = 2 ^ 32 := by
    apply Ieee.round_fixed
    have := Ieee.rep_zpow (K := K) (p := 24) (emin := -149) (b := 32) (by norm_num) (by norm_num)
    exact_mod_cast this
  have hm : ∀ {x y : K}, x ≤ y → Ieee.f32 x ≤ Ieee.f32 y := fun h => Ieee.round_mono (by norm_num) h
  refine ⟨fun h => le_antisymm ?_ ?_, fun h => ?_⟩
  · have : (n : K) ≤ 2 ^ 32 := by exact_mod_cast hn.le
    have := hm this
    rwa [h3] at this
  · have : (2 : K) ^ 32 - 128 ≤ n := by
      have : ((2 ^ 32 - 128 : Nat) : K) ≤ n := by exact_mod_cast h
      rw [Nat.cast_sub (by norm_num)] at this
      exact_mod_cast this
    have := hm this
    rwa [h1] at this
  · have : (n : K) ≤ (2 : K) ^ 32 - 129 := by
      have : (n : K) ≤ ((2 ^ 32 - 129 : Nat) : K) := by exact_mod_cast (by omega)
      rw [Nat.cast_sub (by norm_num)] at this
      exact_mod_cast this
    have := hm this
    rwa [h2] at this

/-- C97: in `f32` arithmetic a uniform draw of `Rand32` is 1 exactly if the generator's value is at least 2^32 - 128, and
0 exactly if it is 0. -/
theorem C97_f32_ends (ln exp sqrt : K → K) (powf : K → K → K) (s : BitVec 64) :
    ((nextUniform32 (.rounded Ieee.f32 ln exp sqrt powf) s).1 = 1 ↔ 2 ^ 32 - 128 ≤ (next32 s).1.toNat) ∧
      ((nextUniform32 (.rounded Ieee.f32 ln exp sqrt powf) s).1 = 0 ↔ (next32 s).1.toNat = 0) := by
  have hf := Ieee.f32_isFormat (K := K)
  have h1 : Ieee.f32 (1 : K) = 1 := by
    have h := Ieee.round_nat (K := K) (p := 24) (emin := -149) (k := 1) (by norm_num) (by norm_num) (by norm_num)
    rw [Nat.cast_one] at h
    exact h
  have h0 : Ieee.f32 (0 : K) = 0 := hf.fixed 0 hf.zero
  have hmax : Ieee.f32 ((4294967295 : Nat) : K) = 2 ^ 32 := (f32_top (K := K) (n := 4294967295) (by norm_num)).1 (by norm_num)
  have hm : ∀ {x y : K}, x ≤ y → Ieee.f32 x ≤ Ieee.f32 y := fun h => Ieee.round_mono (by norm_num) h
  have hpos : (0 : K) < 2 ^ 32 := by positivity
  have e : (nextUniform32 (.rounded Ieee.f32 ln exp sqrt powf) s).1 = Ieee.f32 (Ieee.f32 ((next32 s).1.toNat : K) / 2 ^ 32) := by
    rw [← hmax]; rfl
  have hlt := (next32 s).1.isLt
  rw [e]
  generalize (next32 s).1.toNat = n at hlt ⊢
  constructor
  · constructor
    · intro h
      by_contra hc
      have hu := (f32_top (K := K) hlt).2 (by omega)
      have : Ieee.f32 (n : K) / 2 ^ 32 ≤ ((2 ^ 24 - 1 : Int) : K) * 2 ^ (-24 : Int) := by
        rw [div_le_iff₀ hpos]
        refine hu.trans (le_of_eq ?_)
        rw [zpow_neg]
        push_cast
        norm_num
      have := hm this
      rw [h, show Ieee.f32 (((2 ^ 24 - 1 : Int) : K) * 2 ^ (-24 : Int)) = ((2 ^ 24 - 1 : Int) : K) * 2 ^ (-24 : Int) from
        hf.fixed _ ⟨_, _, by norm_num, by norm_num, rfl⟩, zpow_neg] at this
      norm_num at this
    · intro h
      rw [(f32_top (K := K) hlt).1 h, div_self hpos.ne', h1]
  · constructor
    · intro h
      by_contra hc
      have h1n : (1 : K) ≤ n := by exact_mod_cast Nat.one_le_iff_ne_zero.2 hc
      have h2 := hm h1n
      rw [h1] at h2
      have h3 : ((1 : Int) : K) * 2 ^ (-32 : Int) ≤ Ieee.f32 (n : K) / 2 ^ 32 := by
        rw [le_div_iff₀ hpos, zpow_neg]
        push_cast
        norm_num
        exact h2
      have := hm h3
      rw [h, show Ieee.f32 (((1 : Int) : K) * 2 ^ (-32 : Int)) = ((1 : Int) : K) * 2 ^ (-32 : Int) from
        hf.fixed _ ⟨_, _, by norm_num, by norm_num, rfl⟩] at this
      have h4 : (0 : K) < ((1 : Int) : K) * 2 ^ (-32 : Int) := by positivity
      linarith
    · rintro rfl
      simp [h0]

theorem card_ge {v k m : Nat} (h : k < 2 ^ v) (hm : m = k + 1) :
    (Finset.univ.filter fun x : BitVec v => m ≤ x.toNat).card = 2 ^ v - m := by
  have h2 := Finset.card_filter_add_card_filter_not (s := (Finset.univ : Finset (BitVec v))) fun x => x.toNat ≤ k
  rw [card_le h, Finset.card_univ, card_bitVec] at h2
  rw [Finset.filter_congr (q := fun x : BitVec v => ¬ x.toNat ≤ k) (by intro x _; omega)]
  omega

/-- C97: so of any 2^64 successive `f32` draws 2^39 are exactly 1 (one in 2^25) and 2^32 exactly 0: the interval is
closed, and its ends are not equally likely. -/
theorem C97_f32_ends_count (ln exp sqrt : K → K) (powf : K → K → K) (s : BitVec 64) :
    ((Finset.range (2 ^ 64)).filter fun n => (nextUniform32 (.rounded Ieee.f32 ln exp sqrt powf)
        ((fun s => (nextUniform32 (.rounded Ieee.f32 ln exp sqrt powf) s).2)^[n] s)).1 = 1).card = 2 ^ 39 ∧
    ((Finset.range (2 ^ 64)).filter fun n => (nextUniform32 (.rounded Ieee.f32 ln exp sqrt powf)
        ((fun s => (nextUniform32 (.rounded Ieee.f32 ln exp sqrt powf) s).2)^[n] s)).1 = 0).card = 2 ^ 32 := by
  have hs : (fun s => (nextUniform32 (.rounded (Ieee.f32 : K → K) ln exp sqrt powf) s).2) = fun s => (next32 s).2 := rfl
  rw [hs]
  have hc := card_of_draws (fun n => (next32 ((fun s => (next32 s).2)^[n] s)).1) (C48_rand32 s)
  constructor
  · rw [Finset.filter_congr fun n _ => (C97_f32_ends ln exp sqrt powf ((fun s => (next32 s).2)^[n] s)).1]
    rw [hc fun x => 2 ^ 32 - 128 ≤ x.toNat, card_ge (v := 32) (k := 2 ^ 32 - 129) (m := 2 ^ 32 - 128) (by norm_num) (by norm_num)]
    norm_num
  · rw [Finset.filter_congr fun n _ => (C97_f32_ends ln exp sqrt powf ((fun s => (next32 s).2)^[n] s)).2]
    refine (hc fun x => x.toNat = 0).trans ?_
    have h2 := card_le (v := 32) (k := 0) (by norm_num)
    rw [Finset.filter_congr (q := fun x : BitVec 32 => x.toNat = 0) (by intro x _; omega)] at h2
    rw [h2, Nat.zero_add, Nat.one_mul]

/-- The largest value of the generator gives exactly 1: of this state the next output is 2^32 - 1. -/
example (ln exp sqrt : K → K) (powf : K → K → K) (s : BitVec 64) (h : (next32 s).1 = 4294967295#32) :
    (nextUniform32 (.rounded Ieee.f32 ln exp sqrt powf) s).1 = 1 :=
  (C97_f32_ends ln exp sqrt powf s).1.2 (by rw [h]; decide)

end ieee

end Essay
