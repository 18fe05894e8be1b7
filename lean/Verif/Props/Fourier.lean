import Mathlib.Tactic.Linarith
import Mathlib.Tactic.NormNum
import Mathlib.Algebra.BigOperators.Field
import Verif.Lemmas.Fourier
import Verif.Props.Signal

/-!
# C92: what `rfft_norm` computes

In exact arithmetic, with the discrete Fourier transform. `realCoefficient xs k` is the `k`-th Fourier coefficient of the
samples `xs` (`Spec/Fourier`).
-/

namespace Essay

open Signal Complex Finset Shape

/-- Samples weighted by a Hann window: `xⱼ sin²(π j / n)`. -/
noncomputable def hann (xs : List ℝ) : List ℝ :=
  xs.mapIdx fun j x => x * Real.sin (Real.pi * j / xs.length) ^ 2

theorem hann_length (xs : List ℝ) : (hann xs).length = xs.length := by simp [hann]

theorem hann_getD (xs : List ℝ) {j : Nat} (hj : j < xs.length) :
    (hann xs).getD j 0 = xs.getD j 0 * (Real.sin (Real.pi / xs.length * j) * Real.sin (Real.pi / xs.length * j)) := by
  unfold hann
  rw [List.getD_eq_getElem?_getD, List.getD_eq_getElem?_getD, List.getElem?_mapIdx, List.getElem?_eq_getElem hj]
  simp only [Option.map_some, Option.getD_some]
  rw [pow_two]
  congr 3 <;> ring

theorem windowed_real (xs : List ℝ) : windowed FFft.real xs = (hann xs).map fun y => (y, (0 : ℝ)) := by
  unfold windowed hann
  refine List.ext_getElem (by simp) fun j h1 h2 => ?_
  simp only [List.getElem_mapIdx, List.getElem_map]
  generalize xs[j]'(by simpa using h1) = x
  show (x * (Real.sin (Real.pi / xs.length * j) * Real.sin (Real.pi / xs.length * j)), (0 : ℝ)) = _
  congr 2
  rw [pow_two]
  congr 2 <;> ring

theorem fourier_real (ys : List ℝ) :
    fourier (ys.map fun y => (y, (0 : ℝ))) = (List.range ys.length).map fun k : Nat =>
      ((realCoefficient ys k).re, (realCoefficient ys k).im) := by
  unfold fourier realCoefficient
  rw [List.length_map, List.map_map]
  rfl

theorem fourier_length (l : List (ℝ × ℝ)) : (fourier l).length = l.length := by simp [fourier]

theorem spectrum_real {xs : List ℝ} (h : 0 < xs.length) {L k : Nat} (hk : k < L) :
    (spectrum FFft.real L xs)[k]? = some (if k ≤ xs.length / 2 then ‖realCoefficient (hann xs) k‖ else 0) := by
  have hs := spectrum_get (fo := FFft.real) (n := L) (row := xs) (c := xs.length) (i := k) fourier_length rfl h hk
  by_cases hc : k ≤ xs.length / 2
  · rw [if_pos hc]
    have hlt : k < xs.length := by omega
    refine hs.1 ((realCoefficient (hann xs) k).re, (realCoefficient (hann xs) k).im) (by omega) ?_
    show (fourier (windowed FFft.real xs))[k]? = _
    rw [windowed_real, fourier_real, hann_length, List.getElem?_map, List.getElem?_range hlt]
    rfl
  · rw [if_neg hc]
    exact hs.2 (by omega)

/-- C92, what the code computes for a vector of `n` samples: at position `k` up to `n / 2` the absolute value of the `k`-th
Fourier coefficient of the samples weighted by a Hann window; zeros at the positions behind, if more are asked for. -/
theorem C92_actual {t : Tensor ℝ} {n : Nat} {xs : List ℝ} (h : Rep t [n] xs) (hn : 0 < n) (fl : Option Nat)
    (hfl : fl.getD (n / 2 + 1) < 4294967296) :
    ∃ r ys, rfftNorm FFft.real t fl = .ok r ∧ Rep r [fl.getD (n / 2 + 1)] ys ∧
      ∀ k < fl.getD (n / 2 + 1), ys[k]? = some (if k ≤ n / 2 then ‖realCoefficient (hann xs) k‖ else 0) := by
  have hl : xs.length = n := by simpa using h.length
  obtain ⟨r, e, hr⟩ := C55_vector (fo := FFft.real) fourier_length h hn fl hfl
  refine ⟨r, _, e, hr, fun k hk => ?_⟩
  rw [spectrum_real (by omega) hk, hl]

theorem hann_coefficient {xs : List ℝ} (k : ℤ) :
    realCoefficient (hann xs) k =
      realCoefficient xs k / 2 - realCoefficient xs (k - 1) / 4 - realCoefficient xs (k + 1) / 4 := by
  simp only [realCoefficient_eq, hann_length, Finset.sum_div]
  rw [← sum_sub_distrib, ← sum_sub_distrib]
  refine sum_congr rfl fun j hj => ?_
  rw [hann_getD xs (mem_range.1 hj), Complex.ofReal_mul, sin_sq_turn]
  have e1 : -((j : ℤ) * (k - 1)) = -(j * k) + j := by ring
  have e2 : -((j : ℤ) * (k + 1)) = -(j * k) + -j := by ring
  rw [e1, e2, turn_add, turn_add]
  ring

/-- C92, what that means for the coefficients of the samples themselves: each result mixes a coefficient with its two
neighbours. -/
theorem C92_neighbours {t : Tensor ℝ} {n : Nat} {xs : List ℝ} (h : Rep t [n] xs) (hn : 0 < n) (hlt : n / 2 + 1 < 4294967296) :
    ∃ r ys, rfftNorm FFft.real t none = .ok r ∧ Rep r [n / 2 + 1] ys ∧
      ∀ k ≤ n / 2, ys[k]? = some ‖realCoefficient xs k / 2 - realCoefficient xs (k - 1) / 4 - realCoefficient xs (k + 1) / 4‖ := by
  obtain ⟨r, ys, e, hr, hy⟩ := C92_actual h hn none hlt
  refine ⟨r, ys, e, hr, fun k hk => ?_⟩
  rw [hy k (by show k < n / 2 + 1; omega), if_pos hk, hann_coefficient]

/-- The coefficients of a constant. -/
theorem constant_coefficient {n : Nat} (hn : 0 < n) (c : ℝ) (k : ℤ) :
    realCoefficient (List.replicate n c) k = if (n : ℤ) ∣ k then (n : ℂ) * c else 0 := by
  rw [realCoefficient_eq, List.length_replicate]
  have : ∀ j ∈ range n, ((List.replicate n c).getD j 0 : ℂ) * turn n (-(j * k)) = (c : ℂ) * turn n (j * (-k)) := by
    intro j hj
    rw [List.getD_eq_getElem?_getD, List.getElem?_replicate, if_pos (mem_range.1 hj)]
    congr 2
    ring
  rw [sum_congr rfl this, ← mul_sum, sum_turn hn]
  simp only [dvd_neg]
  split
  · ring
  · ring

/-- C92 as stated (the results are the absolute values of the Fourier coefficients of the samples, which is what the
tests of the crate expect) is false in the code: for a constant other than 0, of any length, the first result is half the
coefficient (and 0 for a single sample). -/
theorem C92_window_violates {t : Tensor ℝ} {n : Nat} {c : ℝ} (h : Rep t [n] (List.replicate n c)) (hn : 0 < n) (hc : c ≠ 0)
    (hlt : n / 2 + 1 < 4294967296) :
    ∃ r ys, rfftNorm FFft.real t none = .ok r ∧ Rep r [n / 2 + 1] ys ∧
      ys[0]? = some (if n = 1 then 0 else |c| * n / 2) ∧ ys[0]? ≠ some ‖realCoefficient (List.replicate n c) 0‖ := by
  obtain ⟨r, ys, e, hr, hy⟩ := C92_neighbours h hn hlt
  have h0 : ‖realCoefficient (List.replicate n c) 0‖ = |c| * n := by
    rw [constant_coefficient hn, if_pos (dvd_zero _), norm_mul, Complex.norm_natCast, Complex.norm_real, mul_comm]; rfl
  have hpos : 0 < |c| * n := mul_pos (abs_pos.2 hc) (by exact_mod_cast hn)
  have h1 : ys[0]? = some (if n = 1 then 0 else |c| * n / 2) := by
    rw [hy 0 (by omega)]
    congr 1
    simp only [constant_coefficient hn]
    by_cases h1 : n = 1
    · subst h1
      simp
      ring_nf
    · rw [if_pos (by simp), if_neg h1, if_neg, if_neg]
      · rw [zero_div, sub_zero, sub_zero, norm_div, norm_mul, Complex.norm_natCast, Complex.norm_real]
        simp
        ring
      · intro hd
        have := Int.le_of_dvd (by simp) hd
        simp at this
        omega
      · intro hd
        have := Int.le_of_dvd (by simp) ((dvd_neg (α := ℤ)).2 hd)
        simp at this
        omega
  refine ⟨r, ys, e, hr, h1, ?_⟩
  rw [h1, h0]
  intro he
  have he := Option.some.inj he
  split at he <;> linarith

/-- The `j`-th of `n` samples of a tone that goes round `f` times: `a cos(2 π f j / n + φ)`. -/
noncomputable def toneAt (n f : Nat) (a φ : ℝ) (j : Nat) : ℝ := a * Real.cos (2 * Real.pi * f * j / n + φ)

theorem tone_coefficient {n : Nat} (hn : 0 < n) (f : Nat) (a φ : ℝ) (k : ℤ) :
    realCoefficient ((List.range n).map (toneAt n f a φ)) k =
      a * n / 2 * ((if (n : ℤ) ∣ f - k then exp (φ * I) else 0) + if (n : ℤ) ∣ f + k then exp (-φ * I) else 0) := by
  rw [realCoefficient_eq, List.length_map, List.length_range]
  have : ∀ j ∈ range n, ((((List.range n).map (toneAt n f a φ)).getD j 0 : ℝ) : ℂ) * turn n (-(j * k)) =
      a / 2 * exp (φ * I) * turn n (j * (f - k)) + a / 2 * exp (-φ * I) * turn n (j * (-(f + k))) := by
    intro j hj
    rw [List.getD_eq_getElem?_getD, List.getElem?_map, List.getElem?_range (mem_range.1 hj)]
    simp only [Option.map_some, Option.getD_some, toneAt]
    push_cast
    rw [Complex.cos]
    have h1 : exp ((2 * (Real.pi : ℂ) * f * j / n + φ) * I) = turn n (j * f) * exp (φ * I) := by
      unfold turn; rw [← Complex.exp_add]; congr 1; push_cast; ring
    have h2 : exp (-(2 * (Real.pi : ℂ) * f * j / n + φ) * I) = turn n (-(j * f)) * exp (-φ * I) := by
      unfold turn; rw [← Complex.exp_add]; congr 1; push_cast; ring
    have h3 : (j : ℤ) * (f - k) = j * f + -(j * k) := by ring
    have h4 : (j : ℤ) * (-(f + k)) = -(j * f) + -(j * k) := by ring
    rw [h1, h2, h3, h4, turn_add, turn_add]
    ring
  rw [sum_congr rfl this, sum_add_distrib, ← mul_sum, ← mul_sum, sum_turn hn, sum_turn hn]
  simp only [dvd_neg]
  split <;> split <;> ring

/-- C92, a tone: if the samples go round `f` times, the results are zero but at `f` and the positions next to it, where they
tell the amplitude: `a n / 4` at `f`, half of that beside it, whatever the phase. -/
theorem C92_tone {t : Tensor ℝ} {n f : Nat} {a φ : ℝ} (h : Rep t [n] ((List.range n).map (toneAt n f a φ)))
    (hf : 2 ≤ f) (hfn : 2 * (f + 1) < n) (hlt : n / 2 + 1 < 4294967296) :
    ∃ r ys, rfftNorm FFft.real t none = .ok r ∧ Rep r [n / 2 + 1] ys ∧
      ∀ k ≤ n / 2, ys[k]? = some (if k = f then |a| * n / 4 else if k + 1 = f ∨ k = f + 1 then |a| * n / 8 else 0) := by
  have hn : 0 < n := by omega
  obtain ⟨r, ys, e, hr, hy⟩ := C92_neighbours h hn hlt
  refine ⟨r, ys, e, hr, fun k hk => ?_⟩
  rw [hy k hk]
  congr 1
  have key : ∀ d : ℤ, -1 ≤ d → d ≤ 1 → realCoefficient ((List.range n).map (toneAt n f a φ)) (k + d) =
      if (k : ℤ) + d = f then a * n / 2 * exp (φ * I) else 0 := by
    intro d h1 h2
    rw [tone_coefficient hn, if_neg (c := (n : ℤ) ∣ f + (k + d))]
    · by_cases hd : (k : ℤ) + d = f
      · rw [if_pos hd, if_pos (by rw [hd]; simp)]; ring
      · rw [if_neg hd, if_neg]
        · ring
        · intro hdv
          have := Int.eq_zero_of_abs_lt_dvd hdv (by rw [abs_lt]; omega)
          omega
    · intro hdv
      have := Int.eq_zero_of_abs_lt_dvd hdv (by rw [abs_lt]; omega)
      omega
  have k0 := key 0 (by omega) (by omega)
  have k1 := key (-1) (by omega) (by omega)
  have k2 := key 1 (by omega) (by omega)
  rw [add_zero] at k0
  rw [show (k : ℤ) + -1 = k - 1 by ring] at k1
  rw [k0, k1, k2]
  have hnorm : ‖exp (φ * I)‖ = 1 := Complex.norm_exp_ofReal_mul_I φ
  have hbase : ‖(a : ℂ) * n / 2 * exp (φ * I)‖ = |a| * n / 2 := by
    rw [norm_mul, hnorm, norm_div, norm_mul, Complex.norm_real, Complex.norm_natCast]; simp
  by_cases hk0 : k = f
  · subst hk0
    rw [if_pos rfl, if_neg (by omega), if_neg (by omega), if_pos rfl, zero_div, sub_zero, sub_zero, norm_div, hbase]
    norm_num
    ring
  · rw [if_neg (by omega), if_neg hk0]
    by_cases hk1 : k + 1 = f
    · rw [if_neg (by omega), if_pos (by omega), if_pos (Or.inl hk1), zero_div, zero_sub, zero_div, neg_zero, zero_sub, norm_neg, norm_div, hbase]
      norm_num
      ring
    · by_cases hk2 : k = f + 1
      · rw [if_pos (by omega), if_neg (by omega), if_pos (Or.inr hk2), zero_div, zero_div, sub_zero, zero_sub, norm_neg, norm_div, hbase]
        norm_num
        ring
      · rw [if_neg (by omega), if_neg (by omega), if_neg (by omega)]
        simp

/-- C92, energy: summed over all `n` coefficients (those behind `n / 2` mirror the results), the squares of the results are
`n` times the energy of the weighted samples. -/
theorem C92_energy {t : Tensor ℝ} {n : Nat} {xs : List ℝ} (h : Rep t [n] xs) (hn : 0 < n) (hlt : n / 2 + 1 < 4294967296) :
    ∃ r ys, rfftNorm FFft.real t none = .ok r ∧ Rep r [n / 2 + 1] ys ∧
      ∑ k ∈ range n, ys.getD (min k (n - k)) 0 ^ 2 =
        n * ∑ j ∈ range n, (xs.getD j 0 * Real.sin (Real.pi * j / n) ^ 2) ^ 2 := by
  have hl : xs.length = n := by simpa using h.length
  obtain ⟨r, ys, e, hr, hy⟩ := C92_actual h hn none hlt
  refine ⟨r, ys, e, hr, ?_⟩
  have hp := parseval (xs := hann xs) (by rw [hann_length]; omega)
  rw [hann_length, hl] at hp
  have e1 : ∀ k ∈ range n, ys.getD (min k (n - k)) 0 ^ 2 = ‖realCoefficient (hann xs) k‖ ^ 2 := by
    intro k hk
    have hk := mem_range.1 hk
    have hm : min k (n - k) ≤ n / 2 := by omega
    rw [List.getD_eq_getElem?_getD, hy _ (by show _ < n / 2 + 1; omega), if_pos hm, Option.getD_some]
    congr 1
    rcases Nat.le_total k (n - k) with hkn | hkn
    · rw [Nat.min_eq_left hkn]
    · rw [Nat.min_eq_right hkn]
      have := norm_realCoefficient_sub (xs := hann xs) (by rw [hann_length]; omega) k
      rw [hann_length, hl] at this
      rw [← this]
      congr 2
      omega
  rw [sum_congr rfl e1, hp]
  congr 1
  refine sum_congr rfl fun j hj => ?_
  rw [hann_getD xs (by rw [hl]; exact mem_range.1 hj), hl, ← pow_two]
  congr 4
  ring

theorem hann_map (xs : List ℝ) (a : ℝ) : hann (xs.map (a * ·)) = (hann xs).map (a * ·) := by
  unfold hann
  refine List.ext_getElem (by simp) fun j h1 h2 => ?_
  simp only [List.getElem_mapIdx, List.getElem_map, List.length_map]
  ring

theorem coefficient_map (xs : List ℝ) (a : ℝ) (k : ℤ) : realCoefficient (xs.map (a * ·)) k = a * realCoefficient xs k := by
  rw [realCoefficient_eq, realCoefficient_eq, List.length_map, mul_sum]
  refine sum_congr rfl fun j hj => ?_
  have hj := mem_range.1 hj
  simp [List.getD_eq_getElem?_getD, List.getElem?_eq_getElem hj]
  ring

/-- C92, loudness: multiplying the samples by `a` multiplies the results by `|a|`. -/
theorem C92_scale {t u : Tensor ℝ} {n : Nat} {xs : List ℝ} {a : ℝ} (h : Rep t [n] xs) (hu : Rep u [n] (xs.map (a * ·)))
    (hn : 0 < n) (hlt : n / 2 + 1 < 4294967296) :
    ∃ r q ys, rfftNorm FFft.real t none = .ok r ∧ rfftNorm FFft.real u none = .ok q ∧ Rep r [n / 2 + 1] ys ∧
      Rep q [n / 2 + 1] (ys.map (|a| * ·)) := by
  obtain ⟨r, ys, e, hr, hy⟩ := C92_actual h hn none hlt
  obtain ⟨q, zs, e2, hq, hz⟩ := C92_actual hu hn none hlt
  refine ⟨r, q, ys, e, e2, hr, ?_⟩
  have hlz : zs.length = n / 2 + 1 := by simpa using hq.length
  have hly : ys.length = n / 2 + 1 := by simpa using hr.length
  have : zs = ys.map (|a| * ·) := by
    apply List.ext_getElem?
    intro k
    by_cases hk : k < n / 2 + 1
    · rw [hz k hk, List.getElem?_map, hy k hk, Option.map_some, if_pos (by omega), if_pos (by omega), hann_map,
        coefficient_map, norm_mul, Complex.norm_real]
      rfl
    · rw [List.getElem?_eq_none (by omega), List.getElem?_eq_none (by simp; omega)]
  rw [← this]
  exact hq

/-- C92, a consequence of the window: the first sample does not matter (its weight is 0). -/
theorem C92_first_sample {t u : Tensor ℝ} {n : Nat} {x y : ℝ} {xs : List ℝ} (h : Rep t [n] (x :: xs))
    (hu : Rep u [n] (y :: xs)) (hlt : n / 2 + 1 < 4294967296) :
    ∃ r q ys, rfftNorm FFft.real t none = .ok r ∧ rfftNorm FFft.real u none = .ok q ∧ Rep r [n / 2 + 1] ys ∧
      Rep q [n / 2 + 1] ys := by
  have hl : (x :: xs).length = n := by simpa using h.length
  have hn : 0 < n := by rw [← hl]; simp
  obtain ⟨r, e, hr⟩ := C55_vector (fo := FFft.real) fourier_length h hn none hlt
  obtain ⟨q, e2, hq⟩ := C55_vector (fo := FFft.real) fourier_length hu hn none hlt
  refine ⟨r, q, _, e, e2, hr, ?_⟩
  have hh : hann (x :: xs) = hann (y :: xs) := by
    unfold hann
    rw [List.mapIdx_cons, List.mapIdx_cons]
    simp
  have : spectrum FFft.real (n / 2 + 1) (x :: xs) = spectrum FFft.real (n / 2 + 1) (y :: xs) := by
    unfold spectrum
    rw [windowed_real, windowed_real, hh]
    rfl
  show Rep q [n / 2 + 1] (spectrum FFft.real (n / 2 + 1) (x :: xs))
  rw [this]
  exact hq

/-- C92: no result exceeds the sum of the absolute values of the samples. -/
theorem C92_bound {t : Tensor ℝ} {n : Nat} {xs : List ℝ} (h : Rep t [n] xs) (hn : 0 < n) (hlt : n / 2 + 1 < 4294967296) :
    ∃ r ys, rfftNorm FFft.real t none = .ok r ∧ Rep r [n / 2 + 1] ys ∧
      ∀ y ∈ ys, 0 ≤ y ∧ y ≤ ∑ j ∈ range n, |xs.getD j 0| := by
  have hl : xs.length = n := by simpa using h.length
  obtain ⟨r, ys, e, hr, hy⟩ := C92_actual h hn none hlt
  refine ⟨r, ys, e, hr, fun y hm => ?_⟩
  obtain ⟨k, hk, rfl⟩ := List.getElem_of_mem hm
  have hly : ys.length = n / 2 + 1 := by simpa using hr.length
  have := hy k (by show k < n / 2 + 1; omega)
  rw [List.getElem?_eq_getElem hk, if_pos (by omega)] at this
  rw [Option.some.inj this]
  refine ⟨norm_nonneg _, ?_⟩
  rw [realCoefficient_eq, hann_length, hl]
  refine (norm_sum_le _ _).trans (sum_le_sum fun j hj => ?_)
  rw [norm_mul, turn_norm, mul_one, hann_getD xs (by rw [hl]; exact mem_range.1 hj), Complex.norm_real, norm_mul,
    ← pow_two]
  have h1 := Real.sin_sq_le_one (Real.pi / xs.length * j)
  have h2 := sq_nonneg (Real.sin (Real.pi / xs.length * j))
  rw [Real.norm_eq_abs, Real.norm_eq_abs, abs_of_nonneg h2]
  exact mul_le_of_le_one_right (abs_nonneg _) h1

/-! Examples. -/

theorem real_rep (n : Nat) (hn : 0 < n) (hlt : n < 4294967296) {xs : List ℝ} (hl : xs.length = n) :
    Rep ⟨ofDims [n], 0, n, xs⟩ [n] xs :=
  hl ▸ rep_fresh (ds := [xs.length]) ⟨by simp, by simp [hl, hlt]⟩ (fits_of_pos (by simp; omega) (by simp [hl, hlt])) (by simp)

example : ∃ r ys, rfftNorm FFft.real ⟨ofDims [4], 0, 4, [1, 2, -1, 3]⟩ (some 5) = .ok r ∧ Rep r [5] ys ∧
    ∀ k : Nat, k < 5 → ys[k]? = some (if k ≤ 2 then ‖realCoefficient (hann [1, 2, -1, 3]) k‖ else 0) :=
  C92_actual (real_rep 4 (by omega) (by omega) rfl) (by omega) (some 5) (by decide)

example : ∃ r ys, rfftNorm FFft.real ⟨ofDims [4], 0, 4, List.replicate 4 1⟩ none = .ok r ∧ Rep r [3] ys ∧
    ys[0]? = some (if 4 = 1 then 0 else |(1 : ℝ)| * (4 : Nat) / 2) ∧
    ys[0]? ≠ some ‖realCoefficient (List.replicate 4 1) 0‖ :=
  C92_window_violates (real_rep 4 (by omega) (by omega) rfl) (by omega) one_ne_zero (by decide)

example : ∃ r ys, rfftNorm FFft.real ⟨ofDims [12], 0, 12, (List.range 12).map (toneAt 12 3 2 1)⟩ none = .ok r ∧ Rep r [7] ys ∧
    ∀ k : Nat, k ≤ 6 → ys[k]? = some (if k = 3 then |(2 : ℝ)| * (12 : Nat) / 4 else if k + 1 = 3 ∨ k = 3 + 1 then |(2 : ℝ)| * (12 : Nat) / 8 else 0) :=
  C92_tone (f := 3) (real_rep 12 (by omega) (by omega) (by simp)) (by omega) (by omega) (by decide)

example : ∃ r ys, rfftNorm FFft.real ⟨ofDims [4], 0, 4, [1, 2, -1, 3]⟩ none = .ok r ∧ Rep r [3] ys ∧
    ∑ k ∈ range 4, ys.getD (min k (4 - k)) 0 ^ 2 =
      (4 : Nat) * ∑ j ∈ range 4, (([1, 2, -1, 3] : List ℝ).getD j 0 * Real.sin (Real.pi * j / (4 : Nat)) ^ 2) ^ 2 :=
  C92_energy (real_rep 4 (by omega) (by omega) rfl) (by omega) (by decide)

example : ∃ r ys, rfftNorm FFft.real ⟨ofDims [4], 0, 4, [1, 2, -1, 3]⟩ none = .ok r ∧ Rep r [3] ys ∧ ∀ k : Nat, k ≤ 2 →
    ys[k]? = some ‖realCoefficient [1, 2, -1, 3] k / 2 - realCoefficient [1, 2, -1, 3] (k - 1) / 4 -
      realCoefficient [1, 2, -1, 3] (k + 1) / 4‖ :=
  C92_neighbours (real_rep 4 (by omega) (by omega) rfl) (by omega) (by decide)

example : ∃ r q ys, rfftNorm FFft.real ⟨ofDims [3], 0, 3, [1, 2, -1]⟩ none = .ok r ∧
    rfftNorm FFft.real ⟨ofDims [3], 0, 3, [1, 2, -1].map ((-2 : ℝ) * ·)⟩ none = .ok q ∧ Rep r [2] ys ∧
    Rep q [2] (ys.map (|(-2 : ℝ)| * ·)) :=
  C92_scale (real_rep 3 (by omega) (by omega) rfl) (real_rep 3 (by omega) (by omega) rfl) (by omega) (by decide)

example : ∃ r q ys, rfftNorm FFft.real ⟨ofDims [3], 0, 3, [1, 2, -1]⟩ none = .ok r ∧
    rfftNorm FFft.real ⟨ofDims [3], 0, 3, [7, 2, -1]⟩ none = .ok q ∧ Rep r [2] ys ∧ Rep q [2] ys :=
  C92_first_sample (real_rep 3 (by omega) (by omega) rfl) (real_rep 3 (by omega) (by omega) rfl) (by decide)

example : ∃ r ys, rfftNorm FFft.real ⟨ofDims [4], 0, 4, [1, 2, -1, 3]⟩ none = .ok r ∧ Rep r [3] ys ∧
    ∀ y ∈ ys, 0 ≤ y ∧ y ≤ ∑ j ∈ range 4, |([1, 2, -1, 3] : List ℝ).getD j 0| :=
  C92_bound (real_rep 4 (by omega) (by omega) rfl) (by omega) (by decide)

end Essay
