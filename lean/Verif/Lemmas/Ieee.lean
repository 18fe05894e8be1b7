import Mathlib.Tactic.Linarith
import Mathlib.Tactic.Ring
import Mathlib.Tactic.FieldSimp
import Mathlib.Tactic.NormNum
import Mathlib.Tactic.Positivity
import Verif.Spec.Ieee

set_option linter.unusedSectionVars false

/-!
# The binary formats are formats
-/

namespace Essay

namespace Ieee

variable {K : Type} [Field K] [LinearOrder K] [IsStrictOrderedRing K] [FloorRing K]

theorem nearestEven_cases (x : K) : nearestEven x = ⌊x⌋ ∧ x - ⌊x⌋ ≤ 1 / 2 ∨ nearestEven x = ⌊x⌋ + 1 ∧ 1 / 2 ≤ x - ⌊x⌋ := by
  unfold nearestEven
  split
  · next h => exact Or.inl ⟨rfl, h.le⟩
  · next h =>
    split
    · next h2 => exact Or.inr ⟨rfl, h2.le⟩
    · next h2 =>
      split
      · exact Or.inl ⟨rfl, not_lt.1 h2⟩
      · exact Or.inr ⟨rfl, not_lt.1 h⟩

theorem nearestEven_err (x : K) : |(nearestEven x : K) - x| ≤ 1 / 2 := by
  have h1 := Int.floor_le x
  have h2 := Int.lt_floor_add_one x
  rcases nearestEven_cases x with ⟨e, h⟩ | ⟨e, h⟩ <;> rw [e, abs_le] <;> push_cast <;> constructor <;> linarith

theorem nearestEven_int (n : Int) : nearestEven (n : K) = n := by
  unfold nearestEven
  rw [Int.floor_intCast, sub_self, if_pos (by norm_num)]

theorem nearestEven_mono {x y : K} (h : x ≤ y) : nearestEven x ≤ nearestEven y := by
  have hf := Int.floor_le_floor h
  rcases hf.eq_or_lt with e | e
  · unfold nearestEven
    rw [e]
    have hs : x - ⌊y⌋ ≤ y - ⌊y⌋ := by linarith
    generalize x - (⌊y⌋ : K) = a at hs
    generalize y - (⌊y⌋ : K) = b at hs
    have m1 : b < 1 / 2 → a < 1 / 2 := fun h => lt_of_le_of_lt hs h
    have m2 : 1 / 2 < a → 1 / 2 < b := fun h => lt_of_lt_of_le h hs
    by_cases c1 : a < 1 / 2 <;> by_cases c2 : b < 1 / 2 <;> by_cases c3 : 1 / 2 < a <;> by_cases c4 : 1 / 2 < b <;>
      by_cases c5 : Even ⌊y⌋ <;> simp only [c1, c2, c3, c4, c5, if_true, if_false] <;> first | omega | (exfalso; tauto)
  · have h1 : nearestEven x ≤ ⌊x⌋ + 1 := by rcases nearestEven_cases x with ⟨e, _⟩ | ⟨e, _⟩ <;> omega
    have h2 : ⌊y⌋ ≤ nearestEven y := by rcases nearestEven_cases y with ⟨e, _⟩ | ⟨e, _⟩ <;> omega
    omega

theorem two_zpow_pos (e : Int) : (0 : K) < 2 ^ e := by positivity

theorem zpow_eq_nat_mul {a b : Int} (h : a ≤ b) : (2 : K) ^ b = ((2 ^ (b - a).toNat : Int) : K) * 2 ^ a := by
  push_cast
  rw [← zpow_natCast, ← zpow_add₀ (by norm_num)]
  congr 1
  omega

variable {p : Nat} {emin : Int}

theorem lt_zpow_log (x : K) : x < 2 ^ (Int.log 2 x + 1) := by
  have := Int.lt_zpow_succ_log_self (R := K) (b := 2) (by norm_num) x
  simpa using this

theorem zpow_log_le {x : K} (hx : 0 < x) : 2 ^ Int.log 2 x ≤ x := by
  have := Int.zpow_log_le_self (R := K) (b := 2) (by norm_num) hx
  simpa using this

theorem log_lt {x : K} (hx : 0 < x) {e : Int} (h : x < 2 ^ e) : Int.log 2 x < e := by
  by_contra hc
  have h1 := zpow_log_le hx
  have : (2 : K) ^ e ≤ 2 ^ Int.log 2 x := zpow_le_zpow_right₀ (by norm_num) (by omega)
  linarith

theorem roundPos_zero : roundPos p emin (0 : K) = 0 := by
  unfold roundPos
  rw [zero_div]
  have : nearestEven (0 : K) = 0 := by simpa using nearestEven_int (K := K) 0
  rw [this]; simp

theorem roundPos_nonneg {x : K} (hx : 0 ≤ x) : 0 ≤ roundPos p emin x := by
  unfold roundPos
  have h := nearestEven_mono (x := (0 : K)) (y := x / 2 ^ ulpExp p emin x) (div_nonneg hx (two_zpow_pos _).le)
  have h0 : nearestEven (0 : K) = 0 := by simpa using nearestEven_int (K := K) 0
  rw [h0] at h
  exact mul_nonneg (by exact_mod_cast h) (two_zpow_pos _).le

/-- Rounding does not cross a power of two above the unit in the last place. -/
theorem roundPos_le_zpow {x : K} {b : Int} (hb : ulpExp p emin x ≤ b) (h : x ≤ 2 ^ b) : roundPos p emin x ≤ 2 ^ b := by
  unfold roundPos
  set e := ulpExp p emin x
  have h1 : x / 2 ^ e ≤ ((2 ^ (b - e).toNat : Int) : K) := by
    rw [div_le_iff₀ (two_zpow_pos _), ← zpow_eq_nat_mul hb]; exact h
  have h2 := nearestEven_mono h1
  rw [nearestEven_int] at h2
  rw [zpow_eq_nat_mul (K := K) hb]
  exact mul_le_mul_of_nonneg_right (by exact_mod_cast h2) (two_zpow_pos _).le

theorem zpow_le_roundPos {x : K} {b : Int} (hb : ulpExp p emin x ≤ b) (h : 2 ^ b ≤ x) : 2 ^ b ≤ roundPos p emin x := by
  unfold roundPos
  set e := ulpExp p emin x
  have h1 : ((2 ^ (b - e).toNat : Int) : K) ≤ x / 2 ^ e := by
    rw [le_div_iff₀ (two_zpow_pos _), ← zpow_eq_nat_mul hb]; exact h
  have h2 := nearestEven_mono h1
  rw [nearestEven_int] at h2
  rw [zpow_eq_nat_mul (K := K) hb]
  exact mul_le_mul_of_nonneg_right (by exact_mod_cast h2) (two_zpow_pos _).le

theorem roundPos_mono (hp : 1 ≤ p) {x y : K} (hx : 0 ≤ x) (h : x ≤ y) : roundPos p emin x ≤ roundPos p emin y := by
  rcases hx.eq_or_lt with rfl | hx
  · rw [roundPos_zero]; exact roundPos_nonneg h
  have hy : 0 < y := lt_of_lt_of_le hx h
  have hl : Int.log 2 x ≤ Int.log 2 y := Int.log_mono_right hx h
  have he : ulpExp p emin x ≤ ulpExp p emin y := by unfold ulpExp; omega
  rcases he.eq_or_lt with e | e
  · unfold roundPos
    rw [← e]
    refine mul_le_mul_of_nonneg_right ?_ (two_zpow_pos _).le
    exact_mod_cast nearestEven_mono (div_le_div_of_nonneg_right h (two_zpow_pos _).le)
  · have hly : Int.log 2 x < Int.log 2 y := by unfold ulpExp at e; omega
    have hx2 : x ≤ 2 ^ Int.log 2 y :=
      (lt_zpow_log x).le.trans (zpow_le_zpow_right₀ (by norm_num) (by omega))
    refine (roundPos_le_zpow (b := Int.log 2 y) ?_ hx2).trans (zpow_le_roundPos ?_ (zpow_log_le hy))
    · unfold ulpExp at e ⊢; omega
    · unfold ulpExp at e ⊢; omega

theorem round_neg (x : K) : round p emin (-x) = - round p emin x := by
  unfold round
  rcases lt_trichotomy x 0 with h | rfl | h
  · rw [if_neg (by linarith), if_pos h, neg_neg]
  · simp [roundPos_zero]
  · rw [if_pos (by linarith), if_neg (by linarith), neg_neg]

theorem round_of_nonneg {x : K} (h : 0 ≤ x) : round p emin x = roundPos p emin x := if_neg (not_lt.2 h)

theorem round_mono (hp : 1 ≤ p) {x y : K} (h : x ≤ y) : round p emin x ≤ round p emin y := by
  by_cases hx : 0 ≤ x
  · rw [round_of_nonneg hx, round_of_nonneg (hx.trans h)]; exact roundPos_mono hp hx h
  · by_cases hy : 0 ≤ y
    · rw [round_of_nonneg hy, round, if_pos (not_le.1 hx)]
      have h1 := roundPos_nonneg (p := p) (emin := emin) (x := -x) (by linarith)
      have h2 := roundPos_nonneg (p := p) (emin := emin) hy
      linarith
    · rw [round, round, if_pos (not_le.1 hx), if_pos (not_le.1 hy)]
      have := roundPos_mono (emin := emin) hp (x := -y) (y := -x) (by linarith) (by linarith)
      linarith

theorem Representable.neg {x : K} (h : Representable p emin x) : Representable p emin (-x) := by
  obtain ⟨m, e, h1, h2, rfl⟩ := h
  exact ⟨-m, e, by rwa [abs_neg], h2, by push_cast; ring⟩

theorem roundPos_fixed {x : K} (hx : 0 ≤ x) (h : Representable p emin x) : roundPos p emin x = x := by
  rcases hx.eq_or_lt with rfl | hx
  · exact roundPos_zero
  obtain ⟨m, e, h1, h2, rfl⟩ := h
  have hlt : (m : K) * 2 ^ e < 2 ^ ((p : Int) + e) := by
    rw [zpow_add₀ (by norm_num)]
    refine mul_lt_mul_of_pos_right ?_ (two_zpow_pos _)
    have : m < 2 ^ p := lt_of_le_of_lt (le_abs_self m) h1
    have h3 : (m : K) < ((2 ^ p : Int) : K) := by exact_mod_cast this
    rw [zpow_natCast]
    push_cast at h3
    exact h3
  have hl := log_lt hx hlt
  have he : ulpExp p emin ((m : K) * 2 ^ e) ≤ e := by unfold ulpExp; omega
  unfold roundPos
  set e' := ulpExp p emin ((m : K) * 2 ^ e)
  have hq : (m : K) * 2 ^ e / 2 ^ e' = ((m * 2 ^ (e - e').toNat : Int) : K) := by
    rw [zpow_eq_nat_mul (K := K) he, ← mul_assoc, mul_div_assoc, div_self (two_zpow_pos _).ne']
    push_cast; ring
  rw [hq, nearestEven_int, zpow_eq_nat_mul (K := K) he]
  push_cast; ring

theorem round_fixed {x : K} (h : Representable p emin x) : round p emin x = x := by
  by_cases hx : 0 ≤ x
  · rw [round_of_nonneg hx, roundPos_fixed hx h]
  · rw [round, if_pos (not_le.1 hx), roundPos_fixed (by linarith) h.neg, neg_neg]

theorem rep_zpow (hp : 1 ≤ p) {b : Int} (hb : emin ≤ b) : Representable p emin ((2 : K) ^ b) :=
  ⟨1, b, by simpa using Nat.one_lt_two_pow (by omega : p ≠ 0) |> fun h => (by exact_mod_cast h : (1 : Int) < 2 ^ p), hb, by simp⟩

theorem roundPos_closed (hp : 1 ≤ p) {x : K} (hx : 0 ≤ x) : Representable p emin (roundPos p emin x) := by
  rcases hx.eq_or_lt with rfl | hx
  · rw [roundPos_zero]; exact ⟨0, emin, by simp, le_refl _, by simp⟩
  have hb : x ≤ 2 ^ ((p : Int) + ulpExp p emin x) :=
    (lt_zpow_log x).le.trans (zpow_le_zpow_right₀ (by norm_num) (by unfold ulpExp; omega))
  have h1 := roundPos_le_zpow (p := p) (emin := emin) (x := x) (by omega) hb
  have hem : emin ≤ ulpExp p emin x := le_max_right _ _
  rcases h1.eq_or_lt with e | h1
  · rw [e]; exact rep_zpow hp (by omega)
  · refine ⟨nearestEven (x / 2 ^ ulpExp p emin x), ulpExp p emin x, ?_, hem, rfl⟩
    have h0 := roundPos_nonneg (p := p) (emin := emin) hx.le
    unfold roundPos at h0 h1
    rw [zpow_add₀ (by norm_num)] at h1
    have h2 := lt_of_mul_lt_mul_right h1 (two_zpow_pos _).le
    have h3 : 0 ≤ nearestEven (x / 2 ^ ulpExp p emin x) := by
      have := nonneg_of_mul_nonneg_left h0 (two_zpow_pos _)
      exact_mod_cast this
    rw [abs_of_nonneg h3]
    rw [zpow_natCast] at h2
    exact_mod_cast h2

theorem round_closed (hp : 1 ≤ p) (x : K) : Representable p emin (round p emin x) := by
  unfold round
  split
  · exact (roundPos_closed hp (by linarith)).neg
  · next h => exact roundPos_closed hp (not_lt.1 h)

theorem round_isRounding (hp : 1 ≤ p) (emin : Int) : IsRounding (Representable p emin : K → Prop) (round p emin) :=
  ⟨fun _ _ => round_mono hp, fun _ => round_fixed, round_closed hp⟩

theorem roundPos_err {x : K} : |roundPos p emin x - x| ≤ 2 ^ ulpExp p emin x / 2 := by
  unfold roundPos
  set q := (2 : K) ^ ulpExp p emin x
  have hq : 0 < q := two_zpow_pos _
  have h := nearestEven_err (x / q)
  have : (nearestEven (x / q) : K) * q - x = (nearestEven (x / q) - x / q) * q := by field_simp
  rw [this, abs_mul, abs_of_pos hq]
  nlinarith

/-- The error is at most half a unit in the last place: relative `2^-p` for normal numbers. -/
theorem round_rel {x : K} (h : 2 ^ (emin + p - 1) ≤ |x|) : |round p emin x - x| ≤ 2 ^ (-(p : Int)) * |x| := by
  have key : ∀ y : K, 0 ≤ y → 2 ^ (emin + p - 1) ≤ y → |roundPos p emin y - y| ≤ 2 ^ (-(p : Int)) * y := by
    intro y hy h
    have hy : 0 < y := lt_of_lt_of_le (two_zpow_pos _) h
    refine roundPos_err.trans ?_
    have hlog : emin + p - 1 ≤ Int.log 2 y := by
      by_contra hc
      have h1 := lt_zpow_log y
      have : (2 : K) ^ (Int.log 2 y + 1) ≤ 2 ^ (emin + p - 1) := zpow_le_zpow_right₀ (by norm_num) (by omega)
      linarith
    have hu : ulpExp p emin y = Int.log 2 y + 1 - p := by unfold ulpExp; omega
    rw [hu, show Int.log 2 y + 1 - (p : Int) = Int.log 2 y + (-(p : Int)) + 1 by ring, zpow_add_one₀ (by norm_num),
      zpow_add₀ (by norm_num)]
    have := mul_le_mul_of_nonneg_right (zpow_log_le hy) (two_zpow_pos (K := K) (-(p : Int))).le
    linarith
  by_cases hx : 0 ≤ x
  · rw [abs_of_nonneg hx] at h ⊢
    rw [round_of_nonneg hx]; exact key x hx h
  · have hx := not_le.1 hx
    rw [abs_of_neg hx] at h ⊢
    rw [round, if_pos hx]
    have := key (-x) (by linarith) h
    rwa [show -roundPos p emin (-x) - x = -(roundPos p emin (-x) - -x) by ring, abs_neg]

/-- Below the smallest normal number the error is at most half of the smallest positive number. -/
theorem round_abs (hp : 1 ≤ p) {x : K} (h : |x| ≤ 2 ^ (emin + p - 1)) :
    |round p emin x - x| ≤ 2 ^ (-(p : Int)) * 2 ^ (emin + p - 1) := by
  have key : ∀ y : K, 0 ≤ y → y ≤ 2 ^ (emin + p - 1) → |roundPos p emin y - y| ≤ 2 ^ (-(p : Int)) * 2 ^ (emin + p - 1) := by
    intro y hy h
    rcases h.eq_or_lt with rfl | h
    · rw [roundPos_fixed hy (rep_zpow hp (by omega)), sub_self, abs_zero]
      exact mul_nonneg (two_zpow_pos _).le (two_zpow_pos _).le
    rcases hy.eq_or_lt with rfl | hy
    · rw [roundPos_zero, sub_self, abs_zero]
      exact mul_nonneg (two_zpow_pos _).le (two_zpow_pos _).le
    refine roundPos_err.trans ?_
    have hl := log_lt hy h
    have hu : ulpExp p emin y = emin := by unfold ulpExp; omega
    rw [hu, ← zpow_add₀ (by norm_num), show -(p : Int) + (emin + p - 1) = emin - 1 by ring, zpow_sub_one₀ (by norm_num)]
    exact le_of_eq (div_eq_mul_inv _ _)
  by_cases hx : 0 ≤ x
  · rw [abs_of_nonneg hx] at h
    rw [round_of_nonneg hx]; exact key x hx h
  · have hx := not_le.1 hx
    rw [abs_of_neg hx] at h
    rw [round, if_pos hx]
    have := key (-x) (by linarith) h
    rwa [show -roundPos p emin (-x) - x = -(roundPos p emin (-x) - -x) by ring, abs_neg]

theorem rep_sub {x y : K} (hx : Representable p emin x) (hy : Representable p emin y)
    (h : |x - y| < 2 ^ (emin + p)) : Representable p emin (x - y) := by
  obtain ⟨m, e, -, he, rfl⟩ := hx
  obtain ⟨n, f, -, hf, rfl⟩ := hy
  have hd : (m : K) * 2 ^ e - n * 2 ^ f =
      ((m * 2 ^ (e - emin).toNat - n * 2 ^ (f - emin).toNat : Int) : K) * 2 ^ emin := by
    rw [zpow_eq_nat_mul (K := K) he, zpow_eq_nat_mul (K := K) hf]; push_cast; ring
  refine ⟨m * 2 ^ (e - emin).toNat - n * 2 ^ (f - emin).toNat, emin, ?_, le_refl _, hd⟩
  rw [hd, abs_mul, abs_of_pos (two_zpow_pos (K := K) emin), add_comm, zpow_add₀ (by norm_num)] at h
  have := lt_of_mul_lt_mul_right h (two_zpow_pos _).le
  rw [zpow_natCast] at this
  exact_mod_cast this

theorem rep_int {n : Int} (h : |n| < 2 ^ p) (he : emin ≤ 0) : Representable p emin (n : K) := ⟨n, 0, h, he, by simp⟩

/-- Every precision of at least two bits with integers in range is a format. -/
theorem round_isFormat (hp : 2 ≤ p) (he : emin ≤ 0) :
    IsFormat (Representable p emin : K → Prop) (round p emin) (2 ^ (-(p : Int))) (2 ^ (emin + p - 1)) where
  toIsRounding := round_isRounding (by omega) emin
  neg _ := Representable.neg
  zero := ⟨0, emin, by simp, le_refl _, by simp⟩
  one := by simpa using rep_zpow (K := K) (p := p) (by omega) he
  two := by simpa using rep_zpow (K := K) (p := p) (b := 1) (by omega) (by omega)
  u_nonneg := (two_zpow_pos _).le
  u_le := by
    have : (2 : K) ^ (-(p : Int)) ≤ 2 ^ (-2 : Int) := zpow_le_zpow_right₀ (by norm_num) (by omega)
    refine this.trans ?_
    norm_num [zpow_neg]
  tau_pos := two_zpow_pos _
  tau_rep := rep_zpow (by omega) (by omega)
  sub x y hx hy h := rep_sub hx hy (lt_of_le_of_lt h (zpow_lt_zpow_right₀ (by norm_num) (by omega)))
  rel _ := round_rel
  abs _ := round_abs (by omega)

/-- Counting stops at `2^p`: the next number is a tie and goes back to the even one. -/
theorem round_succ (hp : 2 ≤ p) (he : emin ≤ 0) : round p emin ((2 : K) ^ p + 1) = 2 ^ p := by
  have hpos : (0 : K) < 2 ^ p + 1 := by positivity
  have h1 : (1 : K) < 2 ^ p := one_lt_pow₀ (by norm_num) (by omega)
  have hlog : Int.log 2 ((2 : K) ^ p + 1) = p := by
    have ha : Int.log 2 ((2 : K) ^ p + 1) < p + 1 :=
      log_lt hpos (by rw [show ((p : Int) + 1) = ((p + 1 : Nat) : Int) by simp, zpow_natCast, pow_succ]; linarith)
    have hb : (p : Int) ≤ Int.log 2 ((2 : K) ^ p + 1) := by
      have h2 := lt_zpow_log ((2 : K) ^ p + 1)
      by_contra hc
      have : (2 : K) ^ (Int.log 2 ((2 : K) ^ p + 1) + 1) ≤ 2 ^ (p : Int) := zpow_le_zpow_right₀ (by norm_num) (by omega)
      rw [zpow_natCast] at this
      linarith
    omega
  have hu : ulpExp p emin ((2 : K) ^ p + 1) = 1 := by unfold ulpExp; rw [hlog]; omega
  rw [round_of_nonneg hpos.le, roundPos, hu, zpow_one]
  obtain ⟨q, rfl⟩ : ∃ q, p = q + 1 := ⟨p - 1, by omega⟩
  have hx : ((2 : K) ^ (q + 1) + 1) / 2 = ((2 ^ q : Int) : K) + 1 / 2 := by push_cast; rw [pow_succ]; ring
  have hf : ⌊((2 ^ q : Int) : K) + 1 / 2⌋ = 2 ^ q := by
    rw [Int.floor_intCast_add]
    have : ⌊(1 / 2 : K)⌋ = 0 := by rw [Int.floor_eq_zero_iff]; constructor <;> norm_num
    omega
  have hn : nearestEven (((2 : K) ^ (q + 1) + 1) / 2) = 2 ^ q := by
    rw [hx]
    unfold nearestEven
    rw [hf, if_neg (by push_cast; intro h; linarith), if_neg (by push_cast; intro h; linarith), if_pos]
    exact (Int.even_pow).2 ⟨even_two, by omega⟩
  rw [hn]; push_cast; rw [pow_succ]

theorem round_nat {k : Nat} (h : k ≤ 2 ^ p) (hp : 2 ≤ p) (he : emin ≤ 0) : round p emin (k : K) = k := by
  apply round_fixed
  rcases h.eq_or_lt with rfl | h
  · have := rep_zpow (K := K) (p := p) (emin := emin) (b := p) (by omega) (by omega)
    rw [zpow_natCast] at this
    simpa using this
  · have := rep_int (K := K) (p := p) (emin := emin) (n := k) (by rw [Nat.abs_cast]; exact_mod_cast h) he
    simpa using this

theorem f32_isFormat : IsFormat (Representable 24 (-149) : K → Prop) f32 (2 ^ (-24 : Int)) (2 ^ (-126 : Int)) :=
  round_isFormat (p := 24) (emin := -149) (by norm_num) (by norm_num)

theorem f64_isFormat : IsFormat (Representable 53 (-1074) : K → Prop) f64 (2 ^ (-53 : Int)) (2 ^ (-1022 : Int)) :=
  round_isFormat (p := 53) (emin := -1074) (by norm_num) (by norm_num)

end Ieee

end Essay
