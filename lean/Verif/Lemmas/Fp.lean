import Mathlib.Tactic.Linarith
import Mathlib.Tactic.Positivity
import Verif.Spec.Fp
import Verif.Spec.Ieee
import Verif.Lemmas.Stats

/-!
# Lemmas about floating point values with infinities and NaN
-/

set_option linter.unusedSectionVars false

namespace Essay

namespace Fp

variable {K : Type} [Field K] [LinearOrder K] [IsStrictOrderedRing K] {rnd : K → K} {big : K}

theorem val_pack {s : Bool} {x : K} (h : |rnd x| ≤ big) : (pack rnd big s x).val = some (rnd x) := by
  unfold pack
  split
  · next h0 => simp [val, h0]
  · rfl

theorem pack_inf {s : Bool} {x : K} (h0 : 0 ≤ big) (h : big < |rnd x|) : pack rnd big s x = .inf (decide (x < 0)) := by
  unfold pack
  rw [if_neg, if_neg (not_le.2 h)]
  intro hc
  rw [hc, abs_zero] at h
  exact absurd h (not_lt.2 h0)

theorem val_neg {x : Fp K} {a : K} (hx : x.val = some a) : x.neg.val = some (-a) := by
  cases x <;> simp [val, neg] at hx ⊢ <;> simp [hx]

theorem val_add {x y : Fp K} {a b : K} (hx : x.val = some a) (hy : y.val = some b) (h : |rnd (a + b)| ≤ big) :
    (add rnd big x y).val = some (rnd (a + b)) := by
  cases x <;> simp [val] at hx <;> cases y <;> simp [val] at hy <;> subst hx <;> subst hy <;>
    exact val_pack h

theorem add_eq {x y : Fp K} {a b : K} (hx : x.val = some a) (hy : y.val = some b) :
    add rnd big x y = pack rnd big (x.sign && y.sign) (a + b) := by
  cases x <;> simp [val] at hx <;> cases y <;> simp [val] at hy <;> subst hx <;> subst hy <;> rfl

theorem mul_eq {x y : Fp K} {a b : K} (hx : x.val = some a) (hy : y.val = some b) :
    mul rnd big x y = pack rnd big (x.sign ^^ y.sign) (a * b) := by
  cases x <;> simp [val] at hx <;> cases y <;> simp [val] at hy <;> subst hx <;> subst hy <;> rfl

theorem div_eq {x y : Fp K} {a b : K} (hx : x.val = some a) (hy : y.val = some b) (h : b ≠ 0) :
    div rnd big x y = pack rnd big (x.sign ^^ y.sign) (a / b) := by
  cases x <;> simp [val] at hx <;> cases y <;> simp [val] at hy <;> subst hx <;> subst hy <;> first | rfl | exact absurd rfl h

theorem val_sub {x y : Fp K} {a b : K} (hx : x.val = some a) (hy : y.val = some b) (h : |rnd (a - b)| ≤ big) :
    (sub rnd big x y).val = some (rnd (a - b)) := by
  rw [sub_eq_add_neg] at h ⊢
  exact val_add hx (val_neg hy) h

theorem val_mul {x y : Fp K} {a b : K} (hx : x.val = some a) (hy : y.val = some b) (h : |rnd (a * b)| ≤ big) :
    (mul rnd big x y).val = some (rnd (a * b)) := by
  rw [mul_eq hx hy]; exact val_pack h

theorem val_div {x y : Fp K} {a b : K} (hx : x.val = some a) (hy : y.val = some b) (h0 : b ≠ 0)
    (h : |rnd (a / b)| ≤ big) : (div rnd big x y).val = some (rnd (a / b)) := by
  rw [div_eq hx hy h0]; exact val_pack h

/-! ### NaN -/

@[simp] theorem add_nan_left (y : Fp K) : add rnd big .nan y = .nan := by cases y <;> rfl
@[simp] theorem add_nan_right (x : Fp K) : add rnd big x .nan = .nan := by cases x <;> rfl
@[simp] theorem mul_nan_left (y : Fp K) : mul rnd big .nan y = .nan := by cases y <;> rfl
@[simp] theorem mul_nan_right (x : Fp K) : mul rnd big x .nan = .nan := by cases x <;> rfl
@[simp] theorem div_nan_left (y : Fp K) : div rnd big .nan y = .nan := by cases y <;> rfl
@[simp] theorem div_nan_right (x : Fp K) : div rnd big x .nan = .nan := by cases x <;> rfl
@[simp] theorem sub_nan_left (y : Fp K) : sub rnd big .nan y = .nan := by simp [sub]
@[simp] theorem sub_nan_right (x : Fp K) : sub rnd big x .nan = .nan := by simp [sub, neg]

theorem key_eq_none {x : Fp K} : x.key = none ↔ x = .nan := by
  cases x with
  | inf s => cases s <;> simp [key]
  | _ => simp [key]

theorem cmp_iff {r : WithBot (WithTop K) → WithBot (WithTop K) → Bool} {x y : Fp K} :
    cmp r x y = true ↔ ∃ a b, x.key = some a ∧ y.key = some b ∧ r a b = true := by
  unfold cmp
  cases x.key <;> cases y.key <;> simp

theorem order (rnd : K → K) (big : K) (ln exp : Fp K → Fp K) (sq : K → K) (powf : Fp K → Fp K → Fp K) :
    IsFloatOrder (FOps.ieee rnd big ln exp sq powf) Fp.key where
  eq_iff x y := by
    simp only [FOps.ieee, cmp_iff, decide_eq_true_eq]
    constructor
    · rintro ⟨a, b, h1, h2, rfl⟩; exact ⟨a, h1, h2⟩
    · rintro ⟨a, h1, h2⟩; exact ⟨a, a, h1, h2, rfl⟩
  lt_iff x y := by
    simp only [FOps.ieee, cmp_iff, decide_eq_true_eq]

/-! ### Non-negative values -/

theorem nonneg_pack {rep : K → Prop} (hr : IsRounding rep rnd) (h0 : rep 0) {s : Bool} {x : K} (hx : 0 ≤ x) :
    (pack rnd big s x).NonNeg := by
  unfold pack
  split
  · trivial
  · split
    · have := hr.mono 0 x hx
      rwa [hr.fixed 0 h0] at this
    · simpa [NonNeg] using hx

theorem nonneg_add {rep : K → Prop} (hr : IsRounding rep rnd) (h0 : rep 0) {x y : Fp K} (hx : x.NonNeg) (hy : y.NonNeg) :
    (add rnd big x y).NonNeg := by
  cases x <;> simp [NonNeg] at hx <;> cases y <;> simp [NonNeg] at hy <;> (try subst hx) <;> (try subst hy) <;>
    first
    | exact nonneg_pack hr h0 (by simp [val]; try linarith)
    | rfl

theorem add_inf_left {y : Fp K} (hy : y.NonNeg) : add rnd big (.inf false) y = .inf false := by
  cases y with
  | nan => exact absurd hy (by simp [NonNeg])
  | inf s => simp only [NonNeg] at hy; subst hy; rfl
  | _ => rfl

theorem add_inf_right {x : Fp K} (hx : x.NonNeg) : add rnd big x (.inf false) = .inf false := by
  cases x with
  | nan => exact absurd hx (by simp [NonNeg])
  | inf s => simp only [NonNeg] at hx; subst hx; rfl
  | _ => rfl

end Fp

end Essay
