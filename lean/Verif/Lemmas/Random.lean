import Mathlib.Data.BitVec
import Mathlib.Algebra.BigOperators.Group.Finset.Basic
import Mathlib.Algebra.Order.Ring.GeomSum
import Mathlib.Data.Nat.Factorization.Basic
import Mathlib.Data.Fintype.Card
import Mathlib.Data.Fintype.EquivFin
import Mathlib.Dynamics.PeriodicPts.Defs
import Mathlib.Logic.Relation
import Mathlib.Tactic.Ring
import Mathlib.Tactic.Linarith
import Verif.Model.Random

/-!
# Helper lemmas for random number generators
-/

namespace Essay.Random

/-! ### linear congruential generators modulo a power of two -/

/-- `1 + a + ... + a^(n-1)`. -/
def geom (a : Nat) : Nat → Nat
  | 0 => 0
  | n + 1 => geom a n * a + 1

theorem geom_add (a m n : Nat) : geom a (m + n) = geom a m * a ^ n + geom a n := by
  induction n with
  | zero => simp [geom]
  | succ n ih => rw [← Nat.add_assoc, geom, ih, geom]; ring

theorem geom_odd {a : Nat} (ha : a % 4 = 1) (n : Nat) : geom a n % 2 = n % 2 := by
  induction n with
  | zero => rfl
  | succ n ih =>
    rw [geom, Nat.add_mod, Nat.mul_mod, ih]
    have : a % 2 = 1 := by omega
    rw [this]; omega

theorem pow_mod4 {a : Nat} (ha : a % 4 = 1) (n : Nat) : a ^ n % 4 = 1 := by
  induction n with
  | zero => rfl
  | succ n ih => rw [pow_succ, Nat.mul_mod, ih, ha]

/-- `2^k` divides the geometric sum exactly when it divides the number of terms. -/
theorem dvd_geom {a : Nat} (ha : a % 4 = 1) (k n : Nat) : 2 ^ k ∣ geom a n ↔ 2 ^ k ∣ n := by
  induction k generalizing n with
  | zero => simp
  | succ k ih =>
    rcases Nat.even_or_odd' n with ⟨m, rfl | rfl⟩
    · have h4 := pow_mod4 ha m
      obtain ⟨q, hq⟩ : ∃ q, 1 + a ^ m = 2 * (2 * q + 1) := ⟨a ^ m / 4, by omega⟩
      have e : geom a (2 * m) = 2 * (geom a m * (2 * q + 1)) := by
        rw [Nat.two_mul, geom_add, show geom a m * a ^ m + geom a m = geom a m * (1 + a ^ m) by ring, hq]; ring
      rw [e, pow_succ', Nat.mul_dvd_mul_iff_left (by omega), Nat.mul_dvd_mul_iff_left (by omega), ← ih m]
      apply Nat.Coprime.dvd_mul_right
      apply Nat.Coprime.pow_left
      exact (Nat.coprime_two_left).2 ⟨q, rfl⟩
    · have h1 := geom_odd ha (2 * m + 1)
      constructor
      · intro h
        have : 2 ∣ geom a (2 * m + 1) := dvd_trans (Dvd.intro_left _ rfl) h
        omega
      · intro h
        have : 2 ∣ 2 * m + 1 := dvd_trans (Dvd.intro_left (2 ^ k) rfl) h
        omega

variable {w : Nat}

theorem iterate_toNat (a c s : BitVec w) (n : Nat) :
    ((fun s => s * a + c)^[n] s).toNat = (a.toNat ^ n * s.toNat + c.toNat * geom a.toNat n) % 2 ^ w := by
  induction n with
  | zero => simp [geom, Nat.mod_eq_of_lt s.isLt]
  | succ n ih =>
    rw [Function.iterate_succ_apply', BitVec.toNat_add, BitVec.toNat_mul, ih, geom]
    rw [Nat.mod_add_mod, Nat.add_mod, Nat.mul_mod, Nat.mod_mod, ← Nat.mul_mod, ← Nat.add_mod]
    congr 1
    ring

/-- The difference between a state and the `n`-th later one. -/
theorem geom_mul (a n : Nat) (ha : 1 ≤ a) : (a - 1) * geom a n + 1 = a ^ n := by
  obtain ⟨b, rfl⟩ : ∃ b, a = b + 1 := ⟨a - 1, by omega⟩
  induction n with
  | zero => simp [geom]
  | succ n ih =>
    rw [geom, pow_succ, ← ih]
    simp only [Nat.add_sub_cancel]
    ring

/-- Hull and Dobell's theorem for a power of two: the state returns only after a multiple of `2^w` steps. -/
theorem lcg_period {a c : BitVec w} (ha : a.toNat % 4 = 1) (hc : c.toNat % 2 = 1) (s : BitVec w) (n : Nat) :
    (fun s => s * a + c)^[n] s = s ↔ 2 ^ w ∣ n := by
  rw [← BitVec.toNat_inj, iterate_toNat]
  have e : a.toNat ^ n * s.toNat + c.toNat * geom a.toNat n =
      s.toNat + geom a.toNat n * ((a.toNat - 1) * s.toNat + c.toNat) := by
    rw [← geom_mul a.toNat n (by omega)]; ring
  have hcop : Nat.Coprime (2 ^ w) ((a.toNat - 1) * s.toNat + c.toNat) := by
    apply Nat.Coprime.pow_left
    rw [Nat.coprime_two_left]
    obtain ⟨q, hq⟩ : ∃ q, a.toNat - 1 = 2 * q := ⟨a.toNat / 4 * 2, by omega⟩
    refine ⟨q * s.toNat + c.toNat / 2, ?_⟩
    rw [hq]
    have : c.toNat = 2 * (c.toNat / 2) + 1 := by omega
    calc 2 * q * s.toNat + c.toNat = 2 * q * s.toNat + (2 * (c.toNat / 2) + 1) := by rw [← this]
      _ = _ := by ring
  rw [e, ← dvd_geom ha, ← Nat.Coprime.dvd_mul_right hcop]
  constructor
  · intro h
    have h2 : (s.toNat + geom a.toNat n * ((a.toNat - 1) * s.toNat + c.toNat)) ≡ s.toNat [MOD 2 ^ w] := by
      show _ % _ = _ % _
      rw [h, Nat.mod_eq_of_lt s.isLt]
    have h3 := (Nat.modEq_iff_dvd' (Nat.le_add_right _ _)).1 h2.symm
    simpa using h3
  · rintro ⟨q, hq⟩
    rw [hq, Nat.add_mul_mod_self_left, Nat.mod_eq_of_lt s.isLt]

theorem lcg_injective {a c : BitVec w} (ha : a.toNat % 4 = 1) (hc : c.toNat % 2 = 1) :
    Function.Injective (fun s : BitVec w => s * a + c) := by
  intro s t h
  have hs := (lcg_period ha hc s (2 ^ w)).2 (dvd_refl _)
  have ht := (lcg_period ha hc t (2 ^ w)).2 (dvd_refl _)
  obtain ⟨m, hm⟩ : ∃ m, 2 ^ w = m + 1 := ⟨2 ^ w - 1, by have := Nat.two_pow_pos w; omega⟩
  rw [hm, Function.iterate_succ_apply] at hs ht
  dsimp only at h
  rw [← hs, h, ht]

/-- Different step counts below the period give different states. -/
theorem lcg_inj {a c : BitVec w} (ha : a.toNat % 4 = 1) (hc : c.toNat % 2 = 1) (s : BitVec w) {i j : Nat}
    (hi : i < 2 ^ w) (hj : j < 2 ^ w) (h : (fun s => s * a + c)^[i] s = (fun s => s * a + c)^[j] s) : i = j := by
  wlog hij : i ≤ j generalizing i j
  · exact (this hj hi h.symm (by omega)).symm
  have e : (fun s => s * a + c)^[j] s = (fun s => s * a + c)^[i] ((fun s => s * a + c)^[j - i] s) := by
    rw [← Function.iterate_add_apply]; congr 2; omega
  rw [e] at h
  have := (lcg_injective ha hc).iterate i h
  have hd := (lcg_period ha hc s (j - i)).1 this.symm
  have := Nat.eq_zero_of_dvd_of_lt hd (by omega)
  omega

instance : Fintype (BitVec w) := Fintype.ofEquiv (Fin (2 ^ w)) (BitVec.equivFin.symm.toEquiv)

theorem card_bitVec : Fintype.card (BitVec w) = 2 ^ w := by
  rw [Fintype.ofEquiv_card, Fintype.card_fin]

/-- Every state is visited exactly once in a period. -/
theorem lcg_bij {a c : BitVec w} (ha : a.toNat % 4 = 1) (hc : c.toNat % 2 = 1) (s : BitVec w) :
    Function.Bijective (fun n : Fin (2 ^ w) => (fun s => s * a + c)^[n.val] s) := by
  rw [Fintype.bijective_iff_injective_and_card]
  refine ⟨fun i j h => Fin.ext (lcg_inj ha hc s i.isLt j.isLt h), ?_⟩
  rw [card_bitVec, Fintype.card_fin]

/-! ### output functions -/

theorem xorshift_injective {k : Nat} (hk : 0 < k) : Function.Injective (fun r : BitVec w => r ^^^ (r >>> k)) := by
  intro r t h
  have key : ∀ n i, w - i ≤ n → r.getLsbD i = t.getLsbD i := by
    intro n
    induction n with
    | zero =>
      intro i hi
      rw [BitVec.getLsbD_of_ge _ _ (by omega), BitVec.getLsbD_of_ge _ _ (by omega)]
    | succ n ih =>
      intro i hi
      have hb := congrArg (fun v => BitVec.getLsbD v i) h
      simp only [BitVec.getLsbD_xor, BitVec.getLsbD_ushiftRight] at hb
      rw [ih (k + i) (by omega)] at hb
      revert hb
      cases r.getLsbD i <;> cases t.getLsbD i <;> cases t.getLsbD (k + i) <;> simp
  apply BitVec.eq_of_getLsbD_eq
  intro i _
  exact key w i (by omega)

theorem mul_odd_injective {m : BitVec w} (hm : m.toNat % 2 = 1) : Function.Injective (fun r : BitVec w => r * m) := by
  intro r t h
  have h1 := congrArg BitVec.toNat h
  simp only [BitVec.toNat_mul] at h1
  have hcop : Nat.gcd (2 ^ w) m.toNat = 1 :=
    Nat.Coprime.pow_left _ ((Nat.coprime_two_left).2 (Nat.odd_iff.2 hm))
  have := Nat.ModEq.cancel_right_of_coprime hcop h1
  have e : r.toNat % 2 ^ w = t.toNat % 2 ^ w := this
  rw [Nat.mod_eq_of_lt r.isLt, Nat.mod_eq_of_lt t.isLt] at e
  exact BitVec.eq_of_toNat_eq e

/-- All values of an xor-linear map onto its range are taken equally often. -/
theorem fiber_card {v : Nat} (f : BitVec w → BitVec v) (hf : Function.Surjective f)
    (hl : ∀ a b, f (a ^^^ b) = f a ^^^ f b) (x : BitVec v) :
    (Finset.univ.filter fun s => f s = x).card * 2 ^ v = 2 ^ w := by
  have hsame : ∀ y, (Finset.univ.filter fun s => f s = y).card = (Finset.univ.filter fun s => f s = x).card := by
    intro y
    obtain ⟨d, hd⟩ := hf (x ^^^ y)
    apply Finset.card_bij (fun s _ => s ^^^ d)
    · intro s hs
      simp only [Finset.mem_filter, Finset.mem_univ, true_and] at hs ⊢
      rw [hl, hs, hd, BitVec.xor_comm x y, ← BitVec.xor_assoc]; simp
    · intro s _ t _ h
      have := congrArg (· ^^^ d) h
      simpa [BitVec.xor_assoc] using this
    · intro t ht
      refine ⟨t ^^^ d, ?_, by simp [BitVec.xor_assoc]⟩
      simp only [Finset.mem_filter, Finset.mem_univ, true_and] at ht ⊢
      rw [hl, ht, hd, ← BitVec.xor_assoc]; simp
  have := Finset.card_eq_sum_card_fiberwise (f := f) (s := Finset.univ) (t := Finset.univ) (fun _ _ => by simp)
  rw [Finset.sum_congr rfl fun y _ => hsame y, Finset.sum_const, Finset.card_univ, Finset.card_univ, card_bitVec,
    card_bitVec, smul_eq_mul] at this
  rw [this, Nat.mul_comm]

theorem extract_xor {v k : Nat} (a b : BitVec w) :
    (((a ^^^ b) >>> k).setWidth v) = ((a >>> k).setWidth v) ^^^ ((b >>> k).setWidth v) := by
  rw [BitVec.ushiftRight_xor_distrib, BitVec.setWidth_xor]

theorem extract_surjective {v k : Nat} (h : v + k ≤ w) :
    Function.Surjective (fun s : BitVec w => (s >>> k).setWidth v) := by
  intro x
  refine ⟨x.setWidth w <<< k, ?_⟩
  apply BitVec.eq_of_getLsbD_eq
  intro i hi
  simp only [BitVec.getLsbD_setWidth, BitVec.getLsbD_ushiftRight, BitVec.getLsbD_shiftLeft]
  simp [hi, show k + i < w by omega, show i < w by omega]

/-- An output function made of taking bits, and a bijection, takes all values equally often over all states. -/
theorem output_card {v k : Nat} (h : v + k ≤ w) {g : BitVec v → BitVec v} (hg : Function.Injective g) (x : BitVec v) :
    (Finset.univ.filter fun s : BitVec w => g ((s >>> k).setWidth v) = x).card * 2 ^ v = 2 ^ w := by
  obtain ⟨y, rfl⟩ := (Finite.injective_iff_surjective.1 hg) x
  rw [← fiber_card (fun s : BitVec w => (s >>> k).setWidth v) (extract_surjective h) extract_xor y]
  congr 2
  ext s
  simp [hg.eq_iff]

/-- Counting over a period is counting over all states. -/
theorem period_card {a c : BitVec w} (ha : a.toNat % 4 = 1) (hc : c.toNat % 2 = 1) (s : BitVec w) (P : BitVec w → Prop)
    [DecidablePred P] :
    ((Finset.range (2 ^ w)).filter fun n => P ((fun s => s * a + c)^[n] s)).card = (Finset.univ.filter P).card := by
  apply Finset.card_bij (fun n _ => (fun s => s * a + c)^[n] s)
  · intro n hn; simp at hn ⊢; exact hn.2
  · intro i hi j hj h
    simp at hi hj
    exact lcg_inj ha hc s hi.1 hj.1 h
  · intro t ht
    obtain ⟨n, hn⟩ := (lcg_bij ha hc s).2 t
    refine ⟨n.val, ?_, hn⟩
    simp at ht ⊢
    dsimp only at hn
    rw [hn]
    exact ht

theorem draws_card {a c : BitVec w} (ha : a.toNat % 4 = 1) (hc : c.toNat % 2 = 1) {v : Nat} (out : BitVec w → BitVec v)
    (s : BitVec w) (x : BitVec v) :
    ((Finset.range (2 ^ w)).filter fun n => out ((fun s => s * a + c)^[n] s * a + c) = x).card =
      (Finset.univ.filter fun s => out s = x).card := by
  rw [← period_card ha hc (s * a + c)]
  congr 1
  apply Finset.filter_congr
  intro n _
  rw [← Function.iterate_succ_apply (fun s => s * a + c) n s, Function.iterate_succ_apply']

/-- Counting seeds by their first output, when all outputs are taken by `k` states. -/
theorem seeds_card {a c : BitVec w} (ha : a.toNat % 4 = 1) (hc : c.toNat % 2 = 1) {v : Nat} (out : BitVec w → BitVec v)
    {k : Nat} (hk : ∀ x, (Finset.univ.filter fun s => out s = x).card = k) (P : BitVec v → Prop) [DecidablePred P] :
    (Finset.univ.filter fun s : BitVec w => P (out (s * a + c))).card = (Finset.univ.filter P).card * k := by
  have hinj := lcg_injective ha hc
  have hsurj := Finite.injective_iff_surjective.1 hinj
  have e : (Finset.univ.filter fun s : BitVec w => P (out (s * a + c))).card =
      (Finset.univ.filter fun s : BitVec w => P (out s)).card := by
    apply Finset.card_bij (fun s _ => s * a + c)
    · intro s hs; simpa using hs
    · intro s _ t _ h; exact hinj h
    · intro t ht
      obtain ⟨s, hs⟩ := hsurj t
      dsimp only at hs
      exact ⟨s, by simpa [hs] using ht, hs⟩
  rw [e, Finset.card_eq_sum_card_fiberwise (f := out) (t := Finset.univ.filter P) (fun s hs => by simpa using hs)]
  rw [Finset.sum_congr rfl (g := fun _ => k), Finset.sum_const, smul_eq_mul]
  intro x hx
  rw [← hk x, Finset.filter_filter]
  congr 1
  apply Finset.filter_congr
  intro s _
  simp only [Finset.mem_filter, Finset.mem_univ, true_and] at hx
  constructor
  · exact fun h => h.2
  · exact fun h => ⟨h ▸ hx, h⟩

theorem between_card {m : Nat} (hm : m ≤ 2 ^ w) :
    (Finset.univ.filter fun x : BitVec w => 0 < x.toNat ∧ x.toNat < m).card = m - 1 := by
  have : (Finset.Ioo 0 m).card = m - 1 := by simp
  rw [← this]
  apply Finset.card_bij (fun x _ => x.toNat)
  · intro x hx; simpa using hx
  · intro x _ y _ h; exact BitVec.eq_of_toNat_eq h
  · intro n hn
    simp only [Finset.mem_Ioo] at hn
    refine ⟨BitVec.ofNat w n, ?_, ?_⟩
    · simp [Nat.mod_eq_of_lt (lt_of_lt_of_le hn.2 hm), hn]
    · simp [Nat.mod_eq_of_lt (lt_of_lt_of_le hn.2 hm)]

end Essay.Random
