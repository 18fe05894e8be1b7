import Verif.Props.Random

/-!
# Properties C70, C71 and the builders of C49
-/

namespace Essay

open Shape Random

variable {F K : Type}

/-! ## C49 builders -/

/-- C49: a seed given by any of the builders reaches the generator, whatever is set before or after it. -/
theorem C49_seed_kept (fo : FOps F) (seed : BitVec 64) (n : Normal F) (u : Uniform F) (a b : F) :
    Normal.ofSeed fo seed = ⟨fo.zero, fo.one, some seed⟩ ∧ Normal.ofOption fo (some seed) = ⟨fo.zero, fo.one, some seed⟩ ∧
    ((n.withSeed seed).withMean a).withStd b = ⟨a, b, some seed⟩ ∧
    ((n.withStd b).withSeed seed).withMean a = ⟨a, b, some seed⟩ ∧
    ((n.withMean a).withStd b).withSeed seed = ⟨a, b, some seed⟩ ∧
    (Normal.ofPair fo a b).withSeed seed = ⟨a, b, some seed⟩ ∧
    Uniform.ofSeed fo seed = ⟨fo.zero, fo.one, some seed⟩ ∧ Uniform.ofOption fo (some seed) = ⟨fo.zero, fo.one, some seed⟩ ∧
    ((u.withSeed seed).withMin a).withMax b = ⟨a, b, some seed⟩ ∧
    ((u.withMax b).withSeed seed).withMin a = ⟨a, b, some seed⟩ ∧
    ((u.withMin a).withMax b).withSeed seed = ⟨a, b, some seed⟩ ∧
    (Uniform.ofPair fo a b).withSeed seed = ⟨a, b, some seed⟩ :=
  ⟨rfl, rfl, rfl, rfl, rfl, rfl, rfl, rfl, rfl, rfl, rfl, rfl⟩

example (fo : FOps F) (a b : F) : ((Normal.ofSeed fo 3).withStd b).withSeed 5 = ⟨fo.zero, b, some 5⟩ ∧
    (Normal.ofPair fo a b).withSeed 5 = ⟨a, b, some 5⟩ :=
  ⟨rfl, (C49_seed_kept fo 5 (.ofSeed fo 3) (.ofSeed fo 3) a b).2.2.2.2.2.1⟩

/-! ## C70 string seeds -/

theorem step_inj {w : Nat} {a c : BitVec w} (ha : a.toNat % 4 = 1) (hc : c.toNat % 2 = 1) {s s' x : BitVec w}
    (h : s * a + c + x = s' * a + c + x) : s = s' :=
  lcg_injective ha hc ((BitVec.add_left_inj x).1 h)

theorem fold_inj {w : Nat} {a c : BitVec w} (ha : a.toNat % 4 = 1) (hc : c.toNat % 2 = 1) (bs : List (BitVec 8))
    {s s' : BitVec w} (h : bs.foldl (fun s v => s * a + c + v.setWidth w) s = bs.foldl (fun s v => s * a + c + v.setWidth w) s') :
    s = s' := by
  induction bs generalizing s s' with
  | nil => exact h
  | cons b bs ih => exact step_inj ha hc (ih h)

theorem setWidth_inj {w : Nat} (hw : 8 ≤ w) {b b' : BitVec 8} (h : b.setWidth w = b'.setWidth w) : b = b' := by
  apply BitVec.eq_of_toNat_eq
  have := congrArg BitVec.toNat h
  have hp : (2 : Nat) ^ 8 ≤ 2 ^ w := Nat.pow_le_pow_right (by omega) hw
  rw [BitVec.toNat_setWidth, BitVec.toNat_setWidth, Nat.mod_eq_of_lt (lt_of_lt_of_le b.isLt hp),
    Nat.mod_eq_of_lt (lt_of_lt_of_le b'.isLt hp)] at this
  exact this

theorem strFold_inj {w : Nat} (hw : 8 ≤ w) {a c : BitVec w} (ha : a.toNat % 4 = 1) (hc : c.toNat % 2 = 1)
    (pre post : List (BitVec 8)) {b b' : BitVec 8}
    (h : (pre ++ b :: post).foldl (fun s v => s * a + c + v.setWidth w) 0 =
      (pre ++ b' :: post).foldl (fun s v => s * a + c + v.setWidth w) 0) : b = b' := by
  rw [List.foldl_append, List.foldl_append, List.foldl_cons, List.foldl_cons] at h
  exact setWidth_inj hw ((BitVec.add_right_inj _).1 (fold_inj ha hc post h))

/-- C70 for `Rand32`: changing one byte of the seed string, at any place, gives another generator, and the two never meet:
after any equal number of steps their states still differ. -/
theorem C70_rand32 (pre post : List (BitVec 8)) {b b' : BitVec 8} (hb : b ≠ b') (n : Nat) :
    (fun s => (next32 s).2)^[n] (fromStr32 (pre ++ b :: post)) ≠ (fun s => (next32 s).2)^[n] (fromStr32 (pre ++ b' :: post)) :=
  fun h => hb (strFold_inj (by omega) a32_mod c32_mod pre post
    (Function.Injective.iterate (lcg_injective a32_mod c32_mod) n h))

/-- C70 for `Rand64`. -/
theorem C70_rand64 (pre post : List (BitVec 8)) {b b' : BitVec 8} (hb : b ≠ b') (n : Nat) :
    (fun s => (next64 s).2)^[n] (fromStr64 (pre ++ b :: post)) ≠ (fun s => (next64 s).2)^[n] (fromStr64 (pre ++ b' :: post)) :=
  fun h => hb (strFold_inj (by omega) a64_mod c64_mod pre post
    (Function.Injective.iterate (lcg_injective a64_mod c64_mod) n h))

example : fromStr64 ([97] ++ 98 :: [99]) ≠ fromStr64 ([97] ++ 99 :: [99]) := C70_rand64 [97] [99] (by decide) 0

/-- "ab" and "ac". -/
example : fromStr32 ([97] ++ 98 :: []) ≠ fromStr32 ([97] ++ 99 :: []) := C70_rand32 [97] [] (by decide) 0

/-! ## C71 normal draws -/

theorem boxMuller_none (a : Nat) (b : Nat) :
    boxMuller FRand.partialReal (FRand.partialReal.div (FRand.partialReal.ofNat a) (FRand.partialReal.ofNat 4294967295))
      (FRand.partialReal.div (FRand.partialReal.ofNat b) (FRand.partialReal.ofNat 4294967295)) = none ↔
      a = 0 ∨ 4294967295 < a := by
  have hlog : ∀ x : ℝ, 0 < x → (0 ≤ -2 * Real.log x ↔ x ≤ 1) := by
    intro x hx
    rw [← Real.log_nonpos_iff hx.le]
    constructor <;> intro h <;> linarith
  have hd : (a : ℝ) / 4294967295 ≤ 1 ↔ a ≤ 4294967295 := by
    rw [div_le_one (by norm_num)]
    exact_mod_cast Iff.rfl
  have hpos : 0 < (a : ℝ) / 4294967295 ↔ 0 < a := by
    rw [div_pos_iff_of_pos_right (by norm_num)]
    exact_mod_cast Iff.rfl
  unfold boxMuller FRand.partialReal
  simp only [Option.bind_some, Option.map_some, ne_eq, OfNat.ofNat_ne_zero, not_false_eq_true, if_true, id,
    Nat.cast_ofNat]
  by_cases h0 : 0 < a
  · rw [if_pos (hpos.2 h0)]
    simp only [Option.bind_some, Option.map_some]
    by_cases h1 : a ≤ 4294967295
    · rw [if_pos ((hlog _ (hpos.2 h0)).2 (hd.2 h1))]
      simp; omega
    · rw [if_neg (fun h => h1 (hd.1 ((hlog _ (hpos.2 h0)).1 h)))]
      simp; omega
  · rw [if_neg (fun h => h0 (hpos.1 h))]
    simp; omega

/-- C71 for `Rand32::next_normal`: the draw is a finite number unless the generator's next output is 0. -/
theorem C71_rand32_partial (s : BitVec 64) :
    (nextNormal32 FRand.partialReal s).1 = none ↔ (next32 s).1 = 0 := by
  unfold nextNormal32 nextUniform32
  dsimp only
  rw [boxMuller_none]
  have h := (next32 s).1.isLt
  constructor
  · rintro (h0 | h0)
    · exact BitVec.eq_of_toNat_eq h0
    · omega
  · intro h; left; rw [h]; rfl

/-- C71 fails for `Rand32`: for 2^32 of the 2^64 seeds the first draw is not a finite number. -/
theorem C71_rand32_violates :
    (Finset.univ.filter fun s : BitVec 64 => (nextNormal32 FRand.partialReal s).1 = none).card = 2 ^ 32 := by
  simp only [C71_rand32_partial]
  have := seeds_card a32_mod c32_mod output32 output32_card (fun x => x = 0)
  rw [Finset.filter_eq' Finset.univ 0, if_pos (Finset.mem_univ _), Finset.card_singleton, one_mul] at this
  exact this

/-- C71 for `Rand64::next_normal`: the draw is a finite number only if the next output, out of 2^64, is below 2^32. -/
theorem C71_rand64_partial (s : BitVec 128) :
    (nextNormal64 FRand.partialReal s).1 = none ↔ (next64 s).1 = 0 ∨ 2 ^ 32 ≤ (next64 s).1.toNat := by
  unfold nextNormal64 nextUniform64
  dsimp only
  rw [boxMuller_none]
  constructor
  · rintro (h0 | h0)
    · exact .inl (BitVec.eq_of_toNat_eq h0)
    · right; omega
  · rintro (h | h)
    · left; rw [h]; rfl
    · right; omega

/-- C71 fails for `Rand64` on nearly all states: only for (2^32 - 1) 2^64 of the 2^128 states (1 in 2^32) the next draw
is a finite number. -/
theorem C71_rand64_violates :
    (Finset.univ.filter fun s : BitVec 128 => (nextNormal64 FRand.partialReal s).1 ≠ none).card = (2 ^ 32 - 1) * 2 ^ 64 := by
  have h := seeds_card a64_mod c64_mod output64 output64_card (fun x => 0 < x.toNat ∧ x.toNat < 2 ^ 32)
  rw [between_card (by norm_num)] at h
  refine Eq.trans (congrArg Finset.card (Finset.filter_congr ?_)) h
  intro s _
  rw [ne_eq, C71_rand64_partial]
  have e : (next64 s).1 = output64 (s * a64 + c64) := rfl
  rw [← e, BitVec.toNat_eq]
  have e0 : (0 : BitVec 64).toNat = 0 := rfl
  rw [e0]
  omega

/-- A `Rand64` seeded with 1 draws a number that is not finite, a `Rand32` seeded with 1 a finite one. -/
example : (nextNormal64 FRand.partialReal 1).1 = none ∧ (nextNormal32 FRand.partialReal 1).1 ≠ none := by
  rw [ne_eq, C71_rand64_partial, C71_rand32_partial]
  decide +kernel

end Essay
