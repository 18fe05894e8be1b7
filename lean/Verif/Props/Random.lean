import Mathlib.Analysis.SpecialFunctions.Trigonometric.Basic
import Verif.Lemmas.Random
import Verif.Spec.Float
import Verif.Spec.Random
import Verif.Props.Fold

/-!
# Properties C47 - C52: random numbers
-/

namespace Essay

open Shape Random

variable {F K : Type}

/-! ## C47 full period -/

theorem a32_mod : a32.toNat % 4 = 1 := by decide
theorem c32_mod : c32.toNat % 2 = 1 := by decide
theorem a64_mod : a64.toNat % 4 = 1 := by decide
theorem c64_mod : c64.toNat % 2 = 1 := by decide

/-- C47 for `Rand32`: after `n` calls of `next` the state is again what it was exactly if `n` is a multiple of 2^64;
every state is reached in that many calls, exactly once; different states stay different. -/
theorem C47_rand32 (s : BitVec 64) :
    (∀ n, (fun s => (next32 s).2)^[n] s = s ↔ 2 ^ 64 ∣ n) ∧
    (∀ t, ∃ n, n < 2 ^ 64 ∧ (fun s => (next32 s).2)^[n] s = t ∧
      ∀ m, m < 2 ^ 64 → (fun s => (next32 s).2)^[m] s = t → m = n) ∧
    (∀ t n, s ≠ t → (fun s => (next32 s).2)^[n] s ≠ (fun s => (next32 s).2)^[n] t) := by
  refine ⟨fun n => lcg_period a32_mod c32_mod s n, ?_, ?_⟩
  · intro t
    obtain ⟨n, hn⟩ := (lcg_bij a32_mod c32_mod s).2 t
    refine ⟨n.val, n.isLt, hn, fun m hm h => lcg_inj a32_mod c32_mod s hm n.isLt (h.trans hn.symm)⟩
  · intro t n hst h
    exact hst ((lcg_injective a32_mod c32_mod).iterate n h)

example : (fun s => (next32 s).2)^[2 ^ 63] 5 ≠ 5 := fun h => absurd (((C47_rand32 5).1 _).1 h) (by norm_num)

/-- C47 for `Rand64`, with 2^128. -/
theorem C47_rand64 (s : BitVec 128) :
    (∀ n, (fun s => (next64 s).2)^[n] s = s ↔ 2 ^ 128 ∣ n) ∧
    (∀ t, ∃ n, n < 2 ^ 128 ∧ (fun s => (next64 s).2)^[n] s = t ∧
      ∀ m, m < 2 ^ 128 → (fun s => (next64 s).2)^[m] s = t → m = n) ∧
    (∀ t n, s ≠ t → (fun s => (next64 s).2)^[n] s ≠ (fun s => (next64 s).2)^[n] t) := by
  refine ⟨fun n => lcg_period a64_mod c64_mod s n, ?_, ?_⟩
  · intro t
    obtain ⟨n, hn⟩ := (lcg_bij a64_mod c64_mod s).2 t
    refine ⟨n.val, n.isLt, hn, fun m hm h => lcg_inj a64_mod c64_mod s hm n.isLt (h.trans hn.symm)⟩
  · intro t n hst h
    exact hst ((lcg_injective a64_mod c64_mod).iterate n h)

example (n : Nat) : (fun s => (next64 s).2)^[n] 5 ≠ (fun s => (next64 s).2)^[n] 6 := (C47_rand64 5).2.2 6 n (by decide)

/-- The generator produces the values the crate's tests expect. -/
example : (next32 0).1 = 2719371262 ∧ (next32 (next32 0).2).1 = 3366669408 ∧ (next32 1).1 = 67131503 ∧
    (next32 (fromStr32 [97, 97])).1 = 3194888993 := by decide

/-! ## C48 equidistribution -/

theorem output32_card (x : BitVec 32) : (Finset.univ.filter fun s => output32 s = x).card = 2 ^ 32 := by
  have h := output_card (w := 64) (v := 32) (k := 32) (by omega) (g := fun r => (r ^^^ (r >>> 16)) * m32)
    (fun r t h => xorshift_injective (by omega) (mul_odd_injective (m := m32) (by decide) h)) x
  have h2 : (2 : Nat) ^ 64 = 2 ^ 32 * 2 ^ 32 := by norm_num
  rw [h2] at h
  exact Nat.eq_of_mul_eq_mul_right (by positivity) h

theorem output64_card (x : BitVec 64) : (Finset.univ.filter fun s => output64 s = x).card = 2 ^ 64 := by
  have h := output_card (w := 128) (v := 64) (k := 32) (by omega) (g := fun r => (r ^^^ (r >>> 32)) * m64)
    (fun r t h => xorshift_injective (by omega) (mul_odd_injective (m := m64) (by decide) h)) x
  have h2 : (2 : Nat) ^ 128 = 2 ^ 64 * 2 ^ 64 := by norm_num
  rw [h2] at h
  exact Nat.eq_of_mul_eq_mul_right (by positivity) h

/-- C48 for `Rand32`: from any state, each of the 2^32 values is returned by exactly 2^32 of the next 2^64 calls. -/
theorem C48_rand32 (s : BitVec 64) (x : BitVec 32) :
    ((Finset.range (2 ^ 64)).filter fun n => (next32 ((fun s => (next32 s).2)^[n] s)).1 = x).card = 2 ^ 32 :=
  (draws_card a32_mod c32_mod output32 s x).trans (output32_card x)

/-- Zero is drawn 2^32 times in 2^64 draws, whatever the seed; here 7. -/
example : ((Finset.range (2 ^ 64)).filter fun n => (next32 ((fun s => (next32 s).2)^[n] 7)).1 = 0).card = 2 ^ 32 := C48_rand32 7 0

/-- C48 for `Rand64`: each of the 2^64 values is returned by exactly 2^64 of the next 2^128 calls. -/
theorem C48_rand64 (s : BitVec 128) (x : BitVec 64) :
    ((Finset.range (2 ^ 128)).filter fun n => (next64 ((fun s => (next64 s).2)^[n] s)).1 = x).card = 2 ^ 64 :=
  (draws_card a64_mod c64_mod output64 s x).trans (output64_card x)

example : ((Finset.range (2 ^ 128)).filter fun n => (next64 ((fun s => (next64 s).2)^[n] 7)).1 = 3).card = 2 ^ 64 := C48_rand64 7 3

/-! ## C49 reproducible random tensors -/

theorem mapM_draw {σ V : Type} (g : σ → V × σ) (n : Nat) (s : σ) :
    StateT.run ((List.replicate n ()).mapM fun _ => (fun s => .ok (g s) : Exec σ V)) s =
      .ok ((List.range n).map fun i => (g ((fun s => (g s).2)^[i] s)).1, (fun s => (g s).2)^[n] s) := by
  induction n generalizing s with
  | zero => rfl
  | succ n ih =>
    rw [List.replicate_succ, List.mapM_cons]
    simp only [StateT.run_bind, StateT.run_pure]
    have e : StateT.run (fun s => .ok (g s) : Exec σ V) s = .ok (g s) := rfl
    rw [e, ok_bind, ih, ok_bind, List.range_succ_eq_map, List.map_cons, List.map_map]
    rfl

theorem init_draw {σ V : Type} (g : σ → V × σ) {s : Shape} {ds : List Nat} (hs : s.WF) (hds : s.asVec = .ok ds)
    (hf : Fits ds) (st : σ) :
    ∃ t, (Tensor.init s (fun s => .ok (g s) : Exec σ V)).run st = .ok (t, (fun s => (g s).2)^[ds.prod] st) ∧
      Rep t ds ((List.range ds.prod).map fun i => (g ((fun s => (g s).2)^[i] st)).1) := by
  have := C19_init hs hds hf (fun s => .ok (g s) : Exec σ V) st
  rw [mapM_draw] at this
  exact this

/-- C49 for `random_normal` with a seed: the tensor does not depend on the calling thread nor on the state of the process,
which it leaves alone; element `i` in row-major order is computed from the `i`-th normal draw of a `Rand32` started at
the seed, so does not depend on the shape. -/
theorem C49_normal (fr : FRand F) {s : Shape} {ds : List Nat} (hs : s.WF) (hds : s.asVec = .ok ds) (hf : Fits ds)
    (mean std : F) (seed : BitVec 64) :
    ∃ t, (∀ tid p, randomNormal fr s ⟨mean, std, some seed⟩ tid p = .ok (t, p)) ∧
      Rep t ds ((List.range ds.prod).map fun i =>
        fr.add mean (fr.mul (nextNormal32 fr ((fun s => (nextNormal32 fr s).2)^[i] seed)).1 std)) := by
  obtain ⟨t, e, ht⟩ := init_draw
    (fun s => (fr.add mean (fr.mul (nextNormal32 fr s).1 std), (nextNormal32 fr s).2)) hs hds hf seed
  refine ⟨t, ?_, ht⟩
  intro tid p
  unfold randomNormal initRand
  dsimp only
  rw [show drawNormal fr ⟨mean, std, some seed⟩ =
    fun s => .ok (fr.add mean (fr.mul (nextNormal32 fr s).1 std), (nextNormal32 fr s).2) from rfl, e]
  rfl

example (fr : FRand F) (mean std : F) : ∃ t, (∀ tid p, randomNormal fr (ofDims [2, 3]) ⟨mean, std, some 9⟩ tid p = .ok (t, p)) ∧
    Rep t [2, 3] ((List.range [2, 3].prod).map fun i =>
      fr.add mean (fr.mul (nextNormal32 fr ((fun s => (nextNormal32 fr s).2)^[i] 9)).1 std)) :=
  C49_normal fr (ds := [2, 3]) (wf_ofDims (l := [2, 3]) ⟨by simp, by simp⟩) rfl (fits_of_pos (by simp) (by simp)) mean std 9

/-- C49 for `random_uniform` with a seed. -/
theorem C49_uniform (fr : FRand F) {s : Shape} {ds : List Nat} (hs : s.WF) (hds : s.asVec = .ok ds) (hf : Fits ds)
    (min max : F) (seed : BitVec 64) :
    ∃ t, (∀ tid p, randomUniform fr s ⟨min, max, some seed⟩ tid p = .ok (t, p)) ∧
      Rep t ds ((List.range ds.prod).map fun i =>
        fr.add min (fr.mul (nextNormal32 fr ((fun s => (nextNormal32 fr s).2)^[i] seed)).1
          (fr.max (fr.sub max min) fr.zero))) := by
  obtain ⟨t, e, ht⟩ := init_draw
    (fun s => (fr.add min (fr.mul (nextNormal32 fr s).1 (fr.max (fr.sub max min) fr.zero)), (nextNormal32 fr s).2))
    hs hds hf seed
  refine ⟨t, ?_, ht⟩
  intro tid p
  unfold randomUniform initRand
  dsimp only
  rw [show drawUniform fr ⟨min, max, some seed⟩ =
    fun s => .ok (fr.add min (fr.mul (nextNormal32 fr s).1 (fr.max (fr.sub max min) fr.zero)), (nextNormal32 fr s).2)
    from rfl, e]
  rfl

example (fr : FRand F) (min max : F) : ∃ t, (∀ tid p, randomUniform fr (ofDims [2, 3]) ⟨min, max, some 9⟩ tid p = .ok (t, p)) ∧
    Rep t [2, 3] ((List.range [2, 3].prod).map fun i =>
      fr.add min (fr.mul (nextNormal32 fr ((fun s => (nextNormal32 fr s).2)^[i] 9)).1 (fr.max (fr.sub max min) fr.zero))) :=
  C49_uniform fr (ds := [2, 3]) (wf_ofDims (l := [2, 3]) ⟨by simp, by simp⟩) rfl (fits_of_pos (by simp) (by simp)) min max 9

/-- C49: of two draws with the same options and seed, the longer extends the shorter, whatever the shapes. -/
theorem C49_prefix (fr : FRand F) {s s' : Shape} {ds ds' : List Nat} (hs : s.WF) (hds : s.asVec = .ok ds) (hf : Fits ds)
    (hs' : s'.WF) (hds' : s'.asVec = .ok ds') (hf' : Fits ds') (hle : ds.prod ≤ ds'.prod) (mean std : F)
    (seed : BitVec 64) (tid tid' : Nat) (p p' : Process) :
    ∃ t t' xs xs', randomNormal fr s ⟨mean, std, some seed⟩ tid p = .ok (t, p) ∧
      randomNormal fr s' ⟨mean, std, some seed⟩ tid' p' = .ok (t', p') ∧
      Rep t ds xs ∧ Rep t' ds' xs' ∧ xs <+: xs' := by
  obtain ⟨t, e, ht⟩ := C49_normal fr hs hds hf mean std seed
  obtain ⟨t', e', ht'⟩ := C49_normal fr hs' hds' hf' mean std seed
  refine ⟨t, t', _, _, e tid p, e' tid' p', ht, ht', ?_⟩
  apply List.IsPrefix.map
  obtain ⟨k, hk⟩ := Nat.exists_eq_add_of_le hle
  rw [hk, List.range_add]
  exact List.prefix_append _ _

example (fr : FRand F) (mean std : F) (p p' : Process) :
    ∃ t t' xs xs', randomNormal fr (ofDims [3]) ⟨mean, std, some 9⟩ 0 p = .ok (t, p) ∧
      randomNormal fr (ofDims [2, 2]) ⟨mean, std, some 9⟩ 1 p' = .ok (t', p') ∧ Rep t [3] xs ∧ Rep t' [2, 2] xs' ∧ xs <+: xs' :=
  C49_prefix fr (ds := [3]) (ds' := [2, 2]) (wf_ofDims (l := [3]) ⟨by simp, by simp⟩) rfl (fits_of_pos (by simp) (by simp))
    (wf_ofDims (l := [2, 2]) ⟨by simp, by simp⟩) rfl (fits_of_pos (by simp) (by simp)) (by simp) mean std 9 0 1 p p'

/-! ## C50 bounds of uniform draws -/

section bounds

variable [Field K] [LinearOrder K] [IsStrictOrderedRing K]

/-- C50 for `Rand32::next_uniform`, in any arithmetic that rounds monotonically and represents 0 and 1 (so also in exact
arithmetic): every draw of every generator is in [0, 1]. -/
theorem C50_next_uniform32 {representable : K → Prop} {rnd : K → K} (hr : IsRounding representable rnd)
    (h0 : representable 0) (h1 : representable 1) (ln exp sqrt : K → K) (powf : K → K → K) (s : BitVec 64) :
    0 ≤ (nextUniform32 (.rounded rnd ln exp sqrt powf) s).1 ∧ (nextUniform32 (.rounded rnd ln exp sqrt powf) s).1 ≤ 1 := by
  show 0 ≤ rnd (rnd ((next32 s).1.toNat : K) / rnd ((4294967295 : Nat) : K)) ∧
    rnd (rnd ((next32 s).1.toNat : K) / rnd ((4294967295 : Nat) : K)) ≤ 1
  have z0 := hr.fixed 0 h0
  have z1 := hr.fixed 1 h1
  have hd : 0 < rnd ((4294967295 : Nat) : K) := by
    have := hr.mono 1 ((4294967295 : Nat) : K) (by norm_num)
    rw [z1] at this
    exact lt_of_lt_of_le one_pos this
  have hu : rnd ((next32 s).1.toNat : K) ≤ rnd ((4294967295 : Nat) : K) := by
    apply hr.mono
    have := (next32 s).1.isLt
    exact_mod_cast (by omega : (next32 s).1.toNat ≤ 4294967295)
  have hu0 : 0 ≤ rnd ((next32 s).1.toNat : K) := by
    have := hr.mono 0 ((next32 s).1.toNat : K) (Nat.cast_nonneg _)
    rwa [z0] at this
  constructor
  · have := hr.mono 0 _ (div_nonneg hu0 hd.le)
    rwa [z0] at this
  · have := hr.mono _ 1 ((div_le_one hd).2 hu)
    rwa [z1] at this

/-- C50 fails for `Rand64::next_uniform`, which divides a 64-bit value by the largest 32-bit value: from the seed 0 the
first draw is more than 2^31 (in any arithmetic with monotone rounding that represents the powers of two used here). -/
theorem C50_next_uniform64_violates {representable : K → Prop} {rnd : K → K} (hr : IsRounding representable rnd)
    (h31 : representable (2 ^ 31)) (h32 : representable (2 ^ 32)) (h63 : representable (2 ^ 63)) (h1 : representable 1)
    (ln exp sqrt : K → K) (powf : K → K → K) :
    1 < (nextUniform64 (.rounded rnd ln exp sqrt powf) 0).1 := by
  show 1 < rnd (rnd ((next64 0).1.toNat : K) / rnd ((4294967295 : Nat) : K))
  have hd0 : 0 < rnd ((4294967295 : Nat) : K) := by
    have := hr.mono 1 ((4294967295 : Nat) : K) (by norm_num)
    rw [hr.fixed 1 h1] at this
    exact lt_of_lt_of_le one_pos this
  have hd : rnd ((4294967295 : Nat) : K) ≤ 2 ^ 32 := by
    have := hr.mono ((4294967295 : Nat) : K) (2 ^ 32) (by norm_num)
    rwa [hr.fixed _ h32] at this
  have hu : (2 : K) ^ 63 ≤ rnd ((next64 0).1.toNat : K) := by
    have := hr.mono (2 ^ 63) ((next64 0).1.toNat : K) (by
      have : 2 ^ 63 ≤ (next64 0).1.toNat := by decide +kernel
      exact_mod_cast this)
    rwa [hr.fixed _ h63] at this
  have hq : (2 : K) ^ 31 ≤ rnd ((next64 0).1.toNat : K) / rnd ((4294967295 : Nat) : K) := by
    rw [le_div_iff₀ hd0]
    calc (2 : K) ^ 31 * rnd ((4294967295 : Nat) : K) ≤ 2 ^ 31 * 2 ^ 32 := by gcongr
      _ = 2 ^ 63 := by norm_num
      _ ≤ _ := hu
  have := hr.mono _ _ hq
  rw [hr.fixed _ h31] at this
  exact lt_of_lt_of_le (by norm_num) this

end bounds

/-- Exact arithmetic is the special case of rounding that rounds nothing. -/
example (s : BitVec 64) : (nextUniform32 (.exact id id id (fun x _ => x) : FOps ℚ) s).1 ≤ 1 :=
  (C50_next_uniform32 (representable := fun _ => True) (rnd := id)
    ⟨fun _ _ h => h, fun _ _ => rfl, fun _ => trivial⟩ trivial trivial id id id (fun x _ => x) s).2

/-- C50 fails for `random_uniform`, which uses normal draws: with seed 2 and the interval [0, 1] the first element is
negative (real arithmetic). -/
theorem C50_random_uniform_violates :
    ∃ t v, (∀ tid p, randomUniform .real (ofDims [1]) (.ofSeed .real 2) tid p = .ok (t, p)) ∧ Rep t [1] [v] ∧ v < 0 := by
  have hadm : Adm [1] := ⟨by simp, by simp⟩
  obtain ⟨t, e, ht⟩ := C49_uniform .real (s := ofDims [1]) (ds := [1]) (wf_ofDims hadm)
    (by rw [asVec_eq (wf_ofDims hadm), toDims_ofDims])
    (fits_one (by norm_num)) 0 1 2
  refine ⟨t, _, e, ht, ?_⟩
  simp only [Function.iterate_zero, id_eq]
  have ha : (next32 2).1.toNat = 3750639004 := by decide +kernel
  have hb : (next32 (next32 2).2).1.toNat = 2144409193 := by decide +kernel
  have e : (nextNormal32 FRand.real 2).1 =
      Real.sqrt (-2 * Real.log (((3750639004 : Nat) : ℝ) / ((4294967295 : Nat) : ℝ))) *
        Real.cos (2 * Real.pi * (((2144409193 : Nat) : ℝ) / ((4294967295 : Nat) : ℝ))) := by
    rw [← ha, ← hb]; rfl
  rw [e]
  show (0 : ℝ) + _ * max (1 - 0) 0 < 0
  rw [sub_zero, max_eq_left (by norm_num), mul_one, zero_add]
  apply mul_neg_of_pos_of_neg
  · apply Real.sqrt_pos.2
    have : Real.log (((3750639004 : Nat) : ℝ) / ((4294967295 : Nat) : ℝ)) < 0 := Real.log_neg (by norm_num) (by norm_num)
    linarith
  · have hpi := Real.pi_pos
    apply Real.cos_neg_of_pi_div_two_lt_of_lt
    · push_cast; nlinarith
    · push_cast; nlinarith

/-! ## C51 thread seeding -/

/-- Every seed in the log (latest first) was computed from the one before, the first from `s`. -/
def Linked (s : BitVec 64) : List (Nat × BitVec 64) → Prop
  | [] => True
  | a :: rest => (∃ fresh, a.2 = seedFrom ((rest.head?.map Prod.snd).getD s) fresh) ∧ Linked s rest

/-- What holds from a call of `random_seed(s)` on: the latest value of `SEED` is the last seed handed out, seeds are handed
out one after the other, and threads that got one are finished. -/
structure SeedInv (st0 : SeedState) (s : BitVec 64) (st : SeedState) : Prop where
  head : st.history.head? = some ((st.log.head?.map Prod.snd).getD s)
  linked : Linked s st.log
  done : ∀ a ∈ st.log, st.phase a.1 = .done a.2
  nodup : (st.log.map Prod.fst).Nodup
  only : ∀ tid seed, st.phase tid = .done seed → st0.phase tid = .done seed ∨ (tid, seed) ∈ st.log

theorem seedInv_reseed (st : SeedState) (s : BitVec 64) : SeedInv st s (st.reseed s) :=
  ⟨rfl, trivial, by intro a h; simp [SeedState.reseed] at h, by simp [SeedState.reseed],
    fun _ _ h => Or.inl h⟩

theorem seedInv_step {st0 : SeedState} {s : BitVec 64} {st st' : SeedState} (h : SeedInv st0 s st)
    (hs : SeedStep st st') : SeedInv st0 s st' := by
  cases hs with
  | load tid old h1 h2 =>
    refine ⟨h.head, h.linked, ?_, h.nodup, ?_⟩
    · intro a ha
      have := h.done a ha
      have hne : a.1 ≠ tid := by rintro e; rw [e, h1] at this; cases this
      simp only [Function.update_of_ne hne, this]
    · intro tid' seed hd
      by_cases e : tid' = tid
      · subst e; simp at hd
      · simp only [Function.update_of_ne e] at hd; exact h.only tid' seed hd
  | casFail tid old h1 h2 =>
    refine ⟨h.head, h.linked, ?_, h.nodup, ?_⟩
    · intro a ha
      have := h.done a ha
      have hne : a.1 ≠ tid := by rintro e; rw [e, h1] at this; cases this
      simp only [Function.update_of_ne hne, this]
    · intro tid' seed hd
      by_cases e : tid' = tid
      · subst e; simp at hd
      · simp only [Function.update_of_ne e] at hd; exact h.only tid' seed hd
  | casOk tid old fresh h1 h2 =>
    have hnew : ∀ a ∈ st.log, a.1 ≠ tid := by
      intro a ha e
      have := h.done a ha
      rw [e, h1] at this; cases this
    have hold : old = (st.log.head?.map Prod.snd).getD s := by
      have := h.head
      rw [h2] at this; simpa using this
    refine ⟨rfl, ⟨⟨fresh, by rw [hold]⟩, h.linked⟩, ?_, ?_, ?_⟩
    · intro a ha
      rcases List.mem_cons.1 ha with rfl | ha
      · simp
      · simp only [Function.update_of_ne (hnew a ha), h.done a ha]
    · simp only [List.map_cons, List.nodup_cons]
      refine ⟨?_, h.nodup⟩
      simp only [List.mem_map, not_exists, not_and]
      exact fun a ha e => hnew a ha e
    · intro tid' seed hd
      by_cases e : tid' = tid
      · subst e; simp at hd; subst hd; simp
      · simp only [Function.update_of_ne e] at hd
        rcases h.only tid' seed hd with h | h
        · exact Or.inl h
        · exact Or.inr (List.mem_cons_of_mem _ h)

theorem linked_chain {s : BitVec 64} {log : List (Nat × BitVec 64)} (h : Linked s log)
    (hz : ∀ k, k < log.length → chain s k ≠ 0) :
    log.reverse.map Prod.snd = (List.range log.length).map fun k => chain s (k + 1) := by
  induction log with
  | nil => rfl
  | cons a rest ih =>
    obtain ⟨⟨fresh, hf⟩, hr⟩ := h
    have ih := ih hr fun k hk => hz k (by simp; omega)
    have hprev : (rest.head?.map Prod.snd).getD s = chain s rest.length := by
      cases rest with
      | nil => rfl
      | cons b rest =>
        have := congrArg List.getLast? ih
        simpa [List.range_succ] using this
    rw [List.reverse_cons, List.map_append, ih, List.length_cons, List.range_succ, List.map_append]
    congr 1
    rw [hprev] at hf
    simp only [List.map_cons, List.map_nil, List.cons.injEq, and_true]
    rw [hf]
    unfold seedFrom
    rw [if_neg (hz _ (by simp))]
    exact (Function.iterate_succ_apply' (fun x : BitVec 64 => (next64 (x.setWidth 128)).1) rest.length s).symm

/-- C51: whatever happened before (`st0` is any state), and in every interleaving of any number of threads after
`random_seed(s)`: the `k`-th thread to finish its initialisation gets the `k`-th seed of the chain from `s` (as long as the
chain does not hit 0, which stands for "not seeded"), no thread finishes twice, and all
threads with a generator got it this way or had it before. -/
theorem C51_seeding (st0 : SeedState) (s : BitVec 64) {st : SeedState}
    (h : Relation.ReflTransGen SeedStep (st0.reseed s) st) (hz : ∀ k, k < st.log.length → chain s k ≠ 0) :
    st.log.reverse.map Prod.snd = (List.range st.log.length).map (fun k => chain s (k + 1)) ∧
    (st.log.map Prod.fst).Nodup ∧ (∀ a ∈ st.log, st.phase a.1 = .done a.2) ∧
    (∀ tid seed, st.phase tid = .done seed → st0.phase tid = .done seed ∨ (tid, seed) ∈ st.log) := by
  have hi : SeedInv st0 s st := by
    clear hz
    induction h with
    | refl => exact seedInv_reseed st0 s
    | tail _ hs ih => exact seedInv_step ih hs
  exact ⟨linked_chain hi.linked hz, hi.nodup, hi.done, hi.only⟩

theorem linked_first {s : BitVec 64} {a : Nat × BitVec 64} {l : List (Nat × BitVec 64)} (h : Linked s (l ++ [a])) :
    Linked a.2 l := by
  induction l with
  | nil => trivial
  | cons b rest ih =>
    obtain ⟨⟨fresh, hf⟩, hr⟩ := h
    refine ⟨⟨fresh, ?_⟩, ih hr⟩
    cases rest with
    | nil => exact hf
    | cons c rest => exact hf

/-- C51 for a process that never calls `random_seed`: in every interleaving of any number of threads, the first thread to
finish gets a seed from the operating system (any seed is possible), and each later one the next seed of the chain from
that one (as long as the chain does not hit 0). No thread finishes twice. -/
theorem C51_unseeded :
    (∀ {st : SeedState} {l : List (Nat × BitVec 64)} {a : Nat × BitVec 64},
      Relation.ReflTransGen SeedStep SeedState.initial st → st.log = l ++ [a] → (∀ k, k < l.length → chain a.2 k ≠ 0) →
      st.log.reverse.map Prod.snd = (List.range (l.length + 1)).map (fun k => chain a.2 k) ∧
      (st.log.map Prod.fst).Nodup ∧ (∀ tid seed, st.phase tid = .done seed ↔ (tid, seed) ∈ st.log)) ∧
    ∀ (tid : Nat) (v : BitVec 64), ∃ st, Relation.ReflTransGen SeedStep SeedState.initial st ∧ st.log = [(tid, v)] := by
  refine ⟨fun {st l a} h hl hz => ?_, fun tid v => ?_⟩
  · have hi : SeedInv .initial 0 st := by
      clear hz hl
      induction h with
      | refl => exact ⟨rfl, trivial, fun a h => absurd h List.not_mem_nil, List.nodup_nil, fun _ _ h => Or.inl h⟩
      | tail _ hs ih => exact seedInv_step ih hs
    refine ⟨?_, hi.nodup, fun tid seed => ⟨fun hd => ?_, hi.done _⟩⟩
    · have h1 := hi.linked
      rw [hl] at h1
      rw [hl, List.reverse_append, List.map_append, linked_chain (linked_first h1) hz, List.range_succ_eq_map, List.map_cons,
        List.map_map, List.reverse_singleton, List.map_singleton, List.singleton_append]
      rfl
    · rcases hi.only tid seed hd with h | h
      · cases h
      · exact h
  · have e : seedFrom 0 v = v := if_pos rfl
    have h1 : SeedStep .initial ⟨[0], Function.update (fun _ => .start) tid (.loaded 0), []⟩ :=
      .load .initial tid 0 rfl List.mem_cons_self
    have h2 := SeedStep.casOk ⟨[0], Function.update (fun _ => .start) tid (.loaded 0), []⟩ tid 0 v (by simp only [Function.update_self]) rfl
    rw [e] at h2
    exact ⟨_, (Relation.ReflTransGen.refl.tail h1).tail h2, rfl⟩

example : ∃ st, Relation.ReflTransGen SeedStep SeedState.initial st ∧ st.log = [(3, 77)] := C51_unseeded.2 3 77

/-- Two threads race: thread 0 loads, thread 1 loads and wins, thread 0 fails, loads again and succeeds. -/
theorem exRace {s c1 c2 : BitVec 64} (e1 : seedFrom s 0 = c1) (e2 : seedFrom c1 0 = c2) (hne : c1 ≠ s) :
    ∃ st, Relation.ReflTransGen SeedStep (SeedState.initial.reseed s) st ∧ st.log = [(0, c2), (1, c1)] := by
  subst e1 e2
  refine ⟨_, (((((Relation.ReflTransGen.refl.tail (.load _ 0 s ?_ ?_)).tail (.load _ 1 s ?_ ?_)).tail
    (.casOk _ 1 s 0 ?_ ?_)).tail (.casFail _ 0 s ?_ ?_)).tail (.load _ 0 (seedFrom s 0) ?_ ?_)).tail (.casOk _ 0 (seedFrom s 0) 0 ?_ ?_), ?_⟩
  all_goals dsimp only [SeedState.reseed, SeedState.initial]
  all_goals first
    | exact List.mem_cons_self
    | exact fun h => hne (Option.some.inj h)
    | simp only [Function.update_self]
    | simp only [ne_eq, one_ne_zero, zero_ne_one, not_false_eq_true, Function.update_of_ne, Function.update_self]
    | rfl

example : ∃ st, Relation.ReflTransGen SeedStep (SeedState.initial.reseed 7) st ∧ st.log.length = 2 := by
  obtain ⟨st, h, hl⟩ := exRace (s := 7) (c1 := seedFrom 7 0) (c2 := seedFrom (seedFrom 7 0) 0) rfl rfl (by decide +kernel)
  exact ⟨st, h, by rw [hl]; rfl⟩

/-! ## C52 random_seed -/

theorem chain_succ (s : BitVec 64) (k : Nat) : chain (next64 (s.setWidth 128)).1 k = chain s (k + 1) := by
  unfold chain
  rw [Function.iterate_succ_apply]

theorem newRand32_some {tid : Nat} {p : Process} {s : BitVec 128} (hp : p.locals tid = some s) :
    newRand32 tid p = ((next64 s).1, { p with locals := Function.update p.locals tid (some (next64 s).2) }) := by
  unfold newRand32 nextU64 localRng
  rw [hp]

theorem newRand32_none {tid : Nat} {p : Process} (hp : p.locals tid = none) (hz : p.seed ≠ 0) :
    newRand32 tid p = ((next64 ((next64 (p.seed.setWidth 128)).1.setWidth 128)).1,
      ⟨(next64 (p.seed.setWidth 128)).1, Function.update p.locals tid
        (some (next64 ((next64 (p.seed.setWidth 128)).1.setWidth 128)).2), p.entropy⟩) := by
  unfold newRand32 nextU64 localRng
  rw [hp]
  unfold seedFrom
  dsimp only
  rw [if_neg hz, if_neg hz]
  simp only [Function.update_idem]

/-- Two processes with the same seed whose threads `tids` are in the same state create the same generators. -/
theorem newAll_congr {tids : List Nat} {p p' : Process} (hs : p.seed = p'.seed)
    (hl : ∀ tid ∈ tids, p.locals tid = p'.locals tid) (hz : ∀ k, k < tids.length → chain p.seed k ≠ 0) :
    newAll tids p = newAll tids p' := by
  induction tids generalizing p p' with
  | nil => rfl
  | cons tid tids ih =>
    have hl0 := hl tid List.mem_cons_self
    have hz0 : p.seed ≠ 0 := hz 0 (by simp)
    rw [newAll, newAll]
    cases hp : p.locals tid with
    | some s =>
      rw [newRand32_some hp, newRand32_some (hl0 ▸ hp)]
      dsimp only
      congr 1
      apply ih
      · exact hs
      · intro t ht
        by_cases hte : t = tid
        · subst hte; simp only [Function.update_self]
        · simp only [Function.update_of_ne hte, hl t (List.mem_cons_of_mem _ ht)]
      · intro k hk; exact hz k (by simp; omega)
    | none =>
      rw [newRand32_none hp hz0, newRand32_none (hl0 ▸ hp) (hs ▸ hz0), ← hs]
      dsimp only
      congr 1
      apply ih
      · rfl
      · intro t ht
        by_cases hte : t = tid
        · subst hte; simp only [Function.update_self]
        · simp only [Function.update_of_ne hte, hl t (List.mem_cons_of_mem _ ht)]
      · intro k hk
        dsimp only
        rw [chain_succ]
        exact hz (k + 1) (by simp; omega)

/-- C52 for threads that have not used random numbers before: the default generators they create after `random_seed(s)`,
in any order and number, do not depend on what happened before the call.
Missing for the full property: threads that have used random numbers, see `C52_used_thread_violates`. -/
theorem C52_fresh_partial (s : BitVec 64) (tids : List Nat) (p p' : Process) (hp : ∀ tid ∈ tids, p.locals tid = none)
    (hp' : ∀ tid ∈ tids, p'.locals tid = none) (hz : ∀ k, k < tids.length → chain s k ≠ 0) :
    newAll tids (randomSeed s p) = newAll tids (randomSeed s p') :=
  newAll_congr rfl (fun tid h => (hp tid h).trans (hp' tid h).symm) hz

/-- C52: the first generator of each fresh thread starts from its seed in the chain. -/
theorem C52_values_partial (s : BitVec 64) (tids : List Nat) (hn : tids.Nodup) (p : Process)
    (hp : ∀ tid ∈ tids, p.locals tid = none) (hz : ∀ k, k < tids.length → chain s k ≠ 0) :
    newAll tids (randomSeed s p) =
      (List.range tids.length).map fun k => (next64 ((chain s (k + 1)).setWidth 128)).1 := by
  induction tids generalizing s p with
  | nil => rfl
  | cons tid tids ih =>
    have hz0 : s ≠ 0 := hz 0 (by simp)
    rw [newAll, newRand32_none (p := randomSeed s p) (hp tid List.mem_cons_self) hz0, List.length_cons,
      List.range_succ_eq_map, List.map_cons, List.map_map]
    dsimp only [randomSeed]
    generalize hx : (next64 (s.setWidth 128)).1 = x
    refine List.cons_eq_cons.2 ⟨?_, ?_⟩
    · rw [← chain_succ, hx]
      unfold chain
      rw [Function.iterate_zero_apply]
    · have := ih x (List.nodup_cons.1 hn).2
        ⟨x, Function.update p.locals tid (some (next64 (x.setWidth 128)).2), p.entropy⟩
        (by
          intro t ht
          have hte : t ≠ tid := by rintro rfl; exact (List.nodup_cons.1 hn).1 ht
          simp only [Function.update_of_ne hte, hp t (List.mem_cons_of_mem _ ht)])
        (by
          intro k hk
          rw [← hx, chain_succ]
          exact hz (k + 1) (by simp; omega))
      dsimp only [randomSeed] at this
      rw [this]
      apply List.map_congr_left
      intro k _
      simp only [Function.comp_apply]
      rw [← hx, chain_succ]

/-- Three threads seeded with 7: the chain meets no zero. -/
example : (∀ k : Nat, k < 3 → chain 7 k ≠ 0) ∧ (∀ tid ∈ [4, 5, 6], (⟨9, fun _ => none, [3]⟩ : Process).locals tid = none) ∧
    newAll [4, 5, 6] (randomSeed 7 ⟨9, fun _ => none, [3]⟩) = newAll [4, 5, 6] (randomSeed 7 ⟨0, fun _ => none, []⟩) := by
  have hz : ∀ k : Nat, k < 3 → chain 7 k ≠ 0 := by decide +kernel
  exact ⟨hz, fun _ _ => rfl, C52_fresh_partial 7 _ _ _ (fun _ _ => rfl) (fun _ _ => rfl) hz⟩

/-- C52 fails for a thread that has used random numbers: `random_seed` does not change what it draws next. -/
theorem C52_used_thread_violates (s : BitVec 64) (tid : Nat) (p : Process) {l : BitVec 128}
    (hp : p.locals tid = some l) : (newRand32 tid (randomSeed s p)).1 = (newRand32 tid p).1 := by
  rw [newRand32_some hp, newRand32_some (p := randomSeed s p) hp]

example : (newRand32 4 (randomSeed 7 ⟨9, fun _ => some 3, []⟩)).1 = (newRand32 4 ⟨9, fun _ => some 3, []⟩).1 :=
  C52_used_thread_violates 7 4 _ rfl

/-- A process where no thread has used random numbers. -/
def Process.initial : Process := ⟨0, fun _ => none, []⟩

/-- C52 fails in a real history: seeding with 1 or 2, creating a generator, seeding with 7 and creating a generator again
gives different generators after `random_seed(7)`. -/
theorem C52_violates :
    (newRand32 0 (randomSeed 7 (newRand32 0 (randomSeed 1 Process.initial)).2)).1 ≠
      (newRand32 0 (randomSeed 7 (newRand32 0 (randomSeed 2 Process.initial)).2)).1 := by
  decide +kernel

example : 1 < (nextUniform64 (.exact id id id (fun x _ => x) : FOps ℚ) 0).1 :=
  C50_next_uniform64_violates (representable := fun _ => True) (rnd := id)
    ⟨fun _ _ h => h, fun _ _ => rfl, fun _ => trivial⟩ trivial trivial trivial trivial id id id (fun x _ => x)

example : ∃ st, Relation.ReflTransGen SeedStep (SeedState.initial.reseed 7) st ∧
    st.log.reverse.map Prod.snd = (List.range st.log.length).map (fun k => chain 7 (k + 1)) ∧ st.log.length = 2 := by
  obtain ⟨st, h, hl⟩ := exRace (s := 7) (c1 := seedFrom 7 0) (c2 := seedFrom (seedFrom 7 0) 0) rfl rfl (by decide +kernel)
  have h2 : st.log.length = 2 := by rw [hl]; rfl
  exact ⟨st, h, (C51_seeding _ 7 h (by rw [h2]; decide +kernel)).1, h2⟩

example : newAll [4, 5, 6] (randomSeed 7 ⟨9, fun _ => none, [3]⟩) =
    (List.range 3).map fun k => (next64 ((chain 7 (k + 1)).setWidth 128)).1 :=
  C52_values_partial 7 [4, 5, 6] (by decide) _ (fun _ _ => rfl) (by decide +kernel)

end Essay
