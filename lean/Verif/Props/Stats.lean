import Mathlib.Algebra.Order.Floor.Ring
import Mathlib.Data.Rat.Floor
import Mathlib.Tactic.Linarith
import Verif.Lemmas.Stats
import Verif.Props.Space
import Verif.Props.From

/-!
# Properties C42 - C46: statistics
-/

namespace Essay

open Shape Stats

variable {F K : Type}

/-! ## C42 mean, variance, standard deviation -/

/-- `reduce_mean` in any arithmetic: the left-to-right sum from zero, divided by the number of elements (by 1 if there
are none). -/
theorem C42_mean_any (fo : FOps F) {t : Tensor F} {ds : List Nat} {xs : List F} (h : Rep t ds xs) :
    ∃ u, reduceMean fo t = .ok u ∧ Rep u [] [fo.div (xs.foldl fo.add fo.zero) (fo.ofNat (max xs.length 1))] := by
  obtain ⟨u, e, hu⟩ := fold_pure h (Mean.default fo) (Mean.update fo) (Mean.intoResult fo)
  refine ⟨u, e, ?_⟩
  rw [foldl_mean] at hu
  simpa [Mean.default, Mean.intoResult] using hu

section exact

variable [Field K] [LinearOrder K] [IsStrictOrderedRing K] (ln exp sqrt : K → K) (powf : K → K → K)

/-- C42 for a whole tensor of any rank with at least one element, in exact arithmetic: the mean, the population variance
and the square root of that variance. -/
theorem C42_whole (h0 : sqrt 0 = 0) {t : Tensor K} {ds : List Nat} {xs : List K} (h : Rep t ds xs) (hne : xs ≠ []) :
    (∃ u, reduceMean (.exact ln exp sqrt powf) t = .ok u ∧ Rep u [] [mean xs]) ∧
    (∃ u, reduceVariance (.exact ln exp sqrt powf) t = .ok u ∧ Rep u [] [variance xs]) ∧
    (∃ u, reduceStd (.exact ln exp sqrt powf) t = .ok u ∧ Rep u [] [sqrt (variance xs)]) := by
  refine ⟨?_, ?_, ?_⟩
  · obtain ⟨u, e, hu⟩ := fold_pure h (Mean.default (.exact ln exp sqrt powf)) (Mean.update (.exact ln exp sqrt powf))
      (Mean.intoResult (.exact ln exp sqrt powf))
    exact ⟨u, e, by rwa [intoMean_eq ln exp sqrt powf xs hne] at hu⟩
  · obtain ⟨u, e, hu⟩ := fold_pure h (Var.default (.exact ln exp sqrt powf)) (Var.update (.exact ln exp sqrt powf))
      (Var.intoVar (.exact ln exp sqrt powf))
    exact ⟨u, e, by rwa [intoVar_eq ln exp sqrt powf xs hne] at hu⟩
  · obtain ⟨u, e, hu⟩ := fold_pure h (Var.default (.exact ln exp sqrt powf)) (Var.update (.exact ln exp sqrt powf))
      (Var.intoStd (.exact ln exp sqrt powf))
    exact ⟨u, e, by rwa [intoStd_eq ln exp sqrt powf xs hne h0] at hu⟩

/-- C42 along an axis: the same statistics of every lane, the result with that axis removed. -/
theorem C42_axis (h0 : sqrt 0 = 0) {t : Tensor K} {pre post : List Nat} {d : Nat} {xs : List K}
    (h : Rep t (pre ++ d :: post) xs) (hne : xs ≠ []) {a : Int}
    (ha : axisIndex (pre ++ d :: post).length a = some pre.length) :
    (∃ lanes u, IsLanes pre d post xs lanes ∧ reduceMeanAxis (.exact ln exp sqrt powf) t (some a) = .ok u ∧
      Rep u (pre ++ post) (lanes.map mean)) ∧
    (∃ lanes u, IsLanes pre d post xs lanes ∧ reduceVarianceAxis (.exact ln exp sqrt powf) t (some a) = .ok u ∧
      Rep u (pre ++ post) (lanes.map variance)) ∧
    (∃ lanes u, IsLanes pre d post xs lanes ∧ reduceStdAxis (.exact ln exp sqrt powf) t (some a) = .ok u ∧
      Rep u (pre ++ post) (lanes.map fun l => sqrt (variance l))) := by
  refine ⟨?_, ?_, ?_⟩
  · obtain ⟨lanes, u, hl, hn, e, hu⟩ := foldAxis_pure h hne ha (Mean.default (.exact ln exp sqrt powf))
      (Mean.update (.exact ln exp sqrt powf)) (Mean.intoResult (.exact ln exp sqrt powf))
    refine ⟨lanes, u, hl, e, ?_⟩
    rwa [List.map_congr_left fun l hm => intoMean_eq ln exp sqrt powf l (hn l hm)] at hu
  · obtain ⟨lanes, u, hl, hn, e, hu⟩ := foldAxis_pure h hne ha (Var.default (.exact ln exp sqrt powf))
      (Var.update (.exact ln exp sqrt powf)) (Var.intoVar (.exact ln exp sqrt powf))
    refine ⟨lanes, u, hl, e, ?_⟩
    rwa [List.map_congr_left fun l hm => intoVar_eq ln exp sqrt powf l (hn l hm)] at hu
  · obtain ⟨lanes, u, hl, hn, e, hu⟩ := foldAxis_pure h hne ha (Var.default (.exact ln exp sqrt powf))
      (Var.update (.exact ln exp sqrt powf)) (Var.intoStd (.exact ln exp sqrt powf))
    refine ⟨lanes, u, hl, e, ?_⟩
    rwa [List.map_congr_left fun l hm => intoStd_eq ln exp sqrt powf l (hn l hm) h0] at hu

/-- C42 with axis `None`: the statistics of the whole tensor. -/
theorem C42_axis_none (h0 : sqrt 0 = 0) {t : Tensor K} {ds : List Nat} {xs : List K} (h : Rep t ds xs) (hne : xs ≠ []) :
    (∃ u, reduceMeanAxis (.exact ln exp sqrt powf) t none = .ok u ∧ Rep u [] [mean xs]) ∧
    (∃ u, reduceVarianceAxis (.exact ln exp sqrt powf) t none = .ok u ∧ Rep u [] [variance xs]) ∧
    (∃ u, reduceStdAxis (.exact ln exp sqrt powf) t none = .ok u ∧ Rep u [] [sqrt (variance xs)]) := by
  refine ⟨?_, ?_, ?_⟩
  · obtain ⟨u, e, hu⟩ := foldAxis_none_pure h (Mean.default (.exact ln exp sqrt powf))
      (Mean.update (.exact ln exp sqrt powf)) (Mean.intoResult (.exact ln exp sqrt powf))
    exact ⟨u, e, by rwa [intoMean_eq ln exp sqrt powf xs hne] at hu⟩
  · obtain ⟨u, e, hu⟩ := foldAxis_none_pure h (Var.default (.exact ln exp sqrt powf))
      (Var.update (.exact ln exp sqrt powf)) (Var.intoVar (.exact ln exp sqrt powf))
    exact ⟨u, e, by rwa [intoVar_eq ln exp sqrt powf xs hne] at hu⟩
  · obtain ⟨u, e, hu⟩ := foldAxis_none_pure h (Var.default (.exact ln exp sqrt powf))
      (Var.update (.exact ln exp sqrt powf)) (Var.intoStd (.exact ln exp sqrt powf))
    exact ⟨u, e, by rwa [intoStd_eq ln exp sqrt powf xs hne h0] at hu⟩

end exact

/-- The standard deviation over the reals, with the real square root. -/
example {t : Tensor ℝ} (h : Rep t [2] [1, 3]) : ∃ u, reduceStd .real t = .ok u ∧ Rep u [] [1] := by
  obtain ⟨-, -, u, e, hu⟩ := C42_whole Real.log Real.exp Real.sqrt (fun x y => x ^ y) Real.sqrt_zero h (by simp)
  exact ⟨u, e, by convert hu using 2; norm_num [variance, mean]⟩

/-- The hypotheses of `C42_axis` are met by a 2x3 matrix and either axis. -/
example (x : ℚ) : ∃ t, Rep (t : Tensor ℚ) ([] ++ 2 :: [3]) [x, 1, 2, 3, 4, 5] ∧
    axisIndex ([] ++ 2 :: [3]).length (-2) = some ([] : List Nat).length :=
  ⟨_, rep_fresh ⟨by simp, by simp⟩ (fits_of_pos (by simp) (by simp)) (by simp), by decide⟩

/-! ## C43 minimum, maximum -/

section order

variable [LinearOrder K] {fo : FOps F} {key : F → Option K}

/-- C43 for a whole tensor with at least one element: the result is an element, is not above (below) any element that is
not NaN, and so is NaN only if all elements are. -/
theorem C43_whole (ho : IsFloatOrder fo key) {t : Tensor F} {ds : List Nat} {xs : List F} (h : Rep t ds xs)
    (hne : xs ≠ []) :
    (∃ u v, reduceMin fo t = .ok u ∧ Rep u [] [v] ∧ LeastOf key xs v) ∧
    (∃ u v, reduceMax fo t = .ok u ∧ Rep u [] [v] ∧ GreatestOf key xs v) := by
  obtain ⟨x, xs, rfl⟩ := List.exists_cons_of_ne_nil hne
  obtain ⟨u, e, hu⟩ := reduce_pure h (fmin fo)
  obtain ⟨u', e', hu'⟩ := reduce_pure h (fmax fo)
  exact ⟨⟨u, _, e, hu, foldl_fmin ho x xs⟩, ⟨u', _, e', hu', foldl_fmax ho x xs⟩⟩

/-- C43 along an axis. -/
theorem C43_axis (ho : IsFloatOrder fo key) {t : Tensor F} {pre post : List Nat} {d : Nat} {xs : List F}
    (h : Rep t (pre ++ d :: post) xs) (hne : xs ≠ []) {a : Int}
    (ha : axisIndex (pre ++ d :: post).length a = some pre.length) :
    (∃ lanes u vs, IsLanes pre d post xs lanes ∧ reduceMinAxis fo t (some a) = .ok u ∧ Rep u (pre ++ post) vs ∧
      List.Forall₂ (LeastOf key) lanes vs) ∧
    (∃ lanes u vs, IsLanes pre d post xs lanes ∧ reduceMaxAxis fo t (some a) = .ok u ∧ Rep u (pre ++ post) vs ∧
      List.Forall₂ (GreatestOf key) lanes vs) := by
  obtain ⟨x0, xs', hxs⟩ := List.exists_cons_of_ne_nil hne
  constructor
  · obtain ⟨lanes, u, hl, hn, e, hu⟩ := reduceAxis_pure h hne ha (fmin fo)
      (g := fun l => match l with | [] => x0 | x :: l => l.foldl (fmin fo) x) (fun _ _ => rfl)
    refine ⟨lanes, u, _, hl, e, hu, ?_⟩
    rw [List.forall₂_map_right_iff, List.forall₂_same]
    intro l hm
    obtain ⟨x, l, rfl⟩ := List.exists_cons_of_ne_nil (hn l hm)
    exact foldl_fmin ho x l
  · obtain ⟨lanes, u, hl, hn, e, hu⟩ := reduceAxis_pure h hne ha (fmax fo)
      (g := fun l => match l with | [] => x0 | x :: l => l.foldl (fmax fo) x) (fun _ _ => rfl)
    refine ⟨lanes, u, _, hl, e, hu, ?_⟩
    rw [List.forall₂_map_right_iff, List.forall₂_same]
    intro l hm
    obtain ⟨x, l, rfl⟩ := List.exists_cons_of_ne_nil (hn l hm)
    exact foldl_fmax ho x l

/-- A least element is unique as a number. -/
theorem LeastOf.unique {xs ys : List F} {v w : F} (hp : xs.Perm ys) (hv : LeastOf key xs v) (hw : LeastOf key ys w) :
    key v = key w := by
  cases ev : key v with
  | none =>
    cases ew : key w with
    | none => rfl
    | some k =>
      obtain ⟨j, hj, _⟩ := hv.2 w (hp.mem_iff.2 hw.1) k ew
      rw [ev] at hj; cases hj
  | some j =>
    obtain ⟨k, hk, h1⟩ := hw.2 v (hp.mem_iff.1 hv.1) j ev
    obtain ⟨j', hj', h2⟩ := hv.2 w (hp.mem_iff.2 hw.1) k hk
    rw [ev] at hj'; cases hj'
    rw [hk, le_antisymm h1 h2]

theorem GreatestOf.unique {xs ys : List F} {v w : F} (hp : xs.Perm ys) (hv : GreatestOf key xs v)
    (hw : GreatestOf key ys w) : key v = key w := by
  cases ev : key v with
  | none =>
    cases ew : key w with
    | none => rfl
    | some k =>
      obtain ⟨j, hj, _⟩ := hv.2 w (hp.mem_iff.2 hw.1) k ew
      rw [ev] at hj; cases hj
  | some j =>
    obtain ⟨k, hk, h1⟩ := hw.2 v (hp.mem_iff.1 hv.1) j ev
    obtain ⟨j', hj', h2⟩ := hv.2 w (hp.mem_iff.2 hw.1) k hk
    rw [ev] at hj'; cases hj'
    rw [hk, le_antisymm h2 h1]

/-- C43: the result does not depend on the order of the elements (nor on the dimensions). -/
theorem C43_order (ho : IsFloatOrder fo key) {t t' : Tensor F} {ds ds' : List Nat} {xs xs' : List F} (h : Rep t ds xs)
    (h' : Rep t' ds' xs') (hne : xs ≠ []) (hp : xs.Perm xs') :
    (∃ u u' v v', reduceMin fo t = .ok u ∧ reduceMin fo t' = .ok u' ∧ Rep u [] [v] ∧ Rep u' [] [v'] ∧ key v = key v') ∧
    (∃ u u' v v', reduceMax fo t = .ok u ∧ reduceMax fo t' = .ok u' ∧ Rep u [] [v] ∧ Rep u' [] [v'] ∧ key v = key v') := by
  have hne' : xs' ≠ [] := by rintro rfl; exact hne hp.eq_nil
  obtain ⟨⟨u1, v1, e1, r1, l1⟩, ⟨u2, v2, e2, r2, l2⟩⟩ := C43_whole ho h hne
  obtain ⟨⟨u3, v3, e3, r3, l3⟩, ⟨u4, v4, e4, r4, l4⟩⟩ := C43_whole ho h' hne'
  exact ⟨⟨u1, u3, v1, v3, e1, e3, r1, r3, l1.unique hp l3⟩, ⟨u2, u4, v2, v4, e2, e4, r2, r4, l2.unique hp l4⟩⟩

end order

/-- Minimum and maximum of a tensor without elements panic. -/
theorem C43_empty_panics (fo : FOps F) {t : Tensor F} {ds : List Nat} (h : Rep t ds []) :
    reduceMin fo t = .error .panic ∧ reduceMax fo t = .error .panic :=
  ⟨reduce_empty h _, reduce_empty h _⟩

/-- A float arithmetic with a NaN (`none`); only its comparisons matter here. -/
def exNan : FOps (Option Int) :=
  ⟨some 0, some 1, fun x _ => x, fun x _ => x, fun x _ => x, fun x _ => x, fun n => some n,
    fun x y => match x, y with | some a, some b => a == b | _, _ => false,
    fun x y => match x, y with | some a, some b => decide (a < b) | _, _ => false,
    fun x y => match x, y with | some a, some b => decide (a ≤ b) | _, _ => false, id, id, id, fun x _ => x⟩

theorem exNan_order : IsFloatOrder exNan id := by
  constructor
  · rintro (_ | a) (_ | b) <;> simp [exNan]
    exact eq_comm
  · rintro (_ | a) (_ | b) <;> simp [exNan]

/-- A vector with NaNs: the minimum is the smallest number. -/
example {t : Tensor (Option Int)} (h : Rep t [4] [none, some 5, some 3, none]) :
    ∃ u, reduceMin exNan t = .ok u ∧ Rep u [] [some 3] := by
  obtain ⟨⟨u, v, e, hu, hm, hl⟩, -⟩ := C43_whole exNan_order h (by simp)
  obtain ⟨j, hj, hj3⟩ := hl (some 3) (by simp) 3 rfl
  refine ⟨u, e, ?_⟩
  have : v = some j := hj
  subst this
  simp at hm
  rcases hm with rfl | rfl
  · omega
  · exact hu

/-! ## C44 normalize_unit -/

/-- The comparisons of an arithmetic on an ordered set without NaN. -/
theorem exact_order [Field K] [LinearOrder K] (ln exp sqrt : K → K) (powf : K → K → K) :
    IsFloatOrder (.exact ln exp sqrt powf) (some : K → Option K) :=
  ⟨fun x y => by simp [FOps.exact, eq_comm], fun x y => by simp [FOps.exact]⟩

theorem rounded_order [Field K] [LinearOrder K] (rnd ln exp sqrt : K → K) (powf : K → K → K) :
    IsFloatOrder (.rounded rnd ln exp sqrt powf) (some : K → Option K) :=
  ⟨fun x y => by simp [FOps.rounded, eq_comm], fun x y => by simp [FOps.rounded]⟩

theorem foldl_normUnit (fo : FOps F) (xs : List F) (s : NormalizeUnit F) :
    xs.foldl (NormalizeUnit.update fo) s = ⟨xs.foldl (fmin fo) s.min, xs.foldl (fmax fo) s.max⟩ := by
  induction xs generalizing s with
  | nil => rfl
  | cons x xs ih => rw [List.foldl_cons, ih]; rfl

/-- `normalize_unit` in any arithmetic. -/
theorem normalizeUnit_any (fs : FStat F) {t : Tensor F} {ds : List Nat} {xs : List F} (h : Rep t ds xs) :
    ∃ u, normalizeUnit fs t = .ok u ∧ Rep u ds (xs.map fun x =>
      fs.div (fs.sub x (xs.foldl (fmin fs.toFOps) fs.maxValue))
        (fs.sub (xs.foldl (fmax fs.toFOps) fs.minValue) (xs.foldl (fmin fs.toFOps) fs.maxValue))) := by
  apply runPure_pure
  have := C24_no_axis h (NormalizeUnit.default fs)
    (fun s v => (pure (s.update fs.toFOps v) : Exec Unit (NormalizeUnit F))) (fun s => pure s)
    (fun s v => pure (s.norm fs.toFOps v))
  simp only [foldlM_pure, pure_bind, foldl_normUnit, mapM_pure] at this
  exact this

section

variable [LinearOrder K]

theorem foldl_min_spec {fo : FOps K} (ho : IsFloatOrder fo (some : K → Option K)) {xs : List K} (hne : xs ≠ []) {top : K}
    (htop : ∀ x ∈ xs, x ≤ top) : xs.foldl (fmin fo) top ∈ xs ∧ ∀ x ∈ xs, xs.foldl (fmin fo) top ≤ x := by
  obtain ⟨h1, h2⟩ := foldl_fmin ho top xs
  have hle : ∀ x ∈ xs, xs.foldl (fmin fo) top ≤ x := by
    intro x hx
    obtain ⟨j, hj, hjk⟩ := h2 x (List.mem_cons_of_mem _ hx) x rfl
    cases hj; exact hjk
  refine ⟨?_, hle⟩
  rcases List.mem_cons.1 h1 with h | h
  · obtain ⟨x, l, rfl⟩ := List.exists_cons_of_ne_nil hne
    have e := hle x (by simp)
    have := htop x (by simp)
    have e2 : x = List.foldl (fmin fo) top (x :: l) := le_antisymm (this.trans h.ge) e
    rw [← e2]; simp
  · exact h

theorem foldl_max_spec {fo : FOps K} (ho : IsFloatOrder fo (some : K → Option K)) {xs : List K} (hne : xs ≠ []) {bot : K}
    (hbot : ∀ x ∈ xs, bot ≤ x) : xs.foldl (fmax fo) bot ∈ xs ∧ ∀ x ∈ xs, x ≤ xs.foldl (fmax fo) bot := by
  obtain ⟨h1, h2⟩ := foldl_fmax ho bot xs
  have hle : ∀ x ∈ xs, x ≤ xs.foldl (fmax fo) bot := by
    intro x hx
    obtain ⟨j, hj, hjk⟩ := h2 x (List.mem_cons_of_mem _ hx) x rfl
    cases hj; exact hjk
  refine ⟨?_, hle⟩
  rcases List.mem_cons.1 h1 with h | h
  · obtain ⟨x, l, rfl⟩ := List.exists_cons_of_ne_nil hne
    have e := hle x (by simp)
    have := hbot x (by simp)
    have e2 : x = List.foldl (fmax fo) bot (x :: l) := le_antisymm e (h.le.trans this)
    rw [← e2]; simp
  · exact h

/-- Two different values: the minimum is below the maximum. -/
theorem min_lt_max {xs : List K} {m M : K} (hm : ∀ x ∈ xs, m ≤ x) (hM : ∀ x ∈ xs, x ≤ M) {x y : K} (hx : x ∈ xs)
    (hy : y ∈ xs) (hxy : x ≠ y) : m < M := by
  rcases lt_or_gt_of_ne hxy with h | h
  · exact lt_of_le_of_lt (hm x hx) (lt_of_lt_of_le h (hM y hy))
  · exact lt_of_le_of_lt (hm y hy) (lt_of_lt_of_le h (hM x hx))

variable [Field K] [IsStrictOrderedRing K]

/-- C44 in exact arithmetic, for a tensor of any dimensions with two different values within the range of the type:
every element `x` becomes `a * x + b` for fixed `a > 0` and `b`, all results are in [0, 1], and the least (greatest)
element becomes 0 (1). -/
theorem C44_exact (ln exp sqrt : K → K) (powf : K → K → K) (fs : FStat K) (hfs : fs.toFOps = .exact ln exp sqrt powf)
    {t : Tensor K} {ds : List Nat} {xs : List K} (h : Rep t ds xs)
    (hrange : ∀ x ∈ xs, fs.minValue ≤ x ∧ x ≤ fs.maxValue) {x y : K} (hx : x ∈ xs) (hy : y ∈ xs) (hxy : x ≠ y) :
    ∃ u a b, normalizeUnit fs t = .ok u ∧ Rep u ds (xs.map fun v => a * v + b) ∧ 0 < a ∧
      (∀ v ∈ xs, 0 ≤ a * v + b ∧ a * v + b ≤ 1) ∧
      (∀ m ∈ xs, (∀ v ∈ xs, m ≤ v) → a * m + b = 0) ∧ (∀ m ∈ xs, (∀ v ∈ xs, v ≤ m) → a * m + b = 1) := by
  obtain ⟨u, e, hu⟩ := normalizeUnit_any fs h
  have ho : IsFloatOrder fs.toFOps (some : K → Option K) := by rw [hfs]; exact exact_order ..
  have hne : xs ≠ [] := List.ne_nil_of_mem hx
  obtain ⟨m1, m2⟩ := foldl_min_spec ho hne (top := fs.maxValue) fun x hx => (hrange x hx).2
  obtain ⟨M1, M2⟩ := foldl_max_spec ho hne (bot := fs.minValue) fun x hx => (hrange x hx).1
  generalize xs.foldl (fmin fs.toFOps) fs.maxValue = m at *
  generalize xs.foldl (fmax fs.toFOps) fs.minValue = M at *
  have hlt := min_lt_max m2 M2 hx hy hxy
  have hpos : 0 < M - m := sub_pos.2 hlt
  have hf : ∀ v : K, fs.div (fs.sub v m) (fs.sub M m) = (M - m)⁻¹ * v + -(M - m)⁻¹ * m := by
    intro v; rw [hfs]; simp only [FOps.exact]; field_simp; ring
  refine ⟨u, (M - m)⁻¹, -(M - m)⁻¹ * m, e, ?_, inv_pos.2 hpos, ?_, ?_, ?_⟩
  · simpa only [hf] using hu
  · intro v hv
    have e1 : (M - m)⁻¹ * v + -(M - m)⁻¹ * m = (v - m) / (M - m) := by field_simp; ring
    rw [e1]
    exact ⟨div_nonneg (sub_nonneg.2 (m2 v hv)) hpos.le, (div_le_one hpos).2 (by linarith [M2 v hv])⟩
  · intro m' hm' hle
    have : m' = m := le_antisymm (hle m m1) (m2 m' hm')
    subst this; ring
  · intro M' hM' hle
    have : M' = M := le_antisymm (M2 M' hM') (hle M M1)
    subst this
    have := hpos.ne'
    field_simp; ring

/-- C44 with rounding (0 and 1 representable, the rounded difference of the extremes not 0): all results are still in
[0, 1], the least element becomes 0, the greatest 1, and the order of elements is kept. -/
theorem C44_rounded {representable : K → Prop} {rnd : K → K} (hrnd : IsRounding representable rnd)
    (hr0 : representable 0) (hr1 : representable 1) (ln exp sqrt : K → K) (powf : K → K → K) (fs : FStat K)
    (hfs : fs.toFOps = .rounded rnd ln exp sqrt powf) {t : Tensor K} {ds : List Nat} {xs : List K} (h : Rep t ds xs)
    (hrange : ∀ x ∈ xs, fs.minValue ≤ x ∧ x ≤ fs.maxValue)
    (hdiff : ∀ x ∈ xs, ∀ y ∈ xs, x < y → rnd (y - x) ≠ 0) {x y : K} (hx : x ∈ xs) (hy : y ∈ xs) (hxy : x ≠ y) :
    ∃ u, ∃ f : K → K, normalizeUnit fs t = .ok u ∧ Rep u ds (xs.map f) ∧
      (∀ v ∈ xs, 0 ≤ f v ∧ f v ≤ 1) ∧ (∀ v ∈ xs, ∀ w ∈ xs, v ≤ w → f v ≤ f w) ∧
      (∀ m ∈ xs, (∀ v ∈ xs, m ≤ v) → f m = 0) ∧ (∀ m ∈ xs, (∀ v ∈ xs, v ≤ m) → f m = 1) := by
  obtain ⟨u, e, hu⟩ := normalizeUnit_any fs h
  have ho : IsFloatOrder fs.toFOps (some : K → Option K) := by rw [hfs]; exact rounded_order ..
  have hne : xs ≠ [] := List.ne_nil_of_mem hx
  obtain ⟨m1, m2⟩ := foldl_min_spec ho hne (top := fs.maxValue) fun x hx => (hrange x hx).2
  obtain ⟨M1, M2⟩ := foldl_max_spec ho hne (bot := fs.minValue) fun x hx => (hrange x hx).1
  generalize xs.foldl (fmin fs.toFOps) fs.maxValue = m at *
  generalize xs.foldl (fmax fs.toFOps) fs.minValue = M at *
  have hlt := min_lt_max m2 M2 hx hy hxy
  have z0 : rnd 0 = 0 := hrnd.fixed 0 hr0
  have z1 : rnd 1 = 1 := hrnd.fixed 1 hr1
  have hpos : 0 < rnd (M - m) := by
    have := hrnd.mono 0 (M - m) (sub_nonneg.2 hlt.le)
    rw [z0] at this
    exact lt_of_le_of_ne this (Ne.symm (hdiff m m1 M M1 hlt))
  have hf : (fun v : K => fs.div (fs.sub v m) (fs.sub M m)) = fun v => rnd (rnd (v - m) / rnd (M - m)) := by
    funext v; rw [hfs]; rfl
  have hmono : ∀ v w : K, v ≤ w → rnd (rnd (v - m) / rnd (M - m)) ≤ rnd (rnd (w - m) / rnd (M - m)) := by
    intro v w hvw
    apply hrnd.mono
    exact div_le_div_of_nonneg_right (hrnd.mono _ _ (by linarith)) hpos.le
  have hmin : rnd (rnd (m - m) / rnd (M - m)) = 0 := by rw [sub_self, z0, zero_div, z0]
  have hmax : rnd (rnd (M - m) / rnd (M - m)) = 1 := by rw [div_self hpos.ne', z1]
  rw [hf] at hu
  refine ⟨u, _, e, hu, ?_, ?_, ?_, ?_⟩
  · intro v hv
    constructor
    · have := hmono m v (m2 v hv); rwa [hmin] at this
    · have := hmono v M (M2 v hv); rwa [hmax] at this
  · intro v _ w _ hvw
    exact hmono v w hvw
  · intro m' hm' hle
    have : m' = m := le_antisymm (hle m m1) (m2 m' hm')
    rw [this]; exact hmin
  · intro M' hM' hle
    have : M' = M := le_antisymm (M2 M' hM') (hle M M1)
    rw [this]; exact hmax

end

/-- An exact arithmetic on the rationals with range [-1000, 1000]. -/
def exStat : FStat ℚ := ⟨.exact id id id (fun x _ => x), 1000, -1000, 1 / 1000, fun x => ⌊x⌋.toNat⟩

example {t : Tensor ℚ} (h : Rep t [3] [4, 2, 7]) : ∃ u a b, normalizeUnit exStat t = .ok u ∧
    Rep u [3] ([4, 2, 7].map fun v => a * v + b) ∧ a * 2 + b = 0 ∧ a * 7 + b = 1 := by
  obtain ⟨u, a, b, e, hu, -, -, h0, h1⟩ := C44_exact id id id (fun x _ => x) exStat rfl h
    (by simp [exStat]; norm_num) (x := 4) (y := 2) (by simp) (by simp) (by norm_num)
  exact ⟨u, a, b, e, hu, h0 2 (by simp) (by simp; norm_num), h1 7 (by simp) (by simp; norm_num)⟩

/-! ## C45 histogram -/

/-- The bin a sample is counted in. -/
def binOf (fs : FStat F) (min delta : F) (nBins : Nat) (x : F) : Nat :=
  if fs.floorUsize (fs.div (fs.sub x min) delta) < nBins then fs.floorUsize (fs.div (fs.sub x min) delta) else nBins - 1

theorem binOf_lt (fs : FStat F) (min delta : F) {n : Nat} (hn : 0 < n) (x : F) : binOf fs min delta n x < n := by
  unfold binOf; split <;> omega

theorem histStep_eq (fs : FStat F) (min delta : F) {n : Nat} (hn : 0 < n) (x : F) {vs : List F} (hl : vs.length = n) :
    histStep fs min delta n x vs =
      .ok (vs.modify (binOf fs min delta n x) fun v => fs.add v fs.one) := by
  have hb : (if fs.floorUsize (fs.div (fs.sub x min) delta) < n then
      (pure (fs.floorUsize (fs.div (fs.sub x min) delta)) : Res Nat) else usub n 1) = .ok (binOf fs min delta n x) := by
    unfold binOf
    split
    · rfl
    · exact usub_ok (by omega)
  have hlt := binOf_lt fs min delta hn x
  unfold histStep
  dsimp only
  rw [← ite_bind', hb, ok_bind, idx_ok (List.getElem?_eq_getElem (hl ▸ hlt)), ok_bind, setIdx_ok (hl ▸ hlt)]
  rw [List.modify_eq_set_getElem? , List.getElem?_eq_getElem (hl ▸ hlt)]
  rfl

/-- After the loop each bin has been incremented once for each of its samples. -/
theorem hist_loop (fs : FStat F) (min delta : F) {n : Nat} (hn : 0 < n) (xs : List F) {vs : List F} (hl : vs.length = n) :
    ∃ ws, forL xs vs (fun item values => histStep fs min delta n item values) = .ok ws ∧ ws.length = n ∧
      ∀ i v, vs[i]? = some v →
        ws[i]? = some ((fun v => fs.add v fs.one)^[xs.countP (fun x => binOf fs min delta n x = i)] v) := by
  induction xs generalizing vs with
  | nil => exact ⟨vs, rfl, hl, fun i v hv => by simpa using hv⟩
  | cons x xs ih =>
    obtain ⟨ws, e, hw, hat⟩ := ih (vs := vs.modify (binOf fs min delta n x) fun v => fs.add v fs.one) (by simpa using hl)
    refine ⟨ws, ?_, hw, ?_⟩
    · unfold forL at *
      rw [List.foldlM_cons]
      dsimp only
      rw [histStep_eq fs min delta hn x hl, ok_bind, e]
    · intro i v hv
      rw [List.countP_cons]
      by_cases hi : binOf fs min delta n x = i
      · rw [hat i (fs.add v fs.one) (by rw [List.getElem?_modify, hv, hi]; simp)]
        simp [hi]
      · rw [hat i v (by rw [List.getElem?_modify, hv]; simp [hi])]
        simp [hi]

/-- `histogram` in any arithmetic, for a vector whose minimum and maximum are comparable (so not all NaN). -/
theorem histogram_eq (fs : FStat F) {data : Tensor F} {x : F} {xs : List F} {n : Nat}
    (h : Rep data [(x :: xs).length] (x :: xs)) (hn : 0 < n) (hn2 : n + 1 < 2 ^ 32)
    (hle : fs.le (xs.foldl (fmin fs.toFOps) x) (xs.foldl (fmax fs.toFOps) x) = true) :
    ∃ t e cs es, histogram fs data n = .ok (t, e) ∧ Rep t [n] cs ∧ Rep e [n + 1] es ∧
      (∀ k, k ≤ n → es[k]? = some (fs.add (xs.foldl (fmin fs.toFOps) x) (fs.mul (fs.div
        (fs.sub (xs.foldl (fmax fs.toFOps) x) (xs.foldl (fmin fs.toFOps) x)) (fs.ofNat n)) (fs.ofNat k)))) ∧
      ∀ i, i < n → cs[i]? = some ((fun v => fs.add v fs.one)^[(x :: xs).countP (fun y =>
        binOf fs (xs.foldl (fmin fs.toFOps) x)
          (binWidth fs (xs.foldl (fmin fs.toFOps) x) (xs.foldl (fmax fs.toFOps) x) n) n y = i)] fs.zero) := by
  obtain ⟨u, e1, hu⟩ := reduce_pure h (fmin fs.toFOps)
  obtain ⟨u', e2, hu'⟩ := reduce_pure h (fmax fs.toFOps)
  obtain ⟨a, e3, ha⟩ := C06_from_scalar (xs.foldl (fmin fs.toFOps) x)
  obtain ⟨b, e4, hb⟩ := C06_from_scalar (xs.foldl (fmax fs.toFOps) x)
  obtain ⟨l, es, e5, hl, hat⟩ := C35_linspace_partial fs.toFOps (len := n + 1) ha hb (by simp) (by simp)
    (by rintro (_ | i) p q hp hq <;> simp at hp hq; subst hp; subst hq; exact hle) (fits_one hn2)
  obtain ⟨ws, e6, hw, hc⟩ := hist_loop fs (xs.foldl (fmin fs.toFOps) x)
    (binWidth fs (xs.foldl (fmin fs.toFOps) x) (xs.foldl (fmax fs.toFOps) x) n) hn (x :: xs)
    (vs := List.replicate n fs.zero) (by simp)
  obtain ⟨t, e7, ht⟩ := C12_vec1 ws (by omega)
  refine ⟨t, l, ws, es, ?_, hw ▸ ht, hl, ?_, ?_⟩
  · unfold histogram reduceMin reduceMax
    rw [ensure_true hn, ok_bind, ensure_true (by rw [h.rank]; rfl), ok_bind, e1, ok_bind, index1_eq hu]
    dsimp only [List.getElem?_cons_zero]
    rw [ok_bind, e2, ok_bind, index1_eq hu']
    dsimp only [List.getElem?_cons_zero]
    rw [ok_bind, e3, ok_bind, e4, ok_bind, e5, ok_bind, h.elems, ok_bind, e6, ok_bind, e7, ok_bind]
    rfl
  · intro k hk
    have := hat k [] _ _ (by omega) rfl rfl
    rw [at_vec (by rw [hl.length]; simp), if_pos (by omega)] at this
    exact this
  · intro i hi
    exact hc i fs.zero (by rw [List.getElem?_replicate, if_pos hi])

/-- Every sample is in one bin: the bin sizes add up to the number of samples. -/
theorem sum_countP {α : Type} (f : α → Nat) {n : Nat} (hf : ∀ x, f x < n) (xs : List α) :
    ((List.range n).map fun i => xs.countP fun x => f x = i).sum = xs.length := by
  induction xs with
  | nil => simp
  | cons x xs ih =>
    have : (fun i => (x :: xs).countP fun x => f x = i) =
        fun i => (xs.countP fun x => f x = i) + if f x = i then 1 else 0 := by
      funext i; simp [List.countP_cons]
    have h1 : ((List.range n).map fun i => if f x = i then 1 else 0).sum = 1 := by
      have hx := hf x
      clear this ih
      generalize f x = j at hx
      clear hf
      induction n with
      | zero => omega
      | succ n ihn =>
        rw [List.range_succ, List.map_append, List.sum_append]
        by_cases hj : j < n
        · rw [ihn hj]; simp; omega
        · obtain rfl : j = n := by omega
          rw [List.sum_eq_zero (by simp; omega)]; simp
    rw [this, List.sum_map_add, ih, h1, List.length_cons]

theorem list_eq_map_range {α : Type} {xs : List α} {n : Nat} {f : Nat → α} (hl : xs.length = n)
    (h : ∀ i, i < n → xs[i]? = some (f i)) : xs = (List.range n).map f := by
  apply List.ext_getElem?
  intro i
  by_cases hi : i < n
  · rw [h i hi]; simp [hi]
  · rw [List.getElem?_eq_none (by omega), List.getElem?_eq_none (by simp; omega)]

section counts

variable [Field K] [LinearOrder K] [IsStrictOrderedRing K]

theorem iterate_rounded {rnd : K → K} {N : Nat} (hr : ∀ k : Nat, k ≤ N → rnd (k : K) = k) (k : Nat) (hk : k ≤ N) :
    (fun v => rnd (v + 1))^[k] (0 : K) = k := by
  induction k with
  | zero => simp
  | succ k ih =>
    rw [Function.iterate_succ_apply', ih (by omega)]
    have := hr (k + 1) hk
    push_cast at this ⊢
    exact this

omit [Field K] [IsStrictOrderedRing K] in
theorem rounded_le {fo : FOps K} (ho : IsFloatOrder fo (some : K → Option K)) (x : K) (xs : List K) :
    xs.foldl (fmin fo) x ≤ xs.foldl (fmax fo) x := by
  obtain ⟨-, h⟩ := foldl_fmin ho x xs
  obtain ⟨-, h'⟩ := foldl_fmax ho x xs
  obtain ⟨j, hj, h1⟩ := h x List.mem_cons_self x rfl
  obtain ⟨j', hj', h2⟩ := h' x List.mem_cons_self x rfl
  cases hj; cases hj'
  exact h1.trans h2

/-- C45 with rounding: as long as the numbers up to the number of samples are representable (2^24 for `f32`), each
sample is counted in exactly one bin and the counts add up to the number of samples. -/
theorem C45_counts {rnd : K → K} (ln exp sqrt : K → K) (powf : K → K → K) (fs : FStat K)
    (hfs : fs.toFOps = .rounded rnd ln exp sqrt powf) {data : Tensor K} {xs : List K} {n : Nat}
    (h : Rep data [xs.length] xs) (hne : xs ≠ []) (hn : 0 < n) (hn2 : n + 1 < 2 ^ 32)
    (hr : ∀ k : Nat, k ≤ xs.length → rnd (k : K) = k) :
    ∃ t e cs es, ∃ bin : K → Nat, histogram fs data n = .ok (t, e) ∧ Rep t [n] cs ∧ Rep e [n + 1] es ∧
      (∀ x, bin x < n) ∧ (∀ i, i < n → cs[i]? = some ((xs.countP fun x => bin x = i : Nat) : K)) ∧
      cs.sum = xs.length := by
  obtain ⟨x, xs, rfl⟩ := List.exists_cons_of_ne_nil hne
  have ho : IsFloatOrder fs.toFOps (some : K → Option K) := by rw [hfs]; exact rounded_order ..
  obtain ⟨t, e, cs, es, e1, ht, he, -, hc⟩ := histogram_eq fs h hn hn2
    (by have := rounded_le ho x xs; rw [hfs] at this ⊢; simpa [FOps.rounded] using this)
  generalize hb : binOf fs (xs.foldl (fmin fs.toFOps) x)
    (binWidth fs (xs.foldl (fmin fs.toFOps) x) (xs.foldl (fmax fs.toFOps) x) n) n = bin at hc
  have hbin : ∀ x, bin x < n := by intro y; rw [← hb]; exact binOf_lt _ _ _ hn y
  have hc' : ∀ i, i < n → cs[i]? = some (((x :: xs).countP fun y => bin y = i : Nat) : K) := by
    intro i hi
    rw [hc i hi]
    have e1 : fs.zero = 0 := by rw [hfs]; rfl
    have e2 : (fun v => fs.add v fs.one) = fun v => rnd (v + 1) := by rw [hfs]; rfl
    rw [e1, e2, iterate_rounded hr _ List.countP_le_length]
  refine ⟨t, e, cs, es, bin, e1, ht, he, hbin, hc', ?_⟩
  rw [list_eq_map_range (by rw [ht.length]; simp) hc', ← sum_countP bin hbin (x :: xs), Nat.cast_list_sum, List.map_map]
  rfl

variable [FloorRing K]

/-- Which of the bins a sample lies in. -/
theorem floor_bin {m M x : K} {n : Nat} (hn : 0 < n) (hmM : m < M) (hm : m ≤ x) (i : Nat) :
    ⌊(x - m) / ((M - m) / n)⌋.toNat = i ↔ m + (M - m) / n * i ≤ x ∧ x < m + (M - m) / n * ((i + 1 : Nat) : K) := by
  have hd : 0 < (M - m) / n := div_pos (sub_pos.2 hmM) (Nat.cast_pos.2 hn)
  generalize (M - m) / n = d at *
  have h0 : 0 ≤ (x - m) / d := div_nonneg (sub_nonneg.2 hm) hd.le
  have hi : ⌊(x - m) / d⌋.toNat = i ↔ ⌊(x - m) / d⌋ = (i : Int) := by
    have := Int.floor_nonneg.2 h0
    omega
  rw [hi, Int.floor_eq_iff, le_div_iff₀ hd, div_lt_iff₀ hd]
  push_cast
  constructor
  · rintro ⟨h1, h2⟩; exact ⟨by linarith, by linarith⟩
  · rintro ⟨h1, h2⟩; exact ⟨by linarith, by linarith⟩

/-- C45 in exact arithmetic, for a vector with at least two different values and any number of bins: the edges divide
the range from the least to the greatest sample evenly, count `i` is the number of samples from edge `i` up to and
excluding edge `i + 1` (including it for the last bin), and the counts add up to the number of samples.
Missing for the full property: the floating-point arithmetic of the code, where samples close to an edge can be counted
in the bin next to it, and counts stop growing at 2^24, see `C45_saturation_violates`. -/
theorem C45_histogram_partial (ln exp sqrt : K → K) (powf : K → K → K) (fs : FStat K)
    (hfs : fs.toFOps = .exact ln exp sqrt powf)
    (hfl : ∀ x, 0 ≤ x → x < 2 ^ 64 → fs.floorUsize x = ⌊x⌋.toNat) {data : Tensor K} {xs : List K} {n : Nat}
    (h : Rep data [xs.length] xs) (hn : 0 < n) (hn2 : n + 1 < 2 ^ 32) {m M : K} (hm : m ∈ xs) (hm' : ∀ x ∈ xs, m ≤ x)
    (hM : M ∈ xs) (hM' : ∀ x ∈ xs, x ≤ M) (hmM : m ≠ M) :
    ∃ t e cs es, histogram fs data n = .ok (t, e) ∧ Rep t [n] cs ∧ Rep e [n + 1] es ∧
      (∀ k : Nat, k ≤ n → es[k]? = some (m + (M - m) / n * k)) ∧
      (∀ i lo hi, i < n → es[i]? = some lo → es[i + 1]? = some hi →
        cs[i]? = some ((xs.countP fun x => lo ≤ x ∧ (x < hi ∨ i + 1 = n) : Nat) : K)) ∧
      cs.sum = xs.length := by
  have hne : xs ≠ [] := List.ne_nil_of_mem hm
  have hlt : m < M := lt_of_le_of_ne (hm' M hM) hmM
  have ho : IsFloatOrder fs.toFOps (some : K → Option K) := by rw [hfs]; exact exact_order ..
  obtain ⟨x, xs, rfl⟩ := List.exists_cons_of_ne_nil hne
  have hmin : xs.foldl (fmin fs.toFOps) x = m := by
    obtain ⟨h1, h2⟩ := foldl_fmin ho x xs
    obtain ⟨j, hj, hjm⟩ := h2 m hm m rfl
    cases hj
    exact le_antisymm hjm (hm' _ h1)
  have hmax : xs.foldl (fmax fs.toFOps) x = M := by
    obtain ⟨h1, h2⟩ := foldl_fmax ho x xs
    obtain ⟨j, hj, hjm⟩ := h2 M hM M rfl
    cases hj
    exact le_antisymm (hM' _ h1) hjm
  obtain ⟨t, e, cs, es, e1, ht, he, hes, hc⟩ := histogram_eq fs h hn hn2
    (by rw [hmin, hmax, hfs]; simpa [FOps.exact] using hlt.le)
  rw [hmin, hmax] at hes
  rw [hmin, hmax] at hc
  have hes' : ∀ k : Nat, k ≤ n → es[k]? = some (m + (M - m) / n * k) := by
    intro k hk; rw [hes k hk, hfs]; rfl
  have hw : binWidth fs m M n = (M - m) / n := by
    unfold binWidth
    rw [hfs]
    simp [FOps.exact, hmM]
  rw [hw] at hc
  have hnK : (0 : K) < n := Nat.cast_pos.2 hn
  have hd : 0 < (M - m) / n := div_pos (sub_pos.2 hlt) hnK
  have hq : ∀ y ∈ x :: xs, 0 ≤ (y - m) / ((M - m) / n) ∧ (y - m) / ((M - m) / n) ≤ n := by
    intro y hy
    refine ⟨div_nonneg (sub_nonneg.2 (hm' y hy)) hd.le, ?_⟩
    rw [div_le_iff₀ hd, mul_div_cancel₀ _ hnK.ne']
    linarith [hM' y hy]
  have hfb : ∀ y ∈ x :: xs, fs.floorUsize (fs.div (fs.sub y m) ((M - m) / n)) = ⌊(y - m) / ((M - m) / n)⌋.toNat := by
    intro y hy
    obtain ⟨q1, q2⟩ := hq y hy
    have e : fs.div (fs.sub y m) ((M - m) / n) = (y - m) / ((M - m) / n) := by rw [hfs]; rfl
    rw [e]
    apply hfl _ q1
    refine lt_of_le_of_lt q2 ?_
    have : n < 2 ^ 64 := by omega
    exact_mod_cast this
  refine ⟨t, e, cs, es, e1, ht, he, hes', ?_, ?_⟩
  · intro i lo hi hi' hlo hhi
    rw [hes' i (by omega)] at hlo
    rw [hes' (i + 1) (by omega)] at hhi
    cases hlo; cases hhi
    rw [hc i hi']
    have e1 : fs.zero = 0 := by rw [hfs]; rfl
    have e2 : (fun v => fs.add v fs.one) = fun v => v + 1 := by rw [hfs]; rfl
    rw [e1, e2]
    have e3 := iterate_rounded (K := K) (rnd := id) (N := ((x :: xs).countP fun y => binOf fs m ((M - m) / n) n y = i))
      (fun k _ => rfl) _ (le_refl _)
    simp only [id] at e3
    rw [e3]
    congr 2
    apply List.countP_congr
    intro y hy
    simp only [decide_eq_true_eq]
    unfold binOf
    rw [hfb y hy]
    have hb := fun i => floor_bin (x := y) hn hlt (hm' y hy) i
    by_cases hlast : i + 1 = n
    · obtain rfl : i = n - 1 := by omega
      simp only [hlast, or_true, and_true]
      constructor
      · intro hyp
        split at hyp
        · exact ((hb _).1 hyp).1
        · next hge =>
          have := ((hb ⌊(y - m) / ((M - m) / n)⌋.toNat).1 rfl).1
          refine le_trans ?_ this
          have : ((n - 1 : Nat) : K) ≤ (⌊(y - m) / ((M - m) / n)⌋.toNat : K) := by exact_mod_cast (by omega)
          have := mul_le_mul_of_nonneg_left this hd.le
          linarith
      · intro hle
        split
        · next hl2 =>
          rw [hb]
          refine ⟨hle, ?_⟩
          have := ((hb ⌊(y - m) / ((M - m) / n)⌋.toNat).1 rfl).2
          refine lt_of_lt_of_le this ?_
          have : ((⌊(y - m) / ((M - m) / n)⌋.toNat + 1 : Nat) : K) ≤ ((n - 1 + 1 : Nat) : K) := by
            exact_mod_cast (by omega)
          have := mul_le_mul_of_nonneg_left this hd.le
          linarith
        · rfl
    · simp only [hlast, or_false]
      rw [← hb i]
      split
      · rfl
      · constructor <;> intro _ <;> omega
  · have hbin : ∀ y, binOf fs m ((M - m) / n) n y < n := fun y => binOf_lt _ _ _ hn y
    have hc' : ∀ i, i < n → cs[i]? =
        some (((x :: xs).countP fun y => binOf fs m ((M - m) / n) n y = i : Nat) : K) := by
      intro i hi
      rw [hc i hi]
      have e1 : fs.zero = 0 := by rw [hfs]; rfl
      have e2 : (fun v => fs.add v fs.one) = fun v => v + 1 := by rw [hfs]; rfl
      rw [e1, e2]
      have e3 := iterate_rounded (K := K) (rnd := id)
        (N := ((x :: xs).countP fun y => binOf fs m ((M - m) / n) n y = i)) (fun k _ => rfl) _ (le_refl _)
      simp only [id] at e3
      rw [e3]
    rw [list_eq_map_range (by rw [ht.length]; simp) hc', ← sum_countP _ hbin (x :: xs), Nat.cast_list_sum, List.map_map]
    rfl

end counts

/-- Samples that are all equal are counted in the first bin, in any arithmetic where that holds of a zero difference;
counts stop growing at the first number `N` whose successor rounds back to it (2^24 for `f32`), so that the counts of
more than `N` samples do not add up to the number of samples. -/
theorem C45_saturation_violates [Field K] [LinearOrder K] [IsStrictOrderedRing K] {rnd : K → K} {N : Nat}
    (hr : ∀ k : Nat, k ≤ N → rnd (k : K) = k) (hN : rnd ((N : K) + 1) = N) (ln exp sqrt : K → K) (powf : K → K → K)
    (fs : FStat K) (hfs : fs.toFOps = .rounded rnd ln exp sqrt powf) (hfl : fs.floorUsize 0 = 0) {data : Tensor K}
    {v : K} {len n : Nat} (h : Rep data [len] (List.replicate len v)) (hlen : N < len) (hn : 0 < n)
    (hn2 : n + 1 < 2 ^ 32) :
    ∃ t e cs, histogram fs data n = .ok (t, e) ∧ Rep t [n] cs ∧ cs.sum = N ∧ cs.sum ≠ len := by
  have ho : IsFloatOrder fs.toFOps (some : K → Option K) := by rw [hfs]; exact rounded_order ..
  obtain ⟨len, rfl⟩ : ∃ l, len = l + 1 := ⟨len - 1, by omega⟩
  rw [List.replicate_succ] at h
  obtain ⟨t, e, cs, es, e1, ht, he, -, hc⟩ := histogram_eq fs (x := v) (xs := List.replicate len v) (by simpa using h) hn
    hn2 (by have := rounded_le ho v (List.replicate len v); rw [hfs] at this ⊢; simpa [FOps.rounded] using this)
  have hmin : (List.replicate len v).foldl (fmin fs.toFOps) v = v := by
    have := (foldl_fmin ho v (List.replicate len v)).1
    rw [← List.replicate_succ] at this
    exact List.eq_of_mem_replicate this
  have hmax : (List.replicate len v).foldl (fmax fs.toFOps) v = v := by
    have := (foldl_fmax ho v (List.replicate len v)).1
    rw [← List.replicate_succ] at this
    exact List.eq_of_mem_replicate this
  rw [hmin, hmax] at hc
  have hbin : binOf fs v (binWidth fs v v n) n v = 0 := by
    have hz : fs.div (fs.sub v v) (binWidth fs v v n) = 0 := by
      have r0 : rnd 0 = 0 := by simpa using hr 0 (by omega)
      generalize binWidth fs v v n = w
      rw [hfs]
      simp [FOps.rounded, r0]
    unfold binOf
    rw [hz, hfl, if_pos hn]
  have hsat : ∀ k, (fun v => rnd (v + 1))^[N + k] (0 : K) = N := by
    intro k
    induction k with
    | zero => exact iterate_rounded hr N (le_refl _)
    | succ k ih => rw [← Nat.add_assoc, Function.iterate_succ_apply', ih]; exact hN
  have hcs : cs = (List.range n).map fun i => if i = 0 then (N : K) else 0 := by
    apply list_eq_map_range (by rw [ht.length]; simp)
    intro i hi
    have e1 : fs.zero = 0 := by rw [hfs]; rfl
    have e2 : (fun v => fs.add v fs.one) = fun v => rnd (v + 1) := by rw [hfs]; rfl
    rw [hc i hi, e1, e2, ← List.replicate_succ, List.countP_replicate, hbin]
    by_cases h0 : i = 0
    · subst h0
      have := hsat (len + 1 - N)
      rw [show N + (len + 1 - N) = len + 1 by omega] at this
      simp [this]
    · simp [h0, Ne.symm h0]
  have hsum : cs.sum = N := by
    obtain ⟨n, rfl⟩ : ∃ k, n = k + 1 := ⟨n - 1, by omega⟩
    rw [hcs, List.range_succ_eq_map, List.map_cons, List.sum_cons, List.map_map]
    have : ((fun i => if i = 0 then (N : K) else 0) ∘ Nat.succ) = fun _ => 0 := by funext i; simp
    rw [this]
    simp
  refine ⟨t, e, cs, e1, ht, hsum, ?_⟩
  rw [hsum]
  exact_mod_cast (by omega : N ≠ len + 1)

/-- C45: what `histogram` rejects: zero bins, a tensor that is not a vector, an empty vector. -/
theorem C45_rejects (fs : FStat F) {data : Tensor F} {ds : List Nat} {xs : List F} (h : Rep data ds xs) {n : Nat}
    (hbad : n = 0 ∨ ds.length ≠ 1 ∨ xs = []) : histogram fs data n = .error .panic := by
  unfold histogram
  by_cases hn : 0 < n
  swap
  · rw [ensure_false hn]; rfl
  rw [ensure_true hn, ok_bind]
  by_cases hr : ds.length = 1
  swap
  · rw [ensure_false (by rw [h.rank]; exact hr)]; rfl
  rw [ensure_true (by rw [h.rank]; exact hr), ok_bind]
  have hx : xs = [] := by
    rcases hbad with h | h | h
    · omega
    · exact absurd hr h
    · exact h
  subst hx
  rw [(C43_empty_panics fs.toFOps h).1]; rfl

/-- A concrete histogram: samples 0, 1, 2, 3, 4 in two bins [0, 2) and [2, 4]. -/
example {data : Tensor ℚ} (h : Rep data [5] [0, 3, 1, 4, 2]) :
    ∃ t e, histogram exStat data 2 = .ok (t, e) ∧ Rep t [2] [2, 3] ∧ Rep e [3] [0, 2, 4] := by
  obtain ⟨t, e, cs, es, e1, ht, he, hes, hc, -⟩ := C45_histogram_partial id id id (fun x _ => x) exStat rfl
    (fun _ _ _ => rfl) (n := 2) (xs := [0, 3, 1, 4, 2]) h (by norm_num) (by norm_num) (m := 0) (M := 4) (by simp) (by simp) (by simp)
    (by simp; norm_num) (by norm_num)
  have h0 := hes 0 (by norm_num)
  have h1 := hes 1 (by norm_num)
  have h2 := hes 2 (by norm_num)
  norm_num at h0 h1 h2
  have c0 := hc 0 0 2 (by norm_num) h0 h1
  have c1 := hc 1 2 4 (by norm_num) h1 h2
  norm_num [List.countP_cons] at c0 c1
  have hle : es.length = 3 := by rw [he.length]; rfl
  have hlc : cs.length = 2 := by rw [ht.length]; rfl
  refine ⟨t, e, e1, ?_, ?_⟩
  · convert ht using 1
    apply List.ext_getElem?
    rintro (_ | _ | i)
    · simp [c0]
    · simp [c1]
    · rw [List.getElem?_eq_none (by simp), List.getElem?_eq_none (by omega)]
  · convert he using 1
    apply List.ext_getElem?
    rintro (_ | _ | _ | i)
    · simp [h0]
    · simp [h1]
    · simp [h2]
    · rw [List.getElem?_eq_none (by simp), List.getElem?_eq_none (by omega)]

/-! ## C46 histogram2d -/

/-- C46 fails for every tensor and any number of bins: `histogram2d` reads the second element of `data.reduce_min()`,
which is a scalar, and panics. -/
theorem C46_violates (fs : FStat F) {data : Tensor F} {ds : List Nat} {xs : List F} (h : Rep data ds xs) (n : Nat) :
    histogram2d fs data n = .error .panic := by
  unfold histogram2d
  by_cases hn : 0 < n
  swap
  · rw [ensure_false hn]; rfl
  rw [ensure_true hn, ok_bind]
  by_cases hr : ds.length = 2
  swap
  · rw [ensure_false (by rw [h.rank]; exact hr)]; rfl
  rw [ensure_true (by rw [h.rank]; exact hr), ok_bind]
  obtain ⟨c, hc⟩ : ∃ c, data.shape.cols = .ok c := ⟨_, cols_eq h.wf.shape⟩
  rw [hc, ok_bind]
  by_cases h2 : c = 2
  swap
  · rw [ensure_false h2]; rfl
  rw [ensure_true h2, ok_bind]
  cases xs with
  | nil => rw [(C43_empty_panics fs.toFOps h).1]; rfl
  | cons x xs =>
    obtain ⟨u, e1, hu⟩ := reduce_pure h (fmin fs.toFOps)
    obtain ⟨u', e2, hu'⟩ := reduce_pure h (fmax fs.toFOps)
    unfold reduceMin reduceMax
    rw [e1, ok_bind, e2, ok_bind, index1_eq hu, index1_eq hu]
    rfl

/-- There are tensors the documentation of `histogram2d` allows. -/
example : ∃ t, Rep (t : Tensor ℚ) [3, 2] [1, 2, 3, 4, 5, 6] :=
  ⟨_, rep_fresh ⟨by simp, by simp⟩ (fits_of_pos (by simp) (by simp)) (by simp)⟩

/-- The mean of no elements is 0 / 1. -/
example (fo : FOps F) : ∃ u, reduceMean fo (⟨ofDims [0], 0, 0, []⟩ : Tensor F) = .ok u ∧
    Rep u [] [fo.div fo.zero (fo.ofNat 1)] :=
  C42_mean_any fo (ds := [0]) (xs := []) ⟨⟨wf_ofDims (l := [0]) ⟨by simp, by simp⟩, rfl, by simp⟩, rfl, rfl⟩

example : ∃ lanes u, IsLanes [] 2 [3] [0, 1, 2, 3, 4, 5] lanes ∧
    reduceVarianceAxis (.exact id id id fun x _ => x) (⟨ofDims [2, 3], 0, 6, [0, 1, 2, 3, 4, 5]⟩ : Tensor ℚ) (some (-2)) = .ok u ∧
    Rep u [3] (lanes.map variance) :=
  (C42_axis id id id (fun x _ => x) rfl (pre := []) (post := [3]) (xs := [0, 1, 2, 3, 4, 5])
    (rep_fresh (ds := [2, 3]) (xs := [0, 1, 2, 3, 4, 5]) ⟨by simp, by simp⟩ (fits_of_pos (by simp) (by simp)) rfl)
    (by simp) (by decide)).2.1

example : ∃ u, reduceMeanAxis (.exact id id id fun x _ => x) (⟨ofDims [2, 2], 0, 4, [0, 1, 2, 4]⟩ : Tensor ℚ) none = .ok u ∧
    Rep u [] [7 / 4] := by
  have := (C42_axis_none id id id (fun x _ => x) rfl (xs := ([0, 1, 2, 4] : List ℚ))
    (rep_fresh (ds := [2, 2]) (xs := [0, 1, 2, 4]) ⟨by simp, by simp⟩ (fits_of_pos (by simp) (by simp)) rfl) (by simp)).1
  rwa [show mean ([0, 1, 2, 4] : List ℚ) = 7 / 4 by norm_num [mean]] at this

example : ∃ lanes u vs, IsLanes [2] 2 [] [none, some 5, some 3, some 4] lanes ∧
    reduceMinAxis exNan (⟨ofDims [2, 2], 0, 4, [none, some 5, some 3, some 4]⟩ : Tensor (Option Int)) (some 1) = .ok u ∧
    Rep u [2] vs ∧ List.Forall₂ (LeastOf id) lanes vs :=
  (C43_axis exNan_order (pre := [2]) (post := [])
    (rep_fresh (ds := [2, 2]) (xs := [none, some 5, some 3, some 4]) ⟨by simp, by simp⟩ (fits_of_pos (by simp) (by simp)) rfl)
    (by simp) (by decide)).1

example {t t' : Tensor (Option Int)} (h : Rep t [3] [none, some 5, some 3]) (h' : Rep t' [3, 1] [some 5, some 3, none]) :
    ∃ u u' v v', reduceMax exNan t = .ok u ∧ reduceMax exNan t' = .ok u' ∧ Rep u [] [v] ∧ Rep u' [] [v'] ∧ v = v' :=
  (C43_order exNan_order h h' (by simp) (by decide)).2

example (fo : FOps F) : reduceMin fo (⟨ofDims [0], 0, 0, []⟩ : Tensor F) = .error .panic :=
  (C43_empty_panics fo (ds := [0]) ⟨⟨wf_ofDims (l := [0]) ⟨by simp, by simp⟩, rfl, by simp⟩, rfl, rfl⟩).1

example {t : Tensor ℚ} (h : Rep t [3] [4, 2, 7]) :
    ∃ u, ∃ f : ℚ → ℚ, normalizeUnit exStat t = .ok u ∧ Rep u [3] [f 4, f 2, f 7] ∧ f 2 = 0 ∧ f 7 = 1 := by
  obtain ⟨u, f, h1, h2, -, -, h3, h4⟩ := C44_rounded (representable := fun _ => True) (rnd := id)
    ⟨fun _ _ h => h, fun _ _ => rfl, fun _ => trivial⟩ trivial trivial id id id (fun x _ => x) exStat rfl h
    (by simp [exStat]; norm_num) (fun x _ y _ hxy => by simp only [id]; linarith) (x := 4) (y := 2) (by simp) (by simp) (by norm_num)
  exact ⟨u, f, h1, h2, h3 2 (by simp) (by simp; norm_num), h4 7 (by simp) (by simp; norm_num)⟩

example {data : Tensor ℚ} (h : Rep data [5] [0, 3, 1, 4, 2]) :
    ∃ t e cs es, ∃ bin : ℚ → Nat, histogram exStat data 2 = .ok (t, e) ∧ Rep t [2] cs ∧ Rep e [3] es ∧
      (∀ x, bin x < 2) ∧ (∀ i, i < 2 → cs[i]? = some (([0, 3, 1, 4, 2].countP fun x => bin x = i : Nat) : ℚ)) ∧ cs.sum = (5 : Nat) :=
  C45_counts (rnd := id) id id id (fun x _ => x) exStat rfl (n := 2) (xs := [0, 3, 1, 4, 2]) h (by simp) (by simp) (by simp)
    (fun _ _ => rfl)

example (fs : FStat F) (x : F) : histogram fs (⟨ofDims [1, 1], 0, 1, [x]⟩ : Tensor F) 3 = .error .panic :=
  C45_rejects fs (rep_fresh (ds := [1, 1]) (xs := [x]) ⟨by simp, by simp⟩ (fits_of_pos (by simp) (by simp)) rfl)
    (.inr (.inl (by simp)))

example (fs : FStat F) (x y : F) : histogram2d fs (⟨ofDims [1, 2], 0, 2, [x, y]⟩ : Tensor F) 3 = .error .panic :=
  C46_violates fs (rep_fresh (ds := [1, 2]) (xs := [x, y]) ⟨by simp, by simp⟩ (fits_of_pos (by simp) (by simp)) rfl) 3

end Essay
