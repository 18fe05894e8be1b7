import Verif.Props.Batch
import Verif.Props.Space
import Verif.Props.Algebra

/-!
# C105: the laws of generated sequences and matrices

Exact arithmetic for the sequences; the matrices hold for any elements.
-/

namespace Essay

open Shape Stats

variable {K : Type}

/-! ### linspace -/

section linspace

variable [Field K] [LinearOrder K] [IsStrictOrderedRing K]

/-- Step `k` of `len` from each element of `xs` to that of `ys`. -/
def evenRow (xs ys : List K) (len k : Nat) : List K :=
  List.zipWith (fun x y => x + (if 1 < len then (y - x) / ((len - 1 : Nat) : K) else 0) * k) xs ys

omit [LinearOrder K] [IsStrictOrderedRing K] in
theorem evenRow_length {xs ys : List K} (h : xs.length = ys.length) (len k : Nat) : (evenRow xs ys len k).length = xs.length := by
  simp [evenRow, h]

omit [IsStrictOrderedRing K] in
theorem linspace_rows (ln exp sqrt : K → K) (powf : K → K → K) {a b : Tensor K} {ds : List Nat} {xs ys : List K}
    {len : Nat} (ha : Rep a ds xs) (hb : Rep b ds ys) (hr : ds.length < 5) (hne : 0 < ds.prod)
    (hle : ∀ (i : Nat) x y, xs[i]? = some x → ys[i]? = some y → x ≤ y) (hfit : Fits (len :: ds)) :
    ∃ t, Init.linspace (.exact ln exp sqrt powf) a b len = .ok t ∧
      Rep t (len :: ds) ((List.range len).flatMap (evenRow xs ys len)) := by
  obtain ⟨e1, hadm⟩ := space_insert ha.adm hr (len_lt_of_fits hne hfit)
  obtain ⟨t, e, ht⟩ := space_rep (fo := .exact ln exp sqrt powf) (len := len) (pre := id) (post := id) ha hb hne
    (by intro i x y hx hy; simpa [FOps.exact] using hle i x y hx hy) hadm hfit (by simp)
  refine ⟨t, ?_, ht⟩
  unfold Init.linspace
  rw [ensure_true (by rw [ha.shape, hb.shape]), ok_bind, ha.shape, e1, ok_bind]
  exact e

/-- The rows from `lo` on. -/
theorem rows_part {f : Nat → List K} {P len lo n : Nat} (hf : ∀ k, (f k).length = P) (h : lo + n ≤ len) :
    (((List.range len).flatMap f).drop (lo * P)).take (n * P) = (List.range n).flatMap fun k => f (lo + k) := by
  obtain ⟨r, rfl⟩ := Nat.exists_eq_add_of_le h
  rw [List.range_add, List.range_add, List.flatMap_append, List.flatMap_append, List.append_assoc,
    List.drop_left' (by rw [length_flatMap_const (N := P) (fun b _ => hf b), List.length_range]),
    List.take_left' (by rw [List.flatMap_map, length_flatMap_const (N := P) (fun b _ => hf _), List.length_range]),
    List.flatMap_map]

omit [Field K] [LinearOrder K] [IsStrictOrderedRing K] in
theorem at_one {ds is : List Nat} {xs : List K} : at? (1 :: ds) xs (0 :: is) = at? ds xs is := by
  unfold at?
  rw [ravel, if_pos Nat.one_pos]
  cases ravel ds is with
  | none => rfl
  | some p => simp

/-- C105: scaling both ends by a factor that is not negative and shifting them does the same to the sequence. -/
theorem C105_linspace_affine (ln exp sqrt : K → K) (powf : K → K → K) {a b : Tensor K} {ds : List Nat} {xs ys : List K}
    {len : Nat} (ha : Rep a ds xs) (hb : Rep b ds ys) (hr : ds.length < 5) (hne : 0 < ds.prod)
    (hle : ∀ (i : Nat) x y, xs[i]? = some x → ys[i]? = some y → x ≤ y) (hfit : Fits (len :: ds)) {c : K} (hc : 0 ≤ c) (d : K) :
    Same (do
        let a ← mapped (fun x => c * x + d) a
        let b ← mapped (fun x => c * x + d) b
        Init.linspace (.exact ln exp sqrt powf) a b len)
      (Init.linspace (.exact ln exp sqrt powf) a b len >>= mapped fun x => c * x + d) (len :: ds) := by
  obtain ⟨a', e1, h1⟩ := mapped_rep (fun x => c * x + d) ha
  obtain ⟨b', e2, h2⟩ := mapped_rep (fun x => c * x + d) hb
  obtain ⟨t, e3, h3⟩ := linspace_rows ln exp sqrt powf (len := len) ha hb hr hne hle hfit
  obtain ⟨t', e4, h4⟩ := linspace_rows ln exp sqrt powf (len := len) h1 h2 hr hne (by
    intro i x y hx hy
    rw [List.getElem?_map] at hx hy
    obtain ⟨x', hx', rfl⟩ := Option.map_eq_some_iff.1 hx
    obtain ⟨y', hy', rfl⟩ := Option.map_eq_some_iff.1 hy
    have := mul_le_mul_of_nonneg_left (hle i x' y' hx' hy') hc
    linarith) hfit
  obtain ⟨u, e5, h5⟩ := mapped_rep (fun x => c * x + d) h3
  refine ⟨t', u, _, by rw [e1, ok_bind, e2, ok_bind, e4], by rw [e3, ok_bind, e5], h4, ?_⟩
  rw [List.map_flatMap] at h5
  have : ∀ k, (evenRow xs ys len k).map (fun x => c * x + d) =
      evenRow (xs.map fun x => c * x + d) (ys.map fun x => c * x + d) len k := by
    intro k
    unfold evenRow
    rw [List.map_zipWith, List.zipWith_map]
    congr 1
    funext x y
    split
    · ring
    · ring
  rwa [funext this] at h5

/-- C105: a run of entries of `linspace` is the `linspace` from its first entry to its last. -/
theorem C105_linspace_run (ln exp sqrt : K → K) (powf : K → K → K) {a b : Tensor K} {ds : List Nat} {xs ys : List K}
    {len : Nat} (ha : Rep a ds xs) (hb : Rep b ds ys) (hr : ds.length < 5) (hne : 0 < ds.prod)
    (hle : ∀ (i : Nat) x y, xs[i]? = some x → ys[i]? = some y → x ≤ y) (hfit : Fits (len :: ds)) :
    ∃ t zs, Init.linspace (.exact ln exp sqrt powf) a b len = .ok t ∧ Rep t (len :: ds) zs ∧
      ∀ lo n p q ps qs, 0 < n → lo + n ≤ len → Rep p ds ps → Rep q ds qs →
        (∀ is, at? ds ps is = at? (len :: ds) zs (lo :: is)) → (∀ is, at? ds qs is = at? (len :: ds) zs ((lo + n - 1) :: is)) →
        Same (t.subslice lo n) (Init.linspace (.exact ln exp sqrt powf) p q n) (n :: ds) := by
  obtain ⟨t, e, h⟩ := linspace_rows ln exp sqrt powf (len := len) ha hb hr hne hle hfit
  have hxy : xs.length = ys.length := by rw [ha.length, hb.length]
  have hrow : ∀ k, (evenRow xs ys len k).length = ds.prod := fun k => by rw [evenRow_length hxy, ha.length]
  have hat : ∀ {k ps}, k < len → ps.length = ds.prod →
      (∀ is, at? ds ps is = at? (len :: ds) ((List.range len).flatMap (evenRow xs ys len)) (k :: is)) → ps = evenRow xs ys len k := by
    intro k ps hk hp h
    apply at_ext hp (hrow k)
    intro is
    rw [h is]
    have h1 := at_part (ds := ds) (d := len) (lo := k) (n := 1) (a := 0) (j := is)
      (xs := (List.range len).flatMap (evenRow xs ys len)) (by omega) (by omega)
    rw [Nat.add_zero] at h1
    rw [← h1]
    unfold outerPart
    rw [rows_part hrow (by omega)]
    rw [at_one]
    simp
  refine ⟨t, _, e, h, ?_⟩
  intro lo n p q ps qs hn hlo hp hq hps hqs
  have hps := hat (by omega) hp.length hps
  have hqs := hat (by omega) hq.length hqs
  subst hps; subst hqs
  have hle' : ∀ (i : Nat) x y, (evenRow xs ys len lo)[i]? = some x → (evenRow xs ys len (lo + n - 1))[i]? = some y → x ≤ y := by
    intro i x y hx hy
    unfold evenRow at hx hy
    rw [List.getElem?_zipWith] at hx hy
    cases hxi : xs[i]? with
    | none => rw [hxi] at hx; simp at hx
    | some u =>
      cases hyi : ys[i]? with
      | none => rw [hyi, hxi] at hx; simp at hx
      | some v =>
        rw [hxi, hyi] at hx hy
        simp only [Option.some.injEq] at hx hy
        rw [← hx, ← hy]
        have h1 := hle i u v hxi hyi
        have h2 : (lo : K) ≤ ((lo + n - 1 : Nat) : K) := Nat.cast_le.2 (by omega)
        have h3 : (0 : K) ≤ if 1 < len then (v - u) / ((len - 1 : Nat) : K) else 0 := by
          split
          · exact div_nonneg (by linarith) (Nat.cast_nonneg _)
          · exact le_rfl
        have := mul_le_mul_of_nonneg_left h2 h3
        linarith
  have hf : Fits (n :: ds) := Fits.mono (pre := []) hfit (by omega)
  obtain ⟨u, e1, h1⟩ := linspace_rows ln exp sqrt powf (len := n) hp hq hr hne hle' hf
  obtain ⟨v, e2, h2⟩ := (C09_subslice h (pos_of_prod_pos hne) lo n).1 ⟨hn, hlo⟩
  refine ⟨v, u, _, e2, e1, h2, ?_⟩
  rw [rows_part hrow hlo]
  have : (List.range n).flatMap (fun k => evenRow xs ys len (lo + k)) =
      (List.range n).flatMap (evenRow (evenRow xs ys len lo) (evenRow xs ys len (lo + n - 1)) n) := by
    apply List.flatMap_congr
    intro k hk
    have hk := List.mem_range.1 hk
    apply List.ext_getElem?
    intro i
    unfold evenRow
    simp only [List.getElem?_zipWith]
    cases xs[i]? with
    | none => rfl
    | some u =>
      cases ys[i]? with
      | none => rfl
      | some v =>
        simp only [Option.some.injEq]
        by_cases h1 : 1 < n
        · have h2 : 1 < len := by omega
          rw [if_pos h2, if_pos h1]
          have hn0 : ((n - 1 : Nat) : K) ≠ 0 := Nat.cast_ne_zero.2 (by omega)
          have e : lo + n - 1 = lo + (n - 1) := by omega
          rw [e]
          push_cast
          field_simp
          ring
        · have : k = 0 := by omega
          subst this
          simp
  rwa [this]

/-- C105: with `c` times as many steps, every `c`-th entry is that of the shorter sequence. -/
theorem C105_linspace_refined (ln exp sqrt : K → K) (powf : K → K → K) {a b : Tensor K} {ds : List Nat} {xs ys : List K}
    {n c : Nat} (hn : 0 < n) (hc : 0 < c) (ha : Rep a ds xs) (hb : Rep b ds ys) (hr : ds.length < 5) (hne : 0 < ds.prod)
    (hle : ∀ (i : Nat) x y, xs[i]? = some x → ys[i]? = some y → x ≤ y) (hfit : Fits ((n * c + 1) :: ds)) :
    ∃ t u zs ws, Init.linspace (.exact ln exp sqrt powf) a b (n * c + 1) = .ok t ∧
      Init.linspace (.exact ln exp sqrt powf) a b (n + 1) = .ok u ∧ Rep t ((n * c + 1) :: ds) zs ∧ Rep u ((n + 1) :: ds) ws ∧
      ∀ k is, k ≤ n → at? ((n * c + 1) :: ds) zs ((k * c) :: is) = at? ((n + 1) :: ds) ws (k :: is) := by
  have hnc : n ≤ n * c := Nat.le_mul_of_pos_right n hc
  obtain ⟨t, e1, h1⟩ := linspace_rows ln exp sqrt powf ha hb hr hne hle hfit
  obtain ⟨u, e2, h2⟩ := linspace_rows ln exp sqrt powf (len := n + 1) ha hb hr hne hle (Fits.mono (pre := []) hfit (by omega))
  refine ⟨t, u, _, _, e1, e2, h1, h2, ?_⟩
  intro k is hk
  have hkc : k * c ≤ n * c := Nat.mul_le_mul_right c hk
  have hxy : xs.length = ys.length := by rw [ha.length, hb.length]
  have hrow : ∀ len k, (evenRow xs ys len k).length = ds.prod := fun len k => by rw [evenRow_length hxy, ha.length]
  have key : ∀ {len k}, k < len → at? (len :: ds) ((List.range len).flatMap (evenRow xs ys len)) (k :: is) =
      at? (1 :: ds) (evenRow xs ys len k) (0 :: is) := by
    intro len k hk
    have h1 := at_part (ds := ds) (d := len) (lo := k) (n := 1) (a := 0) (j := is)
      (xs := (List.range len).flatMap (evenRow xs ys len)) (by omega) (by omega)
    rw [Nat.add_zero] at h1
    rw [← h1]
    unfold outerPart
    rw [rows_part (hrow len) (by omega)]
    simp
  rw [key (by omega), key (by omega)]
  congr 1
  unfold evenRow
  congr 1
  funext x y
  rw [if_pos (by omega), if_pos (by omega)]
  have h3 : ((n : Nat) : K) ≠ 0 := Nat.cast_ne_zero.2 (by omega)
  have h4 : ((c : Nat) : K) ≠ 0 := Nat.cast_ne_zero.2 (by omega)
  simp only [Nat.add_sub_cancel]
  push_cast
  field_simp

/-- C105: opposite entries lie evenly around the middle. -/
theorem C105_linspace_symmetric (ln exp sqrt : K → K) (powf : K → K → K) {a b : Tensor K} {ds : List Nat} {xs ys : List K}
    {len : Nat} (h2 : 2 ≤ len) (ha : Rep a ds xs) (hb : Rep b ds ys) (hr : ds.length < 5) (hne : 0 < ds.prod)
    (hle : ∀ (i : Nat) x y, xs[i]? = some x → ys[i]? = some y → x ≤ y) (hfit : Fits (len :: ds)) :
    ∃ t zs, Init.linspace (.exact ln exp sqrt powf) a b len = .ok t ∧ Rep t (len :: ds) zs ∧
      ∀ k l is x y u v, k + l + 1 = len → at? ds xs is = some x → at? ds ys is = some y →
        at? (len :: ds) zs (k :: is) = some u → at? (len :: ds) zs (l :: is) = some v → u + v = x + y := by
  obtain ⟨t, zs, e, ht, hat⟩ := C35_linspace_partial (.exact ln exp sqrt powf) ha hb hr hne
    (by intro i x y hx hy; simpa [FOps.exact] using hle i x y hx hy) hfit
  refine ⟨t, zs, e, ht, ?_⟩
  intro k l is x y u v hkl hx hy hu hv
  rw [hat k is x y (by omega) hx hy] at hu
  rw [hat l is x y (by omega) hx hy] at hv
  simp only [FOps.exact, show 1 < len by omega, if_true, Option.some.injEq] at hu hv
  have h3 : ((len - 1 : Nat) : K) ≠ 0 := Nat.cast_ne_zero.2 (by omega)
  have h4 : ((len - 1 : Nat) : K) = k + l := by rw [← hkl]; push_cast; ring
  rw [h4] at hu hv h3
  rw [← hu, ← hv]
  field_simp
  ring

/-- C105: the mean of a scalar `linspace` is the middle of its ends. -/
theorem C105_linspace_mean (ln exp sqrt : K → K) (powf : K → K → K) (hsq : sqrt 0 = 0) {a b : Tensor K} {x y : K} {len : Nat}
    (h2 : 2 ≤ len) (h32 : len < 2 ^ 32) (ha : Rep a [] [x]) (hb : Rep b [] [y]) (hle : x ≤ y) :
    ∃ u, (Init.linspace (.exact ln exp sqrt powf) a b len >>= reduceMean (.exact ln exp sqrt powf)) = .ok u ∧
      Rep u [] [(x + y) / 2] := by
  obtain ⟨t, e, h⟩ := linspace_rows ln exp sqrt powf (len := len) ha hb (by simp) (by simp) (by
    intro i x' y' hx hy
    cases i with
    | zero => simp at hx hy; rw [← hx, ← hy]; exact hle
    | succ i => simp at hx) (fits_one h32)
  have hl : ((List.range len).flatMap (evenRow [x] [y] len)) =
      (List.range len).map fun k : Nat => x + (y - x) / ((len - 1 : Nat) : K) * k := by
    rw [List.map_eq_flatMap]
    apply List.flatMap_congr
    intro k _
    simp [evenRow, show 1 < len by omega]
  rw [hl] at h
  obtain ⟨u, e2, h3⟩ := (C42_whole ln exp sqrt powf hsq h (by
    intro h0; have := congrArg List.length h0; simp at this; omega)).1
  refine ⟨u, by rw [e, ok_bind, e2], ?_⟩
  have hm : mean ((List.range len).map fun k : Nat => x + (y - x) / ((len - 1 : Nat) : K) * k) = (x + y) / 2 := by
    have hs : ∀ (n : Nat) (c : K), ((List.range n).map fun k : Nat => x + c * k).sum * 2 = n * (2 * x) + c * (n * (n - 1)) := by
      intro n c
      induction n with
      | zero => simp
      | succ n ih =>
        rw [List.range_succ, List.map_append, List.sum_append, add_mul, ih]
        simp
        ring
    have h4 : ((len : Nat) : K) ≠ 0 := Nat.cast_ne_zero.2 (by omega)
    have h5 : ((len - 1 : Nat) : K) = (len : K) - 1 := by rw [Nat.cast_sub (by omega)]; simp
    have h6 : (len : K) - 1 ≠ 0 := by rw [← h5]; exact Nat.cast_ne_zero.2 (by omega)
    have := hs len ((y - x) / ((len - 1 : Nat) : K))
    unfold mean
    rw [List.length_map, List.length_range, div_eq_div_iff h4 two_ne_zero, this, h5]
    field_simp
    ring
  rwa [hm] at h3

end linspace

/-! ### arange -/

section arange

variable [Field K] [LinearOrder K] [IsStrictOrderedRing K]

/-- `arange` ends, with this result. -/
def ArangeIs (ln exp sqrt : K → K) (powf : K → K → K) (start stop step : K) (t : Tensor K) : Prop :=
  ∃ N, ∀ fuel, N < fuel → Init.arange (.exact ln exp sqrt powf) fuel start stop step = some (.ok t)

theorem arange_is (ln exp sqrt : K → K) (powf : K → K → K) {start stop step : K} (hle : start ≤ stop) (hs : 0 < step)
    {n : Nat} (h32 : n < 2 ^ 32) (hn : ∀ k, k < n → start + k * step < stop) (hstop : stop ≤ start + n * step) :
    ∃ t, ArangeIs ln exp sqrt powf start stop step t ∧ Rep t [n] ((List.range n).map fun k : Nat => start + k * step) := by
  have hrs : ∀ k, runningSum (.exact ln exp sqrt powf) start step k = start + k * step := by
    intro k
    induction k with
    | zero => simp [runningSum]
    | succ k ih =>
      show runningSum (.exact ln exp sqrt powf) start step k + step = _
      rw [ih]; push_cast; ring
  obtain ⟨t, hr, hf⟩ := C37_ascending_any (.exact ln exp sqrt powf) (start := start) (stop := stop) (step := step) (n := n)
    (by simpa [FOps.exact] using hs.ne') (by simpa [FOps.exact] using hle)
    (by simpa [FOps.exact] using hs) h32 (by intro k hk; rw [hrs]; simpa [FOps.exact] using hn k hk)
    (by rw [hrs]; simpa [FOps.exact] using hstop)
  refine ⟨t, ⟨n, fun fuel h => hf fuel h⟩, ?_⟩
  rwa [funext hrs] at hr

/-- C105: scaling start, end and step by a positive factor and shifting start and end does the same to the sequence. -/
theorem C105_arange_affine [Archimedean K] (ln exp sqrt : K → K) (powf : K → K → K) {start stop step : K}
    (hle : start ≤ stop) (hs : 0 < step) (h32 : stop ≤ start + ((2 ^ 32 - 1 : Nat) : K) * step) {c : K} (hc : 0 < c) (d : K) :
    ∃ t u n, ArangeIs ln exp sqrt powf start stop step t ∧
      ArangeIs ln exp sqrt powf (c * start + d) (c * stop + d) (c * step) u ∧
      Same (mapped (fun x => c * x + d) t) (.ok u) [n] := by
  obtain ⟨n, t, hr, hk, hf⟩ := C37_ascending_partial ln exp sqrt powf hle hs h32
  have hn : n < 2 ^ 32 := by
    by_contra h
    have := (hk (2 ^ 32 - 1)).1 (by omega)
    linarith
  have hstop : stop ≤ start + n * step := not_lt.1 fun h => lt_irrefl _ ((hk n).2 h)
  obtain ⟨u, h1, h2⟩ := arange_is ln exp sqrt powf (start := c * start + d) (stop := c * stop + d) (step := c * step) (n := n)
    (by have := mul_le_mul_of_nonneg_left hle hc.le; linarith) (mul_pos hc hs) hn
    (by intro k hkn
        have := mul_lt_mul_of_pos_left ((hk k).1 hkn) hc
        linarith)
    (by have := mul_le_mul_of_nonneg_left hstop hc.le; linarith)
  obtain ⟨v, e, h3⟩ := mapped_rep (fun x => c * x + d) hr
  refine ⟨t, u, n, ⟨n, fun fuel h => hf fuel h⟩, h1, v, u, _, e, rfl, h3, ?_⟩
  rw [List.map_map]
  convert h2 using 2
  funext k
  simp only [Function.comp]
  ring

/-- C105: sequences that meet at one of the entries are joined to the whole sequence. -/
theorem C105_arange_joined [Archimedean K] (ln exp sqrt : K → K) (powf : K → K → K) {start stop step : K} {m : Nat}
    (hm : 0 < m) (hs : 0 < step) (hlt : start + m * step < stop) (h32 : stop ≤ start + ((2 ^ 32 - 1 : Nat) : K) * step) :
    ∃ t u v n, ArangeIs ln exp sqrt powf start (start + m * step) step t ∧
      ArangeIs ln exp sqrt powf (start + m * step) stop step u ∧ ArangeIs ln exp sqrt powf start stop step v ∧
      Same (Tensor.concatenate [t, u]) (.ok v) [n] := by
  have hms : (0 : K) < m * step := mul_pos (Nat.cast_pos.2 hm) hs
  obtain ⟨n, v, hr, hk, hf⟩ := C37_ascending_partial ln exp sqrt powf (by linarith : start ≤ stop) hs h32
  have hn : n < 2 ^ 32 := by
    by_contra h
    have := (hk (2 ^ 32 - 1)).1 (by omega)
    linarith
  have hmn : m < n := (hk m).2 hlt
  have hstop : stop ≤ start + n * step := not_lt.1 fun h => lt_irrefl _ ((hk n).2 h)
  obtain ⟨t, h1, h2⟩ := arange_is ln exp sqrt powf (start := start) (stop := start + m * step) (step := step) (n := m)
    (by linarith) hs (by omega) (by
      intro k hkm
      have := mul_lt_mul_of_pos_right (Nat.cast_lt.2 hkm : (k : K) < m) hs
      linarith) le_rfl
  obtain ⟨r, rfl⟩ := Nat.exists_eq_add_of_le hmn.le
  obtain ⟨u, h3, h4⟩ := arange_is ln exp sqrt powf (start := start + m * step) (stop := stop) (step := step) (n := r)
    hlt.le hs (by omega) (by
      intro k hkm
      have := (hk (m + k)).1 (by omega)
      push_cast at this
      linarith) (by push_cast at hstop; linarith)
  have hrep : RepAll [t, u] ([(m, (List.range m).map fun k : Nat => start + k * step),
      (r, (List.range r).map fun k : Nat => start + m * step + k * step)].map fun p => (p.1 :: [], p.2)) := .cons h2 (.cons h4 .nil)
  obtain ⟨w, out, e, -, hw, hcat⟩ := C27_concatenate_outer_partial hrep (by simp) rfl (by simpa using hn)
    (fits_one (by simpa using hn)) (by simp)
  refine ⟨t, u, v, m + r, h1, h3, ⟨m + r, fun fuel h => hf fuel h⟩, w, v, _, e, rfl, ?_, hr⟩
  have hout : out = ((List.range m).map fun k : Nat => start + k * step) ++
      (List.range r).map fun k : Nat => start + m * step + k * step := by
    have hl : out.length = m + r := by simpa using hw.length
    have hp := eq_partsOf (D := m + r) (by simpa using hl) (by simp) hcat
    simp only [List.map_cons, List.map_nil, partsOf, outerPart, List.prod_nil, Nat.mul_one, Nat.zero_mul, List.drop_zero,
      Nat.zero_add, List.cons.injEq, Prod.mk.injEq, true_and, and_true] at hp
    rw [hp.1, hp.2, List.take_of_length_le (l := out.drop m) (by rw [List.length_drop]; omega), List.take_append_drop]
  rw [hout] at hw
  have e : ((List.range (m + r)).map fun k : Nat => start + k * step) = ((List.range m).map fun k : Nat => start + k * step) ++
      (List.range r).map fun k : Nat => start + m * step + k * step := by
    rw [List.range_add, List.map_append, List.map_map]
    congr 1
    apply List.map_congr_left
    intro k _
    simp only [Function.comp]
    push_cast
    ring
  rw [e]
  simpa using hw

/-- C105: `arange(0, n, 1)` is `linspace(0, n - 1, n)`. -/
theorem C105_arange_linspace (ln exp sqrt : K → K) (powf : K → K → K) {n : Nat} (hn : 0 < n) (h32 : n < 2 ^ 32) {a b : Tensor K}
    (ha : Rep a [] [0]) (hb : Rep b [] [(n : K) - 1]) :
    ∃ t, ArangeIs ln exp sqrt powf 0 (n : K) 1 t ∧ Same (.ok t) (Init.linspace (.exact ln exp sqrt powf) a b n) [n] := by
  have h1n : (1 : K) ≤ n := by exact_mod_cast hn
  obtain ⟨t, h1, h2⟩ := arange_is ln exp sqrt powf (start := 0) (stop := (n : K)) (step := 1) (n := n)
    (Nat.cast_nonneg n) one_pos h32 (by intro k hk; simpa using hk) (by simp)
  obtain ⟨u, e, h⟩ := linspace_rows ln exp sqrt powf (len := n) ha hb (by simp) (by simp) (by
    intro i x' y' hx hy
    cases i with
    | zero => simp at hx hy; rw [← hx, ← hy]; linarith
    | succ i => simp at hx) (fits_one h32)
  refine ⟨t, h1, t, u, _, rfl, e, h2, ?_⟩
  convert h using 1
  rw [List.map_eq_flatMap]
  apply List.flatMap_congr
  intro k hk
  have hk := List.mem_range.1 hk
  by_cases h1 : 1 < n
  · have : (n : K) - 1 ≠ 0 := by
      have : (1 : K) < n := by exact_mod_cast h1
      linarith
    have hc : ((n - 1 : Nat) : K) = (n : K) - 1 := by rw [Nat.cast_sub (by omega)]; simp
    simp [evenRow, h1, hc, this]
  · have : k = 0 := by omega
    subst this
    simp [evenRow]

end arange

/-! ### matrices -/

section matrices

variable {α : Type}

theorem matrix_ext {r c : Nat} {xs ys : List α} (hx : xs.length = r * c) (hy : ys.length = r * c)
    (h : ∀ i j, i < r → j < c → at? [r, c] xs [i, j] = at? [r, c] ys [i, j]) : xs = ys := by
  apply at_ext (ds := [r, c]) (by simpa using hx) (by simpa using hy)
  intro is
  match is with
  | [i, j] =>
    by_cases hi : i < r
    · by_cases hj : j < c
      · exact h i j hi hj
      · simp [at?, ravel, hj]
    · simp [at?, ravel, hi]
  | [] => rfl
  | [_] => by_cases hi : ‹Nat› < r <;> simp [at?, ravel, hi]
  | a :: b :: _ :: _ =>
    by_cases hi : a < r
    · by_cases hj : b < c <;> simp [at?, ravel, hi, hj]
    · simp [at?, ravel, hi]

/-- C105: `eye` is the diagonal matrix of ones, and its own transpose; its rows are the `one_hot` vectors. -/
theorem C105_eye [Zero α] [One α] {n : Nat} (hn : 0 < n) (h : n * n < 2 ^ 32) {v : Tensor α}
    (hv : Rep v [n] (List.replicate n 1)) :
    Same (Init.diagflat v) (Init.eye n) [n, n] ∧ Same (Init.eye n >>= fun t : Tensor α => t.transpose) (Init.eye n) [n, n] ∧
    ∀ (fo : FOps α), fo.zero = 0 → fo.one = 1 → ∀ i, i < n → ∃ r xs, (Init.eye n >>= fun t : Tensor α => t.subslice i 1) = .ok r ∧
      Rep r [1, n] xs ∧ ∃ o, Init.oneHot fo [i] n = .ok o ∧ Rep o [n] xs := by
  obtain ⟨e, xs, he, -, hr, hat⟩ := C33_eye_partial (α := α) hn h
  have hxl : xs.length = n * n := by simpa using hr.length
  have hne : xs ≠ [] := by
    rintro rfl
    have := Nat.mul_pos hn hn
    simp at hxl; omega
  refine ⟨?_, ?_, ?_⟩
  · obtain ⟨t, ys, et, ht, hy⟩ := C33_diagflat (xs := List.replicate n (1 : α)) (v := v) (by simpa using hv) (by simpa using h)
    rw [List.length_replicate] at ht hy
    have : ys = xs := by
      refine matrix_ext (by simpa using ht.length) hxl fun i j hi hj => ?_
      rw [hat i j hi hj, hy i j 1 (by simp [hi]) hj]
    subst this
    exact ⟨t, e, _, et, he, ht, hr⟩
  · obtain ⟨u, ys, eu, hu, hy⟩ := C26_transpose (pre := []) hr hne
    have : ys = xs := by
      refine matrix_ext (by simpa using hu.length) hxl fun i j hi hj => ?_
      have := hy [] i j rfl
      simp only [List.nil_append] at this
      rw [this, hat i j hi hj, hat j i hj hi]
      simp [eq_comm]
    subst this
    exact ⟨u, e, _, by rw [he, ok_bind, eu], he, hu, hr⟩
  · intro fo h0 h1 i hi
    obtain ⟨r, er, hrr⟩ := (C09_subslice hr (by simpa using hn) i 1).1 ⟨by omega, by omega⟩
    obtain ⟨o, zs, eo, ho, hz⟩ := C38_one_hot fo (indices := [i]) (n := n) (lt_of_sq h) (by simpa using hi)
    refine ⟨r, _, by rw [he, ok_bind, er], hrr, o, eo, ?_⟩
    have hl : ((xs.drop (i * [n].prod)).take (1 * [n].prod)).length = n := by
      have := hrr.length; simpa using this
    have : zs = (xs.drop (i * [n].prod)).take (1 * [n].prod) := by
      apply List.ext_getElem?
      intro j
      by_cases hj : j < n
      · rw [hz j hj, List.getElem?_take_of_lt (by simpa using hj), List.getElem?_drop]
        have := hat i j hi hj
        simp only [at?, ravel, hi, hj, if_true, Option.map_some, Option.bind_some, List.prod_nil, Nat.mul_one, Nat.add_zero] at this
        rw [List.prod_cons, List.prod_nil, Nat.mul_one]
        simp only [List.prod_cons, List.prod_nil, Nat.mul_one] at this
        rw [this, h0, h1]
        simp [eq_comm]
      · have hzl : zs.length = n := by simpa using ho.length
        rw [List.getElem?_eq_none (by omega), List.getElem?_eq_none (by omega)]
    rwa [this] at ho

/-- C105: `tri` is the lower triangle of the matrix of ones; the lower triangle of `eye` is `eye`, and so is the upper. -/
theorem C105_tri [Zero α] [One α] {n : Nat} (hn : 0 < n) (h : n * n < 2 ^ 32) {v : Tensor α}
    (hv : Rep v [n, n] (List.replicate (n * n) 1)) :
    Same (Init.tril v) (Init.tri n) [n, n] ∧ Same (Init.eye n >>= fun t : Tensor α => Init.tril t) (Init.eye n) [n, n] ∧
      Same (Init.eye n >>= fun t : Tensor α => Init.triu t) (Init.eye n) [n, n] := by
  obtain ⟨e, xs, he, -, hr, hat⟩ := C33_eye_partial (α := α) hn h
  have hxl : xs.length = n * n := by simpa using hr.length
  have hnn := Nat.mul_pos hn hn
  refine ⟨?_, ?_, ?_⟩
  · obtain ⟨t, ys, et, ht, hy⟩ := C33_tri (α := α) h
    obtain ⟨u, zs, eu, hu, hz⟩ := C33_tril_partial (ds := []) hv hnn
    have : zs = ys := by
      refine matrix_ext (by simpa using hu.length) (by simpa using ht.length) fun i j hi hj => ?_
      have h1 := hz [] i j 1 rfl (by
        have := lt_mul_add hi hj
        simp [at?, ravel, hi, hj, this])
      simp only [List.nil_append] at h1
      rw [h1, hy i j hi hj]
    subst this
    exact ⟨u, t, _, eu, et, hu, ht⟩
  · obtain ⟨u, zs, eu, hu, hz⟩ := C33_tril_partial (ds := []) hr hnn
    have : zs = xs := by
      refine matrix_ext (by simpa using hu.length) hxl fun i j hi hj => ?_
      have h1 := hz [] i j _ rfl (hat i j hi hj)
      simp only [List.nil_append] at h1
      rw [h1, hat i j hi hj]
      split
      · rfl
      · rw [if_neg (by omega)]
    subst this
    exact ⟨u, e, _, by rw [he, ok_bind, eu], he, hu, hr⟩
  · obtain ⟨u, zs, eu, hu, hz⟩ := C33_triu_partial (ds := []) hr hnn
    have : zs = xs := by
      refine matrix_ext (by simpa using hu.length) hxl fun i j hi hj => ?_
      have h1 := hz [] i j _ rfl (hat i j hi hj)
      simp only [List.nil_append] at h1
      rw [h1, hat i j hi hj]
      split
      · rfl
      · rw [if_neg (by omega)]
    subst this
    exact ⟨u, e, _, by rw [he, ok_bind, eu], he, hu, hr⟩

/-- C105: the diagonal matrix of a map that keeps zero, and of the transposed. -/
theorem C105_diagflat [Zero α] {β : Type} [Zero β] {v : Tensor α} {n : Nat} {xs : List α} (hv : Rep v [n] xs) (hn : 0 < n)
    (h : n * n < 2 ^ 32) (f : α → β) (hf : f 0 = 0) :
    Same (mapped f v >>= Init.diagflat) (Init.diagflat v >>= mapped f) [n, n] ∧
    Same (Init.diagflat v >>= fun t => t.transpose) (Init.diagflat v) [n, n] := by
  have hxl : xs.length = n := by simpa using hv.length
  subst hxl
  obtain ⟨t, ys, et, ht, hy⟩ := C33_diagflat hv h
  have hyl : ys.length = xs.length * xs.length := by simpa using ht.length
  have hget : ∀ i, i < xs.length → ∃ x, xs[i]? = some x := fun i hi => ⟨xs[i], List.getElem?_eq_getElem hi⟩
  constructor
  · obtain ⟨v', e1, h1⟩ := mapped_rep f hv
    obtain ⟨t', ys', et', ht', hy'⟩ := C33_diagflat (xs := xs.map f) (v := v') (by simpa using h1) (by simpa using h)
    obtain ⟨u, e2, h2⟩ := mapped_rep f ht
    rw [List.length_map] at ht' hy'
    have : ys' = ys.map f := by
      refine matrix_ext (by simpa using ht'.length) (by simpa using hyl) fun i j hi hj => ?_
      obtain ⟨x, hx⟩ := hget i hi
      rw [hy' i j (f x) (by simp [hx]) hj]
      have h3 := hy i j x hx hj
      unfold at? at h3 ⊢
      cases hr : ravel [xs.length, xs.length] [i, j] with
      | none => rw [hr] at h3; simp at h3
      | some p =>
        rw [hr] at h3
        simp only [Option.bind_some] at h3 ⊢
        rw [List.getElem?_map, h3]
        by_cases hij : i = j <;> simp [hij, hf]
    subst this
    exact ⟨t', u, _, by rw [e1, ok_bind, et'], by rw [et, ok_bind, e2], ht', h2⟩
  · have hne : ys ≠ [] := by
      rintro rfl
      have := Nat.mul_pos hn hn
      rw [← hyl] at this
      simp at this
    obtain ⟨u, zs, eu, hu, hz⟩ := C26_transpose (pre := []) ht hne
    have : zs = ys := by
      refine matrix_ext (by simpa using hu.length) hyl fun i j hi hj => ?_
      have := hz [] i j rfl
      simp only [List.nil_append] at this
      obtain ⟨x, hx⟩ := hget i hi
      obtain ⟨y, hy'⟩ := hget j hj
      rw [this, hy i j x hx hj, hy j i y hy' hi]
      by_cases hij : i = j
      · subst hij; rw [hx] at hy'; cases hy'; rfl
      · simp [hij, Ne.symm hij]
    subst this
    exact ⟨u, t, _, by rw [et, ok_bind, eu], et, hu, ht⟩

end matrices

/-! ### examples -/

section examples

/-- Two starts and two ends. -/
def exStarts : Tensor Rat := { shape := ofDims [2], offset := 0, size := 2, data := [0, 10] }
def exEnds : Tensor Rat := { shape := ofDims [2], offset := 0, size := 2, data := [4, 10] }

theorem exStarts_rep : Rep exStarts [2] [0, 10] := ⟨⟨wf_ofDims ⟨by simp, by simp⟩, rfl, by simp [exStarts]⟩, rfl, rfl⟩
theorem exEnds_rep : Rep exEnds [2] [4, 10] := ⟨⟨wf_ofDims ⟨by simp, by simp⟩, rfl, by simp [exEnds]⟩, rfl, rfl⟩

theorem exFromTo_le (i : Nat) (x y : Rat) (hx : [0, 10][i]? = some x) (hy : [4, 10][i]? = some y) : x ≤ y := by
  match i with
  | 0 => simp at hx hy; rw [← hx, ← hy]; norm_num
  | 1 => simp at hx hy; rw [← hx, ← hy]
  | i + 2 => simp at hx

example : Same (do
      let a ← mapped (fun x => 3 * x + 1) exStarts
      let b ← mapped (fun x => 3 * x + 1) exEnds
      Init.linspace (.exact id id id fun x _ => x) a b 5)
    (Init.linspace (.exact id id id fun x _ => x) exStarts exEnds 5 >>= mapped fun x => 3 * x + 1) [5, 2] :=
  C105_linspace_affine id id id (fun x _ => x) exStarts_rep exEnds_rep (by simp) (by simp) exFromTo_le
    (fits_of_pos (by simp) (by simp)) (by norm_num) 1

/-- Entries 1 to 3 of the sequences above, which start at 1 and 10 and end at 3 and 10. -/
example {p q : Tensor Rat} (hp : Rep p [2] [1, 10]) (hq : Rep q [2] [3, 10]) :
    Same (Init.linspace (.exact id id id fun x _ => x) exStarts exEnds 5 >>= fun t => t.subslice 1 3)
      (Init.linspace (.exact id id id fun x _ => x) p q 3) [3, 2] := by
  obtain ⟨t, zs, e, hr, h⟩ := C105_linspace_run id id id (fun x _ => x) (len := 5) exStarts_rep exEnds_rep (by simp) (by simp)
    exFromTo_le (fits_of_pos (by simp) (by simp))
  obtain ⟨t', e', hr'⟩ := linspace_rows id id id (fun x _ => x) (len := 5) exStarts_rep exEnds_rep (by simp) (by simp)
    exFromTo_le (fits_of_pos (by simp) (by simp))
  rw [e] at e'; cases e'
  rw [e, ok_bind]
  have hz : zs = [0, 10, 1, 10, 2, 10, 3, 10, 4, 10] := by
    rw [Except.ok.inj (hr.elems.symm.trans hr'.elems)]
    norm_num [evenRow, List.range_succ]
  refine h 1 3 p q _ _ (by omega) (by omega) hp hq ?_ ?_
  · intro is
    subst hz
    match is with
    | [] => rfl
    | [0] => rfl
    | [1] => rfl
    | [i + 2] => simp [at?, ravel]
    | a :: _ :: _ => by_cases ha : a < 2 <;> simp [at?, ravel, ha]
  · intro is
    subst hz
    match is with
    | [] => rfl
    | [0] => rfl
    | [1] => rfl
    | [i + 2] => simp [at?, ravel]
    | a :: _ :: _ => by_cases ha : a < 2 <;> simp [at?, ravel, ha]

/-- Nine entries contain the five. -/
example : ∃ t u zs ws, Init.linspace (.exact id id id fun x _ => x) exStarts exEnds (4 * 2 + 1) = .ok t ∧
      Init.linspace (.exact id id id fun x _ => x) exStarts exEnds (4 + 1) = .ok u ∧ Rep t [9, 2] zs ∧ Rep u [5, 2] ws ∧
      ∀ k is, k ≤ 4 → at? [9, 2] zs ((k * 2) :: is) = at? [5, 2] ws (k :: is) :=
  C105_linspace_refined id id id (fun x _ => x) (by omega) (by omega) exStarts_rep exEnds_rep (by simp) (by simp) exFromTo_le
    (fits_of_pos (by simp) (by simp))

example : ∃ t zs, Init.linspace (.exact id id id fun x _ => x) exStarts exEnds 5 = .ok t ∧ Rep t [5, 2] zs ∧
      ∀ k l is x y u v, k + l + 1 = 5 → at? [2] [0, 10] is = some x → at? [2] [4, 10] is = some y →
        at? [5, 2] zs (k :: is) = some u → at? [5, 2] zs (l :: is) = some v → u + v = x + y :=
  C105_linspace_symmetric id id id (fun x _ => x) (by omega) exStarts_rep exEnds_rep (by simp) (by simp) exFromTo_le
    (fits_of_pos (by simp) (by simp))

example {a b : Tensor Rat} (ha : Rep a [] [1]) (hb : Rep b [] [6]) :
    ∃ u, (Init.linspace (.exact id id id fun x _ => x) a b 7 >>= reduceMean (.exact id id id fun x _ => x)) = .ok u ∧
      Rep u [] [7 / 2] := by
  have := C105_linspace_mean id id id (fun x _ => x) rfl (len := 7) (by omega) (by omega) ha hb (by norm_num)
  norm_num at this ⊢
  exact this

example : ∃ t u n, ArangeIs id id id (fun x _ => x) (0 : Rat) 1 (1 / 4) t ∧
      ArangeIs id id id (fun x _ => x) (2 * 0 + 5) (2 * 1 + 5) (2 * (1 / 4)) u ∧ Same (mapped (fun x => 2 * x + 5) t) (.ok u) [n] :=
  C105_arange_affine id id id (fun x _ => x) (by norm_num) (by norm_num) (by norm_num) (by norm_num) 5

example : ∃ t u v n, ArangeIs id id id (fun x _ => x) (0 : Rat) (0 + ((3 : Nat) : Rat) * (1 / 4)) (1 / 4) t ∧
      ArangeIs id id id (fun x _ => x) (0 + ((3 : Nat) : Rat) * (1 / 4)) 2 (1 / 4) u ∧ ArangeIs id id id (fun x _ => x) 0 2 (1 / 4) v ∧
      Same (Tensor.concatenate [t, u]) (.ok v) [n] :=
  C105_arange_joined id id id (fun x _ => x) (by omega) (by norm_num) (by norm_num) (by norm_num)

example {a b : Tensor Rat} (ha : Rep a [] [0]) (hb : Rep b [] [((4 : Nat) : Rat) - 1]) :
    ∃ t, ArangeIs id id id (fun x _ => x) 0 ((4 : Nat) : Rat) 1 t ∧
      Same (.ok t) (Init.linspace (.exact id id id fun x _ => x) a b 4) [4] :=
  C105_arange_linspace id id id (fun x _ => x) (by omega) (by omega) ha hb

example {v : Tensor Int} (hv : Rep v [3] [1, 1, 1]) : Same (Init.diagflat v) (Init.eye 3) [3, 3] :=
  (C105_eye (n := 3) (by omega) (by omega) hv).1

example {v : Tensor Int} (hv : Rep v [2, 2] [1, 1, 1, 1]) : Same (Init.tril v) (Init.tri 2) [2, 2] :=
  (C105_tri (n := 2) (by omega) (by omega) hv).1

example : Same (mapped (fun x => 2 * x) exVec3 >>= Init.diagflat) (Init.diagflat exVec3 >>= mapped fun x => 2 * x) [3, 3] :=
  (C105_diagflat exVec3_rep (by omega) (by omega) (fun x => 2 * x) rfl).1

end examples

end Essay
