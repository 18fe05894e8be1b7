import Verif.Props.Grids

/-!
# C105: `logspace` and `geomspace` in terms of `linspace`
-/

namespace Essay

open Shape

variable {F : Type}

/-- Two flat arrays of rows that agree row by row. -/
theorem rows_ext {len : Nat} {ds : List Nat} {zs ws : List F} (hz : zs.length = (len :: ds).prod) (hw : ws.length = (len :: ds).prod)
    (h : ∀ k is, k < len → (ravel ds is).isSome → at? (len :: ds) zs (k :: is) = at? (len :: ds) ws (k :: is)) : zs = ws := by
  apply at_ext hz hw
  intro idx
  cases idx with
  | nil => simp [at?, ravel]
  | cons k is =>
    by_cases hk : k < len
    · cases hs : ravel ds is with
      | none => simp [at?, ravel, hs]
      | some p => exact h k is hk (by simp [hs])
    · simp [at?, ravel, hk]

theorem at_inside {ds : List Nat} {xs : List F} (hx : xs.length = ds.prod) {is : List Nat} (h : (ravel ds is).isSome) :
    ∃ x, at? ds xs is = some x := by
  obtain ⟨p, hp⟩ := Option.isSome_iff_exists.1 h
  have := ravel_lt hp
  exact ⟨xs[p]'(by omega), by simp [at?, hp, List.getElem?_eq_getElem (show p < xs.length by omega)]⟩

/-- C105, any float arithmetic, bit by bit: `logspace` is the power of the base to `linspace`. -/
theorem C105_logspace (fo : FOps F) {a b : Tensor F} {ds : List Nat} {xs ys : List F} {len : Nat}
    (ha : Rep a ds xs) (hb : Rep b ds ys) (hr : ds.length < 5) (hne : 0 < ds.prod)
    (hle : ∀ (i : Nat) x y, xs[i]? = some x → ys[i]? = some y → fo.le x y = true) (hfit : Fits (len :: ds))
    (base : Option F) :
    Same (Init.logspaceOpt fo a b len base) (Init.linspace fo a b len >>= mapped (fo.powf (base.getD (fo.ofNat 10)))) (len :: ds) := by
  obtain ⟨t, zs, e1, h1, g1⟩ := C36_logspace_partial fo ha hb hr hne hle hfit base
  obtain ⟨u, ws, e2, h2, g2⟩ := C35_linspace_partial fo ha hb hr hne hle hfit
  obtain ⟨v, e3, h3⟩ := mapped_rep (fo.powf (base.getD (fo.ofNat 10))) h2
  have : zs = ws.map (fo.powf (base.getD (fo.ofNat 10))) := by
    refine rows_ext h1.length h3.length fun k is hk hs => ?_
    obtain ⟨x, hx⟩ := at_inside ha.length hs
    obtain ⟨y, hy⟩ := at_inside hb.length hs
    rw [at_map, g1 k is x y hk hx hy, g2 k is x y hk hx hy]
    rfl
  subst this
  exact ⟨t, v, _, e1, by rw [e2, ok_bind, e3], h1, h3⟩

/-- C105, any float arithmetic, bit by bit: `geomspace` is the exponential of `linspace` between the logarithms (as a
vector, for a single pair of ends). -/
theorem C105_geomspace (fo : FOps F) {a b : Tensor F} {ds : List Nat} {xs ys : List F} {len : Nat}
    (ha : Rep a ds xs) (hb : Rep b ds ys) (hr : ds.length < 5) (hne : 0 < ds.prod)
    (hle : ∀ (i : Nat) x y, xs[i]? = some x → ys[i]? = some y → fo.le (fo.ln x) (fo.ln y) = true)
    (hfit : Fits (len :: ds)) :
    Same (Init.geomspace fo a b len) (do
        let a ← mapped fo.ln a
        let b ← mapped fo.ln b
        let t ← Init.linspace fo a b len
        let t ← mapped fo.exp t
        t.reshape (ofDims (geomDims len ds))) (geomDims len ds) := by
  obtain ⟨t, zs, e1, h1, hz, g1⟩ := C36_geomspace_partial fo ha hb (Or.inl hr) hne hle hfit
  obtain ⟨a', ea, ha'⟩ := mapped_rep fo.ln ha
  obtain ⟨b', eb, hb'⟩ := mapped_rep fo.ln hb
  obtain ⟨u, ws, e2, h2, g2⟩ := C35_linspace_partial fo ha' hb' hr hne (by
    intro i x y hx hy
    rw [List.getElem?_map] at hx hy
    obtain ⟨x', hx', rfl⟩ := Option.map_eq_some_iff.1 hx
    obtain ⟨y', hy', rfl⟩ := Option.map_eq_some_iff.1 hy
    exact hle i x' y' hx' hy') hfit
  obtain ⟨v, e3, h3⟩ := mapped_rep fo.exp h2
  have hp : (geomDims len ds).prod = (len :: ds).prod := by
    rw [← h1.length, hz, List.prod_cons]
  obtain ⟨w, e4, h4⟩ := reshape_rep h3 h1.adm h1.fits hp
  have : zs = ws.map fo.exp := by
    refine rows_ext (by rw [hz, List.prod_cons]) h3.length fun k is hk hs => ?_
    obtain ⟨x, hx⟩ := at_inside ha.length hs
    obtain ⟨y, hy⟩ := at_inside hb.length hs
    rw [at_map, g1 k is x y hk hx hy, g2 k is (fo.ln x) (fo.ln y) hk (by rw [at_map, hx]; rfl) (by rw [at_map, hy]; rfl)]
    rfl
  subst this
  exact ⟨t, w, _, e1, by rw [ea, ok_bind, eb, ok_bind, e2, ok_bind, e3, ok_bind, e4], h1, h4⟩

/-- C105, real arithmetic: `geomspace` between powers of a base of at least 1 is `logspace` between the exponents. -/
theorem C105_geomspace_logspace {a b : Tensor ℝ} {ds : List Nat} {xs ys : List ℝ} {len : Nat}
    (ha : Rep a ds xs) (hb : Rep b ds ys) (hr : ds.length < 5) (hne : 0 < ds.prod) (h2 : 2 ≤ len)
    (hle : ∀ (i : Nat) x y, xs[i]? = some x → ys[i]? = some y → x ≤ y) (hfit : Fits (len :: ds)) {base : ℝ} (hbase : 1 ≤ base) :
    Same (do
        let a ← mapped (fun x => base ^ x) a
        let b ← mapped (fun x => base ^ x) b
        Init.geomspace .real a b len)
      (Init.logspaceOpt .real a b len (some base) >>= fun t => t.reshape (ofDims (geomDims len ds))) (geomDims len ds) := by
  have hb0 : 0 < base := by linarith
  obtain ⟨a', ea, ha'⟩ := mapped_rep (fun x => base ^ x) ha
  obtain ⟨b', eb, hb'⟩ := mapped_rep (fun x => base ^ x) hb
  obtain ⟨t, zs, e1, h1, g1⟩ := C36_geomspace_real_partial ha' hb' (Or.inl hr) hne h2 (by
      intro x hx
      obtain ⟨x', -, rfl⟩ := List.mem_map.1 hx
      exact Real.rpow_pos_of_pos hb0 _) (by
    intro i x y hx hy
    rw [List.getElem?_map] at hx hy
    obtain ⟨x', hx', rfl⟩ := Option.map_eq_some_iff.1 hx
    obtain ⟨y', hy', rfl⟩ := Option.map_eq_some_iff.1 hy
    exact Real.rpow_le_rpow_of_exponent_le hbase (hle i x' y' hx' hy')) hfit
  obtain ⟨u, ws, e2, h3, g2⟩ := (C36_logspace_real_partial ha hb hr hne h2 hle hfit).1 base
  have hp : (geomDims len ds).prod = (len :: ds).prod := by
    unfold geomDims
    split <;> simp_all
  obtain ⟨w, e4, h4⟩ := reshape_rep h3 h1.adm h1.fits hp
  have : zs = ws := by
    refine rows_ext (by rw [h1.length, hp]) h3.length fun k is hk hs => ?_
    obtain ⟨x, hx⟩ := at_inside ha.length hs
    obtain ⟨y, hy⟩ := at_inside hb.length hs
    rw [g1 k is (base ^ x) (base ^ y) hk (by rw [at_map, hx]; rfl) (by rw [at_map, hy]; rfl), g2 k is x y hk hx hy,
      ← Real.rpow_sub hb0, ← Real.rpow_mul hb0.le, ← Real.rpow_add hb0]
    congr 2
    ring
  subst this
  exact ⟨t, w, _, by rw [ea, ok_bind, eb, ok_bind, e1], by rw [e2, ok_bind, e4], h1, h4⟩

/-- C105, real arithmetic: scaling both ends of `geomspace` scales the sequence. -/
theorem C105_geomspace_scaled {a b : Tensor ℝ} {ds : List Nat} {xs ys : List ℝ} {len : Nat}
    (ha : Rep a ds xs) (hb : Rep b ds ys) (hr : ds.length < 5) (hne : 0 < ds.prod) (h2 : 2 ≤ len) (hpos : ∀ x ∈ xs, 0 < x)
    (hle : ∀ (i : Nat) x y, xs[i]? = some x → ys[i]? = some y → x ≤ y) (hfit : Fits (len :: ds)) {c : ℝ} (hc : 0 < c) :
    Same (do
        let a ← mapped (fun x => c * x) a
        let b ← mapped (fun x => c * x) b
        Init.geomspace .real a b len)
      (Init.geomspace .real a b len >>= mapped fun x => c * x) (geomDims len ds) := by
  obtain ⟨a', ea, ha'⟩ := mapped_rep (fun x => c * x) ha
  obtain ⟨b', eb, hb'⟩ := mapped_rep (fun x => c * x) hb
  obtain ⟨t, zs, e1, h1, g1⟩ := C36_geomspace_real_partial ha' hb' (Or.inl hr) hne h2 (by
      intro x hx
      obtain ⟨x', hx', rfl⟩ := List.mem_map.1 hx
      exact mul_pos hc (hpos x' hx')) (by
    intro i x y hx hy
    rw [List.getElem?_map] at hx hy
    obtain ⟨x', hx', rfl⟩ := Option.map_eq_some_iff.1 hx
    obtain ⟨y', hy', rfl⟩ := Option.map_eq_some_iff.1 hy
    exact mul_le_mul_of_nonneg_left (hle i x' y' hx' hy') hc.le) hfit
  obtain ⟨u, ws, e2, h3, g2⟩ := C36_geomspace_real_partial ha hb (Or.inl hr) hne h2 hpos hle hfit
  obtain ⟨w, e4, h4⟩ := mapped_rep (fun x => c * x) h3
  have hp : (geomDims len ds).prod = (len :: ds).prod := by
    unfold geomDims
    split <;> simp_all
  have : zs = ws.map fun x => c * x := by
    refine rows_ext (by rw [h1.length, hp]) (by rw [h4.length, hp]) fun k is hk hs => ?_
    obtain ⟨x, hx⟩ := at_inside ha.length hs
    obtain ⟨y, hy⟩ := at_inside hb.length hs
    rw [at_map, g1 k is (c * x) (c * y) hk (by rw [at_map, hx]; rfl) (by rw [at_map, hy]; rfl), g2 k is x y hk hx hy,
      mul_div_mul_left _ _ hc.ne', Option.map_some, mul_assoc]
  subst this
  exact ⟨t, w, _, by rw [ea, ok_bind, eb, ok_bind, e1], by rw [e2, ok_bind, e4], h1, h4⟩

theorem exOneTwo_le (i : Nat) (x y : ℝ) (hx : [1, 2][i]? = some x) (hy : [3, 2][i]? = some y) : x ≤ y := by
  rcases i with _ | _ | i <;> simp at hx hy
  · subst hx hy; norm_num
  · subst hx hy; norm_num

/-- Two sequences at once, from 1 to 3 and from 2 to 2. -/
example {a b : Tensor ℝ} (ha : Rep a [2] [1, 2]) (hb : Rep b [2] [3, 2]) :
    Same (Init.logspaceOpt .real a b 5 none) (Init.linspace .real a b 5 >>= mapped fun x => (10 : ℝ) ^ x) [5, 2] := by
  have := C105_logspace .real (len := 5) ha hb (by simp) (by simp)
    (fun i x y hx hy => by simpa [FOps.real, FOps.exact] using exOneTwo_le i x y hx hy) (fits_of_pos (by simp) (by simp)) none
  simpa [FOps.real, FOps.exact] using this

example {a b : Tensor ℝ} (ha : Rep a [2] [1, 2]) (hb : Rep b [2] [3, 2]) :
    Same (do
        let a ← mapped (fun x => (2 : ℝ) ^ x) a
        let b ← mapped (fun x => (2 : ℝ) ^ x) b
        Init.geomspace .real a b 5)
      (Init.logspaceOpt .real a b 5 (some 2) >>= fun t => t.reshape (ofDims [5, 2])) [5, 2] :=
  C105_geomspace_logspace (len := 5) ha hb (by simp) (by simp) (by simp) exOneTwo_le (fits_of_pos (by simp) (by simp)) (by norm_num)

example {a b : Tensor ℝ} (ha : Rep a [2] [1, 2]) (hb : Rep b [2] [3, 2]) :
    Same (do
        let a ← mapped (fun x => 7 * x) a
        let b ← mapped (fun x => 7 * x) b
        Init.geomspace .real a b 5)
      (Init.geomspace .real a b 5 >>= mapped fun x => 7 * x) [5, 2] :=
  C105_geomspace_scaled (len := 5) ha hb (by simp) (by simp) (by simp) (by simp) exOneTwo_le (fits_of_pos (by simp) (by simp))
    (by norm_num)

/-- One pair of ends: the result is a vector. -/
example {a b : Tensor ℝ} (ha : Rep a [] [1]) (hb : Rep b [] [8]) :
    Same (Init.geomspace .real a b 4) (do
        let a ← mapped Real.log a
        let b ← mapped Real.log b
        let t ← Init.linspace .real a b 4
        let t ← mapped Real.exp t
        t.reshape (ofDims [4])) [4] := by
  have h := C105_geomspace .real (len := 4) ha hb (by simp) (by simp) (fun i x y hx hy => by
    rcases i with _ | i <;> simp at hx hy
    subst hx hy
    simp [FOps.real, FOps.exact]
    exact Real.log_nonneg (by norm_num)) (fits_one (by simp))
  have e : geomDims 4 [] = [4] := by simp [geomDims]
  rw [e] at h
  exact h

end Essay
