import Mathlib.Algebra.Order.Archimedean.Basic
import Mathlib.Algebra.Order.Floor.Semiring
import Mathlib.Tactic.Linarith
import Mathlib.Tactic.FieldSimp
import Mathlib.Tactic.Ring
import Verif.Props.Init

/-!
# Properties C35 - C37: linspace, logspace, geomspace, arange
-/

namespace Essay

open Shape

variable {α F : Type}

/-! ## the common part of linspace, logspace and geomspace -/

theorem space_rep {fo : FOps F} {pre post : F → F} {a b : Tensor F} {ds os : List Nat} {xs ys : List F} {len : Nat}
    (ha : Rep a ds xs) (hb : Rep b ds ys) (hne : 0 < ds.prod)
    (hle : ∀ (i : Nat) x y, xs[i]? = some x → ys[i]? = some y → fo.le (pre x) (pre y) = true)
    (hadm : Adm os) (hfit : Fits os) (hos : os.prod = len * ds.prod) :
    ∃ t, Tensor.unsafeInit (max 1 a.size * len) (ofDims os)
        (fun o => Init.spaceFill fo pre post a b (max 1 a.size) len o) = .ok t ∧
      Rep t os (spaceAll fo pre post xs ys len) := by
  have hxy : xs.length = ys.length := by rw [ha.length, hb.length]
  have hmax : max 1 a.size = xs.length := by rw [ha.size, ha.length]; omega
  rw [hmax]
  apply unsafeInit_puts_rep (by rw [spaceAll_length hxy, Nat.mul_comm]) (spaceFill_puts ha hb hle) _ hadm hfit
    (by rw [spaceAll_length hxy, hos, ha.length])
  intro p hp
  rw [spaceAll_length hxy] at hp
  have hpos := pos_right_of_lt_mul hp
  refine ⟨p % xs.length, Nat.zero_le _, Nat.mod_lt _ hpos, p / xs.length, Nat.zero_le _, div_lt_of_lt_mul' hp, ?_⟩
  have := Nat.div_add_mod p xs.length
  rw [Nat.mul_comm]; omega

theorem spaceAll_at {fo : FOps F} {pre post : F → F} {ds : List Nat} {xs ys : List F} {len k : Nat}
    (hxl : xs.length = ds.prod) (hyl : ys.length = ds.prod) (hk : k < len) {is : List Nat} {x y : F}
    (hx : at? ds xs is = some x) (hy : at? ds ys is = some y) :
    at? (len :: ds) (spaceAll fo pre post xs ys len) (k :: is) =
      some (post (fo.add (pre x) (fo.mul (Init.laneStep fo (pre x) (pre y) len) (fo.ofNat k)))) := by
  unfold spaceAll
  rw [at_flatMap (by simp) (fun b _ => by rw [spaceRow_length (by omega), hxl])]
  rw [List.getElem?_range hk, Option.bind_some]
  unfold at? at *
  cases hr : ravel ds is with
  | none => rw [hr] at hx; cases hx
  | some p =>
    rw [hr, Option.bind_some] at hx hy
    rw [Option.bind_some]
    exact spaceRow_get hx hy

theorem space_insert {ds : List Nat} {len : Nat} (hadm : Adm ds) (h5 : ds.length < 5) (hl : len < 2 ^ 32) :
    (ofDims ds).insert 0 len = .ok (ofDims (len :: ds)) ∧ Adm (len :: ds) := by
  constructor
  · rw [insert_ofDims (by omega) (by omega) (by omega), asU32_of_lt hl]; rfl
  · refine ⟨by simp; omega, ?_⟩
    intro d hd
    rcases List.mem_cons.1 hd with rfl | hd
    · exact hl
    · exact hadm.lt d hd

theorem len_lt_of_fits {ds : List Nat} {len : Nat} (hne : 0 < ds.prod) (hf : Fits (len :: ds)) : len < 2 ^ 32 := by
  have h1 := (fits_cons.1 hf).1
  calc len = len * 1 := by omega
    _ ≤ len * ds.prod := Nat.mul_le_mul_left _ hne
    _ < _ := h1

/-- Every way of calling `linspace`-like code that does not meet the conditions panics. -/
theorem space_rejects {fo : FOps F} {pre post : F → F} {a b : Tensor F} {ds : List Nat} {xs ys : List F}
    {len : Nat} (ha : Rep a ds xs) (hb : Rep b ds ys) {s : Shape}
    (hbad : ¬ (0 < ds.prod ∧ (∀ (i : Nat) x y, xs[i]? = some x → ys[i]? = some y → fo.le (pre x) (pre y) = true) ∧
      s.size = .ok (len * ds.prod))) :
    Tensor.unsafeInit (max 1 a.size * len) s (fun o => Init.spaceFill fo pre post a b (max 1 a.size) len o) =
      .error .panic := by
  have hxy : xs.length = ys.length := by rw [ha.length, hb.length]
  by_cases h0 : 0 < ds.prod
  swap
  · unfold Tensor.unsafeInit
    dsimp only
    rw [spaceFill_panic (n := 0) ha hb (Nat.lt_of_lt_of_le Nat.one_pos (Nat.le_max_left 1 a.size)), error_bind]
    rintro ⟨x, y, hx, _⟩
    have := (List.getElem?_eq_some_iff.1 hx).1
    rw [ha.length] at this; omega
  have hmax : max 1 a.size = xs.length := by rw [ha.size, ha.length]; omega
  by_cases hle : ∀ (i : Nat) x y, xs[i]? = some x → ys[i]? = some y → fo.le (pre x) (pre y) = true
  swap
  · simp only [not_forall] at hle
    obtain ⟨i, x, y, hx, hy, hn⟩ := hle
    unfold Tensor.unsafeInit
    dsimp only
    have hi : i < max 1 a.size := by rw [hmax]; exact (List.getElem?_eq_some_iff.1 hx).1
    rw [spaceFill_panic (n := i) ha hb hi, error_bind]
    rintro ⟨x', y', hx', hy', h'⟩
    rw [hx] at hx'; rw [hy] at hy'
    cases hx'; cases hy'
    exact hn h'
  have hsz : s.size ≠ .ok (len * ds.prod) := fun h => hbad ⟨h0, hle, h⟩
  rw [hmax]
  rw [unsafeInit_puts (by rw [spaceAll_length hxy, Nat.mul_comm]) (spaceFill_puts (post := post) ha hb hle)]
  · apply new_panic
    rw [spaceAll_length hxy, ha.length]; exact hsz
  · intro p hp
    rw [spaceAll_length hxy] at hp
    have hpos := pos_right_of_lt_mul hp
    refine ⟨p % xs.length, Nat.zero_le _, Nat.mod_lt _ hpos, p / xs.length, Nat.zero_le _, div_lt_of_lt_mul' hp, ?_⟩
    have := Nat.div_add_mod p xs.length
    rw [Nat.mul_comm]; omega

/-! ## C35 linspace -/

/-- C35, for any float arithmetic: `linspace(a, b, len)` of two tensors of equal dimensions (rank at most 4, at least
one element, `a <= b` everywhere) has the dimensions of the ends with a new outermost dimension `len`; entry `k` of each
lane is `a + ((b - a) / (len - 1)) * k`, computed in that arithmetic (`a + 0 * k` for `len = 1`).
Missing for the full property: ends of rank 5, see `C35_rank5_violates`. -/
theorem C35_linspace_partial (fo : FOps F) {a b : Tensor F} {ds : List Nat} {xs ys : List F} {len : Nat}
    (ha : Rep a ds xs) (hb : Rep b ds ys) (hr : ds.length < 5) (hne : 0 < ds.prod)
    (hle : ∀ (i : Nat) x y, xs[i]? = some x → ys[i]? = some y → fo.le x y = true) (hfit : Fits (len :: ds)) :
    ∃ t zs, Init.linspace fo a b len = .ok t ∧ Rep t (len :: ds) zs ∧
      ∀ k is x y, k < len → at? ds xs is = some x → at? ds ys is = some y →
        at? (len :: ds) zs (k :: is) = some (fo.add x (fo.mul
          (if 1 < len then fo.div (fo.sub y x) (fo.ofNat (len - 1)) else fo.zero) (fo.ofNat k))) := by
  obtain ⟨e1, hadm⟩ := space_insert ha.adm hr (len_lt_of_fits hne hfit)
  obtain ⟨t, e, ht⟩ := space_rep (len := len) (pre := id) (post := id) ha hb hne hle hadm hfit (by simp)
  refine ⟨t, _, ?_, ht, ?_⟩
  · unfold Init.linspace
    rw [ensure_true (by rw [ha.shape, hb.shape]), ok_bind, ha.shape, e1, ok_bind]
    exact e
  · intro k is x y hk hx hy
    rw [spaceAll_at ha.length hb.length hk hx hy]
    rfl

/-- C35: `linspace` panics whenever the ends differ in shape, have rank 5 or more, have no elements, are not ordered
somewhere, or the result would have 2^32 elements or more. -/
theorem C35_rejects (fo : FOps F) {a b : Tensor F} {ds es : List Nat} {xs ys : List F} {len : Nat}
    (ha : Rep a ds xs) (hb : Rep b es ys) (hlen : len < 2 ^ 32)
    (hbad : ¬ (ds = es ∧ ds.length < 5 ∧ 0 < ds.prod ∧
      (∀ (i : Nat) x y, xs[i]? = some x → ys[i]? = some y → fo.le x y = true) ∧ Fits (len :: ds))) :
    Init.linspace fo a b len = .error .panic := by
  unfold Init.linspace
  by_cases hde : ds = es
  swap
  · rw [ensure_false, error_bind]
    rw [ha.shape, hb.shape]
    intro h
    apply hde
    have := congrArg Shape.toDims h
    rwa [toDims_ofDims, toDims_ofDims] at this
  subst hde
  rw [ensure_true (by rw [ha.shape, hb.shape]), ok_bind]
  dsimp only
  by_cases hr : ds.length < 5
  swap
  · rw [(C02_insert ha.wf.shape ha.dims 0 len hlen).2 (by omega), error_bind]
  obtain ⟨e1, hadm⟩ := space_insert ha.adm hr hlen
  rw [ha.shape, e1, ok_bind]
  apply space_rejects (pre := id) (post := id) ha hb
  rintro ⟨h1, h2, h3⟩
  exact hbad ⟨rfl, hr, h1, h2, ((size_ofDims_iff hadm).1 h3).1⟩

/-- Ends of rank 5 are rejected although the result would have an allowed rank of 6. -/
theorem C35_rank5_violates (fo : FOps F) {a b : Tensor F} {ds : List Nat} {xs ys : List F} {len : Nat}
    (ha : Rep a ds xs) (hb : Rep b ds ys) (hlen : len < 2 ^ 32) (h5 : ds.length = 5) :
    Init.linspace fo a b len = .error .panic := C35_rejects fo ha hb hlen (by omega)

section exact

variable {K : Type} [Field K] [LinearOrder K] [IsStrictOrderedRing K]

/-- C35 in exact arithmetic: the first entry of every lane is `a`, the last is `b` (for `len >= 2`), and consecutive
entries differ by `(b - a) / (len - 1)`. -/
theorem C35_exact_partial (ln exp sqrt : K → K) (powf : K → K → K) {a b : Tensor K} {ds : List Nat} {xs ys : List K}
    {len : Nat} (ha : Rep a ds xs) (hb : Rep b ds ys) (hr : ds.length < 5) (hne : 0 < ds.prod)
    (hle : ∀ (i : Nat) x y, xs[i]? = some x → ys[i]? = some y → x ≤ y) (hfit : Fits (len :: ds)) :
    ∃ t zs, Init.linspace (.exact ln exp sqrt powf) a b len = .ok t ∧ Rep t (len :: ds) zs ∧
      ∀ is x y, at? ds xs is = some x → at? ds ys is = some y →
        (0 < len → at? (len :: ds) zs (0 :: is) = some x) ∧
        (2 ≤ len → at? (len :: ds) zs ((len - 1) :: is) = some y) ∧
        (∀ k u v, at? (len :: ds) zs (k :: is) = some u → at? (len :: ds) zs ((k + 1) :: is) = some v →
          v - u = (y - x) / ((len : K) - 1)) := by
  obtain ⟨t, zs, e, ht, hat⟩ := C35_linspace_partial (.exact ln exp sqrt powf) ha hb hr hne
    (by intro i x y hx hy; simpa [FOps.exact] using hle i x y hx hy) hfit
  refine ⟨t, zs, e, ht, ?_⟩
  intro is x y hx hy
  have hlt : ∀ k u, at? (len :: ds) zs (k :: is) = some u → k < len := by
    intro k u hu
    unfold at? at hu
    by_contra hk
    simp [ravel, hk] at hu
  refine ⟨?_, ?_, ?_⟩
  · intro h0
    rw [hat 0 is x y h0 hx hy]
    simp [FOps.exact]
  · intro h2
    rw [hat (len - 1) is x y (by omega) hx hy]
    have hne0 : ((len - 1 : Nat) : K) ≠ 0 := Nat.cast_ne_zero.2 (by omega)
    simp only [FOps.exact, show 1 < len by omega, if_true]
    congr 1
    field_simp
    ring
  · intro k u v hu hv
    have h1 := hlt _ _ hv
    rw [hat k is x y (by omega) hx hy] at hu
    rw [hat (k + 1) is x y h1 hx hy] at hv
    have h2 : 1 < len := by omega
    have hc : ((len - 1 : Nat) : K) = (len : K) - 1 := by rw [Nat.cast_sub (by omega)]; simp
    simp only [FOps.exact, h2, if_true, Option.some.injEq, hc] at hu hv
    rw [← hu, ← hv]
    push_cast
    ring

/-- C35 with rounding (the behaviour of a binary float format on finite values without overflow): if the ends are
representable, the first entry of every lane is exactly `a` and the entries never decrease. -/
theorem C35_rounded_partial {representable : K → Prop} {rnd : K → K} (hrnd : IsRounding representable rnd)
    (hzero : representable 0) (ln exp sqrt : K → K) (powf : K → K → K) {a b : Tensor K} {ds : List Nat} {xs ys : List K}
    {len : Nat} (ha : Rep a ds xs) (hb : Rep b ds ys) (hr : ds.length < 5) (hne : 0 < ds.prod)
    (hle : ∀ (i : Nat) x y, xs[i]? = some x → ys[i]? = some y → x ≤ y) (hrep : ∀ x ∈ xs, representable x)
    (hfit : Fits (len :: ds)) :
    ∃ t zs, Init.linspace (.rounded rnd ln exp sqrt powf) a b len = .ok t ∧ Rep t (len :: ds) zs ∧
      ∀ is x, at? ds xs is = some x →
        (0 < len → at? (len :: ds) zs (0 :: is) = some x) ∧
        (∀ k u v, at? (len :: ds) zs (k :: is) = some u → at? (len :: ds) zs ((k + 1) :: is) = some v → u ≤ v) := by
  obtain ⟨t, zs, e, ht, hat⟩ := C35_linspace_partial (.rounded rnd ln exp sqrt powf) ha hb hr hne
    (by intro i x y hx hy; simpa [FOps.rounded] using hle i x y hx hy) hfit
  refine ⟨t, zs, e, ht, ?_⟩
  intro is x hx
  have hlt : ∀ k u, at? (len :: ds) zs (k :: is) = some u → k < len := by
    intro k u hu
    unfold at? at hu
    by_contra hk
    simp [ravel, hk] at hu
  have h00 := hrnd.fixed 0 hzero
  obtain ⟨p, hp, hxp⟩ := Option.bind_eq_some_iff.1 hx
  have hpl := ravel_lt hp
  obtain ⟨y, hyp⟩ : ∃ y, ys[p]? = some y := ⟨_, List.getElem?_eq_getElem (by rw [hb.length]; exact hpl)⟩
  have hy : at? ds ys is = some y := by unfold at?; rw [hp]; exact hyp
  have hxy := hle p x y hxp hyp
  have hnn : ∀ z : K, 0 ≤ z → 0 ≤ rnd z := fun z hz => h00 ▸ hrnd.mono 0 z hz
  refine ⟨?_, ?_⟩
  · intro h0
    rw [hat 0 is x y h0 hx hy]
    simp only [FOps.rounded, Nat.cast_zero, h00, mul_zero, add_zero]
    rw [hrnd.fixed x (hrep x (List.mem_of_getElem? hxp))]
  · intro k u v hu hv
    have h1 := hlt _ _ hv
    rw [hat k is x y (by omega) hx hy] at hu
    rw [hat (k + 1) is x y h1 hx hy] at hv
    simp only [FOps.rounded, show 1 < len by omega, if_true, Option.some.injEq] at hu hv
    rw [← hu, ← hv]
    apply hrnd.mono
    have hstep : 0 ≤ rnd (rnd (y - x) / rnd ((len - 1 : Nat) : K)) :=
      hnn _ (div_nonneg (hnn _ (by linarith)) (hnn _ (Nat.cast_nonneg _)))
    have : rnd (k : K) ≤ rnd ((k + 1 : Nat) : K) := hrnd.mono _ _ (by push_cast; linarith)
    have := hrnd.mono _ _ (mul_le_mul_of_nonneg_left this hstep)
    linarith

end exact

def exLo : Tensor ℚ := { shape := ofDims [2], offset := 0, size := 2, data := [0, 1] }
def exHi : Tensor ℚ := { shape := ofDims [2], offset := 0, size := 2, data := [1, 5] }
theorem exLo_rep : Rep exLo [2] [0, 1] := ⟨⟨wf_ofDims ⟨by simp, by simp⟩, rfl, by simp [exLo]⟩, rfl, rfl⟩
theorem exHi_rep : Rep exHi [2] [1, 5] := ⟨⟨wf_ofDims ⟨by simp, by simp⟩, rfl, by simp [exHi]⟩, rfl, rfl⟩

theorem exEnds_le : ∀ (i : Nat) (x y : ℚ), [0, 1][i]? = some x → [1, 5][i]? = some y → x ≤ y := by
  intro i x y hx hy
  match i with
  | 0 => simp at hx hy; rw [← hx, ← hy]; norm_num
  | 1 => simp at hx hy; rw [← hx, ← hy]; norm_num
  | n + 2 => simp at hx

example : ∃ t zs, Init.linspace (.exact id id id fun x _ => x) exLo exHi 3 = .ok t ∧ Rep t [3, 2] zs ∧
      ∀ is x y, at? [2] [0, 1] is = some x → at? [2] [1, 5] is = some y →
        (0 < 3 → at? [3, 2] zs (0 :: is) = some x) ∧
        (2 ≤ 3 → at? [3, 2] zs (2 :: is) = some y) ∧
        (∀ k u v, at? [3, 2] zs (k :: is) = some u → at? [3, 2] zs ((k + 1) :: is) = some v →
          v - u = (y - x) / (((3 : Nat) : ℚ) - 1)) :=
  C35_exact_partial id id id (fun x _ => x) exLo_rep exHi_rep (by simp) (by simp) exEnds_le
    (fits_of_pos (by decide) (by decide))

/-- C34: `mgrid::<M, N>()` in exact arithmetic is the pair of coordinate matrices of an N x M grid: element `(i, j)` of the
first is `j` and of the second is `i`. -/
theorem C34_mgrid {K : Type} [Field K] [LinearOrder K] [IsStrictOrderedRing K] (ln exp sqrt : K → K) (powf : K → K → K)
    {M N : Nat} (hM : 0 < M) (hN : 0 < N) (h32 : M * N < 2 ^ 32) :
    ∃ x y xs ys, Init.mgrid (.exact ln exp sqrt powf) M N = .ok [x, y] ∧ Rep x [N, M] xs ∧ Rep y [N, M] ys ∧
      ∀ i j, i < N → j < M → at? [N, M] xs [i, j] = some (j : K) ∧ at? [N, M] ys [i, j] = some (i : K) := by
  have hM32 : M < 2 ^ 32 := lt_of_le_of_lt (by simpa using Nat.mul_le_mul_left M hN) h32
  have hN32 : N < 2 ^ 32 := lt_of_le_of_lt (by simpa using Nat.mul_le_mul_right N hM) h32
  obtain ⟨z, ez, hz⟩ := C06_from_scalar (0 : K)
  have line : ∀ L : Nat, 0 < L → L < 2 ^ 32 → ∃ e t, Tensor.ofScalar ((L : K) - 1) = .ok e ∧
      Init.linspace (.exact ln exp sqrt powf) z e L = .ok t ∧ Rep t [L] ((List.range L).map fun k : Nat => (k : K)) := by
    intro L hL hL32
    obtain ⟨e, ee, he⟩ := C06_from_scalar ((L : K) - 1)
    have h1 : (1 : K) ≤ L := by exact_mod_cast hL
    obtain ⟨t, zs, et, ht, hat⟩ := C35_linspace_partial (.exact ln exp sqrt powf) (len := L) hz he (by simp) (by simp)
      (by
        intro i x y hx hy
        match i with
        | 0 => simp at hx hy; subst hx; subst hy; simpa [FOps.exact] using h1
        | n + 1 => simp at hx)
      (fits_one hL32)
    refine ⟨e, t, ee, et, ?_⟩
    have : zs = (List.range L).map fun k : Nat => (k : K) := by
      apply List.ext_getElem?
      intro k
      by_cases hk : k < L
      · have := hat k [] 0 ((L : K) - 1) hk (by simp [at?, ravel]) (by simp [at?, ravel])
        rw [at_vec (by rw [ht.length]; simp)] at this
        rw [this, List.getElem?_map, List.getElem?_range hk]
        simp only [FOps.exact, Option.map_some, Option.some.injEq]
        by_cases h2 : 1 < L
        · have hne0 : (L : K) - 1 ≠ 0 := by
            have : (1 : K) < L := by exact_mod_cast h2
            exact ne_of_gt (by linarith)
          rw [if_pos h2, Nat.cast_sub (by omega)]
          simp [div_self hne0]
        · rw [if_neg h2]
          have : k = 0 := by omega
          simp [this]
      · rw [List.getElem?_eq_none (by rw [ht.length]; simpa using hk), List.getElem?_eq_none (by simpa using hk)]
    rw [← this]; exact ht
  obtain ⟨m, a, em, ea, ha⟩ := line M hM hM32
  obtain ⟨n, b, en, eb, hb⟩ := line N hN hN32
  obtain ⟨os, eo, hl, ho⟩ := C34_meshgrid (ts := [a, b])
    (A := [(List.range M).map fun k : Nat => (k : K), (List.range N).map fun k : Nat => (k : K)])
    (by simpa using RepAll.cons ha (.cons hb .nil)) (by simp)
    (by
      intro xs hxs
      rcases List.mem_cons.1 hxs with rfl | hxs
      · simp; omega
      · rw [List.mem_singleton.1 hxs]; simp; omega)
    (by simpa using h32)
  obtain ⟨x, xs, ex, hx, hxat⟩ := ho 0 _ rfl
  obtain ⟨y, ys, ey, hy, hyat⟩ := ho 1 _ rfl
  have hos : os = [x, y] := by
    match os, hl, ex, ey with
    | [_, _], _, ex, ey => simp at ex ey; rw [ex, ey]
  refine ⟨x, y, xs, ys, ?_, by simpa using hx, by simpa using hy, ?_⟩
  · unfold Init.mgrid
    have e1 : Tensor.ofScalar (FOps.exact ln exp sqrt powf).zero = .ok z := ez
    have e2 : Tensor.ofScalar ((FOps.exact ln exp sqrt powf).sub ((FOps.exact ln exp sqrt powf).ofNat M)
      (FOps.exact ln exp sqrt powf).one) = .ok m := em
    have e3 : Tensor.ofScalar ((FOps.exact ln exp sqrt powf).sub ((FOps.exact ln exp sqrt powf).ofNat N)
      (FOps.exact ln exp sqrt powf).one) = .ok n := en
    rw [e1, ok_bind, e2, ok_bind, e3, ok_bind, ea, ok_bind, eb, ok_bind, eo, hos]
  · intro i j hi hj
    have h1 := hxat [i, j] j (by simp [ravel, hi, hj]) rfl
    have h2 := hyat [i, j] i (by simp [ravel, hi, hj]) rfl
    simp only [List.map_cons, List.map_nil, List.length_map, List.length_range, List.reverse_cons, List.reverse_nil,
      List.nil_append, List.singleton_append] at h1 h2
    rw [h1, h2]
    simp [hi, hj]

example : ∃ x y xs ys, Init.mgrid (.exact id id id fun x _ => x : FOps ℚ) 3 2 = .ok [x, y] ∧ Rep x [2, 3] xs ∧
    Rep y [2, 3] ys ∧ ∀ i j, i < 2 → j < 3 → at? [2, 3] xs [i, j] = some (j : ℚ) ∧ at? [2, 3] ys [i, j] = some (i : ℚ) :=
  C34_mgrid id id id (fun x _ => x) (by decide) (by decide) (by decide)

/-! ## C36 logspace, geomspace -/

/-- C36, for any float arithmetic: entry `k` of each lane of `logspace_opt(a, b, len, base)` is
`base.powf(a + ((b - a) / (len - 1)) * k)`; without a base the base is 10. -/
theorem C36_logspace_partial (fo : FOps F) {a b : Tensor F} {ds : List Nat} {xs ys : List F} {len : Nat}
    (ha : Rep a ds xs) (hb : Rep b ds ys) (hr : ds.length < 5) (hne : 0 < ds.prod)
    (hle : ∀ (i : Nat) x y, xs[i]? = some x → ys[i]? = some y → fo.le x y = true) (hfit : Fits (len :: ds))
    (base : Option F) :
    ∃ t zs, Init.logspaceOpt fo a b len base = .ok t ∧ Rep t (len :: ds) zs ∧
      ∀ k is x y, k < len → at? ds xs is = some x → at? ds ys is = some y →
        at? (len :: ds) zs (k :: is) = some (fo.powf (base.getD (fo.ofNat 10)) (fo.add x (fo.mul
          (if 1 < len then fo.div (fo.sub y x) (fo.ofNat (len - 1)) else fo.zero) (fo.ofNat k)))) := by
  obtain ⟨e1, hadm⟩ := space_insert ha.adm hr (len_lt_of_fits hne hfit)
  obtain ⟨t, e, ht⟩ := space_rep (len := len) (pre := id) (post := fo.powf (base.getD (fo.ofNat 10))) ha hb hne hle hadm hfit
    (by simp)
  refine ⟨t, _, ?_, ht, ?_⟩
  · unfold Init.logspaceOpt
    rw [ensure_true (by rw [ha.shape, hb.shape]), ok_bind, ha.shape, e1, ok_bind]
    cases base <;> exact e
  · intro k is x y hk hx hy
    rw [spaceAll_at ha.length hb.length hk hx hy]
    rfl

/-- C36 in real arithmetic: entry `k` of each lane of `logspace_opt(a, b, len, base)`, `len >= 2`, is
`base ^ (a + k (b - a) / (len - 1))`; `logspace` uses base 10. -/
theorem C36_logspace_real_partial {a b : Tensor ℝ} {ds : List Nat} {xs ys : List ℝ} {len : Nat}
    (ha : Rep a ds xs) (hb : Rep b ds ys) (hr : ds.length < 5) (hne : 0 < ds.prod) (h2 : 2 ≤ len)
    (hle : ∀ (i : Nat) x y, xs[i]? = some x → ys[i]? = some y → x ≤ y) (hfit : Fits (len :: ds)) :
    (∀ base : ℝ, ∃ t zs, Init.logspaceOpt .real a b len (some base) = .ok t ∧ Rep t (len :: ds) zs ∧
      ∀ k is x y, k < len → at? ds xs is = some x → at? ds ys is = some y →
        at? (len :: ds) zs (k :: is) = some (base ^ (x + k * (y - x) / ((len : ℝ) - 1)))) ∧
    Init.logspace .real a b len = Init.logspaceOpt .real a b len (some 10) := by
  constructor
  · intro base
    obtain ⟨t, zs, e, ht, hat⟩ := C36_logspace_partial .real ha hb hr hne
      (by intro i x y hx hy; simpa [FOps.real, FOps.exact] using hle i x y hx hy) hfit (some base)
    refine ⟨t, zs, e, ht, ?_⟩
    intro k is x y hk hx hy
    rw [hat k is x y hk hx hy]
    have hc : ((len - 1 : Nat) : ℝ) = (len : ℝ) - 1 := by rw [Nat.cast_sub (by omega)]; simp
    simp only [FOps.real, FOps.exact, show 1 < len by omega, if_true, Option.getD_some, hc]
    congr 2
    ring
  · unfold Init.logspace Init.logspaceOpt
    simp [FOps.real, FOps.exact]

/-- The dimensions of a `geomspace` result: a single pair of ends gives a vector. -/
def geomDims (len : Nat) (ds : List Nat) : List Nat := if ds.prod = 1 then [len] else len :: ds

/-- C36, for any float arithmetic: entry `k` of each lane of `geomspace(a, b, len)` is
`exp(ln a + ((ln b - ln a) / (len - 1)) * k)`. A single pair of ends (of any rank) gives a vector. -/
theorem C36_geomspace_partial (fo : FOps F) {a b : Tensor F} {ds : List Nat} {xs ys : List F} {len : Nat}
    (ha : Rep a ds xs) (hb : Rep b ds ys) (hr : ds.length < 5 ∨ ds.prod = 1) (hne : 0 < ds.prod)
    (hle : ∀ (i : Nat) x y, xs[i]? = some x → ys[i]? = some y → fo.le (fo.ln x) (fo.ln y) = true)
    (hfit : Fits (len :: ds)) :
    ∃ t zs, Init.geomspace fo a b len = .ok t ∧ Rep t (geomDims len ds) zs ∧ zs.length = len * ds.prod ∧
      ∀ k is x y, k < len → at? ds xs is = some x → at? ds ys is = some y →
        at? (len :: ds) zs (k :: is) = some (fo.exp (fo.add (fo.ln x) (fo.mul
          (if 1 < len then fo.div (fo.sub (fo.ln y) (fo.ln x)) (fo.ofNat (len - 1)) else fo.zero) (fo.ofNat k)))) := by
  have hlen := len_lt_of_fits hne hfit
  have hprod : (geomDims len ds).prod = len * ds.prod := by
    unfold geomDims
    split
    · next h => simp [h]
    · simp
  have hadm' : Adm (geomDims len ds) := by
    unfold geomDims
    split
    · exact ⟨by simp, by simpa using hlen⟩
    · next h => exact (space_insert ha.adm (hr.resolve_right h) hlen).2
  have hfit' : Fits (geomDims len ds) := by
    unfold geomDims
    split
    · exact fits_one hlen
    · exact hfit
  obtain ⟨t, e, ht⟩ := space_rep (pre := fo.ln) (post := fo.exp) ha hb hne hle hadm' hfit' hprod
  refine ⟨t, _, ?_, ht, by rw [ht.length, hprod], ?_⟩
  · unfold Init.geomspace
    rw [ensure_true (by rw [ha.shape, hb.shape]), ok_bind]
    dsimp only
    have e2 : (if a.size = 1 then Shape.ofSlice [len] else a.shape.insert 0 len) = .ok (ofDims (geomDims len ds)) := by
      rw [ha.size, ha.length, ha.shape]
      unfold geomDims
      split
      · rw [ofSlice_adm ⟨by simp, by simpa using hlen⟩]
      · next h => exact (space_insert ha.adm (hr.resolve_right h) hlen).1
    rw [← ite_bind', e2, ok_bind]
    exact e
  · intro k is x y hk hx hy
    rw [spaceAll_at ha.length hb.length hk hx hy]
    rfl

/-- C36 in real arithmetic: for positive ends `a <= b` and `len >= 2`, entry `k` of each lane of `geomspace(a, b, len)`
is `a * (b / a) ^ (k / (len - 1))`. -/
theorem C36_geomspace_real_partial {a b : Tensor ℝ} {ds : List Nat} {xs ys : List ℝ} {len : Nat}
    (ha : Rep a ds xs) (hb : Rep b ds ys) (hr : ds.length < 5 ∨ ds.prod = 1) (hne : 0 < ds.prod) (h2 : 2 ≤ len)
    (hpos : ∀ x ∈ xs, 0 < x)
    (hle : ∀ (i : Nat) x y, xs[i]? = some x → ys[i]? = some y → x ≤ y) (hfit : Fits (len :: ds)) :
    ∃ t zs, Init.geomspace .real a b len = .ok t ∧ Rep t (geomDims len ds) zs ∧
      ∀ k is x y, k < len → at? ds xs is = some x → at? ds ys is = some y →
        at? (len :: ds) zs (k :: is) = some (x * (y / x) ^ ((k : ℝ) / ((len : ℝ) - 1))) := by
  obtain ⟨t, zs, e, ht, _, hat⟩ := C36_geomspace_partial .real ha hb hr hne (by
    intro i x y hx hy
    have h0 := hpos x (List.mem_of_getElem? hx)
    have h1 := hle i x y hx hy
    simpa [FOps.real, FOps.exact] using Real.log_le_log h0 h1) hfit
  refine ⟨t, zs, e, ht, ?_⟩
  intro k is x y hk hx hy
  rw [hat k is x y hk hx hy]
  obtain ⟨p, hp, hxp⟩ := Option.bind_eq_some_iff.1 hx
  obtain ⟨p', hp', hyp⟩ := Option.bind_eq_some_iff.1 hy
  rw [hp] at hp'; cases hp'
  have hx0 := hpos x (List.mem_of_getElem? hxp)
  have hxy := hle p x y hxp hyp
  have hy0 : 0 < y := lt_of_lt_of_le hx0 hxy
  have hc : ((len - 1 : Nat) : ℝ) = (len : ℝ) - 1 := by rw [Nat.cast_sub (by omega)]; simp
  simp only [FOps.real, FOps.exact, show 1 < len by omega, if_true, hc]
  congr 1
  rw [Real.rpow_def_of_pos (div_pos hy0 hx0), Real.log_div (ne_of_gt hy0) (ne_of_gt hx0), Real.exp_add, Real.exp_log hx0]
  congr 2
  ring

/-! ## C37 arange -/

/-- The running values of an accumulating loop: `start`, `start + step`, `(start + step) + step`, ... -/
def runningSum (fo : FOps F) (start step : F) : Nat → F
  | 0 => start
  | k + 1 => fo.add (runningSum fo start step k) step

theorem runningSum_succ (fo : FOps F) (start step : F) (k : Nat) :
    runningSum fo start step (k + 1) = runningSum fo (fo.add start step) step k := by
  induction k with
  | zero => rfl
  | succ k ih => rw [runningSum, ih]; rfl

theorem arangeUp_eq (fo : FOps F) (stop step : F) (n : Nat) (start : F) (vec : List F) (fuel : Nat)
    (hn : ∀ k, k < n → fo.lt (runningSum fo start step k) stop = true)
    (hstop : fo.lt (runningSum fo start step n) stop = false) (hf : n < fuel) :
    Init.arangeUp fo stop step fuel start vec =
      some (vec ++ (List.range n).map (runningSum fo start step)) := by
  induction n generalizing start vec fuel with
  | zero =>
    obtain ⟨f, rfl⟩ : ∃ f, fuel = f + 1 := ⟨fuel - 1, by omega⟩
    have : fo.lt start stop = false := hstop
    simp [Init.arangeUp, this]
  | succ n ih =>
    obtain ⟨f, rfl⟩ : ∃ f, fuel = f + 1 := ⟨fuel - 1, by omega⟩
    have h0 : fo.lt start stop = true := hn 0 (by omega)
    rw [Init.arangeUp, if_pos h0, ih (fo.add start step) (vec ++ [start]) f
      (fun k hk => by rw [← runningSum_succ]; exact hn (k + 1) (by omega)) (by rw [← runningSum_succ]; exact hstop) (by omega)]
    rw [List.range_succ_eq_map]
    simp only [List.map_cons, List.map_map, List.append_assoc, List.singleton_append]
    congr 3
    apply List.map_congr_left
    intro k _
    exact (runningSum_succ fo start step k).symm

theorem arangeUp_none (fo : FOps F) (stop step : F) (start : F) (vec : List F) (fuel : Nat)
    (h : ∀ k, fo.lt (runningSum fo start step k) stop = true) : Init.arangeUp fo stop step fuel start vec = none := by
  induction fuel generalizing start vec with
  | zero => rfl
  | succ f ih =>
    rw [Init.arangeUp, if_pos (show fo.lt start stop = true from h 0), ih _ _ (fun k => by rw [← runningSum_succ]; exact h (k + 1))]

/-- C37, for any float arithmetic: an ascending `arange` lists the running values `start`, `start + step`, ... up to
the first that is not below `end` (fewer than 2^32 of them). -/
theorem C37_ascending_any (fo : FOps F) {start stop step : F} (hs0 : fo.eq step fo.zero = false)
    (hle : fo.le start stop = true) (hs : fo.lt fo.zero step = true) {n : Nat} (h32 : n < 2 ^ 32)
    (hn : ∀ k, k < n → fo.lt (runningSum fo start step k) stop = true)
    (hstop : fo.lt (runningSum fo start step n) stop = false) :
    ∃ t, Rep t [n] ((List.range n).map (runningSum fo start step)) ∧
      ∀ fuel, n < fuel → Init.arange fo fuel start stop step = some (.ok t) := by
  obtain ⟨t, e, hr⟩ := C12_vec1 ((List.range n).map (runningSum fo start step)) (by simpa using h32)
  refine ⟨t, by simpa using hr, ?_⟩
  intro fuel hf
  unfold Init.arange
  rw [if_neg (by simp [hs0]), if_pos (by simp [hle, hs]), arangeUp_eq fo stop step n start [] fuel hn hstop hf]
  simp [e]

/-- C37: when the running value gets stuck below `end` (a step lost to rounding), an ascending `arange` never returns. -/
theorem C37_stuck_violates (fo : FOps F) {start stop step : F} (hs0 : fo.eq step fo.zero = false)
    (hle : fo.le start stop = true) (hs : fo.lt fo.zero step = true)
    (hstuck : ∀ k, fo.lt (runningSum fo start step k) stop = true) :
    ∀ fuel, Init.arange fo fuel start stop step = none := by
  intro fuel
  unfold Init.arange
  rw [if_neg (by simp [hs0]), if_pos (by simp [hle, hs]), arangeUp_none fo stop step start [] fuel hstuck]
  rfl

/-- C37: a zero step, or a step pointing away from `end`, is rejected. -/
theorem C37_rejects (fo : FOps F) {start stop step : F}
    (h : fo.eq step fo.zero = true ∨
      ((fo.le start stop = false ∨ fo.lt fo.zero step = false) ∧ (fo.le stop start = false ∨ fo.lt step fo.zero = false))) :
    ∀ fuel, Init.arange fo fuel start stop step = some (.error .panic) := by
  intro fuel
  unfold Init.arange
  by_cases h0 : fo.eq step fo.zero = true
  · rw [if_pos h0]; rfl
  · rw [if_neg h0]
    obtain ⟨h1, h2⟩ := h.resolve_left h0
    rw [if_neg (by simpa using fun a => by rcases h1 with h1 | h1 <;> simp_all),
      if_neg (by simpa using fun a => by rcases h2 with h2 | h2 <;> simp_all)]
    rfl

section arange

variable {K : Type} [Field K] [LinearOrder K] [IsStrictOrderedRing K]

theorem runningSum_exact (ln exp sqrt : K → K) (powf : K → K → K) (start step : K) (k : Nat) :
    runningSum (.exact ln exp sqrt powf) start step k = start + k * step := by
  induction k with
  | zero => simp [runningSum]
  | succ k ih =>
    rw [runningSum, ih]
    simp only [FOps.exact]
    push_cast; ring

/-- C37 in exact arithmetic, `step > 0`: `arange(start, end, step)` returns after finitely many steps, and lists exactly
`start + k * step` for all `k < n`, where `n` is such that all of these are below `end` and the next is not. (The
number of entries must be below 2^32.) Missing for the full property: negative steps, see
`C37_descending_violates`. -/
theorem C37_ascending_partial [Archimedean K] (ln exp sqrt : K → K) (powf : K → K → K) {start stop step : K}
    (hle : start ≤ stop) (hs : 0 < step) (h32 : stop ≤ start + ((2 ^ 32 - 1 : Nat) : K) * step) :
    ∃ n t, Rep t [n] ((List.range n).map fun k : Nat => start + k * step) ∧
      (∀ k : Nat, k < n ↔ start + k * step < stop) ∧
      ∀ fuel, n < fuel → Init.arange (.exact ln exp sqrt powf) fuel start stop step = some (.ok t) := by
  classical
  have hex : ∃ n : Nat, ¬ start + n * step < stop := ⟨2 ^ 32 - 1, not_lt.2 h32⟩
  have hfind := Nat.find_spec hex
  have hmin : ∀ k, k < Nat.find hex → start + k * step < stop := fun k hk => not_not.1 (Nat.find_min hex hk)
  have hmono : ∀ k : Nat, k < Nat.find hex ↔ start + k * step < stop := by
    intro k
    refine ⟨hmin k, fun h => ?_⟩
    by_contra hk
    apply hfind
    have : ((Nat.find hex : Nat) : K) ≤ k := Nat.cast_le.2 (by omega)
    have := mul_le_mul_of_nonneg_right this hs.le
    linarith
  have hle32 : Nat.find hex ≤ 2 ^ 32 - 1 := Nat.find_min' hex (not_lt.2 h32)
  obtain ⟨t, hr, hf⟩ := C37_ascending_any (.exact ln exp sqrt powf) (start := start) (stop := stop) (step := step)
    (n := Nat.find hex) (by simpa [FOps.exact] using hs.ne') (by simpa [FOps.exact] using hle)
    (by simpa [FOps.exact] using hs) (by omega)
    (by intro k hk; rw [runningSum_exact]; simpa [FOps.exact] using hmin k hk)
    (by rw [runningSum_exact]; simpa [FOps.exact] using hfind)
  refine ⟨Nat.find hex, t, ?_, hmono, hf⟩
  have e : (List.range (Nat.find hex)).map (runningSum (.exact ln exp sqrt powf) start step) =
      (List.range (Nat.find hex)).map fun k : Nat => start + k * step := by
    apply List.map_congr_left
    intro k _
    exact runningSum_exact ln exp sqrt powf start step k
  rw [← e]; exact hr

theorem arangeDown_none (ln exp sqrt : K → K) (powf : K → K → K) {stop step : K} (hs : step < 0) (fuel : Nat)
    (start : K) (vec : List K) (h : stop < start) :
    Init.arangeDown (.exact ln exp sqrt powf) stop step fuel start vec = none := by
  induction fuel generalizing start vec with
  | zero => rfl
  | succ f ih =>
    rw [Init.arangeDown, if_pos (by simpa [FOps.exact] using h)]
    apply ih
    simp only [FOps.exact]
    linarith

/-- A descending `arange` (`end < start`, negative step) never returns: the loop subtracts the negative step and moves
away from `end`. -/
theorem C37_descending_violates (ln exp sqrt : K → K) (powf : K → K → K) {start stop step : K} (h : stop < start)
    (hs : step < 0) : ∀ fuel, Init.arange (.exact ln exp sqrt powf) fuel start stop step = none := by
  intro fuel
  unfold Init.arange
  rw [if_neg (by simpa [FOps.exact] using hs.ne), if_neg (by simp [FOps.exact, h]),
    if_pos (by simp [FOps.exact, hs, h.le]), arangeDown_none ln exp sqrt powf hs fuel start [] h]
  rfl

end arange

example : ∃ n t, Rep t [n] ((List.range n).map fun k : Nat => (1 : ℚ) + k * (1 / 2)) ∧
      (∀ k : Nat, k < n ↔ (1 : ℚ) + k * (1 / 2) < 3) ∧
      ∀ fuel, n < fuel → Init.arange (.exact id id id fun x _ => x) fuel 1 3 (1 / 2) = some (.ok t) :=
  C37_ascending_partial id id id (fun x _ => x) (by norm_num) (by norm_num) (by norm_num)

example : ∀ fuel, Init.arange (.exact id id id fun x _ => x) fuel (3 : ℚ) 1 (-1) = none :=
  C37_descending_violates id id id (fun x _ => x) (by norm_num) (by norm_num)

/-- A rounding that keeps whole numbers only from 2 on: 2 + 1/2 rounds back to 2, so the loop is stuck. -/
example : ∀ fuel, Init.arange (.rounded (fun x : ℚ => if x < 2 then x else ⌊x⌋) id id id fun x _ => x) fuel 2 3 (1 / 2) =
    none := by
  apply C37_stuck_violates
  · simp [FOps.rounded]
  · simp [FOps.rounded]; norm_num
  · simp [FOps.rounded]
  · intro k
    have : runningSum (.rounded (fun x : ℚ => if x < 2 then x else ⌊x⌋) id id id fun x _ => x) 2 (1 / 2) k = 2 := by
      induction k with
      | zero => rfl
      | succ k ih =>
        rw [runningSum, ih]
        simp only [FOps.rounded]
        rw [if_neg (by norm_num), show ⌊(2 : ℚ) + 1 / 2⌋ = 2 by rw [Int.floor_eq_iff]; norm_num]
        norm_num
    rw [this]
    simp [FOps.rounded]; norm_num

example : ∃ t zs, Init.linspace (.exact id id id fun x _ => x) exLo exHi 3 = .ok t ∧ Rep t [3, 2] zs ∧
    ∀ k is (x y : ℚ), k < 3 → at? [2] [0, 1] is = some x → at? [2] [1, 5] is = some y →
      at? [3, 2] zs (k :: is) = some (x + (y - x) / ((2 : Nat) : ℚ) * (k : ℚ)) := by
  obtain ⟨t, zs, h1, h2, h3⟩ := C35_linspace_partial (.exact id id id fun x _ => x) (len := 3) exLo_rep exHi_rep (by simp)
    (by simp) (fun i x y hx hy => by simpa [FOps.exact, FOps.rounded] using exEnds_le i x y hx hy)
    (fits_of_pos (by decide) (by decide))
  exact ⟨t, zs, h1, h2, h3⟩

/-- The ends the wrong way round. -/
example : Init.linspace (.exact id id id fun x _ => x) exHi exLo 3 = .error .panic :=
  C35_rejects _ exHi_rep exLo_rep (by norm_num) (fun h => by
    have := h.2.2.2.1 0 1 0 rfl rfl
    simp [FOps.exact] at this
    norm_num at this)

example (fo : FOps ℚ) : Init.linspace fo (⟨ofDims [1, 1, 1, 1, 1], 0, 1, [0]⟩ : Tensor ℚ) ⟨ofDims [1, 1, 1, 1, 1], 0, 1, [1]⟩ 3 =
    .error .panic :=
  C35_rank5_violates fo
    (rep_fresh (ds := [1, 1, 1, 1, 1]) (xs := [0]) ⟨by simp, by simp⟩ (fits_of_pos (by simp) (by simp)) rfl)
    (rep_fresh (ds := [1, 1, 1, 1, 1]) (xs := [1]) ⟨by simp, by simp⟩ (fits_of_pos (by simp) (by simp)) rfl) (by norm_num) rfl

/-- Rounding down to quarters. -/
example : ∃ t zs, Init.linspace (.rounded (fun x : ℚ => ⌊x * 4⌋ / 4) id id id fun x _ => x) exLo exHi 7 = .ok t ∧
    Rep t [7, 2] zs ∧ ∀ is x, at? [2] [0, 1] is = some x → (0 < 7 → at? [7, 2] zs (0 :: is) = some x) ∧
      (∀ k u v, at? [7, 2] zs (k :: is) = some u → at? [7, 2] zs ((k + 1) :: is) = some v → u ≤ v) :=
  C35_rounded_partial (representable := fun x : ℚ => ∃ n : Int, x = n / 4)
    ⟨fun x y h => by
        have : (⌊x * 4⌋ : ℚ) ≤ ⌊y * 4⌋ := by exact_mod_cast Int.floor_mono (by linarith)
        show (⌊x * 4⌋ : ℚ) / 4 ≤ ⌊y * 4⌋ / 4
        linarith,
      fun x ⟨n, hn⟩ => by simp [hn], fun x => ⟨⌊x * 4⌋, rfl⟩⟩ ⟨0, by simp⟩ id id id (fun x _ => x) exLo_rep exHi_rep
    (by simp) (by simp) exEnds_le (by
      simp only [List.mem_cons, List.not_mem_nil, or_false]
      rintro x (rfl | rfl)
      · exact ⟨0, by simp⟩
      · exact ⟨4, by norm_num⟩) (fits_of_pos (by decide) (by decide))

example : ∃ t zs, Init.logspaceOpt (.exact id id id fun x y => x * y) exLo exHi 3 (some 2) = .ok t ∧ Rep t [3, 2] zs ∧
    ∀ k is (x y : ℚ), k < 3 → at? [2] [0, 1] is = some x → at? [2] [1, 5] is = some y →
      at? [3, 2] zs (k :: is) = some ((2 : ℚ) * (x + (y - x) / ((2 : Nat) : ℚ) * (k : ℚ))) := by
  obtain ⟨t, zs, h1, h2, h3⟩ := C36_logspace_partial (.exact id id id fun x y => x * y) (len := 3) exLo_rep exHi_rep (by simp)
    (by simp) (fun i x y hx hy => by simpa [FOps.exact, FOps.rounded] using exEnds_le i x y hx hy)
    (fits_of_pos (by decide) (by decide)) (some 2)
  exact ⟨t, zs, h1, h2, h3⟩

example : ∃ t zs, Init.logspaceOpt .real (⟨ofDims [], 0, 1, [1]⟩ : Tensor ℝ) ⟨ofDims [], 0, 1, [4]⟩ 7 (some 2) = .ok t ∧
    Rep t [7] zs ∧ ∀ k is x y, k < 7 → at? [] [1] is = some x → at? [] [4] is = some y →
      at? [7] zs (k :: is) = some ((2 : ℝ) ^ (x + k * (y - x) / (((7 : Nat) : ℝ) - 1))) :=
  (C36_logspace_real_partial (ds := []) (xs := [1]) (ys := [4]) (len := 7)
    (rep_fresh (ds := []) (xs := [1]) ⟨by simp, by simp⟩ fits_nil rfl)
    (rep_fresh (ds := []) (xs := [4]) ⟨by simp, by simp⟩ fits_nil rfl) (by simp) (by simp) (by simp)
    (fun i x y hx hy => by
      match i with
      | 0 => simp at hx hy; subst hx hy; norm_num
      | _ + 1 => simp at hx) (fits_of_pos (by simp) (by simp))).1 2

example (fo : FOps ℚ) (hle : ∀ x y, fo.le x y = true) : ∃ t zs, Init.geomspace fo exLo exHi 3 = .ok t ∧
    Rep t [3, 2] zs ∧ zs.length = 6 ∧ ∀ k is x y, k < 3 → at? [2] [0, 1] is = some x → at? [2] [1, 5] is = some y →
      at? [3, 2] zs (k :: is) = some (fo.exp (fo.add (fo.ln x) (fo.mul
        (if 1 < 3 then fo.div (fo.sub (fo.ln y) (fo.ln x)) (fo.ofNat (3 - 1)) else fo.zero) (fo.ofNat k)))) :=
  C36_geomspace_partial fo exLo_rep exHi_rep (by simp) (by simp) (fun _ _ _ _ _ => hle _ _) (fits_of_pos (by decide) (by decide))

example : ∃ t zs, Init.geomspace .real (⟨ofDims [], 0, 1, [1]⟩ : Tensor ℝ) ⟨ofDims [], 0, 1, [4]⟩ 7 = .ok t ∧
    Rep t [7] zs ∧ ∀ k is x y, k < 7 → at? [] [1] is = some x → at? [] [4] is = some y →
      at? [7] zs (k :: is) = some (x * (y / x) ^ ((k : ℝ) / (((7 : Nat) : ℝ) - 1))) :=
  C36_geomspace_real_partial (ds := []) (xs := [1]) (ys := [4]) (len := 7)
    (rep_fresh (ds := []) (xs := [1]) ⟨by simp, by simp⟩ fits_nil rfl)
    (rep_fresh (ds := []) (xs := [4]) ⟨by simp, by simp⟩ fits_nil rfl) (by simp) (by simp) (by simp) (by simp)
    (fun i x y hx hy => by
      match i with
      | 0 => simp at hx hy; subst hx hy; norm_num
      | _ + 1 => simp at hx) (fits_of_pos (by simp) (by simp))

example : ∃ t, Rep t [3] ((List.range 3).map (runningSum (.exact id id id fun x _ => x : FOps ℚ) 0 1)) ∧
    ∀ fuel, 3 < fuel → Init.arange (.exact id id id fun x _ => x : FOps ℚ) fuel 0 (5 / 2) 1 = some (.ok t) :=
  C37_ascending_any _ (by simp [FOps.exact]) (by simp [FOps.exact]; norm_num) (by simp [FOps.exact])
    (by norm_num) (fun k hk => by
      match k with
      | 0 => simp [FOps.exact, runningSum]
      | 1 => simp [FOps.exact, runningSum]; norm_num
      | 2 => simp [FOps.exact, runningSum]; norm_num) (by simp [FOps.exact, runningSum]; norm_num)

example (fuel : Nat) : Init.arange (.exact id id id fun x _ => x : FOps ℚ) fuel 0 3 (-1) = some (.error .panic) :=
  C37_rejects _ (.inr ⟨.inr (by simp [FOps.exact]), .inl (by simp [FOps.exact])⟩) fuel

end Essay
