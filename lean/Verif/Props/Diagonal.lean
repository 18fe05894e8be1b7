import Verif.Props.Algebra

/-!
# C85: diagonal matrices
-/

namespace Essay

open Shape Linalg

section exact

variable {K : Type} [Field K] [LinearOrder K] [IsStrictOrderedRing K] (ln exp sqrt : K → K) (powf : K → K → K)

omit [LinearOrder K] [IsStrictOrderedRing K] in
theorem diag_entries {v : Tensor K} {n : Nat} {xs : List K} (hv : Rep v [n] xs) (h : n * n < 2 ^ 32) :
    ∃ d ds, Init.diagflat v = .ok d ∧ Rep d [n, n] ds ∧ Entries [] n n ds fun _ i j => if i = j then xs.getD i 0 else 0 := by
  have hxl : xs.length = n := by simpa using hv.length
  subst hxl
  obtain ⟨d, ds, e1, r1, h1⟩ := C33_diagflat hv h
  refine ⟨d, ds, e1, r1, by simpa using r1.length, fun is i j hs hi hj => ?_⟩
  have : is = [] := by cases is with
    | nil => rfl
    | cons _ _ => simp [ravel] at hs
  subst this
  refine h1 i j _ ?_ hj
  rw [List.getElem?_eq_getElem hi, List.getD_eq_getElem?_getD, List.getElem?_eq_getElem hi]
  rfl

omit [LinearOrder K] [IsStrictOrderedRing K] in
theorem diag_ne {d : Tensor K} {n : Nat} {ds : List K} (h : Rep d [n, n] ds) (hn : 0 < n) : ds ≠ [] := by
  rintro rfl
  have := h.length
  simp at this
  omega

omit [LinearOrder K] [IsStrictOrderedRing K] in
theorem getD_zipWith {xs ys : List K} (op : K → K → K) {i : Nat} (hx : i < xs.length) (hy : i < ys.length) :
    (List.zipWith op xs ys).getD i 0 = op (xs.getD i 0) (ys.getD i 0) := by
  simp [List.getD_eq_getElem?_getD, List.getElem?_zipWith, List.getElem?_eq_getElem hx, List.getElem?_eq_getElem hy]

/-- C85, exact arithmetic: the product of two diagonal matrices is the diagonal matrix of the products, in either order,
and their sum that of the sums. -/
theorem C85_diagonal {v w : Tensor K} {n : Nat} {xs ys : List K} (hv : Rep v [n] xs) (hw : Rep w [n] ys) (hn : 0 < n)
    (h : n * n < 2 ^ 32) :
    Same (Init.diagflat v >>= fun d => Init.diagflat w >>= fun e => matmul (FOps.exact ln exp sqrt powf) d e)
      (Tensor.binary (ringArith K) .mul v w >>= Init.diagflat) [n, n] ∧
    Same (Init.diagflat v >>= fun d => Init.diagflat w >>= fun e => matmul (FOps.exact ln exp sqrt powf) e d)
      (Tensor.binary (ringArith K) .mul v w >>= Init.diagflat) [n, n] ∧
    Same (Init.diagflat v >>= fun d => Init.diagflat w >>= fun e => Tensor.binary (ringArith K) .add d e)
      (Tensor.binary (ringArith K) .add v w >>= Init.diagflat) [n, n] := by
  have hxl : xs.length = n := by simpa using hv.length
  have hyl : ys.length = n := by simpa using hw.length
  have hxs : xs ≠ [] := List.length_pos_iff.1 (by omega)
  obtain ⟨d, ds, e1, r1, E1⟩ := diag_entries hv h
  obtain ⟨e, es, e2, r2, E2⟩ := diag_entries hw h
  obtain ⟨u, e3, r3⟩ := binary_zip (nm := .mul) (op := (· * ·)) (ar := ringArith K) rfl hv hw hxs
  obtain ⟨s, e4, r4⟩ := binary_zip (nm := .add) (op := (· + ·)) (ar := ringArith K) rfl hv hw hxs
  obtain ⟨du, us, e5, r5, E5⟩ := diag_entries r3 h
  obtain ⟨dt, ts, e6, r6, E6⟩ := diag_entries r4 h
  obtain ⟨p, ps, e7, r7, E7⟩ := matmul_entries (.exact ln exp sqrt powf) (A := []) r1 r2 (fits_nil) r1.fits E1 E2
  obtain ⟨q, qs, e8, r8, E8⟩ := matmul_entries (.exact ln exp sqrt powf) (A := []) r2 r1 (fits_nil) r1.fits E2 E1
  obtain ⟨r, e9, r9⟩ := binary_zip (nm := .add) (op := (· + ·)) (ar := ringArith K) rfl r1 r2 (diag_ne r1 hn)
  have hsum : ∀ (f g : Nat → K) (i j : Nat), i < n →
      ∑ l ∈ Finset.range n, (if i = l then f i else 0) * (if l = j then g l else 0) = if i = j then f i * g i else 0 := by
    intro f g i j hi
    rw [Finset.sum_eq_single i]
    · by_cases hij : i = j <;> simp [hij]
    · intro l _ hl; rw [if_neg (Ne.symm hl), zero_mul]
    · intro hc; exact absurd (Finset.mem_range.2 hi) hc
  have q1 : ps = us := by
    refine E7.ext E5 fun is i j _ hi hj => ?_
    rw [prodEntry_exact, hsum (fun i => xs.getD i 0) (fun i => ys.getD i 0) i j hi, getD_zipWith _ (by omega) (by omega)]
  have q2 : qs = us := by
    refine E8.ext E5 fun is i j _ hi hj => ?_
    rw [prodEntry_exact, hsum (fun i => ys.getD i 0) (fun i => xs.getD i 0) i j hi, getD_zipWith _ (by omega) (by omega), mul_comm]
  have q3 : List.zipWith (· + ·) ds es = ts := by
    refine (E1.zipWith E2 _).ext E6 fun is i j _ hi hj => ?_
    rw [getD_zipWith _ (by omega) (by omega)]
    by_cases hij : i = j <;> simp [hij]
  subst q1 q2 q3
  exact ⟨⟨p, du, _, by rw [e1, ok_bind, e2, ok_bind, e7], by rw [e3, ok_bind, e5], r7, r5⟩,
    ⟨q, du, _, by rw [e1, ok_bind, e2, ok_bind, e8], by rw [e3, ok_bind, e5], r8, r5⟩,
    ⟨r, dt, _, by rw [e1, ok_bind, e2, ok_bind, e9], by rw [e4, ok_bind, e6], r9, r6⟩⟩

/-- C85, exact arithmetic: a matrix times a diagonal matrix is the matrix with every column scaled, which is the
elementwise product with the vector, and a diagonal matrix times a matrix has every row scaled. -/
theorem C85_diagonal_scales {v a : Tensor K} {m n : Nat} {xs ys : List K} (hv : Rep v [n] xs) (hn : 0 < n) (hm : 0 < m)
    (h : n * n < 2 ^ 32) (ha : Rep a [m, n] ys) :
    Same (Init.diagflat v >>= fun d => product (FOps.exact ln exp sqrt powf) [] m n a d)
      (Tensor.binary (ringArith K) .mul v a) [m, n] ∧
    Same (Init.diagflat v >>= fun d => a.transpose >>= fun at' => product (FOps.exact ln exp sqrt powf) [] n m d at')
      (Tensor.binary (ringArith K) .mul v a >>= fun t => t.transpose) [n, m] := by
  have hxl : xs.length = n := by simpa using hv.length
  have hyl : ys.length = m * n := by simpa using ha.length
  have hys : ys ≠ [] := List.length_pos_iff.1 (by rw [hyl]; exact Nat.mul_pos hm hn)
  obtain ⟨d, ds, e1, r1, E1⟩ := diag_entries hv h
  obtain ⟨f, hf⟩ := entries_of (A := []) (0 : K) ha.length
  obtain ⟨t, zs, e2, r2, h2⟩ := opTT_pure (fun x y : K => x * y) hv ha ⟨[m], rfl⟩ hys
  have hb : Tensor.binary (ringArith K) .mul v a = .ok t := e2
  have hzs : zs ≠ [] := by
    rintro rfl
    have := r2.length
    rw [← ha.length, hyl] at this
    have := Nat.mul_pos hm hn
    simp at *
    omega
  have E2 : Entries [] m n zs fun is i j => f is i j * xs.getD j 0 := by
    refine ⟨r2.length, fun is i j hs hi hj => ?_⟩
    obtain ⟨p, hp⟩ := Option.isSome_iff_exists.1 (isSome_pair hs hi hj)
    obtain ⟨x, y, h3, h4, h5⟩ := h2 _ p hp
    have hisn : is = [] := by cases is with
      | nil => rfl
      | cons _ _ => simp [ravel] at hs
    subst hisn
    have h6 := hf.2 [] i j hs hi hj
    simp only [List.nil_append] at h4 h5 h6 ⊢
    rw [h6] at h4
    cases h4
    have h7 : xs.getD j 0 = x := by
      simp [at?, ravel, hj] at h3
      rw [List.getD_eq_getElem?_getD, h3]; rfl
    rw [h5, h7, mul_comm]
  have hfO : m * n < 2 ^ 32 := by
    have := ha.fits 0
    simpa using this
  constructor
  · obtain ⟨p, ps, e3, r3, -, E3⟩ := product_entries (.exact ln exp sqrt powf) (A := []) ha r1 hys (diag_ne r1 hn)
      (by simpa using hfO) hf E1
    have : ps = zs := by
      refine E3.ext E2 fun is i j _ hi hj => ?_
      rw [prodEntry_exact, Finset.sum_eq_single j]
      · rw [if_pos rfl]
      · intro l _ hl; rw [if_neg hl, mul_zero]
      · intro hc; exact absurd (Finset.mem_range.2 hj) hc
    subst this
    exact ⟨p, t, _, by rw [e1, ok_bind, e3], hb, r3, r2⟩
  · obtain ⟨a', ys', e4, ha', T⟩ := C26_transpose (pre := []) ha hys
    obtain ⟨t', zs', e5, ht', T'⟩ := C26_transpose (pre := []) r2 hzs
    have hys' : ys' ≠ [] := by
      rintro rfl
      have := ha'.length
      simp at this
      omega
    obtain ⟨p, ps, e3, r3, -, E3⟩ := product_entries (.exact ln exp sqrt powf) (A := []) r1 ha' (diag_ne r1 hn) hys'
      (by simpa [Nat.mul_comm] using hfO) E1 (Transposed.entries T hf ha'.length)
    have : ps = zs' := by
      refine E3.ext (Transposed.entries T' E2 ht'.length) fun is i j _ hi hj => ?_
      rw [prodEntry_exact, Finset.sum_eq_single i]
      · rw [if_pos rfl, mul_comm]
      · intro l _ hl; rw [if_neg (Ne.symm hl), zero_mul]
      · intro hc; exact absurd (Finset.mem_range.2 hi) hc
    subst this
    exact ⟨p, t', _, by rw [e1, ok_bind, e4, ok_bind, e3], by rw [hb, ok_bind, e5], r3, ht'⟩

end exact

def exDiag : Tensor Rat := { shape := ofDims [2], offset := 1, size := 2, data := [9, 2, 3] }
def exFull : Tensor Rat := { shape := ofDims [3, 2], offset := 0, size := 6, data := [1, 2, 3, 4, 5, 6] }
theorem exDiag_rep : Rep exDiag [2] [2, 3] := ⟨⟨wf_ofDims ⟨by simp, by simp⟩, rfl, by simp [exDiag]⟩, rfl, rfl⟩
theorem exFull_rep : Rep exFull [3, 2] [1, 2, 3, 4, 5, 6] :=
  ⟨⟨wf_ofDims ⟨by simp, by simp⟩, rfl, by simp [exFull]⟩, rfl, rfl⟩

example := C85_diagonal id id id (fun x _ => x) exDiag_rep exDiag_rep (by simp) (by simp)

example := C85_diagonal_scales id id id (fun x _ => x) exDiag_rep (by simp) (by simp) (by simp) exFull_rep

end Essay
