import Verif.Props.Linalg
import Verif.Props.Matvec
import Verif.Props.Init
import Verif.Props.Laws
import Verif.Props.Structure
import Verif.Props.Sums
import Mathlib.Algebra.BigOperators.Ring.Finset
import Mathlib.Algebra.BigOperators.Group.Finset.Sigma

/-!
# C85: the laws of matrix algebra
-/

set_option linter.unusedSectionVars false

namespace Essay

open Shape Linalg

variable {F K : Type}

/-- Batches of `m x n` matrices given by their entries. -/
def Entries (A : List Nat) (m n : Nat) (xs : List F) (f : List Nat → Nat → Nat → F) : Prop :=
  xs.length = (A ++ [m, n]).prod ∧
    ∀ is i j, (ravel A is).isSome → i < m → j < n → at? (A ++ [m, n]) xs (is ++ [i, j]) = some (f is i j)

theorem ravel_pre {A : List Nat} {m n : Nat} {is : List Nat} {i j p : Nat} (hl : is.length = A.length)
    (h : ravel (A ++ [m, n]) (is ++ [i, j]) = some p) : (ravel A is).isSome := by
  rw [ravel_append hl] at h
  cases h' : ravel A is with
  | none => simp [h'] at h
  | some q => rfl

theorem Entries.ext {A : List Nat} {m n : Nat} {xs ys : List F} {f g : List Nat → Nat → Nat → F}
    (hx : Entries A m n xs f) (hy : Entries A m n ys g)
    (h : ∀ is i j, (ravel A is).isSome → i < m → j < n → f is i j = g is i j) : xs = ys := by
  apply at_ext2 hx.1 hy.1
  intro is i j hl hi hj
  by_cases hs : (ravel A is).isSome
  · rw [hx.2 is i j hs hi hj, hy.2 is i j hs hi hj, h is i j hs hi hj]
  · have : ravel (A ++ [m, n]) (is ++ [i, j]) = none := by
      cases hr : ravel (A ++ [m, n]) (is ++ [i, j]) with
      | none => rfl
      | some p => exact absurd (ravel_pre hl hr) hs
    simp [at?, this]

theorem at_some {ds : List Nat} {xs : List F} (hl : xs.length = ds.prod) {idx : List Nat} (h : (ravel ds idx).isSome)
    (d : F) : at? ds xs idx = some ((at? ds xs idx).getD d) := by
  obtain ⟨p, hp⟩ := Option.isSome_iff_exists.1 h
  have := ravel_lt hp
  have hlt : p < xs.length := by omega
  simp [at?, hp, List.getElem?_eq_getElem hlt]

theorem isSome_pair {A : List Nat} {m n : Nat} {is : List Nat} {i j : Nat} (hs : (ravel A is).isSome) (hi : i < m)
    (hj : j < n) : (ravel (A ++ [m, n]) (is ++ [i, j])).isSome := by
  obtain ⟨p, hp⟩ := Option.isSome_iff_exists.1 hs
  rw [ravel_append (ravel_length hp), hp]
  simp [ravel, hi, hj]

theorem entries_of (d : F) {A : List Nat} {m n : Nat} {xs : List F} (h : xs.length = (A ++ [m, n]).prod) :
    ∃ f, Entries A m n xs f :=
  ⟨fun is i j => (at? (A ++ [m, n]) xs (is ++ [i, j])).getD d, h, fun _ _ _ hs hi hj => at_some h (isSome_pair hs hi hj) d⟩

theorem Transposed.entries {A : List Nat} {m n : Nat} {xs ys : List F} {f : List Nat → Nat → Nat → F}
    (h : Transposed A m n xs ys) (hx : Entries A m n xs f) (hy : ys.length = (A ++ [n, m]).prod) :
    Entries A n m ys fun is i j => f is j i := by
  refine ⟨hy, fun is i j hs hi hj => ?_⟩
  obtain ⟨p, hp⟩ := Option.isSome_iff_exists.1 hs
  rw [h is i j (ravel_length hp), hx.2 is j i hs hj hi]

/-- The product of two batches of matrices given by entries, in any arithmetic. -/
def prodEntry (fo : FOps F) (k : Nat) (f g : List Nat → Nat → Nat → F) (is : List Nat) (i j : Nat) : F :=
  dot fo ((List.range k).map fun l => (f is i l, g is l j))

theorem matmulT_entries (fo : FOps F) (tr : Transpose) {a b : Tensor F} {A : List Nat} {m k n : Nat} {xs ys : List F}
    (ha : Rep a (A ++ flip tr.left m k) xs) (hb : Rep b (A ++ flip tr.right k n) ys) (hfA : Fits A)
    (hfO : Fits (A ++ [n, m])) {f g : List Nat → Nat → Nat → F}
    (hf : ∀ is i j, (ravel A is).isSome → i < m → j < k → at? (A ++ flip tr.left m k) xs (is ++ flip tr.left i j) = some (f is i j))
    (hg : ∀ is i j, (ravel A is).isSome → i < k → j < n →
      at? (A ++ flip tr.right k n) ys (is ++ flip tr.right i j) = some (g is i j)) :
    ∃ t zs, matmulT fo a b tr = .ok t ∧ Rep t (A ++ [n, m]) zs ∧ Entries A m n zs (prodEntry fo k f g) := by
  obtain ⟨t, zs, e, ht, h⟩ := C39_matmul_partial fo tr ha hb rfl hfA hfO
  refine ⟨t, zs, e, ht, ?_, ?_⟩
  · rw [ht.length, List.prod_append, List.prod_append]; simp [Nat.mul_comm]
  intro is i j hs hi hj
  refine h is is i j _ rfl hi hj hs (by simp) ?_
  intro l p hp
  rw [List.getElem?_map] at hp
  obtain ⟨l', hl', rfl⟩ := Option.map_eq_some_iff.1 hp
  obtain ⟨hlt, rfl⟩ := List.getElem?_eq_some_iff.1 hl'
  simp only [List.length_range] at hlt
  simpa using ⟨hf is i l hs hi hlt, hg is l j hs hlt hj⟩

theorem matmul_entries (fo : FOps F) {a b : Tensor F} {A : List Nat} {m k n : Nat} {xs ys : List F}
    (ha : Rep a (A ++ [m, k]) xs) (hb : Rep b (A ++ [k, n]) ys) (hfA : Fits A)
    (hfO : Fits (A ++ [n, m])) {f g : List Nat → Nat → Nat → F} (hf : Entries A m k xs f) (hg : Entries A k n ys g) :
    ∃ t zs, matmul fo a b = .ok t ∧ Rep t (A ++ [n, m]) zs ∧ Entries A m n zs (prodEntry fo k f g) :=
  matmulT_entries fo .none ha hb hfA hfO hf.2 hg.2

theorem Rep.fits_pre {a : Tensor F} {A B : List Nat} {d : Nat} {xs : List F} (ha : Rep a (A ++ d :: B) xs) (hne : xs ≠ []) :
    Fits A := by
  have hxp : 0 < (A ++ d :: B).prod := by rw [← ha.length]; exact List.length_pos_iff.2 hne
  exact (fits_parts hxp ha.fits.prod_lt).2.2

theorem Rep.prod_pos' {a : Tensor F} {ds : List Nat} {xs : List F} (ha : Rep a ds xs) (hne : xs ≠ []) : 0 < ds.prod := by
  rw [← ha.length]; exact List.length_pos_iff.2 hne

theorem prod_swap (A : List Nat) (m n : Nat) : (A ++ [m, n]).prod = (A ++ [n, m]).prod := by
  rw [List.prod_append, List.prod_append]; simp [Nat.mul_comm]

theorem pos_product {A : List Nat} {m k n : Nat} (h1 : 0 < (A ++ [m, k]).prod) (h2 : 0 < (A ++ [k, n]).prod) :
    0 < (A ++ [n, m]).prod := by
  have p1 := pos_of_prod_pos h1
  have p2 := pos_of_prod_pos h2
  apply prod_pos
  intro d hd
  simp only [List.mem_append, List.mem_cons, List.not_mem_nil, or_false] at hd p1 p2
  rcases hd with hd | rfl | rfl
  · exact p1 d (Or.inl hd)
  · exact p2 _ (Or.inr (Or.inr rfl))
  · exact p1 _ (Or.inr (Or.inl rfl))

theorem adm_pair {A : List Nat} {m k k' n : Nat} (h1 : Adm (A ++ [m, k])) (h2 : Adm (A ++ [k', n])) : Adm (A ++ [m, n]) := by
  refine ⟨?_, ?_⟩
  · have := h1.len; simpa using this
  · intro d hd
    simp only [List.mem_append, List.mem_cons, List.not_mem_nil, or_false] at hd
    rcases hd with hd | rfl | rfl
    · exact h1.lt d (by simp [hd])
    · exact h1.lt _ (by simp)
    · exact h2.lt _ (by simp)

theorem product_entries (fo : FOps F) {a b : Tensor F} {A : List Nat} {m k n : Nat} {xs ys : List F}
    (ha : Rep a (A ++ [m, k]) xs) (hb : Rep b (A ++ [k, n]) ys) (hx : xs ≠ []) (hy : ys ≠ [])
    (hfO : (A ++ [m, n]).prod < 2 ^ 32) {f g : List Nat → Nat → Nat → F} (hf : Entries A m k xs f) (hg : Entries A k n ys g) :
    ∃ t zs, product fo A m n a b = .ok t ∧ Rep t (A ++ [m, n]) zs ∧ zs ≠ [] ∧ Entries A m n zs (prodEntry fo k f g) := by
  have hp := pos_product (ha.prod_pos' hx) (hb.prod_pos' hy)
  have hp' : 0 < (A ++ [m, n]).prod := by rwa [prod_swap]
  obtain ⟨t, zs, e, ht, h⟩ := matmul_entries fo ha hb (ha.fits_pre hx) (fits_of_pos hp (by rwa [prod_swap])) hf hg
  obtain ⟨u, e2, hu⟩ := reshape_rep ht (adm_pair ha.adm hb.adm) (fits_of_pos hp' hfO) (prod_swap _ _ _)
  refine ⟨u, zs, by rw [product, e, ok_bind, e2], hu, ?_, h⟩
  rintro rfl
  have := hu.length
  simp only [List.length_nil] at this
  omega

theorem prodEntry_exact [Field K] [LinearOrder K] [IsStrictOrderedRing K] (ln exp sqrt : K → K)
    (powf : K → K → K) (k : Nat) (f g : List Nat → Nat → Nat → K) (is : List Nat) (i j : Nat) :
    prodEntry (.exact ln exp sqrt powf) k f g is i j = ∑ l ∈ Finset.range k, f is i l * g is l j := by
  rw [prodEntry, dot_exact, List.map_map, Finset.sum_range, ← List.sum_ofFn]
  congr 1
  rw [List.ofFn_eq_map, ← List.map_coe_finRange_eq_range, List.map_map]
  rfl

theorem binary_zip {ar : Arith F F F} {nm : Tensor.OpName} {op : F → F → F} (hop : nm.binop ar = fun x y => .ok (op x y))
    {a b : Tensor F} {ds : List Nat} {xs ys : List F} (ha : Rep a ds xs) (hb : Rep b ds ys) (hx : xs ≠ []) :
    ∃ t, Tensor.binary ar nm a b = .ok t ∧ Rep t ds (List.zipWith op xs ys) := by
  have hy : ys ≠ [] := by
    rintro rfl
    have := ha.prod_pos' hx
    rw [← hb.length] at this
    simp at this
  obtain ⟨t, zs, e, ht, h⟩ := opTT_pure op ha hb (List.suffix_refl _) hy
  refine ⟨t, by rw [Tensor.binary, hop, e], ?_⟩
  have : zs = List.zipWith op xs ys := by
    apply at_ext ht.length (by simp [ha.length, hb.length])
    intro idx
    cases hp : ravel ds idx with
    | none => simp [at?, hp]
    | some p =>
      obtain ⟨x, y, h1, h2, h3⟩ := h idx p hp
      simp only [Nat.sub_self, List.drop_zero] at h1
      rw [h3]
      simp only [at?, hp, Option.bind_some] at h1 h2 ⊢
      simp [List.getElem?_zipWith, h1, h2]
  rwa [this] at ht

section exact

variable [Field K] [LinearOrder K] [IsStrictOrderedRing K] (ln exp sqrt : K → K) (powf : K → K → K)

/-- C85, exact arithmetic: `(a b) c` is `a (b c)` for all matrices (and batches of matrices) whose dimensions fit, each
product being given its `m x n` dimensions (`product`). -/
theorem C85_associates_partial {a b c : Tensor K} {A : List Nat} {m k n p : Nat} {xs ys zs : List K}
    (ha : Rep a (A ++ [m, k]) xs) (hb : Rep b (A ++ [k, n]) ys) (hc : Rep c (A ++ [n, p]) zs)
    (hx : xs ≠ []) (hy : ys ≠ []) (hz : zs ≠ []) (h1 : (A ++ [m, n]).prod < 2 ^ 32) (h2 : (A ++ [k, p]).prod < 2 ^ 32)
    (h3 : (A ++ [m, p]).prod < 2 ^ 32) :
    Same (product (.exact ln exp sqrt powf) A m n a b >>= fun ab => product (.exact ln exp sqrt powf) A m p ab c)
      (product (.exact ln exp sqrt powf) A k p b c >>= fun bc => product (.exact ln exp sqrt powf) A m p a bc)
      (A ++ [m, p]) := by
  obtain ⟨f, hf⟩ := entries_of (0 : K) ha.length
  obtain ⟨g, hg⟩ := entries_of (0 : K) hb.length
  obtain ⟨w, hw⟩ := entries_of (0 : K) hc.length
  obtain ⟨ab, v1, e1, r1, n1, q1⟩ := product_entries (.exact ln exp sqrt powf) ha hb hx hy h1 hf hg
  obtain ⟨abc, v2, e2, r2, n2, q2⟩ := product_entries (.exact ln exp sqrt powf) r1 hc n1 hz h3 q1 hw
  obtain ⟨bc, v3, e3, r3, n3, q3⟩ := product_entries (.exact ln exp sqrt powf) hb hc hy hz h2 hg hw
  obtain ⟨abc', v4, e4, r4, n4, q4⟩ := product_entries (.exact ln exp sqrt powf) ha r3 hx n3 h3 hf q3
  have : v4 = v2 := by
    refine q4.ext q2 fun is i j _ _ _ => ?_
    simp only [prodEntry_exact, Finset.mul_sum, Finset.sum_mul]
    rw [Finset.sum_comm]
    simp only [mul_assoc]
  subst this
  exact ⟨abc, abc', v4, by rw [e1, ok_bind, e2], by rw [e3, ok_bind, e4], r2, r4⟩

/-- C85, exact arithmetic: for square matrices (and batches of them) `matmul` itself is associative. -/
theorem C85_associates_square {a b c : Tensor K} {A : List Nat} {n : Nat} {xs ys zs : List K}
    (ha : Rep a (A ++ [n, n]) xs) (hb : Rep b (A ++ [n, n]) ys) (hc : Rep c (A ++ [n, n]) zs)
    (hx : xs ≠ []) :
    Same (matmul (FOps.exact ln exp sqrt powf) a b >>= fun ab => matmul (FOps.exact ln exp sqrt powf) ab c)
      (matmul (FOps.exact ln exp sqrt powf) b c >>= fun bc => matmul (FOps.exact ln exp sqrt powf) a bc) (A ++ [n, n]) := by
  obtain ⟨f, hf⟩ := entries_of (0 : K) ha.length
  obtain ⟨g, hg⟩ := entries_of (0 : K) hb.length
  obtain ⟨w, hw⟩ := entries_of (0 : K) hc.length
  have hA := ha.fits_pre hx
  obtain ⟨ab, v1, e1, r1, q1⟩ := matmul_entries (.exact ln exp sqrt powf) ha hb hA ha.fits hf hg
  obtain ⟨abc, v2, e2, r2, q2⟩ := matmul_entries (.exact ln exp sqrt powf) r1 hc hA ha.fits q1 hw
  obtain ⟨bc, v3, e3, r3, q3⟩ := matmul_entries (.exact ln exp sqrt powf) hb hc hA ha.fits hg hw
  obtain ⟨abc', v4, e4, r4, q4⟩ := matmul_entries (.exact ln exp sqrt powf) ha r3 hA ha.fits hf q3
  have : v4 = v2 := by
    refine q4.ext q2 fun is i j _ _ _ => ?_
    simp only [prodEntry_exact, Finset.mul_sum, Finset.sum_mul]
    rw [Finset.sum_comm]
    simp only [mul_assoc]
  subst this
  exact ⟨abc, abc', v4, by rw [e1, ok_bind, e2], by rw [e3, ok_bind, e4], r2, r4⟩

theorem Entries.zipWith {A : List Nat} {m n : Nat} {xs ys : List K} {f g : List Nat → Nat → Nat → K}
    (hf : Entries A m n xs f) (hg : Entries A m n ys g) (op : K → K → K) :
    Entries A m n (List.zipWith op xs ys) fun is i j => op (f is i j) (g is i j) := by
  refine ⟨by simp [hf.1, hg.1], fun is i j hs hi hj => ?_⟩
  have h1 := hf.2 is i j hs hi hj
  have h2 := hg.2 is i j hs hi hj
  obtain ⟨p, hp⟩ := Option.isSome_iff_exists.1 (isSome_pair hs hi hj)
  simp only [at?, hp, Option.bind_some] at h1 h2 ⊢
  simp [List.getElem?_zipWith, h1, h2]

theorem Entries.map {A : List Nat} {m n : Nat} {xs : List K} {f : List Nat → Nat → Nat → K}
    (hf : Entries A m n xs f) (op : K → K) : Entries A m n (xs.map op) fun is i j => op (f is i j) := by
  refine ⟨by simp [hf.1], fun is i j hs hi hj => ?_⟩
  rw [at_map, hf.2 is i j hs hi hj]; rfl

/-- C85, exact arithmetic: `a (b + c) = a b + a c` and `(b + c) a = b a + c a`, for matrices of all dimensions that fit
and batches of them; likewise with differences. -/
theorem C85_distributes {a b c d : Tensor K} {A : List Nat} {m k n : Nat} {xs ys zs ws : List K}
    (ha : Rep a (A ++ [m, k]) xs) (hb : Rep b (A ++ [k, n]) ys) (hc : Rep c (A ++ [k, n]) zs) (hd : Rep d (A ++ [m, k]) ws)
    (hx : xs ≠ []) (hy : ys ≠ []) (h : (A ++ [m, n]).prod < 2 ^ 32) :
    Same (Tensor.binary (ringArith K) .add b c >>= fun t => matmul (FOps.exact ln exp sqrt powf) a t)
      (matmul (FOps.exact ln exp sqrt powf) a b >>= fun t => matmul (FOps.exact ln exp sqrt powf) a c >>= fun u =>
        Tensor.binary (ringArith K) .add t u) (A ++ [n, m]) ∧
    Same (Tensor.binary (ringArith K) .sub b c >>= fun t => matmul (FOps.exact ln exp sqrt powf) a t)
      (matmul (FOps.exact ln exp sqrt powf) a b >>= fun t => matmul (FOps.exact ln exp sqrt powf) a c >>= fun u =>
        Tensor.binary (ringArith K) .sub t u) (A ++ [n, m]) ∧
    Same (Tensor.binary (ringArith K) .add a d >>= fun t => matmul (FOps.exact ln exp sqrt powf) t b)
      (matmul (FOps.exact ln exp sqrt powf) a b >>= fun t => matmul (FOps.exact ln exp sqrt powf) d b >>= fun u =>
        Tensor.binary (ringArith K) .add t u) (A ++ [n, m]) ∧
    Same (Tensor.binary (ringArith K) .sub a d >>= fun t => matmul (FOps.exact ln exp sqrt powf) t b)
      (matmul (FOps.exact ln exp sqrt powf) a b >>= fun t => matmul (FOps.exact ln exp sqrt powf) d b >>= fun u =>
        Tensor.binary (ringArith K) .sub t u) (A ++ [n, m]) := by
  have hA := ha.fits_pre hx
  have hp := pos_product (ha.prod_pos' hx) (hb.prod_pos' hy)
  have hO : Fits (A ++ [n, m]) := fits_of_pos hp (by rwa [prod_swap])
  obtain ⟨f, hf⟩ := entries_of (0 : K) ha.length
  obtain ⟨g, hg⟩ := entries_of (0 : K) hb.length
  obtain ⟨w, hw⟩ := entries_of (0 : K) hc.length
  obtain ⟨v, hv⟩ := entries_of (0 : K) hd.length
  obtain ⟨ab, q1, e1, r1, E1⟩ := matmul_entries (.exact ln exp sqrt powf) ha hb hA hO hf hg
  obtain ⟨ac, q2, e2, r2, E2⟩ := matmul_entries (.exact ln exp sqrt powf) ha hc hA hO hf hw
  obtain ⟨db, q3, e3, r3, E3⟩ := matmul_entries (.exact ln exp sqrt powf) hd hb hA hO hv hg
  have hne : ∀ {t : Tensor K} {qs}, Rep t (A ++ [n, m]) qs → qs ≠ [] := by
    rintro t qs ht rfl
    have := ht.length
    simp only [List.length_nil] at this
    omega
  have left : ∀ (nm : Tensor.OpName) (op : K → K → K), (nm.binop (ringArith K) = fun x y => .ok (op x y)) →
      (∀ x y z : K, x * op y z = op (x * y) (x * z)) →
      (∀ (s : Finset Nat) (p q : Nat → K), ∑ l ∈ s, op (p l) (q l) = op (∑ l ∈ s, p l) (∑ l ∈ s, q l)) →
      Same (Tensor.binary (ringArith K) nm b c >>= fun t => matmul (FOps.exact ln exp sqrt powf) a t)
      (matmul (FOps.exact ln exp sqrt powf) a b >>= fun t => matmul (FOps.exact ln exp sqrt powf) a c >>= fun u =>
        Tensor.binary (ringArith K) nm t u) (A ++ [n, m]) := by
    intro nm op hop hdist hsum
    obtain ⟨t, e, ht⟩ := binary_zip hop hb hc hy
    obtain ⟨u, q, e', hu, E⟩ := matmul_entries (.exact ln exp sqrt powf) ha ht hA hO hf (hg.zipWith hw op)
    obtain ⟨u', e'', hu'⟩ := binary_zip hop r1 r2 (hne r1)
    have : q = List.zipWith op q1 q2 := by
      refine E.ext (E1.zipWith E2 op) fun is i j _ _ _ => ?_
      simp only [prodEntry_exact, hdist, hsum]
    subst this
    exact ⟨u, u', _, by rw [e, ok_bind, e'], by rw [e1, ok_bind, e2, ok_bind, e''], hu, hu'⟩
  have right : ∀ (nm : Tensor.OpName) (op : K → K → K), (nm.binop (ringArith K) = fun x y => .ok (op x y)) →
      (∀ x y z : K, op y z * x = op (y * x) (z * x)) →
      (∀ (s : Finset Nat) (p q : Nat → K), ∑ l ∈ s, op (p l) (q l) = op (∑ l ∈ s, p l) (∑ l ∈ s, q l)) →
      Same (Tensor.binary (ringArith K) nm a d >>= fun t => matmul (FOps.exact ln exp sqrt powf) t b)
      (matmul (FOps.exact ln exp sqrt powf) a b >>= fun t => matmul (FOps.exact ln exp sqrt powf) d b >>= fun u =>
        Tensor.binary (ringArith K) nm t u) (A ++ [n, m]) := by
    intro nm op hop hdist hsum
    obtain ⟨t, e, ht⟩ := binary_zip hop ha hd hx
    obtain ⟨u, q, e', hu, E⟩ := matmul_entries (.exact ln exp sqrt powf) ht hb hA hO (hf.zipWith hv op) hg
    obtain ⟨u', e'', hu'⟩ := binary_zip hop r1 r3 (hne r1)
    have : q = List.zipWith op q1 q3 := by
      refine E.ext (E1.zipWith E3 op) fun is i j _ _ _ => ?_
      simp only [prodEntry_exact, hdist, hsum]
    subst this
    exact ⟨u, u', _, by rw [e, ok_bind, e'], by rw [e1, ok_bind, e3, ok_bind, e''], hu, hu'⟩
  refine ⟨left .add (· + ·) rfl mul_add fun _ _ _ => Finset.sum_add_distrib,
    left .sub (· - ·) rfl mul_sub fun _ _ _ => Finset.sum_sub_distrib _ _,
    right .add (· + ·) rfl (fun x y z => add_mul y z x) fun _ _ _ => Finset.sum_add_distrib,
    right .sub (· - ·) rfl (fun x y z => sub_mul y z x) fun _ _ _ => Finset.sum_sub_distrib _ _⟩

/-- C85, exact arithmetic: a scalar factor of either operand is one of the product. -/
theorem C85_factor {a b : Tensor K} {A : List Nat} {m k n : Nat} {xs ys : List K} (y : K)
    (ha : Rep a (A ++ [m, k]) xs) (hb : Rep b (A ++ [k, n]) ys)
    (hx : xs ≠ []) (hy : ys ≠ []) (h : (A ++ [m, n]).prod < 2 ^ 32) :
    Same (Tensor.binaryScalar (ringArith K) .mul a y >>= fun t => matmul (FOps.exact ln exp sqrt powf) t b)
      (matmul (FOps.exact ln exp sqrt powf) a b >>= fun t => Tensor.binaryScalar (ringArith K) .mul t y) (A ++ [n, m]) ∧
    Same (Tensor.binaryScalar (ringArith K) .mul b y >>= fun t => matmul (FOps.exact ln exp sqrt powf) a t)
      (matmul (FOps.exact ln exp sqrt powf) a b >>= fun t => Tensor.binaryScalar (ringArith K) .mul t y) (A ++ [n, m]) := by
  have hA := ha.fits_pre hx
  have hp := pos_product (ha.prod_pos' hx) (hb.prod_pos' hy)
  have hO : Fits (A ++ [n, m]) := fits_of_pos hp (by rwa [prod_swap])
  obtain ⟨f, hf⟩ := entries_of (0 : K) ha.length
  obtain ⟨g, hg⟩ := entries_of (0 : K) hb.length
  obtain ⟨ab, q1, e1, r1, E1⟩ := matmul_entries (.exact ln exp sqrt powf) ha hb hA hO hf hg
  have sc : ∀ {t : Tensor K} {ds qs}, Rep t ds qs → ∃ u, Tensor.binaryScalar (ringArith K) .mul t y = .ok u ∧
      Rep u ds (qs.map (· * y)) := by
    intro t ds qs ht
    obtain ⟨u, e, hu⟩ := C14_map_pure ht (· * y) ()
    refine ⟨u, ?_, hu⟩
    have e' : (t.map fun x => (liftM ((ringArith K).mul x y) : Exec Unit K)).run () = .ok (u, ()) := e
    simp only [Tensor.binaryScalar, Tensor.opTS, Tensor.OpName.binop, Tensor.runPure, e', ok_bind]; rfl
  obtain ⟨a', ea, ra⟩ := sc ha
  obtain ⟨b', eb, rb⟩ := sc hb
  obtain ⟨z, ez, rz⟩ := sc r1
  obtain ⟨t1, w1, h1, R1, F1⟩ := matmul_entries (.exact ln exp sqrt powf) ra hb hA hO (hf.map _) hg
  obtain ⟨t2, w2, h2, R2, F2⟩ := matmul_entries (.exact ln exp sqrt powf) ha rb hA hO hf (hg.map _)
  have e3 : w1 = q1.map (· * y) := by
    refine F1.ext (E1.map _) fun is i j _ _ _ => ?_
    simp only [prodEntry_exact, Finset.sum_mul]
    exact Finset.sum_congr rfl fun l _ => by ring
  have e4 : w2 = q1.map (· * y) := by
    refine F2.ext (E1.map _) fun is i j _ _ _ => ?_
    simp only [prodEntry_exact, Finset.sum_mul]
    exact Finset.sum_congr rfl fun l _ => by ring
  subst e3 e4
  exact ⟨⟨t1, z, _, by rw [ea, ok_bind, h1], by rw [e1, ok_bind, ez], R1, rz⟩,
    ⟨t2, z, _, by rw [eb, ok_bind, h2], by rw [e1, ok_bind, ez], R2, rz⟩⟩

end exact

section any

/-- C85, any arithmetic with commutative multiplication (IEEE included): the transpose of a product is the product of the
transposes in the other order, for matrices of all dimensions that fit and batches of them. -/
theorem C85_transpose_partial (fo : FOps F) (hcomm : ∀ x y, fo.mul x y = fo.mul y x) {a b : Tensor F} {A : List Nat}
    {m k n : Nat} {xs ys : List F} (ha : Rep a (A ++ [m, k]) xs) (hb : Rep b (A ++ [k, n]) ys) (hx : xs ≠ []) (hy : ys ≠ [])
    (h : (A ++ [m, n]).prod < 2 ^ 32) :
    Same (product fo A m n a b >>= Tensor.transpose)
      (b.transpose >>= fun b' => a.transpose >>= fun a' => product fo A n m b' a') (A ++ [n, m]) := by
  obtain ⟨f, hf⟩ := entries_of fo.zero ha.length
  obtain ⟨g, hg⟩ := entries_of fo.zero hb.length
  obtain ⟨t, zs, e, ht, hz, hE⟩ := product_entries fo ha hb hx hy h hf hg
  obtain ⟨u, us, e1, hu, T1⟩ := C26_transpose ht hz
  obtain ⟨b', ys', e2, hb', T2⟩ := C26_transpose hb hy
  obtain ⟨a', xs', e3, ha', T3⟩ := C26_transpose ha hx
  have hne : ∀ {t : Tensor F} {ds es : List Nat} {zs ws : List F}, Rep t ds ws → zs.length = es.prod → es.prod = ds.prod →
      zs ≠ [] → ws ≠ [] := by
    rintro t ds es zs ws ht hl he hz rfl
    have := ht.length
    exact hz (List.length_eq_zero_iff.1 (by rw [hl, he, ← this]; rfl))
  obtain ⟨v, vs, e4, hv, _, hE'⟩ := product_entries fo hb' ha' (hne hb' hb.length (prod_swap _ _ _) hy)
    (hne ha' ha.length (prod_swap _ _ _) hx) (by rwa [prod_swap]) (Transposed.entries T2 hg hb'.length)
    (Transposed.entries T3 hf ha'.length)
  have : us = vs := by
    refine (Transposed.entries T1 hE hu.length).ext hE' fun is i j _ _ _ => ?_
    simp only [prodEntry, dot, List.foldl_map]
    congr 2
    funext v l
    rw [hcomm]
  subst this
  exact ⟨u, v, us, by rw [e, ok_bind, e1], by rw [e2, ok_bind, e3, ok_bind, e4], hu, hv⟩

/-- C85, any arithmetic: `matmul_t` with a transpose option is `matmul` of the operands transposed one by one (bit by
bit: the same operations in the same order). -/
theorem C85_options (fo : FOps F) (tr : Transpose) {a b : Tensor F} {A : List Nat} {m k n : Nat} {xs ys : List F}
    (ha : Rep a (A ++ flip tr.left m k) xs) (hb : Rep b (A ++ flip tr.right k n) ys) (hx : xs ≠ []) (hy : ys ≠ [])
    (h : (A ++ [m, n]).prod < 2 ^ 32) :
    Same (matmulT fo a b tr)
      ((if tr.left then a.transpose else .ok a) >>= fun a' => (if tr.right then b.transpose else .ok b) >>= fun b' =>
        matmul fo a' b') (A ++ [n, m]) := by
  have turn : ∀ (s : Bool) {t : Tensor F} {r c : Nat} {zs : List F}, Rep t (A ++ flip s r c) zs → zs ≠ [] →
      ∃ t' zs' f, (if s then t.transpose else .ok t) = .ok t' ∧ Rep t' (A ++ [r, c]) zs' ∧ Entries A r c zs' f ∧ zs' ≠ [] ∧
        ∀ is i j, (ravel A is).isSome → i < r → j < c → at? (A ++ flip s r c) zs (is ++ flip s i j) = some (f is i j) := by
    intro s t r c zs ht hz
    cases s with
    | false =>
      obtain ⟨f, hf⟩ := entries_of fo.zero (show zs.length = (A ++ [r, c]).prod from ht.length)
      exact ⟨t, zs, f, rfl, ht, hf, hz, hf.2⟩
    | true =>
      obtain ⟨f, hf⟩ := entries_of fo.zero (show zs.length = (A ++ [c, r]).prod from ht.length)
      obtain ⟨u, us, e, hu, T⟩ := C26_transpose (show Rep t (A ++ [c, r]) zs from ht) hz
      refine ⟨u, us, _, e, hu, Transposed.entries T hf hu.length, ?_, fun is i j hs hi hj => hf.2 is j i hs hj hi⟩
      rintro rfl
      have h1 := hu.length
      rw [prod_swap] at h1
      have h2 := ht.prod_pos' hz
      simp only [Linalg.flip, if_true, List.length_nil] at h1 h2
      omega
  obtain ⟨a', xs', f, e1, ha', hf, hx', hf'⟩ := turn _ ha hx
  obtain ⟨b', ys', g, e2, hb', hg, hy', hg'⟩ := turn _ hb hy
  have hp := pos_product (ha'.prod_pos' hx') (hb'.prod_pos' hy')
  have hO : Fits (A ++ [n, m]) := fits_of_pos hp (by rwa [prod_swap])
  have hA := ha'.fits_pre hx'
  obtain ⟨t, zs, e, ht, E⟩ := matmulT_entries fo tr ha hb hA hO hf' hg'
  obtain ⟨u, ws, e', hu, E'⟩ := matmul_entries fo ha' hb' hA hO hf hg
  have : zs = ws := E.ext E' fun _ _ _ _ _ _ => rfl
  subst this
  exact ⟨t, u, zs, e, by rw [e1, ok_bind, e2, ok_bind, e'], ht, hu⟩

/-- A set of numbers on which 0 and 1 act as usual: all numbers in exact arithmetic, the representable numbers under
rounding. -/
structure Plain (fo : FOps F) (S : F → Prop) : Prop where
  zero : S fo.zero
  one_mul : ∀ x, S x → fo.mul fo.one x = x
  mul_one : ∀ x, S x → fo.mul x fo.one = x
  zero_mul : ∀ x, S x → fo.mul fo.zero x = fo.zero
  mul_zero : ∀ x, S x → fo.mul x fo.zero = fo.zero
  add_zero : ∀ x, S x → fo.add x fo.zero = x
  zero_add : ∀ x, S x → fo.add fo.zero x = x

/-- A sum with one term left. -/
theorem foldl_single {fo : FOps F} {S : F → Prop} (hS : Plain fo S) (p : Nat → F) (i : Nat) (hi : S (p i))
    (h0 : ∀ l, l ≠ i → p l = fo.zero) (k : Nat) :
    (List.range k).foldl (fun v l => fo.add v (p l)) fo.zero = if i < k then p i else fo.zero := by
  induction k with
  | zero => simp
  | succ k ih =>
    rw [List.range_succ, List.foldl_append, ih]
    simp only [List.foldl_cons, List.foldl_nil]
    rcases Nat.lt_trichotomy i k with h | h | h
    · rw [if_pos h, if_pos (by omega), h0 k (by omega), hS.add_zero _ hi]
    · subst h; rw [if_neg (by omega), if_pos (by omega), hS.zero_add _ hi]
    · rw [if_neg (by omega), if_neg (by omega), h0 k (by omega), hS.add_zero _ hS.zero]

/-- C85: `a` times `eye(n)` and `eye(n)` times `a` have the elements of `a`, exactly, in every arithmetic where 0 and 1
act as usual on the elements of `a` (no rounding error is introduced). -/
theorem C85_identity_partial [Zero F] [One F] (fo : FOps F) (h0 : fo.zero = 0) (h1 : fo.one = 1) {S : F → Prop}
    (hS : Plain fo S) {a : Tensor F} {m n : Nat} {xs : List F} (ha : Rep a [m, n] xs) (hx : xs ≠ [])
    (hel : ∀ x ∈ xs, S x) (hm : m * m < 2 ^ 32) (hn : n * n < 2 ^ 32) :
    (∃ e t, (Init.eye n : Res (Tensor F)) = .ok e ∧ product fo [] m n a e = .ok t ∧ Rep t [m, n] xs) ∧
    (∃ e t, (Init.eye m : Res (Tensor F)) = .ok e ∧ product fo [] m n e a = .ok t ∧ Rep t [m, n] xs) := by
  have hp := pos_of_prod_pos (ha.prod_pos' hx)
  have hmp : 0 < m := hp m (by simp)
  have hnp : 0 < n := hp n (by simp)
  have hfit : ([] ++ [m, n]).prod < 2 ^ 32 := ha.fits.prod_lt
  have key : ∀ k, 0 < k → k * k < 2 ^ 32 → ∃ e ys, (Init.eye k : Res (Tensor F)) = .ok e ∧ Rep e [k, k] ys ∧ ys ≠ [] ∧
      Entries [] k k ys fun _ i j => if i = j then fo.one else fo.zero := by
    intro k hk hkk
    obtain ⟨e, ys, he, _, hr, hy⟩ := C33_eye_partial (α := F) hk hkk
    refine ⟨e, ys, he, hr, ?_, by simpa using hr.length, ?_⟩
    · rintro rfl
      have := hr.length
      simp at this
      omega
    · intro is i j hs hi hj
      have : is = [] := by cases is with
        | nil => rfl
        | cons _ _ => simp [ravel] at hs
      subst this
      rw [h0, h1]
      exact hy i j hi hj
  obtain ⟨f, hf⟩ := entries_of (A := []) fo.zero ha.length
  have hfS : ∀ i j, i < m → j < n → S (f [] i j) := by
    intro i j hi hj
    have := hf.2 [] i j (by simp [ravel]) hi hj
    apply hel
    obtain ⟨p, hp⟩ := Option.isSome_iff_exists.1 (isSome_pair (A := []) (is := []) (by simp [ravel]) hi hj)
    simp only [at?, hp, Option.bind_some] at this
    exact List.mem_of_getElem? this
  constructor
  · obtain ⟨e, ys, he, hr, hy, hE⟩ := key n hnp hn
    obtain ⟨t, zs, et, ht, _, E⟩ := product_entries fo (A := []) ha hr hx hy hfit hf hE
    have : zs = xs := by
      refine E.ext hf fun is i j hs hi hj => ?_
      have : is = [] := by cases is with
        | nil => rfl
        | cons _ _ => simp [ravel] at hs
      subst this
      have hij := hfS i j hi hj
      simp only [prodEntry, dot, List.foldl_map]
      have e1 : (List.range n).foldl (fun v l => fo.add v (fo.mul (f [] i l) (if l = j then fo.one else fo.zero))) fo.zero
          = (List.range n).foldl (fun v l => fo.add v (if l = j then f [] i j else fo.zero)) fo.zero := by
        apply List.foldl_ext
        intro v l hl
        have hl : l < n := List.mem_range.1 hl
        split
        · rename_i h; subst h; rw [hS.mul_one _ hij]
        · rw [hS.mul_zero _ (hfS i l hi hl)]
      rw [e1, foldl_single hS (fun l => if l = j then f [] i j else fo.zero) j (by simpa using hij)
        (fun l hl => if_neg hl), if_pos hj, if_pos rfl, hS.one_mul _ hij]
    subst this
    exact ⟨e, t, he, et, ht⟩
  · obtain ⟨e, ys, he, hr, hy, hE⟩ := key m hmp hm
    obtain ⟨t, zs, et, ht, _, E⟩ := product_entries fo (A := []) hr ha hy hx hfit hE hf
    have : zs = xs := by
      refine E.ext hf fun is i j hs hi hj => ?_
      have : is = [] := by cases is with
        | nil => rfl
        | cons _ _ => simp [ravel] at hs
      subst this
      have hij := hfS i j hi hj
      simp only [prodEntry, dot, List.foldl_map]
      have e1 : (List.range m).foldl (fun v l => fo.add v (fo.mul (if i = l then fo.one else fo.zero) (f [] l j))) fo.zero
          = (List.range m).foldl (fun v l => fo.add v (if l = i then f [] i j else fo.zero)) fo.zero := by
        apply List.foldl_ext
        intro v l hl
        have hl : l < m := List.mem_range.1 hl
        by_cases h : l = i
        · subst h; rw [if_pos rfl, if_pos rfl, hS.one_mul _ hij]
        · rw [if_neg (Ne.symm h), if_neg h, hS.zero_mul _ (hfS l j hl hj)]
      rw [e1, foldl_single hS (fun l => if l = i then f [] i j else fo.zero) i (by simpa using hij)
        (fun l hl => if_neg hl), if_pos hi, if_pos rfl, hS.one_mul _ hij]
    subst this
    exact ⟨e, t, he, et, ht⟩

/-- Batches of vectors given by their entries. -/
def VEntries (Q : List Nat) (n : Nat) (xs : List F) (f : List Nat → Nat → F) : Prop :=
  xs.length = (Q ++ [n]).prod ∧
    ∀ is j, (ravel Q is).isSome → j < n → at? (Q ++ [n]) xs (is ++ [j]) = some (f is j)

theorem isSome_one {A : List Nat} {n : Nat} {is : List Nat} {j : Nat} (hs : (ravel A is).isSome) (hj : j < n) :
    (ravel (A ++ [n]) (is ++ [j])).isSome := by
  obtain ⟨p, hp⟩ := Option.isSome_iff_exists.1 hs
  rw [ravel_append (ravel_length hp), hp]
  simp [ravel, hj]

theorem ventries_of (d : F) {A : List Nat} {n : Nat} {xs : List F} (h : xs.length = (A ++ [n]).prod) :
    ∃ f, VEntries A n xs f :=
  ⟨fun is j => (at? (A ++ [n]) xs (is ++ [j])).getD d, h, fun _ _ hs hj => at_some h (isSome_one hs hj) d⟩

theorem VEntries.ext {Q : List Nat} {n : Nat} {xs ys : List F} {f g : List Nat → Nat → F} (hx : VEntries Q n xs f)
    (hy : VEntries Q n ys g) (h : ∀ is j, (ravel Q is).isSome → j < n → f is j = g is j) : xs = ys := by
  apply at_ext hx.1 hy.1
  intro idx
  cases hp : ravel (Q ++ [n]) idx with
  | none => simp [at?, hp]
  | some p =>
    have hl := ravel_length hp
    simp only [List.length_append, List.length_cons, List.length_nil, Nat.zero_add] at hl
    obtain ⟨is, j, rfl⟩ : ∃ is j, idx = is ++ [j] := by
      have hne : idx ≠ [] := by rintro rfl; simp at hl
      exact ⟨idx.dropLast, idx.getLast hne, (List.dropLast_append_getLast hne).symm⟩
    simp only [List.length_append, List.length_cons, List.length_nil, Nat.zero_add, Nat.add_right_cancel_iff] at hl
    rw [ravel_append hl] at hp
    cases hq : ravel Q is with
    | none => simp [hq] at hp
    | some q =>
      have hj : j < n := by
        by_contra hc
        simp [hq, ravel, hc] at hp
      have hs : (ravel Q is).isSome := by rw [hq]; rfl
      rw [hx.2 is j hs hj, hy.2 is j hs hj, h is j hs hj]

theorem matvec_entries (fo : FOps F) {a x : Tensor F} {P R : List Nat} {m k : Nat} {xs ys : List F}
    (ha : Rep a [m, k] xs) (hx : Rep x (P ++ R ++ [k]) ys) (hR : R.length ≤ 1) (hP : R = [] → P = [])
    (hpos : 0 < xs.length ∧ 0 < ys.length) (hfO : Fits (P ++ R ++ [m])) {f : List Nat → Nat → Nat → F}
    {g : List Nat → Nat → F} (hf : Entries [] m k xs f) (hg : VEntries (P ++ R) k ys g) :
    ∃ t zs, matvec fo a x = .ok t ∧ Rep t (P ++ R ++ [m]) zs ∧
      VEntries (P ++ R) m zs fun is j => dot fo ((List.range k).map fun l => (g is l, f [] j l)) := by
  obtain ⟨t, zs, e, ht, h⟩ := C41_matrix_partial fo ha hx hR hP hpos hfO
  refine ⟨t, zs, e, ht, ht.length, fun is j hs hj => h is j _ hs hj (by simp) ?_⟩
  intro l p hp
  rw [List.getElem?_map] at hp
  obtain ⟨l', hl', rfl⟩ := Option.map_eq_some_iff.1 hp
  obtain ⟨hlt, rfl⟩ := List.getElem?_eq_some_iff.1 hl'
  simp only [List.length_range] at hlt
  have := hf.2 [] j l (by simp [ravel]) hj hlt
  simp only [List.getElem_range]
  exact ⟨hg.2 is l hs hlt, this⟩

/-- C85, any arithmetic: `matvec` with a batch of vectors, one per row of `x`, is `x` times the transpose of the matrix
(the same operations in the same order). -/
theorem C85_matvec_matmul (fo : FOps F) {a x : Tensor F} {m k r : Nat} {xs ys : List F} (ha : Rep a [m, k] xs)
    (hx : Rep x [r, k] ys) (hxs : xs ≠ []) (hys : ys ≠ []) (h : r * m < 2 ^ 32) :
    Same (matvec fo a x) (matmulT fo x a .transposeB >>= fun t => t.reshape (ofDims [r, m])) [r, m] := by
  obtain ⟨f, hf⟩ := entries_of (A := []) fo.zero ha.length
  obtain ⟨g, hg⟩ := entries_of (A := []) fo.zero hx.length
  have p1 := pos_of_prod_pos (ha.prod_pos' hxs)
  have p2 := pos_of_prod_pos (hx.prod_pos' hys)
  have hm : 0 < m := p1 m (by simp)
  have hr : 0 < r := p2 r (by simp)
  have hfit : Fits [r, m] := fits_of_pos (by simp; omega) (by simpa using h)
  have hfit' : Fits [m, r] := fits_of_pos (by simp; omega) (by simpa [Nat.mul_comm] using h)
  have hadm : Adm [r, m] := ⟨by simp, by
    have := ha.adm.lt m (by simp); have := hx.adm.lt r (by simp); simp; omega⟩
  have hv : VEntries [r] k ys fun is l => g [] (is.headD 0) l := by
    refine ⟨hx.length, fun is j hs hj => ?_⟩
    cases is with
    | nil => simp [ravel] at hs
    | cons i is =>
      cases is with
      | cons _ _ => simp [ravel] at hs
      | nil =>
        have hi : i < r := by
          by_contra hc
          simp [ravel, hc] at hs
        exact hg.2 [] i j (by simp [ravel]) hi hj
  obtain ⟨t, zs, e, ht, E⟩ := matvec_entries fo (P := []) (R := [r]) ha hx (by simp) (by simp)
    ⟨List.length_pos_iff.2 hxs, List.length_pos_iff.2 hys⟩ hfit hf hv
  obtain ⟨u, ws, e', hu, E'⟩ := matmulT_entries fo .transposeB (A := []) (m := r) (k := k) (n := m) hx ha fits_nil hfit'
    hg.2 (g := fun is l j => f is j l) (fun is i j hs hi hj => hf.2 is j i hs hj hi)
  obtain ⟨v, e'', hv'⟩ := reshape_rep hu hadm hfit (prod_swap [] _ _)
  have : zs = ws := by
    refine E.ext (g := fun is j => prodEntry fo k g (fun is l j => f is j l) [] (is.headD 0) j) ⟨hv'.length, ?_⟩ ?_
    · intro is j hs hj
      cases is with
      | nil => simp [ravel] at hs
      | cons i is =>
        cases is with
        | cons _ _ => simp [ravel] at hs
        | nil =>
          have hi : i < r := by
            by_contra hc
            simp [ravel, hc] at hs
          exact E'.2 [] i j (by simp [ravel]) hi hj
    · intro is j hs hj
      rfl
  subst this
  exact ⟨t, v, zs, e, by rw [e', ok_bind, e''], ht, hv'⟩

/-- C85, any arithmetic with commutative multiplication: `matvec` with one vector is `matmul` with the column. -/
theorem C85_matvec_column (fo : FOps F) (hcomm : ∀ x y, fo.mul x y = fo.mul y x) {a x : Tensor F} {m k : Nat}
    {xs ys : List F} (ha : Rep a [m, k] xs) (hx : Rep x [k] ys) (hxs : xs ≠ []) :
    ∃ c t u zs, x.reshape (ofDims [k, 1]) = .ok c ∧ matvec fo a x = .ok t ∧ product fo [] m 1 a c = .ok u ∧
      Rep t [m] zs ∧ Rep u [m, 1] zs := by
  obtain ⟨f, hf⟩ := entries_of (A := []) fo.zero ha.length
  obtain ⟨g, hg⟩ := ventries_of (A := []) fo.zero hx.length
  have p1 := pos_of_prod_pos (ha.prod_pos' hxs)
  have hm : 0 < m := p1 m (by simp)
  have hk : 0 < k := p1 k (by simp)
  have hm32 := ha.adm.lt m (by simp)
  have hk32 := ha.adm.lt k (by simp)
  have hlen : ys.length = k := by simpa using hx.length
  have hys : ys ≠ [] := by rintro rfl; simp at hlen; omega
  obtain ⟨c, e1, hc⟩ := reshape_rep (es := [k, 1]) hx ⟨by simp, by simp; omega⟩
    (fits_of_pos (by simp; omega) (by simpa using hk32)) (by simp)
  obtain ⟨t, zs, e, ht, E⟩ := matvec_entries fo (P := []) (R := []) ha hx (by simp) (by simp)
    ⟨List.length_pos_iff.2 hxs, List.length_pos_iff.2 hys⟩ (fits_of_pos (by simp; omega) (by simpa using hm32)) hf hg
  have hg' : Entries [] k 1 ys fun is i _ => g is i := by
    refine ⟨by simpa using hlen, fun is i j hs hi hj => ?_⟩
    have : is = [] := by cases is with
      | nil => rfl
      | cons _ _ => simp [ravel] at hs
    subst this
    have hj0 : j = 0 := by omega
    subst hj0
    have := hg.2 [] i hs hi
    simpa [at?, ravel, hi] using this
  obtain ⟨u, ws, e2, hu, _, E2⟩ := product_entries fo (A := []) ha hc hxs hys (by simpa using hm32) hf hg'
  have : ws = zs := by
    refine E2.ext (g := fun is i _ => dot fo ((List.range k).map fun l => (g is l, f [] i l))) ⟨?_, ?_⟩ ?_
    · rw [ht.length]; simp
    · intro is i j hs hi hj
      have : is = [] := by cases is with
        | nil => rfl
        | cons _ _ => simp [ravel] at hs
      subst this
      have hj0 : j = 0 := by omega
      subst hj0
      have := E.2 [] i hs hi
      simpa [at?, ravel, hi] using this
    · intro is i j hs _ _
      have : is = [] := by cases is with
        | nil => rfl
        | cons _ _ => simp [ravel] at hs
      subst this
      simp only [prodEntry, dot, List.foldl_map]
      congr 2
      funext v l
      rw [hcomm]
  subst this
  exact ⟨c, t, u, ws, e1, e, e2, ht, hu⟩

end any

section exactVec

variable [Field K] [LinearOrder K] [IsStrictOrderedRing K] (ln exp sqrt : K → K) (powf : K → K → K)

theorem dot_range (k : Nat) (p q : Nat → K) :
    dot (.exact ln exp sqrt powf) ((List.range k).map fun l => (p l, q l)) = ∑ l ∈ Finset.range k, p l * q l :=
  prodEntry_exact ln exp sqrt powf k (fun _ _ l => p l) (fun _ l _ => q l) [] 0 0

/-- C85, exact arithmetic: applying `b` and then `a` to vectors is applying the product `a b`: for one vector, for a row
of vectors, and for batches of rows of vectors. -/
theorem C85_matvec_composes {a b x : Tensor K} {P R : List Nat} {m k n : Nat} {xs ys zs : List K}
    (ha : Rep a [m, k] xs) (hb : Rep b [k, n] ys) (hx : Rep x (P ++ R ++ [n]) zs) (hR : R.length ≤ 1) (hP : R = [] → P = [])
    (hxs : xs ≠ []) (hys : ys ≠ []) (hzs : zs ≠ []) (h1 : m * n < 2 ^ 32) (h2 : (P ++ R ++ [m]).prod < 2 ^ 32)
    (h3 : (P ++ R ++ [k]).prod < 2 ^ 32) :
    Same (product (.exact ln exp sqrt powf) [] m n a b >>= fun t => matvec (FOps.exact ln exp sqrt powf) t x)
      (matvec (FOps.exact ln exp sqrt powf) b x >>= fun t => matvec (FOps.exact ln exp sqrt powf) a t) (P ++ R ++ [m]) := by
  obtain ⟨f, hf⟩ := entries_of (A := []) (0 : K) ha.length
  obtain ⟨g, hg⟩ := entries_of (A := []) (0 : K) hb.length
  obtain ⟨w, hw⟩ := ventries_of (0 : K) hx.length
  have p1 := pos_of_prod_pos (ha.prod_pos' hxs)
  have hm : 0 < m := p1 m (by simp)
  have hk : 0 < k := p1 k (by simp)
  have p3 := pos_of_prod_pos (hx.prod_pos' hzs)
  have pq : ∀ j, 0 < j → 0 < (P ++ R ++ [j]).prod := by
    intro j hj
    apply prod_pos
    intro d hd
    rcases List.mem_append.1 hd with hd | hd
    · exact p3 d (List.mem_append_left _ hd)
    · rw [List.mem_singleton] at hd; omega
  obtain ⟨ab, q1, e1, r1, n1, E1⟩ := product_entries (.exact ln exp sqrt powf) (A := []) ha hb hxs hys (by simpa using h1) hf hg
  obtain ⟨t, q2, e2, r2, E2⟩ := matvec_entries (.exact ln exp sqrt powf) r1 hx hR hP
    ⟨List.length_pos_iff.2 n1, List.length_pos_iff.2 hzs⟩ (fits_of_pos (pq m hm) h2) E1 hw
  obtain ⟨bx, q3, e3, r3, E3⟩ := matvec_entries (.exact ln exp sqrt powf) hb hx hR hP
    ⟨List.length_pos_iff.2 hys, List.length_pos_iff.2 hzs⟩ (fits_of_pos (pq k hk) h3) hg hw
  obtain ⟨u, q4, e4, r4, E4⟩ := matvec_entries (.exact ln exp sqrt powf) ha r3 hR hP
    ⟨List.length_pos_iff.2 hxs, by rw [r3.length]; exact pq k hk⟩ (fits_of_pos (pq m hm) h2) hf E3
  have : q2 = q4 := by
    refine E2.ext E4 fun is j _ _ => ?_
    simp only [dot_range, prodEntry_exact, Finset.mul_sum, Finset.sum_mul]
    rw [Finset.sum_comm]
    refine Finset.sum_congr rfl fun l _ => Finset.sum_congr rfl fun i _ => by ring
  subst this
  exact ⟨t, u, q2, by rw [e1, ok_bind, e2], by rw [e3, ok_bind, e4], r2, r4⟩

theorem VEntries.zipWith {Q : List Nat} {n : Nat} {xs ys : List K} {f g : List Nat → Nat → K}
    (hf : VEntries Q n xs f) (hg : VEntries Q n ys g) (op : K → K → K) :
    VEntries Q n (List.zipWith op xs ys) fun is j => op (f is j) (g is j) := by
  refine ⟨by simp [hf.1, hg.1], fun is j hs hj => ?_⟩
  have h1 := hf.2 is j hs hj
  have h2 := hg.2 is j hs hj
  obtain ⟨p, hp⟩ := Option.isSome_iff_exists.1 (isSome_one hs hj)
  simp only [at?, hp, Option.bind_some] at h1 h2 ⊢
  simp [List.getElem?_zipWith, h1, h2]

/-- C85, exact arithmetic: `matvec` is additive in the vectors. -/
theorem C85_matvec_adds {a x y : Tensor K} {P R : List Nat} {m k : Nat} {xs ys zs : List K}
    (ha : Rep a [m, k] xs) (hx : Rep x (P ++ R ++ [k]) ys) (hy : Rep y (P ++ R ++ [k]) zs) (hR : R.length ≤ 1)
    (hP : R = [] → P = []) (hxs : xs ≠ []) (hys : ys ≠ []) (h : (P ++ R ++ [m]).prod < 2 ^ 32) :
    Same (Tensor.binary (ringArith K) .add x y >>= fun t => matvec (FOps.exact ln exp sqrt powf) a t)
      (matvec (FOps.exact ln exp sqrt powf) a x >>= fun t => matvec (FOps.exact ln exp sqrt powf) a y >>= fun u =>
        Tensor.binary (ringArith K) .add t u) (P ++ R ++ [m]) := by
  obtain ⟨f, hf⟩ := entries_of (A := []) (0 : K) ha.length
  obtain ⟨g, hg⟩ := ventries_of (0 : K) hx.length
  obtain ⟨w, hw⟩ := ventries_of (0 : K) hy.length
  have p1 := pos_of_prod_pos (ha.prod_pos' hxs)
  have p3 := pos_of_prod_pos (hx.prod_pos' hys)
  have pm : 0 < (P ++ R ++ [m]).prod := by
    apply prod_pos
    intro d hd
    rcases List.mem_append.1 hd with hd | hd
    · exact p3 d (List.mem_append_left _ hd)
    · rw [List.mem_singleton] at hd; exact p1 d (by simp [hd])
  have hfit := fits_of_pos pm h
  have hzs : 0 < zs.length := by rw [hy.length]; exact hx.prod_pos' hys
  obtain ⟨s, e1, r1⟩ := binary_zip (nm := .add) (op := (· + ·)) (ar := ringArith K) rfl hx hy hys
  have hsl : 0 < (List.zipWith (· + ·) ys zs).length := by rw [r1.length]; exact hx.prod_pos' hys
  obtain ⟨t, q1, e2, r2, E1⟩ := matvec_entries (.exact ln exp sqrt powf) ha r1 hR hP
    ⟨List.length_pos_iff.2 hxs, hsl⟩ hfit hf (hg.zipWith hw _)
  obtain ⟨ax, q2, e3, r3, E2⟩ := matvec_entries (.exact ln exp sqrt powf) ha hx hR hP
    ⟨List.length_pos_iff.2 hxs, List.length_pos_iff.2 hys⟩ hfit hf hg
  obtain ⟨ay, q3, e4, r4, E3⟩ := matvec_entries (.exact ln exp sqrt powf) ha hy hR hP
    ⟨List.length_pos_iff.2 hxs, hzs⟩ hfit hf hw
  obtain ⟨u, e5, r5⟩ := binary_zip (nm := .add) (op := (· + ·)) (ar := ringArith K) rfl r3 r4
    (by rintro rfl; have := r3.length; simp only [List.length_nil] at this; omega)
  have : q1 = List.zipWith (· + ·) q2 q3 := by
    refine E1.ext (E2.zipWith E3 _) fun is j _ _ => ?_
    simp only [dot_range, add_mul, Finset.sum_add_distrib]
  subst this
  exact ⟨t, u, _, by rw [e1, ok_bind, e2], by rw [e3, ok_bind, e4, ok_bind, e5], r2, r5⟩

/-- C85, exact arithmetic: the diagonal matrix of `v` times `x` is the elementwise product of `v` and `x`. -/
theorem C85_matvec_diagonal {v x : Tensor K} {n : Nat} {xs ys : List K} (hv : Rep v [n] xs) (hx : Rep x [n] ys)
    (hn : 0 < n) (h : n * n < 2 ^ 32) :
    Same (Init.diagflat v >>= fun d => matvec (FOps.exact ln exp sqrt powf) d x) (Tensor.binary (ringArith K) .mul v x) [n] := by
  have hxl : xs.length = n := by simpa using hv.length
  have hyl : ys.length = n := by simpa using hx.length
  subst hxl
  have hxs : xs ≠ [] := List.length_pos_iff.1 hn
  obtain ⟨d, ds, e1, r1, h1⟩ := C33_diagflat hv h
  obtain ⟨f, hf⟩ := ventries_of (A := []) (0 : K) hv.length
  obtain ⟨g, hg⟩ := ventries_of (A := []) (0 : K) hx.length
  have hd : Entries [] xs.length xs.length ds fun _ i j => if i = j then f [] i else 0 := by
    refine ⟨by simpa using r1.length, fun is i j hs hi hj => ?_⟩
    have : is = [] := by cases is with
      | nil => rfl
      | cons _ _ => simp [ravel] at hs
    subst this
    refine h1 i j _ ?_ hj
    have := hf.2 [] i hs hi
    simpa [at?, ravel, hi] using this
  obtain ⟨t, zs, e2, r2, E⟩ := matvec_entries (.exact ln exp sqrt powf) (P := []) (R := []) r1 hx (by simp) (by simp)
    ⟨by rw [r1.length]; simp only [List.prod_cons, List.prod_nil, Nat.mul_one]; exact Nat.mul_pos hn hn, by omega⟩ hv.fits hd hg
  obtain ⟨u, e3, r3⟩ := binary_zip (nm := .mul) (op := (· * ·)) (ar := ringArith K) rfl hv hx hxs
  have : zs = List.zipWith (· * ·) xs ys := by
    refine E.ext (hf.zipWith hg _) fun is j hs hj => ?_
    have : is = [] := by cases is with
      | nil => rfl
      | cons _ _ => simp [ravel] at hs
    subst this
    simp only [dot_range]
    rw [Finset.sum_eq_single j]
    · rw [if_pos rfl, mul_comm]
    · intro l _ hl; rw [if_neg (Ne.symm hl), mul_zero]
    · intro hc; exact absurd (Finset.mem_range.2 hj) hc
  subst this
  exact ⟨t, u, _, by rw [e1, ok_bind, e2], e3, r2, r3⟩

theorem reduce_sum_exact {t : Tensor K} {ds : List Nat} {xs : List K} (h : Rep t ds xs) (hne : xs ≠ []) :
    ∃ u, Stats.reduceOp (fun x y => (.ok (x + y) : Res K)) t = .ok u ∧ Rep u [] [xs.sum] := by
  have := reduceOp_results (fun x y => (.ok (x + y) : Res K)) h
  obtain ⟨x, l, rfl⟩ := List.exists_cons_of_ne_nil hne
  have e : ∀ (l : List K) (x : K), l.foldlM (fun x y => (.ok (x + y) : Res K)) x = .ok (x + l.sum) := by
    intro l
    induction l with
    | nil => intro x; simp [pure, Except.pure]
    | cons y l ih => intro x; rw [List.foldlM_cons, ok_bind, ih]; simp [add_assoc]
  have e2 : [x :: l].mapM (reduceRes (fun x y => (.ok (x + y) : Res K))) = .ok [(x :: l).sum] := by
    rw [List.mapM_cons, reduceRes, e]; simp
  rw [e2] at this
  exact this

/-- C85, exact arithmetic: the sum of the elementwise product of two vectors is the product of the row and the column. -/
theorem C85_inner {x y : Tensor K} {n : Nat} {xs ys : List K} (hx : Rep x [n] xs) (hy : Rep y [n] ys) (hn : 0 < n) :
    ∃ r c p t u z, x.reshape (ofDims [1, n]) = .ok r ∧ y.reshape (ofDims [n, 1]) = .ok c ∧
      Tensor.binary (ringArith K) .mul x y = .ok p ∧ Stats.reduceOp (fun u v => .ok (u + v)) p = .ok t ∧
      matmul (FOps.exact ln exp sqrt powf) r c = .ok u ∧ Rep t [] [z] ∧ Rep u [1, 1] [z] := by
  have hxl : xs.length = n := by simpa using hx.length
  have hyl : ys.length = n := by simpa using hy.length
  have hn32 := hx.adm.lt n (by simp)
  have hxs : xs ≠ [] := by rintro rfl; simp at hxl; omega
  have hys : ys ≠ [] := by rintro rfl; simp at hyl; omega
  obtain ⟨r, e1, r1⟩ := reshape_rep (es := [1, n]) hx ⟨by simp, by simp; omega⟩
    (fits_of_pos (by simpa using hn) (by simpa using hn32)) (by simp)
  obtain ⟨c, e2, r2⟩ := reshape_rep (es := [n, 1]) hy ⟨by simp, by simp; omega⟩
    (fits_of_pos (by simpa using hn) (by simpa using hn32)) (by simp)
  obtain ⟨p, e3, r3⟩ := binary_zip (nm := .mul) (op := (· * ·)) (ar := ringArith K) rfl hx hy hxs
  obtain ⟨t, e4, r4⟩ := reduce_sum_exact r3 (by
    intro hc
    have := r3.length
    rw [hc] at this
    simp at this
    omega)
  obtain ⟨f, hf⟩ := entries_of (A := []) (0 : K) r1.length
  obtain ⟨g, hg⟩ := entries_of (A := []) (0 : K) r2.length
  obtain ⟨u, zs, e5, r5, E⟩ := matmul_entries (.exact ln exp sqrt powf) (A := []) r1 r2 fits_nil
    (fits_of_pos (by simp) (by simp)) hf hg
  have hz : zs = [(List.zipWith (· * ·) xs ys).sum] := by
    have hl : zs.length = 1 := by simpa using r5.length
    obtain ⟨z, rfl⟩ := List.length_eq_one_iff.1 hl
    have h1 := E.2 [] 0 0 (by simp [ravel]) (by omega) (by omega)
    simp only [prodEntry_exact] at h1
    have h1 : z = ∑ l ∈ Finset.range n, f [] 0 l * g [] l 0 := Option.some.inj h1
    rw [h1]
    congr 1
    have hlist : List.zipWith (· * ·) xs ys = (List.range n).map fun l => f [] 0 l * g [] l 0 := by
      apply List.ext_getElem?
      intro i
      rw [List.getElem?_zipWith, List.getElem?_map]
      by_cases hi : i < n
      · have h2 := hf.2 [] 0 i (by simp [ravel]) (by omega) hi
        have h3 := hg.2 [] i 0 (by simp [ravel]) hi (by omega)
        simp [at?, ravel, hi] at h2 h3
        simp [h2, h3, hi]
      · simp [List.getElem?_eq_none (show xs.length ≤ i by omega), List.getElem?_eq_none (show (List.range n).length ≤ i by simp; omega)]
    rw [hlist, Finset.sum_range, ← List.sum_ofFn]
    congr 1
    rw [List.ofFn_eq_map, ← List.map_coe_finRange_eq_range, List.map_map]
    rfl
  subst hz
  exact ⟨r, c, p, t, u, _, e1, e2, e3, e4, e5, r4, r5⟩

end exactVec

section plain

variable [Field K] [LinearOrder K] [IsStrictOrderedRing K] (ln exp sqrt : K → K) (powf : K → K → K)

theorem plain_exact : Plain (.exact ln exp sqrt powf) (fun _ : K => True) :=
  ⟨trivial, fun x _ => one_mul x, fun x _ => mul_one x, fun x _ => zero_mul x, fun x _ => mul_zero x, fun x _ => add_zero x,
    fun x _ => zero_add x⟩

theorem plain_rounded {rep : K → Prop} {rnd : K → K} {u tau : K} (hf : IsFormat rep rnd u tau) :
    Plain (.rounded rnd ln exp sqrt powf) rep :=
  ⟨hf.zero, fun x h => by simpa [FOps.rounded] using hf.fixed x h, fun x h => by simpa [FOps.rounded] using hf.fixed x h,
    fun x _ => by simpa [FOps.rounded] using hf.fixed 0 hf.zero, fun x _ => by simpa [FOps.rounded] using hf.fixed 0 hf.zero,
    fun x h => by simpa [FOps.rounded] using hf.fixed x h, fun x h => by simpa [FOps.rounded] using hf.fixed x h⟩

/-- C85: a matrix of representable numbers times the identity is that matrix exactly, under every rounding to a format,
whatever the order of operations in the other entries. -/
theorem C85_identity_rounded_partial {rep : K → Prop} {rnd : K → K} {u tau : K} (hf : IsFormat rep rnd u tau)
    {a : Tensor K} {m n : Nat} {xs : List K} (ha : Rep a [m, n] xs) (hx : xs ≠ []) (hel : ∀ x ∈ xs, rep x)
    (hm : m * m < 2 ^ 32) (hn : n * n < 2 ^ 32) :
    (∃ e t, (Init.eye n : Res (Tensor K)) = .ok e ∧ product (.rounded rnd ln exp sqrt powf) [] m n a e = .ok t ∧
      Rep t [m, n] xs) ∧
    (∃ e t, (Init.eye m : Res (Tensor K)) = .ok e ∧ product (.rounded rnd ln exp sqrt powf) [] m n e a = .ok t ∧
      Rep t [m, n] xs) :=
  C85_identity_partial _ rfl rfl (plain_rounded ln exp sqrt powf hf) ha hx hel hm hn

end plain

/-- C85 fails for matrices that are not square without the reshape: the dimensions of a product are swapped (C39), so
`(a b) c` panics for a row, a column and a row of length 2. -/
theorem C85_rectangular_violates (fo : FOps F) {a b c : Tensor F} {xs ys zs : List F} (ha : Rep a [1, 2] xs)
    (hb : Rep b [2, 3] ys) (hc : Rep c [3, 1] zs) :
    (∃ t ws, Rep t [3, 1] ws ∧ matmul fo a b = .ok t ∧ matmul fo t c = .error .panic) ∧
    (∃ t ws, Rep t [1, 2] ws ∧ matmul fo b c = .ok t ∧ matmul fo a t = .error .panic) := by
  have bad : ∀ {a b : Tensor F} {m k k' n : Nat} {xs ys : List F}, Rep a [m, k] xs → Rep b [k', n] ys → k ≠ k' →
      matmul fo a b = .error .panic := by
    intro a b m k k' n xs ys ha hb hk
    refine C39_rejects (.naive fo) .none ha hb ?_
    rintro ⟨A, B, m1, k1, n1, h1, h2, _⟩
    obtain ⟨_, h1⟩ := List.append_inj' (s₁ := []) (t₁ := [m, k]) h1 rfl
    obtain ⟨_, h2⟩ := List.append_inj' (s₁ := []) (t₁ := [k', n]) h2 rfl
    simp [Linalg.flip, Transpose.left, Transpose.right] at h1 h2
    omega
  constructor
  · obtain ⟨t, ws, e, ht, _⟩ := C39_matmul_partial fo .none (A := []) (B := []) (m := 1) (k := 2) (n := 3) ha hb rfl fits_nil
      (fits_of_pos (by simp) (by simp))
    exact ⟨t, ws, ht, e, bad ht hc (by omega)⟩
  · obtain ⟨t, ws, e, ht, _⟩ := C39_matmul_partial fo .none (A := []) (B := []) (m := 2) (k := 3) (n := 1) hb hc rfl fits_nil
      (fits_of_pos (by simp) (by simp))
    exact ⟨t, ws, ht, e, bad ha ht (by omega)⟩

/-! ### examples -/

/-- A 2 x 3 matrix seen through a view, a 3 x 2 and a 2 x 2 matrix, and a vector. -/
def algA : Tensor ℚ := ⟨ofDims [2, 3], 1, 6, [9, 1, 2, 3, 4, 5, 6]⟩
def algB : Tensor ℚ := ⟨ofDims [3, 2], 0, 6, [1, 0, 2, -1, 0, 5]⟩
def algC : Tensor ℚ := ⟨ofDims [2, 2], 0, 4, [0, 1, 2, 3]⟩
def algV : Tensor ℚ := ⟨ofDims [2], 0, 2, [3, -4]⟩

theorem algA_rep : Rep algA [2, 3] [1, 2, 3, 4, 5, 6] :=
  ⟨⟨wf_ofDims ⟨by simp, by simp⟩, rfl, by simp [algA]⟩, rfl, rfl⟩
theorem algB_rep : Rep algB [3, 2] [1, 0, 2, -1, 0, 5] :=
  ⟨⟨wf_ofDims ⟨by simp, by simp⟩, rfl, by simp [algB]⟩, rfl, rfl⟩
theorem algC_rep : Rep algC [2, 2] [0, 1, 2, 3] :=
  ⟨⟨wf_ofDims ⟨by simp, by simp⟩, rfl, by simp [algC]⟩, rfl, rfl⟩
theorem algV_rep : Rep algV [2] [3, -4] :=
  ⟨⟨wf_ofDims ⟨by simp, by simp⟩, rfl, by simp [algV]⟩, rfl, rfl⟩

example : Same (product exOps [] 2 2 algA algB >>= fun ab => product exOps [] 2 2 ab algC)
    (product exOps [] 3 2 algB algC >>= fun bc => product exOps [] 2 2 algA bc) [2, 2] :=
  C85_associates_partial _ _ _ _ (A := []) algA_rep algB_rep algC_rep (by simp) (by simp) (by simp) (by simp) (by simp) (by simp)

example : Same (matmul exOps algC algC >>= fun t => matmul exOps t algC)
    (matmul exOps algC algC >>= fun t => matmul exOps algC t) [2, 2] :=
  C85_associates_square _ _ _ _ (A := []) algC_rep algC_rep algC_rep (by simp)

example : Same (Tensor.binary (ringArith ℚ) .add algB algB >>= fun t => matmul exOps algA t)
    (matmul exOps algA algB >>= fun t => matmul exOps algA algB >>= fun u => Tensor.binary (ringArith ℚ) .add t u) [2, 2] :=
  (C85_distributes _ _ _ _ (A := []) algA_rep algB_rep algB_rep algA_rep (by simp) (by simp) (by simp)).1

example : Same (Tensor.binaryScalar (ringArith ℚ) .mul algA (1 / 3) >>= fun t => matmul exOps t algB)
    (matmul exOps algA algB >>= fun t => Tensor.binaryScalar (ringArith ℚ) .mul t (1 / 3)) [2, 2] :=
  (C85_factor _ _ _ _ (A := []) _ algA_rep algB_rep (by simp) (by simp) (by simp)).1

example : Same (product exOps [] 2 2 algA algB >>= Tensor.transpose)
    (algB.transpose >>= fun b' => algA.transpose >>= fun a' => product exOps [] 2 2 b' a') [2, 2] :=
  C85_transpose_partial exOps (fun x y => mul_comm x y) (A := []) algA_rep algB_rep (by simp) (by simp) (by simp)

/-- The transpose of `algB` times `algB`. -/
example : Same (matmulT exOps algB algB .transposeA)
    (algB.transpose >>= fun a' => .ok algB >>= fun b' => matmul exOps a' b') [2, 2] :=
  C85_options exOps .transposeA (A := []) (m := 2) (k := 3) (n := 2) algB_rep algB_rep (by simp) (by simp) (by simp)

example : ∃ e t, (Init.eye 3 : Res (Tensor ℚ)) = .ok e ∧ product exOps [] 2 3 algA e = .ok t ∧
    Rep t [2, 3] [1, 2, 3, 4, 5, 6] :=
  (C85_identity_partial exOps rfl rfl (plain_exact _ _ _ _) algA_rep (by simp) (fun _ _ => trivial) (by simp) (by simp)).1

example : Same (matvec exOps algC algB) (matmulT exOps algB algC .transposeB >>= fun t => t.reshape (ofDims [3, 2])) [3, 2] :=
  C85_matvec_matmul exOps algC_rep algB_rep (by simp) (by simp) (by simp)

example : ∃ c t u zs, algV.reshape (ofDims [2, 1]) = .ok c ∧ matvec exOps algC algV = .ok t ∧
    product exOps [] 2 1 algC c = .ok u ∧ Rep t [2] zs ∧ Rep u [2, 1] zs :=
  C85_matvec_column exOps (fun x y => mul_comm x y) algC_rep algV_rep (by simp)

example : Same (product exOps [] 2 2 algA algB >>= fun t => matvec exOps t algV)
    (matvec exOps algB algV >>= fun t => matvec exOps algA t) [2] :=
  C85_matvec_composes _ _ _ _ (P := []) (R := []) algA_rep algB_rep algV_rep (by simp) (by simp) (by simp) (by simp) (by simp)
    (by simp) (by simp) (by simp)

example : Same (Tensor.binary (ringArith ℚ) .add algV algV >>= fun t => matvec exOps algB t)
    (matvec exOps algB algV >>= fun t => matvec exOps algB algV >>= fun u => Tensor.binary (ringArith ℚ) .add t u) [3] :=
  C85_matvec_adds _ _ _ _ (P := []) (R := []) algB_rep algV_rep algV_rep (by simp) (by simp) (by simp) (by simp) (by simp)

example : Same (Init.diagflat algV >>= fun d => matvec exOps d algV) (Tensor.binary (ringArith ℚ) .mul algV algV) [2] :=
  C85_matvec_diagonal _ _ _ _ algV_rep algV_rep (by simp) (by simp)

example : ∃ r c p t u z, algV.reshape (ofDims [1, 2]) = .ok r ∧ algV.reshape (ofDims [2, 1]) = .ok c ∧
    Tensor.binary (ringArith ℚ) .mul algV algV = .ok p ∧ Stats.reduceOp (fun u v => .ok (u + v)) p = .ok t ∧
    matmul exOps r c = .ok u ∧ Rep t [] [z] ∧ Rep u [1, 1] [z] := C85_inner _ _ _ _ algV_rep algV_rep (by simp)

example : (∃ t ws, Rep t [3, 1] ws ∧
    matmul exOps (⟨ofDims [1, 2], 0, 2, [1, 2]⟩ : Tensor ℚ) ⟨ofDims [2, 3], 0, 6, [1, 2, 3, 4, 5, 6]⟩ = .ok t ∧
    matmul exOps t (⟨ofDims [3, 1], 0, 3, [1, 1, 1]⟩ : Tensor ℚ) = .error .panic) :=
  (C85_rectangular_violates exOps
    (rep_fresh (ds := [1, 2]) (xs := [1, 2]) ⟨by simp, by simp⟩ (fits_of_pos (by simp) (by simp)) rfl)
    (rep_fresh (ds := [2, 3]) (xs := [1, 2, 3, 4, 5, 6]) ⟨by simp, by simp⟩ (fits_of_pos (by simp) (by simp)) rfl)
    (rep_fresh (ds := [3, 1]) (xs := [1, 1, 1]) ⟨by simp, by simp⟩ (fits_of_pos (by simp) (by simp)) rfl)).1

example {a : Tensor ℚ} (ha : Rep a [1, 2] [1, -1 / 2]) : ∃ e t, (Init.eye 2 : Res (Tensor ℚ)) = .ok e ∧
    product (.rounded Ieee.f32 id id id fun x _ => x) [] 1 2 a e = .ok t ∧ Rep t [1, 2] [1, -1 / 2] :=
  (C85_identity_rounded_partial id id id (fun x _ => x) Ieee.f32_isFormat ha (by simp) (by
    intro x hx
    simp only [List.mem_cons, List.not_mem_nil, or_false] at hx
    rcases hx with rfl | rfl
    · exact Ieee.f32_isFormat.one
    · exact ⟨-1, -1, by norm_num, by norm_num, by norm_num⟩) (by norm_num) (by norm_num)).1

end Essay
