import Mathlib.Algebra.BigOperators.Fin
import Mathlib.Algebra.Order.Ring.Rat
import Verif.Spec.Float
import Verif.Lemmas.Linalg
import Verif.Props.Tensor

/-!
# Properties C39 - C41: matrix products

`flip t i j` is `[i, j]`, or `[j, i]` for an operand that is read transposed; `dot fo ps` is the sum of the products of
the pairs `ps` in the arithmetic `fo`.
-/

namespace Essay

open Shape Linalg

variable {F : Type}

theorem exists_flip (t : Bool) {ds : List Nat} (h : 2 ≤ ds.length) : ∃ A m k, ds = A ++ flip t m k := by
  obtain ⟨c, ds', rfl⟩ : ∃ c ds', ds = ds' ++ [c] := by
    rcases List.eq_nil_or_concat ds with rfl | ⟨l, c, h⟩
    · simp at h
    · exact ⟨c, l, by simpa using h⟩
  obtain ⟨r, ds'', rfl⟩ : ∃ r ds'', ds' = ds'' ++ [r] := by
    rcases List.eq_nil_or_concat ds' with rfl | ⟨l, c, h⟩
    · simp at h
    · exact ⟨c, l, by simpa using h⟩
  cases t
  · exact ⟨ds'', r, c, by simp [Linalg.flip]⟩
  · exact ⟨ds'', c, r, by simp [Linalg.flip]⟩

theorem flip_append_inj {t : Bool} {A B : List Nat} {i j k l : Nat} (h : A ++ flip t i j = B ++ flip t k l) :
    A = B ∧ i = k ∧ j = l := by
  have h1 := List.append_inj' h (by rw [flip_length, flip_length])
  refine ⟨h1.1, ?_⟩
  have := h1.2
  cases t <;> simp [Linalg.flip] at this <;> omega

theorem fits_outer {A E : List Nat} (h : Fits (A ++ E)) (hE : 0 < E.prod) : Fits A := by
  intro k
  by_cases hk : k ≤ A.length
  · have := h k
    rw [List.drop_append_of_le_length hk, List.prod_append] at this
    exact lt_of_le_of_lt (Nat.le_mul_of_pos_right _ hE) this
  · rw [List.drop_eq_nil_of_le (by omega)]; simp

/-! ## C39 matmul -/

/-- C39, for either implementation of `sgemm`, every kernel of the library and every transpose option: the operands hold (batches of) an `m x k` and a `k x n`
matrix, equally many. The result lists, batch by batch and row by row, the entries computed from the pairs of factors
`a[i, l]`, `b[l, j]`, `l < k`, but its dimensions are the batch dimensions of the right operand followed by `n, m`. Missing for the full property: the dimensions are swapped
unless `m = n` (see `C39_shape_violates`). -/
theorem C39_library_partial (bl : Blas F) (tr : Transpose) {a b : Tensor F} {A B : List Nat} {m k n : Nat} {xs ys : List F}
    (ha : Rep a (A ++ flip tr.left m k) xs) (hb : Rep b (B ++ flip tr.right k n) ys) (hAB : A.prod = B.prod)
    (hfA : Fits A) (hfO : Fits (B ++ [n, m])) :
    ∃ t zs, matmulT bl a b tr = .ok t ∧ Rep t (B ++ [n, m]) zs ∧
      ∀ ai bi i j ps, ravel A ai = ravel B bi → i < m → j < n → (ravel B bi).isSome → ps.length = k →
        (∀ (l : Nat) p, ps[l]? = some p → at? (A ++ flip tr.left m k) xs (ai ++ flip tr.left i l) = some p.1 ∧
          at? (B ++ flip tr.right k n) ys (bi ++ flip tr.right l j) = some p.2) →
        at? (B ++ [m, n]) zs (bi ++ [i, j]) = some (bl.entry m k n i j ps) := by
  have hm := (lt_of_mem_flip ha.adm).1
  have hn := (lt_of_mem_flip hb.adm).2
  have hadm : Adm (B ++ [n, m]) := adm_swap hb.adm hm hn false
  have hlen : (prodList bl A.prod m n k (elemAt bl tr.left m k xs) (elemAt bl tr.right k n ys)).length =
      (B ++ [n, m]).prod := by
    rw [prodList_length, hAB, List.prod_append]; simp [Nat.mul_comm]
  refine ⟨_, _, by rw [matmulT_eq bl ha hb (by omega) hfA, new_ok hadm hfO hlen], rep_fresh hadm hfO hlen, ?_⟩
  intro ai bi i j ps hr hi hj hs hps hp
  obtain ⟨q, hq⟩ := Option.isSome_iff_exists.1 hs
  rw [hq] at hr
  unfold at?
  rw [ravel_append (ravel_length hq), hq]
  simp only [ravel, hi, hj, if_true, Option.bind_some, Option.map_some, List.prod_cons, List.prod_nil, Nat.mul_one,
    Nat.add_zero]
  rw [prodList_get bl _ _ (by rw [hAB]; exact ravel_lt hq) hi hj]
  congr 1
  rw [pairsR_eq hps]
  intro l p hl
  obtain ⟨h1, h2⟩ := hp l p hl
  exact ⟨(at_flip bl hr h1).1, (at_flip bl hq h2).1⟩

/-- C39 for the simple loops, any float arithmetic and every transpose option: the operands hold (batches of) an `m x k` and a `k x n`
matrix, equally many. The result lists, batch by batch and row by row, the `m x n` products, but its dimensions are the
batch dimensions of the right operand followed by `n, m`. Missing for the full property: the dimensions are swapped
unless `m = n` (see `C39_shape_violates`). -/
theorem C39_matmul_partial (fo : FOps F) (tr : Transpose) {a b : Tensor F} {A B : List Nat} {m k n : Nat} {xs ys : List F}
    (ha : Rep a (A ++ flip tr.left m k) xs) (hb : Rep b (B ++ flip tr.right k n) ys) (hAB : A.prod = B.prod)
    (hfA : Fits A) (hfO : Fits (B ++ [n, m])) :
    ∃ t zs, matmulT fo a b tr = .ok t ∧ Rep t (B ++ [n, m]) zs ∧
      ∀ ai bi i j ps, ravel A ai = ravel B bi → i < m → j < n → (ravel B bi).isSome → ps.length = k →
        (∀ (l : Nat) p, ps[l]? = some p → at? (A ++ flip tr.left m k) xs (ai ++ flip tr.left i l) = some p.1 ∧
          at? (B ++ flip tr.right k n) ys (bi ++ flip tr.right l j) = some p.2) →
        at? (B ++ [m, n]) zs (bi ++ [i, j]) = some (dot fo ps) := C39_library_partial (.naive fo) tr ha hb hAB hfA hfO

/-- For `m ≠ n` the product has the wrong dimensions. -/
theorem C39_shape_violates (bl : Blas F) (tr : Transpose) {a b : Tensor F} {A B : List Nat} {m k n : Nat} {xs ys : List F}
    (ha : Rep a (A ++ flip tr.left m k) xs) (hb : Rep b (B ++ flip tr.right k n) ys) (hAB : A.prod = B.prod)
    (hfA : Fits A) (hfO : Fits (B ++ [n, m])) (hmn : m ≠ n) :
    ∃ t, matmulT bl a b tr = .ok t ∧ ¬ ∃ zs, Rep t (B ++ [m, n]) zs := by
  obtain ⟨t, zs, e, ht, _⟩ := C39_library_partial bl tr ha hb hAB hfA hfO
  refine ⟨t, e, ?_⟩
  rintro ⟨zs', h⟩
  have := ht.toDims.symm.trans h.toDims
  simp at this
  omega

/-- C39 for a square product (`m = n`): the dimensions are right as well. -/
theorem C39_square (fo : FOps F) (tr : Transpose) {a b : Tensor F} {A : List Nat} {n k : Nat} {xs ys : List F}
    (ha : Rep a (A ++ flip tr.left n k) xs) (hb : Rep b (A ++ flip tr.right k n) ys)
    (hfA : Fits A) (hfO : Fits (A ++ [n, n])) :
    ∃ t zs, matmulT fo a b tr = .ok t ∧ Rep t (A ++ [n, n]) zs ∧
      ∀ is i j ps, i < n → j < n → (ravel A is).isSome → ps.length = k →
        (∀ (l : Nat) p, ps[l]? = some p → at? (A ++ flip tr.left n k) xs (is ++ flip tr.left i l) = some p.1 ∧
          at? (A ++ flip tr.right k n) ys (is ++ flip tr.right l j) = some p.2) →
        at? (A ++ [n, n]) zs (is ++ [i, j]) = some (dot fo ps) := by
  obtain ⟨t, zs, e, ht, h⟩ := C39_matmul_partial fo tr ha hb rfl hfA hfO
  exact ⟨t, zs, e, ht, fun is i j ps hi hj hs => h is is i j ps rfl hi hj hs⟩

theorem dot_exact {K : Type} [Field K] [LinearOrder K] [IsStrictOrderedRing K] (ln exp sqrt : K → K) (powf : K → K → K)
    (ps : List (K × K)) : dot (.exact ln exp sqrt powf) ps = (ps.map fun p => p.1 * p.2).sum := by
  unfold dot
  simp only [FOps.exact, one_mul]
  have : ∀ (v : K), ps.foldl (fun v p => v + p.1 * p.2) v = v + (ps.map fun p => p.1 * p.2).sum := by
    induction ps with
    | nil => simp
    | cons p ps ih => intro v; simp [ih, add_assoc]
  rw [this, zero_add]

/-- C39 in exact arithmetic: element `(i, j)` of each product is the sum over `l < k` of `a[i, l] * b[l, j]` (the result
read row by row as `m x n`). -/
theorem C39_exact_partial {K : Type} [Field K] [LinearOrder K] [IsStrictOrderedRing K] (ln exp sqrt : K → K)
    (powf : K → K → K) (tr : Transpose) {a b : Tensor K} {A : List Nat} {m k n : Nat} {xs ys : List K}
    (ha : Rep a (A ++ flip tr.left m k) xs) (hb : Rep b (A ++ flip tr.right k n) ys) (hfA : Fits A)
    (hfO : Fits (A ++ [n, m])) :
    ∃ t zs, matmulT (FOps.exact ln exp sqrt powf) a b tr = .ok t ∧ Rep t (A ++ [n, m]) zs ∧
      ∀ is i j, (f g : Nat → K) → i < m → j < n → (ravel A is).isSome →
        (∀ l, l < k → at? (A ++ flip tr.left m k) xs (is ++ flip tr.left i l) = some (f l) ∧
          at? (A ++ flip tr.right k n) ys (is ++ flip tr.right l j) = some (g l)) →
        at? (A ++ [m, n]) zs (is ++ [i, j]) = some (∑ l ∈ Finset.range k, f l * g l) := by
  obtain ⟨t, zs, e, ht, h⟩ := C39_matmul_partial (.exact ln exp sqrt powf) tr ha hb rfl hfA hfO
  refine ⟨t, zs, e, ht, ?_⟩
  intro is i j f g hi hj hs hfg
  rw [h is is i j ((List.range k).map fun l => (f l, g l)) rfl hi hj hs (by simp)]
  · rw [dot_exact, List.map_map, Finset.sum_range, ← List.sum_ofFn]
    congr 2
    rw [List.ofFn_eq_map, ← List.map_coe_finRange_eq_range, List.map_map]
    rfl
  · intro l p hp
    rw [List.getElem?_map] at hp
    obtain ⟨l', hl', rfl⟩ := Option.map_eq_some_iff.1 hp
    obtain ⟨hlt, rfl⟩ := List.getElem?_eq_some_iff.1 hl'
    simp only [List.length_range] at hlt
    simpa using hfg l hlt

theorem noUB_mkn (tr : Transpose) (a b : Tensor F) : NoUB (mkn tr a b) := by
  unfold mkn
  have hr : ∀ s : Shape, NoUB s.rows := fun s => by unfold Shape.rows; split <;> simp
  have hc : ∀ s : Shape, NoUB s.cols := fun s => by unfold Shape.cols; simp
  refine noUB_bind (hr _) fun _ _ => noUB_bind (hc _) fun _ _ => noUB_bind (hr _) fun _ _ => noUB_bind (hc _) fun _ _ => ?_
  cases tr <;> exact noUB_bind (by simp) fun _ _ => by simp

theorem panic_of_noUB {α : Type} {x : Res α} (h : NoUB x) (h' : ∀ a, x ≠ .ok a) : x = .error .panic := by
  cases x with
  | ok a => exact absurd rfl (h' a)
  | error e => cases e with
    | panic => rfl
    | ub => exact absurd rfl h

theorem mkn_mismatch {tr : Transpose} {a b : Tensor F} {A B : List Nat} {m k k' n : Nat} {xs ys : List F}
    (ha : Rep a (A ++ flip tr.left m k) xs) (hb : Rep b (B ++ flip tr.right k' n) ys) (hk : k ≠ k') :
    mkn tr a b = .error .panic := by
  obtain ⟨e1, e2⟩ := flip_rows_cols ha.wf.shape ha.toDims
  obtain ⟨e3, e4⟩ := flip_rows_cols hb.wf.shape hb.toDims
  unfold mkn
  rw [e1, ok_bind, e2, ok_bind, e3, ok_bind, e4, ok_bind]
  cases tr <;> simp [Transpose.left, Transpose.right, ensure, hk]

/-- With fewer than two dimensions, or with different inner dimensions, `matmul_t` panics. -/
theorem matmul_panic (bl : Blas F) (tr : Transpose) {a b : Tensor F} {ds es : List Nat} {xs ys : List F}
    (ha : Rep a ds xs) (hb : Rep b es ys)
    (hbad : ¬ ∃ A B m k n, ds = A ++ flip tr.left m k ∧ es = B ++ flip tr.right k n) :
    matmulT bl a b tr = .error .panic := by
  unfold matmulT
  by_cases h1 : 2 ≤ ds.length
  swap
  · rw [ensure_false (by rw [ha.rank]; omega), error_bind]
  obtain ⟨A, m, k, rfl⟩ := exists_flip tr.left h1
  rw [ensure_true (by rw [ha.rank]; omega), ok_bind]
  by_cases h2 : 2 ≤ es.length
  · obtain ⟨B, k', n, rfl⟩ := exists_flip tr.right h2
    rw [mkn_mismatch ha hb, error_bind]
    rintro rfl
    exact hbad ⟨A, B, m, k, n, rfl, rfl⟩
  · have hr : ∀ s : Shape, NoUB s.rows := fun s => by unfold Shape.rows; split <;> simp
    have hc : ∀ s : Shape, NoUB s.cols := fun s => by unfold Shape.cols; simp
    apply panic_of_noUB
    · refine noUB_bind (noUB_mkn _ _ _) fun ⟨m, k, n⟩ _ => ?_
      dsimp only
      refine noUB_bind (by simp) fun o _ => ?_
      refine noUB_bind ?_ fun _ _ => noUB_bind (hr _) fun _ _ => noUB_bind (hc _) fun _ _ =>
        noUB_bind (hr _) fun _ _ => noUB_bind (hc _) fun _ _ => ?_
      · unfold Shape.sublen
        refine noUB_bind (by simp) fun _ _ => noUB_bind (by simp) fun _ _ => ?_
        unfold Shape.rsublen
        exact forR_noUB' fun _ _ => noUB_bind (by simp) fun _ _ => by simp
      · refine noUB_bind (by unfold Shape.withCols; exact noUB_bind (by simp) fun _ _ => by simp) fun s hs => ?_
        have hrank : s.rank = b.shape.rank := by
          unfold Shape.withCols at hs
          obtain ⟨d, _, e⟩ := bind_eq_ok.1 hs
          rw [← Except.ok.inj e]
        unfold Shape.withRows
        rw [ensure_false (by rw [hrank, hb.rank]; omega)]
        simp
    · intro t h
      obtain ⟨⟨m, k, n⟩, _, h⟩ := bind_eq_ok.1 h
      dsimp only at h
      obtain ⟨_, _, h⟩ := bind_eq_ok.1 h
      obtain ⟨_, _, h⟩ := bind_eq_ok.1 h
      obtain ⟨_, _, h⟩ := bind_eq_ok.1 h
      obtain ⟨_, _, h⟩ := bind_eq_ok.1 h
      obtain ⟨_, _, h⟩ := bind_eq_ok.1 h
      obtain ⟨_, _, h⟩ := bind_eq_ok.1 h
      obtain ⟨s, hs, h⟩ := bind_eq_ok.1 h
      obtain ⟨s', hs', h⟩ := bind_eq_ok.1 h
      unfold Shape.withRows at hs'
      rw [ensure_bind_eq_ok] at hs'
      have hrank : s.rank = b.shape.rank := by
        unfold Shape.withCols at hs
        obtain ⟨d, _, e⟩ := bind_eq_ok.1 hs
        rw [← Except.ok.inj e]
      rw [hrank, hb.rank] at hs'
      omega

/-- C39: operands with fewer than two dimensions, with different inner dimensions, or with more right-hand than left-hand
matrices (for a product with elements) are rejected. -/
theorem C39_rejects (bl : Blas F) (tr : Transpose) {a b : Tensor F} {ds es : List Nat} {xs ys : List F}
    (ha : Rep a ds xs) (hb : Rep b es ys)
    (hbad : ¬ ∃ A B m k n, ds = A ++ flip tr.left m k ∧ es = B ++ flip tr.right k n ∧ (0 < m * n → B.prod ≤ A.prod)) :
    matmulT bl a b tr = .error .panic := by
  by_cases h : ∃ A B m k n, ds = A ++ flip tr.left m k ∧ es = B ++ flip tr.right k n
  · obtain ⟨A, B, m, k, n, rfl, rfl⟩ := h
    have h3 : ¬ (0 < m * n → B.prod ≤ A.prod) := fun h3 => hbad ⟨A, B, m, k, n, rfl, rfl, h3⟩
    have hpos : 0 < m * n := by by_contra hc; exact h3 fun h => absurd h hc
    have hlt : A.prod < B.prod := by by_contra hc; exact h3 fun _ => by omega
    by_cases hfA : Fits A
    · rw [matmulT_eq bl ha hb (by omega) hfA]
      apply new_panic
      rw [prodList_length]
      intro hs
      have hm := (lt_of_mem_flip ha.adm).1
      have hn := (lt_of_mem_flip hb.adm).2
      have hadm : Adm (B ++ [n, m]) := adm_swap hb.adm hm hn false
      rw [size_ofDims_iff hadm] at hs
      have := hs.2
      rw [List.prod_append] at this
      simp only [List.prod_cons, List.prod_nil, Nat.mul_one] at this
      rw [Nat.mul_comm n m] at this
      have := Nat.eq_of_mul_eq_mul_right hpos this
      omega
    · obtain ⟨k', ek⟩ := mkn_ok ha hb
      unfold matmulT
      rw [ensure_true (by rw [ha.rank]; simp [flip_length]), ok_bind, ek, ok_bind]
      dsimp only
      rw [ha.rank, usub_ok (by simp [flip_length]), ok_bind,
        show (A ++ flip tr.left m k).length - 2 = A.length by simp [flip_length]]
      rw [ha.shape, sublen_outer ha.adm.len, foldl_not_fits hfA, error_bind]
  · exact matmul_panic bl tr ha hb h

/-! ## C40 matmul memory safety -/

/-- C40: unless the left operand has more matrices than the right one, `matmul_t` never causes undefined behaviour, and
its outcome depends only on the elements of its operands: it is the same for any other buffers and offsets showing the
same elements. Missing for the full property: more left-hand than right-hand matrices, see `C40_batch_violates`. -/
theorem C40_safe_partial (bl : Blas F) (tr : Transpose) {a b : Tensor F} {ds es : List Nat} {xs ys : List F}
    (ha : Rep a ds xs) (hb : Rep b es ys)
    (hle : ∀ A B r c r' c', ds = A ++ [r, c] → es = B ++ [r', c'] → A.prod ≤ B.prod) :
    NoUB (matmulT bl a b tr) ∧
      ∀ a' b' : Tensor F, Rep a' ds xs → Rep b' es ys → matmulT bl a' b' tr = matmulT bl a b tr := by
  by_cases h : ∃ A B m k n, ds = A ++ flip tr.left m k ∧ es = B ++ flip tr.right k n
  · obtain ⟨A, B, m, k, n, rfl, rfl⟩ := h
    have hl : A.prod ≤ B.prod := by
      have e1 : ∃ r c, flip tr.left m k = [r, c] := by cases tr.left <;> exact ⟨_, _, rfl⟩
      have e2 : ∃ r c, flip tr.right k n = [r, c] := by cases tr.right <;> exact ⟨_, _, rfl⟩
      obtain ⟨r, c, e1⟩ := e1
      obtain ⟨r', c', e2⟩ := e2
      exact hle A B r c r' c' (by rw [e1]) (by rw [e2])
    by_cases hfA : Fits A
    · refine ⟨by rw [matmulT_eq bl ha hb hl hfA]; simp, ?_⟩
      intro a' b' ha' hb'
      rw [matmulT_eq bl ha hb hl hfA, matmulT_eq bl ha' hb' hl hfA]
    · have key : ∀ a' b' : Tensor F, Rep a' (A ++ flip tr.left m k) xs → Rep b' (B ++ flip tr.right k n) ys →
          matmulT bl a' b' tr = .error .panic := by
        intro a b ha hb
        obtain ⟨k', ek⟩ := mkn_ok ha hb
        unfold matmulT
        rw [ensure_true (by rw [ha.rank]; simp [flip_length]), ok_bind, ek, ok_bind]
        dsimp only
        rw [ha.rank, usub_ok (by simp [flip_length]), ok_bind,
          show (A ++ flip tr.left m k).length - 2 = A.length by simp [flip_length]]
        rw [ha.shape, sublen_outer ha.adm.len, foldl_not_fits hfA, error_bind]
      refine ⟨by rw [key a b ha hb]; simp, ?_⟩
      intro a' b' ha' hb'
      rw [key a b ha hb, key a' b' ha' hb']
  · refine ⟨by rw [matmul_panic bl tr ha hb h]; simp, ?_⟩
    intro a' b' ha' hb'
    rw [matmul_panic bl tr ha hb h, matmul_panic bl tr ha' hb' h]

theorem forR_ne_error {β : Type} {lo hi : Nat} {s : β} {body : Nat → β → Res β} {e : Err}
    (h : ∀ i s, body i s ≠ .error e) : forR lo hi s body ≠ .error e := by
  by_cases hle : lo ≤ hi
  · obtain ⟨n, rfl⟩ : ∃ n, hi = lo + n := ⟨hi - lo, by omega⟩
    clear hle
    induction n with
    | zero => rw [forR_stop (by omega)]; simp
    | succ n ih =>
      rw [← Nat.add_assoc, forR_snoc (by omega)]
      intro hc
      rcases bind_eq_error.1 hc with hc | ⟨s', _, hc⟩
      · exact ih hc
      · exact h _ _ hc
  · rw [forR_stop (by omega)]; simp

theorem unsafeInit_ub {α : Type} {len : Nat} {shape : Shape} {f : Buf α → Res (Buf α)}
    (h1 : f (Buf.uninit len) ≠ .error .panic) (h2 : ∀ o, f (Buf.uninit len) ≠ .ok o) :
    Tensor.unsafeInit len shape f = .error .ub := by
  unfold Tensor.unsafeInit
  cases hx : f (Buf.uninit len) with
  | ok o => exact absurd hx (h2 o)
  | error e => cases e with
    | panic => exact absurd hx h1
    | ub => rfl

theorem rawAdd_ne_panic {α : Type} (xs : List α) (i : Nat) : rawAdd xs i ≠ .error .panic := by
  unfold rawAdd; split <;> simp

theorem rawAdd_eq {α : Type} {xs : List α} {i j : Nat} (h : rawAdd xs i = .ok j) : i = j := by
  unfold rawAdd at h
  split at h
  · exact Except.ok.inj h
  · cases h

theorem rawAdd_le {α : Type} {xs : List α} {i j : Nat} (h : rawAdd xs i = .ok j) : i ≤ xs.length := by
  unfold rawAdd at h
  split at h
  · assumption
  · cases h

theorem sgemm_ne_panic (bl : Blas F) (m k n : Nat) (alpha : F) (a : List F) (pa rsa csa : Nat) (b : List F)
    (pb rsb csb : Nat) (c : Buf F) (pc rsc csc : Nat) :
    sgemm bl m k n alpha a pa rsa csa b pb rsb csb c pc rsc csc ≠ .error .panic := by
  have hread : ∀ (xs : List F) i, rawRead xs i ≠ .error .panic := by
    intro xs i; unfold rawRead; split <;> simp
  unfold sgemm sgemmNaive sgemmLibrary
  cases bl
  all_goals
    apply forR_ne_error
    intro i c
    apply forR_ne_error
    intro j c hc
    rcases bind_eq_error.1 hc with hc | ⟨v, _, hc⟩
    · revert hc
      apply forR_ne_error
      intro l v hc
      rcases bind_eq_error.1 hc with hc | ⟨x, _, hc⟩
      · exact hread _ _ hc
      · rcases bind_eq_error.1 hc with hc | ⟨y, _, hc⟩
        · exact hread _ _ hc
        · cases hc
    · unfold Buf.write at hc
      split at hc <;> cases hc

/-- The first product of `sgemm` reads the first element of the right operand. -/
theorem sgemm_reads (bl : Blas F) {m k n : Nat} {alpha : F} {a : List F} {pa rsa csa : Nat} {b : List F}
    {pb rsb csb : Nat} {c c' : Buf F} {pc rsc csc : Nat} (hm : 0 < m) (hk : 0 < k) (hn : 0 < n)
    (h : sgemm bl m k n alpha a pa rsa csa b pb rsb csb c pc rsc csc = .ok c') : pb < b.length := by
  unfold sgemm sgemmNaive sgemmLibrary at h
  cases bl
  all_goals
    obtain ⟨c1, c2, h⟩ := forR_ok_all h 0 (Nat.zero_le _) hm
    obtain ⟨c1, c2, h⟩ := forR_ok_all h 0 (Nat.zero_le _) hn
    obtain ⟨v, h, _⟩ := bind_eq_ok.1 h
    obtain ⟨c1, c2, h⟩ := forR_ok_all h 0 (Nat.zero_le _) hk
    obtain ⟨x, _, h⟩ := bind_eq_ok.1 h
    obtain ⟨y, hy, _⟩ := bind_eq_ok.1 h
    unfold rawRead at hy
    split at hy
    · next h' => simpa using (List.getElem?_eq_some_iff.1 h').1
    · cases hy

/-- From safe code, `matmul_t` reads outside the right operand's buffer whenever the left operand holds more matrices
than the right one (nothing checks the batch dimensions before the reads). -/
theorem C40_batch_violates (bl : Blas F) (tr : Transpose) {a b : Tensor F} {A B : List Nat} {m k n : Nat}
    {xs ys : List F} (ha : Rep a (A ++ flip tr.left m k) xs) (hb : Rep b (B ++ flip tr.right k n) ys)
    (hm : 0 < m) (hk : 0 < k) (hn : 0 < n) (hlt : B.prod < A.prod) (hend : b.offset + b.size = b.data.length) :
    matmulT bl a b tr = .error .ub := by
  obtain ⟨k', ek⟩ := mkn_ok ha hb
  obtain ⟨e1, e2⟩ := flip_rows_cols ha.wf.shape ha.toDims
  obtain ⟨e3, e4⟩ := flip_rows_cols hb.wf.shape hb.toDims
  have hm32 := (lt_of_mem_flip ha.adm).1
  have hn32 := (lt_of_mem_flip hb.adm).2
  have hfA : Fits A := fits_outer ha.fits (by rw [flip_prod]; exact Nat.mul_pos hm hk)
  have hbs : b.size = B.prod * (k * n) := by rw [hb.size, hb.length, List.prod_append, flip_prod]
  unfold matmulT
  rw [ensure_true (by rw [ha.rank]; simp [flip_length]), ok_bind, ek, ok_bind]
  dsimp only
  rw [ha.rank, usub_ok (by simp [flip_length]), ok_bind,
    show (A ++ flip tr.left m k).length - 2 = A.length by simp [flip_length]]
  rw [ha.shape, sublen_outer ha.adm.len, foldl_fits hfA, ok_bind, ← ha.shape, e1, ok_bind, e2, ok_bind, e3, ok_bind, e4,
    ok_bind]
  rw [← bind_assoc, hb.shape, with_shape hb.adm hm32 hn32, ok_bind]
  have s2 : (if tr.right = true then n else k) * (if tr.right = true then k else n) = k * n := by
    split <;> simp [Nat.mul_comm]
  rw [s2]
  apply unsafeInit_ub
  · apply forR_ne_error
    intro q o hc
    rcases bind_eq_error.1 hc with hc | ⟨_, _, hc⟩
    · exact rawAdd_ne_panic _ _ hc
    rcases bind_eq_error.1 hc with hc | ⟨_, _, hc⟩
    · exact rawAdd_ne_panic _ _ hc
    rcases bind_eq_error.1 hc with hc | ⟨_, _, hc⟩
    · exact rawAdd_ne_panic _ _ hc
    revert hc
    unfold matmulSgemm
    rw [e1, ok_bind, e2, ok_bind, e3, ok_bind, e4, ok_bind]
    cases tr <;> apply sgemm_ne_panic
  · intro o ho
    obtain ⟨o1, o2, h⟩ := forR_ok_all ho B.prod (Nat.zero_le _) hlt
    obtain ⟨_, _, h⟩ := bind_eq_ok.1 h
    obtain ⟨pb, hpb, h⟩ := bind_eq_ok.1 h
    obtain ⟨_, _, h⟩ := bind_eq_ok.1 h
    obtain rfl := rawAdd_eq hpb
    have hlt : b.offset + k * n * B.prod < b.data.length := by
      unfold matmulSgemm at h
      rw [e1, ok_bind, e2, ok_bind, e3, ok_bind, e4, ok_bind] at h
      cases tr <;> simp only [Transpose.left, Transpose.right, if_true, Bool.false_eq_true, if_false] at h <;>
        exact sgemm_reads bl hm hk hn h
    rw [Nat.mul_comm (k * n)] at hlt
    omega

/-- Even if the products have no elements, so that nothing is read, `matmul_t` makes a pointer past the end of the right
operand's buffer once the left operand holds at least two matrices more. -/
theorem C40_pointer_violates (bl : Blas F) (tr : Transpose) {a b : Tensor F} {A B : List Nat} {m k n : Nat}
    {xs ys : List F} (ha : Rep a (A ++ flip tr.left m k) xs) (hb : Rep b (B ++ flip tr.right k n) ys)
    (hfA : Fits A) (hk : 0 < k) (hn : 0 < n) (hlt : B.prod + 1 < A.prod) (hend : b.offset + b.size = b.data.length) :
    matmulT bl a b tr = .error .ub := by
  obtain ⟨k', ek⟩ := mkn_ok ha hb
  obtain ⟨e1, e2⟩ := flip_rows_cols ha.wf.shape ha.toDims
  obtain ⟨e3, e4⟩ := flip_rows_cols hb.wf.shape hb.toDims
  have hm32 := (lt_of_mem_flip ha.adm).1
  have hn32 := (lt_of_mem_flip hb.adm).2
  have hbs : b.size = B.prod * (k * n) := by rw [hb.size, hb.length, List.prod_append, flip_prod]
  unfold matmulT
  rw [ensure_true (by rw [ha.rank]; simp [flip_length]), ok_bind, ek, ok_bind]
  dsimp only
  rw [ha.rank, usub_ok (by simp [flip_length]), ok_bind,
    show (A ++ flip tr.left m k).length - 2 = A.length by simp [flip_length]]
  rw [ha.shape, sublen_outer ha.adm.len, foldl_fits hfA, ok_bind, ← ha.shape, e1, ok_bind, e2, ok_bind, e3, ok_bind, e4,
    ok_bind]
  rw [← bind_assoc, hb.shape, with_shape hb.adm hm32 hn32, ok_bind]
  have s2 : (if tr.right = true then n else k) * (if tr.right = true then k else n) = k * n := by
    split <;> simp [Nat.mul_comm]
  rw [s2]
  apply unsafeInit_ub
  · apply forR_ne_error
    intro q o hc
    rcases bind_eq_error.1 hc with hc | ⟨_, _, hc⟩
    · exact rawAdd_ne_panic _ _ hc
    rcases bind_eq_error.1 hc with hc | ⟨_, _, hc⟩
    · exact rawAdd_ne_panic _ _ hc
    rcases bind_eq_error.1 hc with hc | ⟨_, _, hc⟩
    · exact rawAdd_ne_panic _ _ hc
    revert hc
    unfold matmulSgemm
    rw [e1, ok_bind, e2, ok_bind, e3, ok_bind, e4, ok_bind]
    cases tr <;> apply sgemm_ne_panic
  · intro o ho
    obtain ⟨o1, o2, h⟩ := forR_ok_all ho (B.prod + 1) (Nat.zero_le _) hlt
    obtain ⟨_, _, h⟩ := bind_eq_ok.1 h
    obtain ⟨pb, hpb, h⟩ := bind_eq_ok.1 h
    have hle := rawAdd_le hpb
    have hpos := Nat.mul_pos hk hn
    rw [Nat.mul_comm (k * n), Nat.add_mul] at hle
    omega

/-! ### examples -/

abbrev exOps : FOps ℚ := .exact id id id fun x _ => x

/-- A 2 x 3 matrix. -/
def exA : Tensor ℚ := ⟨ofDims [2, 3], 0, 6, [1, 2, 3, 4, 5, 6]⟩
/-- A 3 x 2 matrix. -/
def exB : Tensor ℚ := ⟨ofDims [3, 2], 0, 6, [1, 0, 2, 1, 0, 3]⟩
theorem exA_rep : Rep exA [2, 3] [1, 2, 3, 4, 5, 6] :=
  rep_fresh (ds := [2, 3]) (xs := [1, 2, 3, 4, 5, 6]) ⟨by simp, by simp⟩ (by simp [fits_cons, fits_nil]) (by simp)
theorem exB_rep : Rep exB [3, 2] [1, 0, 2, 1, 0, 3] :=
  rep_fresh (ds := [3, 2]) (xs := [1, 0, 2, 1, 0, 3]) ⟨by simp, by simp⟩ (by simp [fits_cons, fits_nil]) (by simp)

example : ∃ t zs, matmulT exOps exA exB .none = .ok t ∧ Rep t [2, 2] zs ∧
    ∀ is i j ps, i < 2 → j < 2 → (ravel [] is).isSome → ps.length = 3 →
      (∀ (l : Nat) p, ps[l]? = some p → at? [2, 3] [1, 2, 3, 4, 5, 6] (is ++ [i, l]) = some p.1 ∧
        at? [3, 2] [1, 0, 2, 1, 0, 3] (is ++ [l, j]) = some p.2) →
      at? [2, 2] zs (is ++ [i, j]) = some (dot exOps ps) :=
  C39_square exOps .none (A := []) exA_rep exB_rep (by simp [fits_cons, fits_nil]) (by simp [fits_cons, fits_nil])

/-- `b` read transposed, 3 x 2 times the transpose of 3 x 2: a 3 x 3 product. -/
example : ∃ t zs, matmulT exOps exB exB .transposeB = .ok t ∧ Rep t [3, 3] zs ∧
    ∀ is i j, (f g : Nat → ℚ) → i < 3 → j < 3 → (ravel [] is).isSome →
      (∀ l, l < 2 → at? [3, 2] [1, 0, 2, 1, 0, 3] (is ++ [i, l]) = some (f l) ∧
        at? [3, 2] [1, 0, 2, 1, 0, 3] (is ++ [j, l]) = some (g l)) →
      at? [3, 3] zs (is ++ [i, j]) = some (∑ l ∈ Finset.range 2, f l * g l) :=
  C39_exact_partial id id id (fun x _ => x) .transposeB (A := []) (m := 3) (k := 2) (n := 3) exB_rep exB_rep (by simp [fits_cons, fits_nil])
    (by simp [fits_cons, fits_nil])

/-- A 2 x 3 matrix times a 3 x 3 matrix (read transposed) comes back as 3 x 2. -/
example : ∃ t, matmulT exOps exA (⟨ofDims [3, 3], 0, 9, [1, 0, 0, 0, 1, 0, 0, 0, 1]⟩ : Tensor ℚ) .transposeB = .ok t ∧
    ¬ ∃ zs, Rep t [2, 3] zs :=
  C39_shape_violates (.naive exOps) .transposeB (A := []) (B := []) (m := 2) (k := 3) (n := 3) exA_rep
    (rep_fresh (ds := [3, 3]) (xs := [1, 0, 0, 0, 1, 0, 0, 0, 1]) ⟨by simp, by simp⟩ (by simp [fits_cons, fits_nil]) (by simp)) rfl (by simp [fits_cons, fits_nil])
    (by simp [fits_cons, fits_nil]) (by omega)

example : matmulT exOps exA exA .none = .error .panic := by
  apply C39_rejects (.naive exOps) .none exA_rep exA_rep
  rintro ⟨A, B, m, k, n, h1, h2, _⟩
  have h1' := List.append_inj' (s₁ := []) (t₁ := [2, 3]) h1 rfl
  have h2' := List.append_inj' (s₁ := []) (t₁ := [2, 3]) h2 rfl
  simp [Transpose.left, Transpose.right, Linalg.flip] at h1' h2'
  omega

example : NoUB (matmulT exOps exA exB .transposeAB) := by
  refine (C40_safe_partial (.naive exOps) .transposeAB exA_rep exB_rep ?_).1
  intro A B r c r' c' h1 h2
  have h1' := List.append_inj' (s₁ := []) (t₁ := [2, 3]) h1 rfl
  have h2' := List.append_inj' (s₁ := []) (t₁ := [3, 2]) h2 rfl
  rw [← h1'.1, ← h2'.1]

/-- Two 1 x 1 matrices times one 1 x 1 matrix: reads past the end of the second operand. -/
example : matmulT exOps (⟨ofDims [2, 1, 1], 0, 2, [1, 2]⟩ : Tensor ℚ) (⟨ofDims [1, 1], 0, 1, [3]⟩ : Tensor ℚ) .none =
    .error .ub :=
  C40_batch_violates (.naive exOps) .none (A := [2]) (B := []) (m := 1) (k := 1) (n := 1)
    (rep_fresh (ds := [2, 1, 1]) (xs := [1, 2]) ⟨by simp, by simp⟩ (by simp [fits_cons, fits_nil]) (by simp))
    (rep_fresh (ds := [1, 1]) (xs := [3]) ⟨by simp, by simp⟩ (by simp [fits_cons, fits_nil]) (by simp)) (by omega) (by omega) (by omega)
    (by simp) rfl

example : matmulT exOps (⟨ofDims [3, 0, 2], 0, 0, []⟩ : Tensor ℚ) (⟨ofDims [2, 2], 0, 4, [3, 1, 2, 0]⟩ : Tensor ℚ) .none = .error .ub :=
  C40_pointer_violates (.naive exOps) .none (A := [3]) (B := []) (m := 0) (k := 2) (n := 2)
    (rep_fresh (ds := [3, 0, 2]) (xs := []) ⟨by simp, by simp⟩ (by simp [fits_cons, fits_nil]) (by simp))
    (rep_fresh (ds := [2, 2]) (xs := [3, 1, 2, 0]) ⟨by simp, by simp⟩ (by simp [fits_cons, fits_nil]) (by simp))
    (by simp [fits_cons, fits_nil]) (by omega) (by omega) (by simp) rfl

example : ∃ t zs, matmulT exOps exB exA .none = .ok t ∧ Rep t [3, 3] zs ∧
    ∀ ai bi i j ps, ravel [] ai = ravel [] bi → i < 3 → j < 3 → (ravel [] bi).isSome → ps.length = 2 →
      (∀ (l : Nat) p, ps[l]? = some p → at? [3, 2] [1, 0, 2, 1, 0, 3] (ai ++ [i, l]) = some p.1 ∧
        at? [2, 3] [1, 2, 3, 4, 5, 6] (bi ++ [l, j]) = some p.2) →
      at? [3, 3] zs (bi ++ [i, j]) = some (dot exOps ps) :=
  C39_matmul_partial exOps .none (A := []) (B := []) exB_rep exA_rep rfl (by simp [fits_cons, fits_nil])
    (by simp [fits_cons, fits_nil])

end Essay
