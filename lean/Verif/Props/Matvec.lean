import Verif.Lemmas.Matvec
import Verif.Props.Linalg

/-!
# Property C41: matrix-vector products
-/

namespace Essay

open Shape Linalg

variable {F : Type}

/-- C41, for either implementation of `sgemm` and every kernel of the library, plain or with the matrix read transposed: `a` holds a batch `A` of `m x k` matrices and
`x` rows of length `k` (`R` is empty for a single vector, else the number of rows; `P` are further outer dimensions).
The result has the dimensions of `x` with the last one replaced by `m`, and its row at any index holds the entries
computed from the rows of that batch's matrix and the row of `x`. Missing for the full property: an operand without elements, see `C41_empty_violates`. -/
theorem C41_library_partial (bl : Blas F) {tr : Transpose} (htr : tr = .none ∨ tr = .transposeA) {a x : Tensor F}
    {P A R : List Nat} {m k : Nat} {xs ys : List F}
    (ha : Rep a (A ++ flip tr.left m k) xs) (hx : Rep x (P ++ A ++ R ++ [k]) ys) (hR : R.length ≤ 1)
    (hP : R = [] → P ++ A = []) (hpos : 0 < xs.length ∧ 0 < ys.length) (hfO : Fits (P ++ A ++ R ++ [m])) :
    ∃ t zs, matvecT bl a x tr = .ok t ∧ Rep t (P ++ A ++ R ++ [m]) zs ∧
      ∀ pi ai ri i j ps, (ravel P pi).isSome → (ravel A ai).isSome → ravel R ri = some i → j < m → ps.length = k →
        (∀ (l : Nat) p, ps[l]? = some p → at? (P ++ A ++ R ++ [k]) ys (pi ++ ai ++ ri ++ [l]) = some p.1 ∧
          at? (A ++ flip tr.left m k) xs (ai ++ flip tr.left j l) = some p.2) →
        at? (P ++ A ++ R ++ [m]) zs (pi ++ ai ++ ri ++ [j]) = some (bl.entry R.prod k m i j ps) := by
  have hr : tr.right = false := by rcases htr with rfl | rfl <;> rfl
  have hyl : ys.length = (P ++ A).prod * (R.prod * k) := by
    rw [hx.length, List.append_assoc, List.prod_append, List.prod_append (l₁ := R)]; simp
  have hfX : Fits (P ++ A) := by
    have := hx.fits
    rw [List.append_assoc] at this
    apply fits_outer this
    rw [List.prod_append]
    have := hpos.2
    rw [hyl] at this
    simpa using Nat.pos_of_mul_pos_left this
  have hif : (if A.length < (P ++ A).length then P ++ A else A) = P ++ A := by
    split
    · rfl
    · next h =>
      have : P = [] := by
        cases P with
        | nil => rfl
        | cons p P => simp at h
      rw [this]; rfl
  have hm := (lt_of_mem_flip ha.adm).1
  have hadm : Adm (P ++ A ++ R ++ [m]) := by
    refine ⟨by have := hx.adm.len; simpa using this, ?_⟩
    intro d hd
    rcases List.mem_append.1 hd with h | h
    · exact hx.adm.lt d (List.mem_append.2 (Or.inl h))
    · simp at h; subst h; exact hm
  have hlen : (mvList bl tr (P ++ A).prod R.prod m k A.prod (P ++ A).prod xs ys).length = (P ++ A ++ R ++ [m]).prod := by
    unfold mvList
    rw [prodList_length, List.append_assoc, List.prod_append (l₁ := P ++ A), List.prod_append (l₁ := R)]; simp
  have he := matvecT_eq bl hr ha hx hR hP (Or.inl (List.suffix_append P A)) (by rw [hif]; exact hfX) (Or.inr hpos)
  rw [hif, new_ok hadm hfO hlen] at he
  refine ⟨_, _, he, rep_fresh hadm hfO hlen, ?_⟩
  intro pi ai ri i j ps hp ha' hi hj hps h
  obtain ⟨p0, hp0⟩ := Option.isSome_iff_exists.1 hp
  obtain ⟨q0, hq0⟩ := Option.isSome_iff_exists.1 ha'
  have hq : ravel (P ++ A) (pi ++ ai) = some (p0 * A.prod + q0) := by
    rw [ravel_append (ravel_length hp0), hp0, hq0]; rfl
  have hRk : ∀ {n l}, l < n → ravel (R ++ [n]) (ri ++ [l]) = some (i * n + l) := by
    intro n l hl
    rw [ravel_append (ravel_length hi), hi]
    simp [ravel, hl]
  have hat : ∀ {n l}, l < n → ∀ zs : List F, at? (P ++ A ++ R ++ [n]) zs (pi ++ ai ++ ri ++ [l]) =
      zs[(p0 * A.prod + q0) * (R.prod * n) + (i * n + l)]? := by
    intro n l hl zs
    unfold at?
    rw [List.append_assoc (P ++ A), List.append_assoc (pi ++ ai), ravel_append (ravel_length hq), hq, hRk hl]
    simp
  have hqlt := ravel_lt hq
  rw [hat hj]
  unfold mvList
  rw [prodList_get bl _ _ hqlt (ravel_lt hi) hj]
  congr 1
  rw [pairsR_eq hps]
  intro l p hl
  have hlk : l < k := by rw [← hps]; exact (List.getElem?_eq_some_iff.1 hl).1
  obtain ⟨h1, h2⟩ := h l p hl
  rw [hat hlk] at h1
  rw [Nat.mod_eq_of_lt hqlt, mul_add_mod' (ravel_lt hq0)]
  refine ⟨?_, ?_⟩
  · unfold elemAt
    simp only [Bool.false_eq_true, if_false]
    rw [h1]; rfl
  · rw [← flip_not tr.left k m, ← flip_not tr.left l j] at h2
    exact (at_flip bl hq0 h2).1

/-- C41 for the simple loops, any float arithmetic, plain or with the matrix read transposed: `a` holds a batch `A` of `m x k` matrices and
`x` rows of length `k` (`R` is empty for a single vector, else the number of rows; `P` are further outer dimensions).
The result has the dimensions of `x` with the last one replaced by `m`, and its row at any index is the matrix of that
batch times the row of `x`. Missing for the full property: an operand without elements, see `C41_empty_violates`. -/
theorem C41_matvec_partial (fo : FOps F) {tr : Transpose} (htr : tr = .none ∨ tr = .transposeA) {a x : Tensor F}
    {P A R : List Nat} {m k : Nat} {xs ys : List F}
    (ha : Rep a (A ++ flip tr.left m k) xs) (hx : Rep x (P ++ A ++ R ++ [k]) ys) (hR : R.length ≤ 1)
    (hP : R = [] → P ++ A = []) (hpos : 0 < xs.length ∧ 0 < ys.length) (hfO : Fits (P ++ A ++ R ++ [m])) :
    ∃ t zs, matvecT fo a x tr = .ok t ∧ Rep t (P ++ A ++ R ++ [m]) zs ∧
      ∀ pi ai ri j ps, (ravel P pi).isSome → (ravel A ai).isSome → (ravel R ri).isSome → j < m → ps.length = k →
        (∀ (l : Nat) p, ps[l]? = some p → at? (P ++ A ++ R ++ [k]) ys (pi ++ ai ++ ri ++ [l]) = some p.1 ∧
          at? (A ++ flip tr.left m k) xs (ai ++ flip tr.left j l) = some p.2) →
        at? (P ++ A ++ R ++ [m]) zs (pi ++ ai ++ ri ++ [j]) = some (dot fo ps) := by
  obtain ⟨t, zs, e, ht, h⟩ := C41_library_partial (.naive fo) htr ha hx hR hP hpos hfO
  refine ⟨t, zs, e, ht, fun pi ai ri j ps hp ha' hr => ?_⟩
  obtain ⟨i, hi⟩ := Option.isSome_iff_exists.1 hr
  exact h pi ai ri i j ps hp ha' hi

/-- C41 in the plain case: an `m x k` matrix and a tensor whose last dimension is `k`. -/
theorem C41_matrix_partial (fo : FOps F) {a x : Tensor F} {P R : List Nat} {m k : Nat} {xs ys : List F}
    (ha : Rep a [m, k] xs) (hx : Rep x (P ++ R ++ [k]) ys) (hR : R.length ≤ 1) (hP : R = [] → P = [])
    (hpos : 0 < xs.length ∧ 0 < ys.length) (hfO : Fits (P ++ R ++ [m])) :
    ∃ t zs, matvec fo a x = .ok t ∧ Rep t (P ++ R ++ [m]) zs ∧
      ∀ is j ps, (ravel (P ++ R) is).isSome → j < m → ps.length = k →
        (∀ (l : Nat) p, ps[l]? = some p → at? (P ++ R ++ [k]) ys (is ++ [l]) = some p.1 ∧ at? [m, k] xs [j, l] = some p.2) →
        at? (P ++ R ++ [m]) zs (is ++ [j]) = some (dot fo ps) := by
  obtain ⟨t, zs, e, ht, h⟩ := C41_matvec_partial fo (tr := .none) (Or.inl rfl) (P := P) (A := []) (R := R) (a := a) (x := x)
    (m := m) (k := k) (by simpa [Transpose.left, Linalg.flip] using ha) (by simpa using hx) hR (by simpa using hP) hpos
    (by simpa using hfO)
  refine ⟨t, zs, e, by simpa using ht, ?_⟩
  intro is j ps hs hj hps hp
  obtain ⟨p, hp'⟩ := Option.isSome_iff_exists.1 hs
  have hl := ravel_length hp'
  have hsplit : is = is.take P.length ++ is.drop P.length := (List.take_append_drop _ _).symm
  have hl1 : (is.take P.length).length = P.length := by simp at hl ⊢; omega
  rw [hsplit, ravel_append hl1] at hp'
  obtain ⟨p1, h1, hp'⟩ := Option.bind_eq_some_iff.1 hp'
  obtain ⟨p2, h2, _⟩ := Option.map_eq_some_iff.1 hp'
  have := h (is.take P.length) [] (is.drop P.length) j ps (by rw [h1]; rfl) rfl (by rw [h2]; rfl) hj hps
  simp only [List.append_nil, List.take_append_drop, List.nil_append, Transpose.left, Linalg.flip, Bool.false_eq_true,
    if_false] at this
  exact this hp

theorem exists_rows {es : List Nat} (h : es ≠ []) :
    ∃ X R k, es = X ++ R ++ [k] ∧ R.length ≤ 1 ∧ (R = [] → X = []) := by
  rcases List.eq_nil_or_concat es with rfl | ⟨l, k, rfl⟩
  · exact absurd rfl h
  · rcases List.eq_nil_or_concat l with rfl | ⟨l, r, rfl⟩
    · exact ⟨[], [], k, by simp, by simp, fun _ => rfl⟩
    · exact ⟨l, [r], k, by simp, by simp, by simp⟩

theorem noUB_rows (s : Shape) : NoUB s.rows := by unfold Shape.rows; split <;> simp
theorem noUB_cols (s : Shape) : NoUB s.cols := by unfold Shape.cols; simp
theorem noUB_broadcastMin (s t : Shape) (i j : Nat) : NoUB (s.broadcastMin i t j) := by
  unfold Shape.broadcastMin
  refine noUB_bind (by simp) fun _ _ => noUB_bind (by simp) fun _ _ => noUB_bind ?_ fun _ _ => ?_
  · exact forR_noUB' fun _ _ => noUB_bind (by simp) fun _ _ => noUB_bind (by simp) fun _ _ => by simp
  · split <;> exact noUB_sublen _ _ _

theorem bind_panic {α β : Type} {x : Res α} (hx : NoUB x) {f : α → Res β} (h : ∀ a, x = .ok a → f a = .error .panic) :
    x >>= f = .error .panic := by
  cases e : x with
  | ok a => exact h a e
  | error e' => cases e' with
    | panic => rfl
    | ub => exact absurd e hx

theorem oSize_panic (bl : Blas F) {tr : Transpose} {a x : Tensor F} (h : oSize tr a x = .error .panic) :
    matvecT bl a x tr = .error .panic := by
  unfold matvecT
  refine bind_panic (by simp) fun _ _ => bind_panic (noUB_broadcastMin _ _ _ _) fun _ _ =>
    bind_panic (noUB_cols _) fun _ _ => bind_panic (noUB_rows _) fun _ _ => bind_panic (noUB_rows _) fun _ _ =>
    bind_panic (noUB_cols _) fun _ _ => ?_
  rw [h]; rfl

theorem matvec_scalar_panic (bl : Blas F) (tr : Transpose) {a x : Tensor F} {ds : List Nat} {xs ys : List F}
    (ha : Rep a ds xs) (hx : Rep x [] ys) : matvecT bl a x tr = .error .panic := by
  by_cases h2 : 2 ≤ ds.length
  swap
  · unfold matvecT
    rw [ensure_false (by rw [ha.rank]; omega), error_bind]
  cases ho : oSize tr a x with
  | error e =>
    cases e with
    | panic => exact oSize_panic bl ho
    | ub =>
      exfalso
      have : NoUB (oSize tr a x) := by
        unfold oSize
        refine noUB_bind (noUB_rows _) fun _ _ => noUB_bind (noUB_cols _) fun _ _ => noUB_bind (noUB_rows _) fun _ _ =>
          noUB_bind (noUB_cols _) fun _ _ => ?_
        cases tr
        · exact noUB_bind (by simp) fun _ _ => by simp
        · exact noUB_bind (by simp) fun _ _ => by simp
        · simp [panicked]
        · simp [panicked]
      exact this ho
  | ok v =>
    obtain ⟨oc, or⟩ := v
    obtain ⟨A, m, k, rfl⟩ := exists_flip tr.left h2
    obtain ⟨e1, e2⟩ := flip_rows_cols ha.wf.shape ha.toDims
    have hxs : xs.length = 0 := by
      have e3 := rows_eq hx.wf.shape
      have e4 := cols_eq hx.wf.shape
      rw [hx.toDims] at e3 e4
      unfold oSize at ho
      rw [e1, ok_bind, e2, ok_bind, e3, ok_bind, e4, ok_bind] at ho
      rw [ha.length, List.prod_append, flip_prod]
      cases tr
      · simp only [Transpose.left, Bool.false_eq_true, if_false] at ho
        rw [ensure_bind_eq_ok] at ho
        have := ho.1; simp at this; simp [this]
      · simp only [Transpose.left, if_true] at ho
        rw [ensure_bind_eq_ok] at ho
        have := ho.1; simp at this; simp [this]
      · cases ho
      · cases ho
    unfold matvecT
    refine bind_panic (by simp) fun _ _ => bind_panic (noUB_broadcastMin _ _ _ _) fun N _ =>
      bind_panic (noUB_cols _) fun _ _ => bind_panic (noUB_rows _) fun _ _ => bind_panic (noUB_rows _) fun _ _ =>
      bind_panic (noUB_cols _) fun _ _ => ?_
    rw [ho, ok_bind]
    dsimp only
    refine bind_panic (by unfold Shape.withCols; exact noUB_bind (by simp) fun _ _ => by simp) fun s hs => ?_
    have hrank : s.rank = 0 := by
      unfold Shape.withCols at hs
      obtain ⟨d, _, e⟩ := bind_eq_ok.1 hs
      rw [← Except.ok.inj e]
      exact hx.rank
    unfold Tensor.unsafeInit
    dsimp only
    by_cases hN : N = 0
    · subst hN
      rw [forR_zero]
      have : Tensor.finish (Buf.uninit (oc * or * 0)) s = (.error .panic : Res (Tensor F)) := by
        have hb : (Buf.uninit (oc * or * 0) : Buf F) = [] := by simp [Buf.uninit]
        rw [hb]
        unfold Tensor.finish
        have : Buf.complete ([] : Buf F) = some [] := rfl
        rw [this]
        apply new_panic
        unfold Shape.size
        rw [hrank]
        intro hc
        have : productTo s.dims 0 = .ok 1 := rfl
        rw [this] at hc
        cases hc
      exact this
    · rw [forR_cons (by omega), asWrapPtr_panic ha hxs]; rfl

/-- Outside its shapes `matvec_t` panics. -/
theorem matvec_panic (bl : Blas F) (tr : Transpose) {a x : Tensor F} {ds es : List Nat} {xs ys : List F}
    (ha : Rep a ds xs) (hx : Rep x es ys)
    (hbad : ¬ (tr.right = false ∧ ∃ A X R m k, ds = A ++ flip tr.left m k ∧ es = X ++ R ++ [k] ∧ R.length ≤ 1 ∧
      (R = [] → X = []))) :
    matvecT bl a x tr = .error .panic := by
  by_cases h2 : 2 ≤ ds.length
  swap
  · unfold matvecT
    rw [ensure_false (by rw [ha.rank]; omega), error_bind]
  by_cases h1 : es = []
  · subst h1; exact matvec_scalar_panic bl tr ha hx
  obtain ⟨A, m, k, rfl⟩ := exists_flip tr.left h2
  obtain ⟨X, R, k', rfl, hR, hX⟩ := exists_rows h1
  apply oSize_panic
  obtain ⟨e1, e2⟩ := flip_rows_cols ha.wf.shape ha.toDims
  obtain ⟨e3, e4⟩ := x_rows_cols hx.wf.shape hR hX hx.toDims
  unfold oSize
  rw [e1, ok_bind, e2, ok_bind, e3, ok_bind, e4, ok_bind]
  have hk : tr.right = false → k ≠ k' := by
    rintro h rfl
    exact hbad ⟨h, A, X, R, m, k, rfl, rfl, hR, hX⟩
  cases tr
  · simp [Transpose.left, ensure, hk rfl]
  · simp [Transpose.left, ensure, hk rfl]
  · rfl
  · rfl

/-- C41: a matrix of fewer than two dimensions, a scalar right operand, rows of the wrong length, incompatible outer
dimensions, more matrices than rows to multiply, and the right-hand transposes are all rejected. -/
theorem C41_rejects (bl : Blas F) (tr : Transpose) {a x : Tensor F} {ds es : List Nat} {xs ys : List F}
    (ha : Rep a ds xs) (hx : Rep x es ys)
    (hbad : ¬ (tr.right = false ∧ ∃ A X R m k, ds = A ++ flip tr.left m k ∧ es = X ++ R ++ [k] ∧ R.length ≤ 1 ∧
      (R = [] → X = []) ∧ (A <:+ X ∨ X <:+ A ∧ (0 < R.prod * m → A.prod = X.prod)))) :
    matvecT bl a x tr = .error .panic := by
  by_cases h : tr.right = false ∧ ∃ A X R m k, ds = A ++ flip tr.left m k ∧ es = X ++ R ++ [k] ∧ R.length ≤ 1 ∧
      (R = [] → X = [])
  swap
  · exact matvec_panic bl tr ha hx h
  obtain ⟨hr, A, X, R, m, k, rfl, rfl, hR, hX⟩ := h
  by_cases hc : A <:+ X ∨ X <:+ A
  swap
  · rw [matvecT_pre bl hr ha hx hR hX, if_neg hc, error_bind]
  have hn1 : ¬ A <:+ X := fun h => hbad ⟨hr, A, X, R, m, k, rfl, rfl, hR, hX, Or.inl h⟩
  have hs := hc.resolve_left hn1
  have hn2 : ¬ (0 < R.prod * m → A.prod = X.prod) := fun h => hbad ⟨hr, A, X, R, m, k, rfl, rfl, hR, hX, Or.inr ⟨hs, h⟩⟩
  have hm : 0 < R.prod * m := by by_contra hm; exact hn2 fun h => absurd h hm
  have hne : A.prod ≠ X.prod := fun h => hn2 fun _ => h
  have hif : (if A.length < X.length then X else A) = A := if_neg (by have := hs.length_le; omega)
  by_cases hf : Fits A
  swap
  · rw [matvecT_pre bl hr ha hx hR hX, if_pos hc, hif, foldl_not_fits hf, error_bind]
  have hyl : ys.length = X.prod * (R.prod * k) := by
    rw [hx.length, List.append_assoc, List.prod_append, List.prod_append (l₁ := R)]; simp
  have hm32 := (lt_of_mem_flip ha.adm).1
  have hadm : Adm (X ++ R ++ [m]) := by
    refine ⟨by have := hx.adm.len; simpa using this, ?_⟩
    intro d hd
    rcases List.mem_append.1 hd with h | h
    · exact hx.adm.lt d (List.mem_append.2 (Or.inl h))
    · simp at h; subst h; exact hm32
  by_cases h0 : A.prod = 0 ∨ 0 < xs.length ∧ 0 < ys.length
  · rw [matvecT_eq bl hr ha hx hR hX hc (by rw [hif]; exact hf) (by rw [hif]; exact h0), hif]
    apply new_panic
    intro hsz
    rw [size_ofDims_iff hadm] at hsz
    have := hsz.2
    unfold mvList at this
    rw [prodList_length, List.append_assoc, List.prod_append, List.prod_append (l₁ := R)] at this
    simp only [List.prod_cons, List.prod_nil, Nat.mul_one] at this
    exact hne (Nat.eq_of_mul_eq_mul_right hm this)
  · apply matvecT_empty bl hr ha hx hR hX hc (by rw [hif]; exact hf) <;> [rw [hif]; skip] <;> omega

/-- C41: whatever is passed, `matvec_t` never causes undefined behaviour and its outcome depends only on the elements of
its operands. -/
theorem C41_safe (bl : Blas F) (tr : Transpose) {a x : Tensor F} {ds es : List Nat} {xs ys : List F}
    (ha : Rep a ds xs) (hx : Rep x es ys) :
    NoUB (matvecT bl a x tr) ∧
      ∀ a' x' : Tensor F, Rep a' ds xs → Rep x' es ys → matvecT bl a' x' tr = matvecT bl a x tr := by
  by_cases h : tr.right = false ∧ ∃ A X R m k, ds = A ++ flip tr.left m k ∧ es = X ++ R ++ [k] ∧ R.length ≤ 1 ∧
      (R = [] → X = [])
  swap
  · rw [matvec_panic bl tr ha hx h]
    exact ⟨by simp, fun a' x' ha' hx' => matvec_panic bl tr ha' hx' h⟩
  obtain ⟨hr, A, X, R, m, k, rfl, rfl, hR, hX⟩ := h
  by_cases hc : A <:+ X ∨ X <:+ A
  swap
  · rw [matvecT_pre bl hr ha hx hR hX, if_neg hc, error_bind]
    refine ⟨by simp, fun a' x' ha' hx' => ?_⟩
    rw [matvecT_pre bl hr ha' hx' hR hX, if_neg hc, error_bind]
  by_cases hf : Fits (if A.length < X.length then X else A)
  swap
  · rw [matvecT_pre bl hr ha hx hR hX, if_pos hc, foldl_not_fits hf, error_bind]
    refine ⟨by simp, fun a' x' ha' hx' => ?_⟩
    rw [matvecT_pre bl hr ha' hx' hR hX, if_pos hc, foldl_not_fits hf, error_bind]
  by_cases h0 : (if A.length < X.length then X else A).prod = 0 ∨ 0 < xs.length ∧ 0 < ys.length
  · rw [matvecT_eq bl hr ha hx hR hX hc hf h0]
    exact ⟨by simp, fun a' x' ha' hx' => matvecT_eq bl hr ha' hx' hR hX hc hf h0⟩
  · have h1 : 0 < (if A.length < X.length then X else A).prod := by omega
    have h2 : xs.length = 0 ∨ ys.length = 0 := by omega
    rw [matvecT_empty bl hr ha hx hR hX hc hf h1 h2]
    exact ⟨by simp, fun a' x' ha' hx' => matvecT_empty bl hr ha' hx' hR hX hc hf h1 h2⟩

/-- An `m x 0` matrix times rows without elements panics instead of giving rows of zeros, and multiplying no rows panics
instead of giving no rows. -/
theorem C41_empty_violates (bl : Blas F) {a x : Tensor F} {R : List Nat} {m k : Nat} {xs ys : List F}
    (ha : Rep a [m, k] xs) (hx : Rep x (R ++ [k]) ys) (hR : R.length ≤ 1) (hz : xs.length = 0 ∨ ys.length = 0) :
    matvec bl a x = .error .panic :=
  matvecT_empty bl (tr := .none) rfl (A := []) (X := []) (m := m) (k := k)
    (by simpa [Transpose.left, Linalg.flip] using ha) (by simpa using hx) hR (fun _ => rfl) (Or.inl (List.suffix_refl _))
    (by simp [Fits]) (by simp) hz

/-! ### examples -/

/-- Two rows of three elements, seen through a view that starts at position 1 of its buffer. -/
def exX : Tensor ℚ := ⟨ofDims [2, 3], 1, 6, [9, 1, 0, 2, 1, 0, 3]⟩
theorem exX_rep : Rep exX [2, 3] [1, 0, 2, 1, 0, 3] :=
  ⟨⟨wf_ofDims ⟨by simp, by simp⟩, rfl, by simp [exX]⟩, rfl, rfl⟩

example : ∃ t zs, matvec exOps exA exX = .ok t ∧ Rep t [2, 2] zs ∧
    ∀ is j ps, (ravel [2] is).isSome → j < 2 → ps.length = 3 →
      (∀ (l : Nat) p, ps[l]? = some p → at? [2, 3] [1, 0, 2, 1, 0, 3] (is ++ [l]) = some p.1 ∧
        at? [2, 3] [1, 2, 3, 4, 5, 6] [j, l] = some p.2) →
      at? [2, 2] zs (is ++ [j]) = some (dot exOps ps) :=
  C41_matrix_partial exOps (P := []) (R := [2]) exA_rep exX_rep (by simp) (by simp) (by simp) (by simp [fits_cons, fits_nil])

example : matvec exOps exA exB = .error .panic := by
  apply C41_rejects (.naive exOps) .none exA_rep exB_rep
  rintro ⟨-, A, X, R, m, k, h1, h2, -⟩
  have h1' := List.append_inj' (s₁ := []) (t₁ := [2, 3]) h1 rfl
  have h2' := List.append_inj' (s₁ := [3]) (t₁ := [2]) h2 rfl
  simp [Transpose.left, Linalg.flip] at h1' h2'
  omega

example : NoUB (matvecT exOps exA exX .transposeAB) := (C41_safe (.naive exOps) .transposeAB exA_rep exX_rep).1

example : matvec exOps exA (⟨ofDims [0, 3], 0, 0, []⟩ : Tensor ℚ) = .error .panic :=
  C41_empty_violates (.naive exOps) (R := [0]) exA_rep
    (rep_fresh (ds := [0, 3]) (xs := []) ⟨by simp, by simp⟩ (by simp [fits_cons, fits_nil]) (by simp)) (by simp) (Or.inr rfl)

/-- `a` read transposed: the transpose of 3 x 2 applied to each row of a 2 x 3 matrix. -/
example : ∃ t zs, matvecT exOps exB exX .transposeA = .ok t ∧ Rep t [2, 2] zs ∧
    ∀ pi ai ri j ps, (ravel [] pi).isSome → (ravel [] ai).isSome → (ravel [2] ri).isSome → j < 2 → ps.length = 3 →
      (∀ (l : Nat) p, ps[l]? = some p → at? [2, 3] [1, 0, 2, 1, 0, 3] (pi ++ ai ++ ri ++ [l]) = some p.1 ∧
        at? [3, 2] [1, 0, 2, 1, 0, 3] (ai ++ [l, j]) = some p.2) →
      at? [2, 2] zs (pi ++ ai ++ ri ++ [j]) = some (dot exOps ps) :=
  C41_matvec_partial exOps (.inr rfl) (P := []) (A := []) (R := [2]) (m := 2) (k := 3) exB_rep exX_rep (by simp) (by simp)
    (by simp) (by simp [fits_cons, fits_nil])

end Essay
