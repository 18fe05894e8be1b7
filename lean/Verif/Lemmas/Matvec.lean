import Verif.Lemmas.Linalg

/-!
# Helper lemmas for matrix-vector products
-/

namespace Essay

open Shape

namespace Linalg

variable {F : Type}

theorem broadcastMin_ofDims {A E X G : List Nat} (h1 : (A ++ E).length ≤ 6) (h2 : (X ++ G).length ≤ 6) :
    (ofDims (A ++ E)).broadcastMin E.length (ofDims (X ++ G)) G.length =
      if A <:+ X ∨ X <:+ A then (if A.length < X.length then X else A).reverse.foldlM mulU32 1
      else .error .panic := by
  have hA : A.length ≤ 6 := by simp at h1; omega
  have hX : X.length ≤ 6 := by simp at h2; omega
  unfold Shape.broadcastMin
  rw [rank_ofDims, rank_ofDims, usub_ok (by simp), ok_bind, usub_ok (by simp), ok_bind]
  rw [show (A ++ E).length - E.length = A.length by simp, show (X ++ G).length - G.length = X.length by simp]
  have hidx : ∀ {B H : List Nat} {i : Nat}, (B ++ H).length ≤ 6 → i < B.length →
      idx (ofDims (B ++ H)).dims (i + H.length) = (ofDims B).rdim i := by
    intro B H i hl hi
    have hB : B.length ≤ 6 := by simp at hl; omega
    unfold Shape.rdim ofDims
    have h3 : i < B.reverse.length := by simpa using hi
    rw [idx_ok (x := B.reverse[i]), idx_ok (x := B.reverse[i])]
    · rw [ofRev_get (by simpa using hB), if_pos h3, List.getElem?_eq_getElem h3]
    · rw [ofRev_get (by simp at hl ⊢; omega), if_pos (by simp; omega), List.reverse_append,
        List.getElem?_append_right (by simp), List.length_reverse, Nat.add_sub_cancel, List.getElem?_eq_getElem h3]
  rw [forR_congr (body' := fun i _ => do
    let x ← (ofDims A).rdim i
    let y ← (ofDims X).rdim i
    ensure (x = y))]
  · have := checkBroadcast_ofDims hA hX
    unfold checkBroadcast at this
    rw [rank_ofDims, rank_ofDims] at this
    rw [this]
    split
    · rw [ok_bind]
      split
      · exact sublen_outer h2
      · exact sublen_outer h1
    · rfl
  · intro i s _ hi
    rw [hidx h1 (by omega), hidx h2 (by omega)]

/-- The wrapped position of matrix `q` in a tensor of `N` matrices of `s` elements. -/
theorem asWrapPtr_ok {t : Tensor F} {ds : List Nat} {xs : List F} (h : Rep t ds xs) {N s : Nat} (hN : xs.length = N * s)
    (hpos : 0 < xs.length) (q : Nat) : t.asWrapPtr (q * s) = .ok (t.offset + q % N * s) := by
  unfold Tensor.asWrapPtr
  rw [h.size]
  have hs : 0 < s := by rcases Nat.eq_zero_or_pos s with h | h <;> simp_all
  have e : q * s % xs.length = q % N * s := by rw [hN, Nat.mul_mod_mul_right]
  have hm := Nat.mod_lt (q * s) hpos
  have hb := h.wf.bound
  rw [h.size] at hb
  split
  · next hlt => rw [← e, Nat.mod_eq_of_lt hlt, rawAdd_ok (by omega)]
  · rw [umod_ok (by omega), ok_bind, e, rawAdd_ok (by omega)]

theorem asWrapPtr_panic {t : Tensor F} {ds : List Nat} {xs : List F} (h : Rep t ds xs) (hz : xs.length = 0) (q : Nat) :
    t.asWrapPtr q = .error .panic := by
  unfold Tensor.asWrapPtr
  rw [h.size, hz, if_neg (by omega)]
  rfl

/-- The products of a matrix-vector multiplication: `N` groups of `R` rows. -/
def mvList (bl : Blas F) (tr : Transpose) (N R m k A X : Nat) (xs ys : List F) : List F :=
  prodList bl N R m k (fun q => elemAt bl false R k ys (q % X)) (fun q => elemAt bl (!tr.left) k m xs (q % A))

theorem flip_not (t : Bool) (i j : Nat) : flip (!t) i j = flip t j i := by cases t <;> rfl

theorem x_rows_cols {s : Shape} (h : s.WF) {X R : List Nat} {k : Nat} (hR : R.length ≤ 1) (hX : R = [] → X = [])
    (hd : s.toDims = X ++ R ++ [k]) : s.rows = .ok (if R = [] then 0 else R.prod) ∧ s.cols = .ok k := by
  rw [rows_eq h, cols_eq h, hd]
  match R with
  | [] => rw [hX rfl]; simp
  | [r] => simp

theorem max_rows {R : List Nat} : max 1 (if R = [] then 0 else R.prod) = max 1 R.prod := by
  split
  · next h => simp [h]
  · rfl

theorem with_cols_shape {D : List Nat} {k m : Nat} (hadm : Adm (D ++ [k])) (hm : m < 2 ^ 32) :
    (ofDims (D ++ [k])).withCols m = .ok (ofDims (D ++ [m])) := by
  have hlen := hadm.len
  unfold ofDims
  rw [withCols_ofRev (by simpa using hlen) (by simp), asU32_of_lt hm]
  simp

theorem oSize_ok {tr : Transpose} (htr : tr.right = false) {a x : Tensor F} {A X R : List Nat} {m k : Nat} {xs ys : List F}
    (ha : Rep a (A ++ flip tr.left m k) xs) (hx : Rep x (X ++ R ++ [k]) ys) (hR : R.length ≤ 1) (hX : R = [] → X = []) :
    oSize tr a x = .ok (m, max 1 R.prod) := by
  obtain ⟨e1, e2⟩ := flip_rows_cols ha.wf.shape ha.toDims
  obtain ⟨e3, e4⟩ := x_rows_cols hx.wf.shape hR hX hx.toDims
  unfold oSize
  rw [e1, ok_bind, e2, ok_bind, e3, ok_bind, e4, ok_bind]
  rw [max_rows]
  cases tr <;> simp [Transpose.left, Transpose.right, ensure] at htr ⊢

theorem matvecSgemm_puts (bl : Blas F) {tr : Transpose} (htr : tr.right = false) {a x : Tensor F} {A X R : List Nat}
    {m k : Nat} {xs ys : List F}
    (ha : Rep a (A ++ flip tr.left m k) xs) (hx : Rep x (X ++ R ++ [k]) ys) (hR : R.length ≤ 1) (hX : R = [] → X = [])
    (hpx : 0 < xs.length) (hpy : 0 < ys.length) {N q : Nat} (hqN : q < N) :
    Puts (mvList bl tr N R.prod m k A.prod X.prod xs ys)
      (fun p => ∃ i, 0 ≤ i ∧ i < R.prod ∧ ∃ j, 0 ≤ j ∧ j < m ∧ p = q * (R.prod * m) + (m * i + 1 * j))
      (fun o => matvecSgemm bl tr a x m R.prod (a.offset + q % A.prod * (m * k)) (x.offset + q % X.prod * (R.prod * k)) o
        (q * (R.prod * m))) := by
  obtain ⟨e1, e2⟩ := flip_rows_cols ha.wf.shape ha.toDims
  obtain ⟨e3, e4⟩ := x_rows_cols hx.wf.shape hR hX hx.toDims
  have hxl : xs.length = A.prod * (m * k) := by rw [ha.length, List.prod_append, flip_prod]
  have hyl : ys.length = X.prod * (R.prod * k) := by
    rw [hx.length, List.append_assoc, List.prod_append, List.prod_append]; simp
  have hqA : q % A.prod < A.prod := by
    apply Nat.mod_lt; rw [hxl] at hpx; exact Nat.pos_of_mul_pos_right hpx
  have hqX : q % X.prod < X.prod := by
    apply Nat.mod_lt; rw [hyl] at hpy; exact Nat.pos_of_mul_pos_right hpy
  have hA : ∀ l j, l < k → j < m →
      a.data[a.offset + (q % A.prod * (k * m) + (if (!tr.left) then j * k + l else l * m + j))]? =
      some (elemAt bl (!tr.left) k m xs (q % A.prod) l j) := by
    intro l j hl hj
    have hxl' : xs.length = A.prod * (k * m) := by rw [hxl, Nat.mul_comm m]
    rw [ha.data_get (by rw [hxl']; exact elemPos_lt hqA hl hj)]
    exact elemAt_eq bl hxl' hqA hl hj
  have hB : ∀ i l, i < R.prod → l < k →
      x.data[x.offset + (q % X.prod * (R.prod * k) + (if false then l * R.prod + i else i * k + l))]? =
      some (elemAt bl false R.prod k ys (q % X.prod) i l) := by
    intro i l hi hl
    rw [hx.data_get (by rw [hyl]; exact elemPos_lt hqX hi hl)]
    exact elemAt_eq bl hyl hqX hi hl
  unfold matvecSgemm mvList
  simp only [e2, e4, ok_bind]
  cases tr <;> simp [Transpose.right] at htr
  all_goals
    simp only [Transpose.left, if_true, Bool.false_eq_true, if_false, Bool.not_true, Bool.not_false] at hA hB ⊢
    apply sgemm_puts
    · intro i l hi hl
      rw [← hB i l hi hl]
      congr 1; grind
    · intro l j hl hj
      rw [← hA l j hl hj]
      congr 1; grind
    · intro i j hi hj
      rw [Nat.mul_comm m i, Nat.one_mul]
      exact prodList_get bl _ _ hqN hi hj

theorem matvecT_pre (bl : Blas F) {tr : Transpose} (htr : tr.right = false) {a x : Tensor F} {A X R : List Nat}
    {m k : Nat} {xs ys : List F}
    (ha : Rep a (A ++ flip tr.left m k) xs) (hx : Rep x (X ++ R ++ [k]) ys) (hR : R.length ≤ 1) (hX : R = [] → X = []) :
    matvecT bl a x tr = (if A <:+ X ∨ X <:+ A then (if A.length < X.length then X else A).reverse.foldlM mulU32 1
      else .error .panic) >>= fun N => Tensor.unsafeInit (m * max 1 R.prod * N) (ofDims (X ++ R ++ [m])) fun o =>
      forR 0 N o fun n o => (do
        let pa ← a.asWrapPtr (n * (m * k))
        let px ← x.asWrapPtr (n * (k * max 1 R.prod))
        matvecSgemm bl tr a x m (max 1 R.prod) pa px o (n * (m * max 1 R.prod))) := by
  obtain ⟨e1, e2⟩ := flip_rows_cols ha.wf.shape ha.toDims
  obtain ⟨e3, e4⟩ := x_rows_cols hx.wf.shape hR hX hx.toDims
  have hm := (lt_of_mem_flip ha.adm).1
  have h2 : (X ++ (R ++ [k])).length ≤ 6 := by rw [← List.append_assoc]; exact hx.adm.len
  have hmin : min 2 (X ++ R ++ [k]).length = (R ++ [k]).length := by
    match R with
    | [] => rw [hX rfl]; simp
    | [r] => simp
  unfold matvecT
  rw [ensure_true (by rw [ha.rank]; simp [flip_length]), ok_bind, hx.rank, hmin]
  have hb := broadcastMin_ofDims (E := flip tr.left m k) ha.adm.len h2
  rw [flip_length, ← List.append_assoc, ← ha.shape, ← hx.shape] at hb
  rw [hb]
  congr 1
  funext N
  rw [e1, e2, e3, e4, oSize_ok htr ha hx hR hX]
  simp only [ok_bind]
  rw [hx.shape, with_cols_shape hx.adm hm, ok_bind, max_rows]
  have e5 : (if tr.left = true then m else k) * (if tr.left = true then k else m) = m * k := by
    cases tr.left <;> simp [Nat.mul_comm]
  rw [e5]

/-- With the shapes in order and enough elements, the result of `matvec_t`. -/
theorem matvecT_eq (bl : Blas F) {tr : Transpose} (htr : tr.right = false) {a x : Tensor F} {A X R : List Nat}
    {m k : Nat} {xs ys : List F}
    (ha : Rep a (A ++ flip tr.left m k) xs) (hx : Rep x (X ++ R ++ [k]) ys) (hR : R.length ≤ 1) (hX : R = [] → X = [])
    (hc : A <:+ X ∨ X <:+ A) (hf : Fits (if A.length < X.length then X else A))
    (hpos : (if A.length < X.length then X else A).prod = 0 ∨ 0 < xs.length ∧ 0 < ys.length) :
    matvecT bl a x tr = Tensor.new (mvList bl tr (if A.length < X.length then X else A).prod R.prod m k A.prod X.prod xs ys)
      (ofDims (X ++ R ++ [m])) := by
  rw [matvecT_pre bl htr ha hx hR hX, if_pos hc, foldl_fits hf, ok_bind]
  generalize hN : (if A.length < X.length then X else A).prod = N at hpos
  by_cases h0 : N = 0
  · subst h0
    have : mvList bl tr 0 R.prod m k A.prod X.prod xs ys = [] := by simp [mvList, prodList]
    rw [this]
    apply unsafeInit_puts (by simp) (P := fun _ => True)
    · intro buf hb
      refine ⟨buf, by dsimp only; rw [forR_zero]; rfl, ?_⟩
      simpa using hb
    · simp
  obtain ⟨h1, h2⟩ := hpos.resolve_left h0
  have hyl : ys.length = X.prod * (R.prod * k) := by
    rw [hx.length, List.append_assoc, List.prod_append, List.prod_append]; simp
  have hxl : xs.length = A.prod * (m * k) := by rw [ha.length, List.prod_append, flip_prod]
  have hr : max 1 R.prod = R.prod := by
    have : R.prod ≠ 0 := by intro h; rw [hyl, h] at h2; simp at h2
    omega
  rw [hr]
  apply unsafeInit_puts (by unfold mvList; rw [prodList_length, Nat.mul_comm m, Nat.mul_comm])
  · apply puts_loop
    intro q _ hq
    apply (matvecSgemm_puts bl htr ha hx hR hX h1 h2 hq).congr (fun _ _ => Iff.rfl)
    intro o
    rw [asWrapPtr_ok ha hxl h1, ok_bind, Nat.mul_comm k, asWrapPtr_ok hx hyl h2, ok_bind, Nat.mul_comm m R.prod]
  · intro p hp
    unfold mvList at hp
    rw [prodList_length] at hp
    exact prod_cover hp

/-- An operand without elements makes `matvec_t` panic as soon as there is a product to compute. -/
theorem matvecT_empty (bl : Blas F) {tr : Transpose} (htr : tr.right = false) {a x : Tensor F} {A X R : List Nat}
    {m k : Nat} {xs ys : List F}
    (ha : Rep a (A ++ flip tr.left m k) xs) (hx : Rep x (X ++ R ++ [k]) ys) (hR : R.length ≤ 1) (hX : R = [] → X = [])
    (hc : A <:+ X ∨ X <:+ A) (hf : Fits (if A.length < X.length then X else A))
    (hpos : 0 < (if A.length < X.length then X else A).prod) (hz : xs.length = 0 ∨ ys.length = 0) :
    matvecT bl a x tr = .error .panic := by
  rw [matvecT_pre bl htr ha hx hR hX, if_pos hc, foldl_fits hf, ok_bind]
  unfold Tensor.unsafeInit
  dsimp only
  rw [forR_cons hpos]
  by_cases h1 : xs.length = 0
  · rw [asWrapPtr_panic ha h1]; rfl
  · have hxl : xs.length = A.prod * (m * k) := by rw [ha.length, List.prod_append, flip_prod]
    rw [asWrapPtr_ok ha hxl (by omega), ok_bind, asWrapPtr_panic hx (hz.resolve_left h1)]; rfl

end Linalg

end Essay
