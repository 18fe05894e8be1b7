import Verif.Props.Linalg

/-!
# Exactly when a matrix product reads outside its operands

C40 is false when the left operand holds more matrices than the right one. Here: what happens then, in all cases.
-/

namespace Essay

open Shape Linalg

variable {F : Type}

/-- When `sgemm` succeeds it has read every element of the right operand. -/
theorem sgemm_reads_all (bl : Blas F) {m k n : Nat} {alpha : F} {a : List F} {pa rsa csa : Nat} {b : List F}
    {pb rsb csb : Nat} {c c' : Buf F} {pc rsc csc : Nat} (hm : 0 < m) {l j : Nat} (hl : l < k) (hj : j < n)
    (h : sgemm bl m k n alpha a pa rsa csa b pb rsb csb c pc rsc csc = .ok c') : pb + (rsb * l + csb * j) < b.length := by
  unfold sgemm sgemmNaive sgemmLibrary at h
  cases bl
  all_goals
    obtain ⟨c1, c2, h⟩ := forR_ok_all h 0 (Nat.zero_le _) hm
    obtain ⟨c1, c2, h⟩ := forR_ok_all h j (Nat.zero_le _) hj
    obtain ⟨v, h, _⟩ := bind_eq_ok.1 h
    obtain ⟨c1, c2, h⟩ := forR_ok_all h l (Nat.zero_le _) hl
    obtain ⟨x, _, h⟩ := bind_eq_ok.1 h
    obtain ⟨y, hy, _⟩ := bind_eq_ok.1 h
    unfold rawRead at hy
    split at hy
    · next h' => exact (List.getElem?_eq_some_iff.1 h').1
    · cases hy

/-- `matmul_t` when the buffer of the right operand holds everything that is read, be it part of that operand or not. -/
theorem matmulT_raw (bl : Blas F) {tr : Transpose} {a b : Tensor F} {A B : List Nat} {m k n : Nat} {xs ys : List F}
    (ha : Rep a (A ++ flip tr.left m k) xs) (hb : Rep b (B ++ flip tr.right k n) ys) (hfit : Fits A)
    (hin : b.offset + (if 0 < m then A.prod else A.prod - 1) * (k * n) ≤ b.data.length) :
    matmulT bl a b tr = Tensor.new (prodList bl A.prod m n k (elemAt bl tr.left m k xs)
      (elemAt bl tr.right k n (b.data.drop b.offset))) (ofDims (B ++ [n, m])) := by
  obtain ⟨k', ek⟩ := mkn_ok ha hb
  obtain ⟨e1, e2⟩ := flip_rows_cols ha.wf.shape ha.toDims
  obtain ⟨e3, e4⟩ := flip_rows_cols hb.wf.shape hb.toDims
  have hm := (lt_of_mem_flip ha.adm).1
  have hn := (lt_of_mem_flip hb.adm).2
  have hlen := ha.adm.len
  have hxl : xs.length = A.prod * (m * k) := by rw [ha.length, List.prod_append, flip_prod]
  unfold matmulT
  rw [ensure_true (by rw [ha.rank]; simp [flip_length]), ok_bind, ek, ok_bind]
  dsimp only
  rw [ha.rank, usub_ok (by simp [flip_length]), ok_bind,
    show (A ++ flip tr.left m k).length - 2 = A.length by simp [flip_length]]
  rw [ha.shape, sublen_outer hlen, foldl_fits hfit, ok_bind, ← ha.shape, e1, ok_bind, e2, ok_bind, e3, ok_bind, e4,
    ok_bind]
  rw [← bind_assoc, hb.shape, with_shape hb.adm hm hn, ok_bind]
  apply unsafeInit_puts (by rw [prodList_length, Nat.mul_comm])
  · apply puts_loop (P := fun q p => ∃ i, 0 ≤ i ∧ i < m ∧ ∃ j, 0 ≤ j ∧ j < n ∧ p = q * (m * n) + (n * i + 1 * j))
    intro q _ hq
    intro o ho
    rw [prodList_length] at ho
    have s1 : (if tr.left = true then k else m) * (if tr.left = true then m else k) = m * k := by
      split <;> simp [Nat.mul_comm]
    have s2 : (if tr.right = true then n else k) * (if tr.right = true then k else n) = k * n := by
      split <;> simp [Nat.mul_comm]
    have b1 : q * (m * k) ≤ A.prod * (m * k) := Nat.mul_le_mul_right _ (Nat.le_of_lt hq)
    have b2 : q * (k * n) ≤ (if 0 < m then A.prod else A.prod - 1) * (k * n) :=
      Nat.mul_le_mul_right _ (by split <;> omega)
    have b3 : q * (m * n) ≤ A.prod * (m * n) := Nat.mul_le_mul_right _ (Nat.le_of_lt hq)
    have l1 := ha.wf.bound
    rw [ha.size, ha.length, List.prod_append, flip_prod] at l1
    dsimp only
    rw [s1, s2, Nat.mul_comm (m * k), Nat.mul_comm (k * n), Nat.mul_comm (m * n), rawAdd_ok (by omega), ok_bind,
      rawAdd_ok (by omega), ok_bind, rawAdd_ok (by omega), ok_bind]
    have hA : ∀ i l, i < m → l < k → a.data[a.offset + (q * (m * k) + (if tr.left then l * m + i else i * k + l))]? =
        some (elemAt bl tr.left m k xs q i l) := by
      intro i l hi hl
      rw [ha.data_get (by rw [hxl]; exact elemPos_lt hq hi hl)]
      exact elemAt_eq bl hxl hq hi hl
    have hB : ∀ l j, 0 < m → l < k → j < n → b.data[b.offset + (q * (k * n) + (if tr.right then j * k + l else l * n + j))]? =
        some (elemAt bl tr.right k n (b.data.drop b.offset) q l j) := by
      intro l j hm0 hl hj
      unfold elemAt
      rw [if_pos hm0] at hin
      have hp := elemPos_lt (t := tr.right) (m := k) (k := n) hq hl hj
      rw [List.getElem?_drop, List.getElem?_eq_getElem (by omega)]
      rfl
    have key : Puts (prodList bl A.prod m n k (elemAt bl tr.left m k xs) (elemAt bl tr.right k n (b.data.drop b.offset)))
        (fun p => ∃ i, 0 ≤ i ∧ i < m ∧ ∃ j, 0 ≤ j ∧ j < n ∧ p = q * (m * n) + (n * i + 1 * j))
        (fun o => matmulSgemm bl tr a b (a.offset + q * (m * k)) (b.offset + q * (k * n)) o (q * (m * n))) := by
      unfold matmulSgemm
      simp only [e1, e2, e3, e4, ok_bind]
      rcases Nat.eq_zero_or_pos m with rfl | hm0
      · cases tr <;> simp only [Transpose.left, Transpose.right, if_true, Bool.false_eq_true, if_false] <;>
        · intro c hc
          refine ⟨c, ?_, hc, fun p _ => ⟨by rintro ⟨i, -, hi, -⟩; omega, fun _ => rfl⟩⟩
          unfold sgemm sgemmNaive sgemmLibrary
          cases bl <;> dsimp only <;> rw [forR_stop (Nat.le_refl 0)] <;> rfl
      cases tr
      all_goals
        simp only [Transpose.left, Transpose.right, if_true, Bool.false_eq_true, if_false] at hA hB ⊢
        apply sgemm_puts
        · intro i l hi hl
          rw [← hA i l hi hl]
          congr 1; grind
        · intro l j hl hj
          rw [← hB l j hm0 hl hj]
          congr 1; grind
        · intro i j hi hj
          rw [Nat.mul_comm n i, Nat.one_mul]
          exact prodList_get bl _ _ hq hi hj
    exact key o (by rw [prodList_length, ho])
  · intro p hp
    rw [prodList_length] at hp
    exact prod_cover hp

/-- C40, exactly: on operands with matching inner dimensions `matmul_t` leaves the buffer of the right operand if and
only if that buffer does not hold as many matrices, from the right operand's first element on, as the left operand has
(one matrix less if nothing is read because the product has no rows: the pointer is made all the same). What lies
behind the right operand in the buffer belongs to other tensors. -/
theorem C40_ub_iff (bl : Blas F) {tr : Transpose} {a b : Tensor F} {A B : List Nat} {m k n : Nat} {xs ys : List F}
    (ha : Rep a (A ++ flip tr.left m k) xs) (hb : Rep b (B ++ flip tr.right k n) ys) (hfit : Fits A) :
    matmulT bl a b tr = .error .ub ↔
      b.data.length < b.offset + (if 0 < m then A.prod else A.prod - 1) * (k * n) := by
  refine ⟨fun h => ?_, fun hgt => ?_⟩
  · by_contra hc
    rw [matmulT_raw bl ha hb hfit (by omega)] at h
    exact noUB_new _ h
  obtain ⟨k', ek⟩ := mkn_ok ha hb
  obtain ⟨e1, e2⟩ := flip_rows_cols ha.wf.shape ha.toDims
  obtain ⟨e3, e4⟩ := flip_rows_cols hb.wf.shape hb.toDims
  have hm32 := (lt_of_mem_flip ha.adm).1
  have hn32 := (lt_of_mem_flip hb.adm).2
  have hbd := hb.wf.bound
  have hpos : 0 < k * n := by
    rcases Nat.eq_zero_or_pos (k * n) with h | h
    · rw [h, Nat.mul_zero] at hgt; omega
    · exact h
  have hk := Nat.pos_of_mul_pos_right hpos
  have hn := Nat.pos_of_mul_pos_left hpos
  have hA : 0 < A.prod := by
    rcases Nat.eq_zero_or_pos A.prod with h | h
    · rw [h] at hgt; simp at hgt; omega
    · exact h
  have s2 : (if tr.right = true then n else k) * (if tr.right = true then k else n) = k * n := by
    split <;> simp [Nat.mul_comm]
  unfold matmulT
  rw [ensure_true (by rw [ha.rank]; simp [flip_length]), ok_bind, ek, ok_bind]
  dsimp only
  rw [ha.rank, usub_ok (by simp [flip_length]), ok_bind,
    show (A ++ flip tr.left m k).length - 2 = A.length by simp [flip_length]]
  rw [ha.shape, sublen_outer ha.adm.len, foldl_fits hfit, ok_bind, ← ha.shape, e1, ok_bind, e2, ok_bind, e3, ok_bind, e4,
    ok_bind]
  rw [← bind_assoc, hb.shape, with_shape hb.adm hm32 hn32, ok_bind]
  rw [s2]
  apply unsafeInit_ub
  · apply forR_ne_error
    intro q o hc
    rcases bind_eq_error.1 hc with hc | ⟨_, _, hc⟩
    · exact rawAdd_ne_panic _ _ hc
    rcases bind_eq_error.1 hc with hc | ⟨_, _, hc⟩
    · exact rawAdd_ne_panic _ _ hc
    rcases bind_eq_error.1 hc with hc | ⟨_, _, hc⟩
    · exact rawAdd_ne_panic _ _ hc
    revert hc
    unfold matmulSgemm
    rw [e1, ok_bind, e2, ok_bind, e3, ok_bind, e4, ok_bind]
    cases tr <;> apply sgemm_ne_panic
  · intro o ho
    obtain ⟨o1, o2, h⟩ := forR_ok_all ho (A.prod - 1) (Nat.zero_le _) (by omega)
    obtain ⟨_, _, h⟩ := bind_eq_ok.1 h
    obtain ⟨pb, hpb, h⟩ := bind_eq_ok.1 h
    obtain ⟨_, _, h⟩ := bind_eq_ok.1 h
    have hle := rawAdd_le hpb
    obtain rfl := rawAdd_eq hpb
    rw [Nat.mul_comm (k * n)] at hle
    split at hgt
    · next hm =>
      have hlt : b.offset + k * n * (A.prod - 1) + (k * n - 1) < b.data.length := by
        have hkn : n * (k - 1) + (n - 1) = k * n - 1 ∧ k - 1 + k * (n - 1) = k * n - 1 := by
          obtain ⟨k, rfl⟩ : ∃ k', k = k' + 1 := ⟨k - 1, by omega⟩
          obtain ⟨n, rfl⟩ : ∃ n', n = n' + 1 := ⟨n - 1, by omega⟩
          constructor
          · have : (k + 1) * (n + 1) = (n + 1) * k + n + 1 := by ring
            rw [this]; simp
          · have : (k + 1) * (n + 1) = k + (k + 1) * n + 1 := by ring
            rw [this]; simp
        unfold matmulSgemm at h
        rw [e1, ok_bind, e2, ok_bind, e3, ok_bind, e4, ok_bind] at h
        cases tr <;> simp only [Transpose.left, Transpose.right, if_true, Bool.false_eq_true, if_false] at h
        all_goals
          have := sgemm_reads_all bl hm (l := k - 1) (j := n - 1) (by omega) (by omega) h
          simp only [Nat.one_mul] at this
          omega
      have e : A.prod * (k * n) = (A.prod - 1) * (k * n) + k * n := by
        obtain ⟨q, hq⟩ : ∃ q, A.prod = q + 1 := ⟨A.prod - 1, by omega⟩
        rw [hq, Nat.add_sub_cancel]; ring
      rw [Nat.mul_comm (k * n)] at hlt
      omega
    · omega

/-- With more matrices on the left than on the right no product with elements is ever returned: either `matmul_t` leaves the
buffer, or it panics when the result does not have the size of its shape. -/
theorem C40_more_left (bl : Blas F) {tr : Transpose} {a b : Tensor F} {A B : List Nat} {m k n : Nat} {xs ys : List F}
    (ha : Rep a (A ++ flip tr.left m k) xs) (hb : Rep b (B ++ flip tr.right k n) ys) (hfit : Fits A)
    (hlt : B.prod < A.prod) (hm : 0 < m) (hn : 0 < n) :
    matmulT bl a b tr = .error (if b.data.length < b.offset + A.prod * (k * n) then .ub else .panic) := by
  have hif : (if 0 < m then A.prod else A.prod - 1) = A.prod := if_pos hm
  split
  · next h => exact (C40_ub_iff bl ha hb hfit).2 (by rwa [hif])
  · next h =>
    rw [matmulT_raw bl ha hb hfit (by rw [hif]; omega)]
    apply new_panic
    intro hc
    have hm := (lt_of_mem_flip ha.adm).1
    have hn := (lt_of_mem_flip hb.adm).2
    have := ((size_ofDims_iff (adm_swap hb.adm hm hn false)).1 hc).2
    rw [prodList_length, List.prod_append, show (flip false n m).prod = m * n from (flip_prod _ _ _).trans (Nat.mul_comm _ _)] at this
    have hpos : 0 < m * n := by apply Nat.mul_pos <;> assumption
    have := Nat.eq_of_mul_eq_mul_right hpos this
    omega

/-- More matrices than 2^32 on the left (possible only if they have no elements) are rejected. -/
theorem C40_too_many (bl : Blas F) {tr : Transpose} {a b : Tensor F} {A B : List Nat} {m k n : Nat} {xs ys : List F}
    (ha : Rep a (A ++ flip tr.left m k) xs) (hb : Rep b (B ++ flip tr.right k n) ys) (hfit : ¬ Fits A) :
    matmulT bl a b tr = .error .panic := by
  obtain ⟨k', ek⟩ := mkn_ok ha hb
  unfold matmulT
  rw [ensure_true (by rw [ha.rank]; simp [flip_length]), ok_bind, ek, ok_bind]
  dsimp only
  rw [ha.rank, usub_ok (by simp [flip_length]), ok_bind,
    show (A ++ flip tr.left m k).length - 2 = A.length by simp [flip_length]]
  rw [ha.shape, sublen_outer ha.adm.len, foldl_not_fits hfit, error_bind]

/-- C39: a product of 2^32 or more elements panics. -/
theorem C39_too_large (bl : Blas F) {tr : Transpose} {a b : Tensor F} {A B : List Nat} {m k n : Nat} {xs ys : List F}
    (ha : Rep a (A ++ flip tr.left m k) xs) (hb : Rep b (B ++ flip tr.right k n) ys) (hAB : A.prod = B.prod) (hfit : Fits A)
    (h : ¬ Fits (B ++ [n, m])) : matmulT bl a b tr = .error .panic := by
  rw [matmulT_eq bl ha hb (by omega) hfit]
  apply new_panic
  intro hc
  have hm := (lt_of_mem_flip ha.adm).1
  have hn := (lt_of_mem_flip hb.adm).2
  exact h ((size_ofDims_iff (ds := B ++ [n, m]) (adm_swap hb.adm hm hn false)).1 hc).1

/-- A column of 65536 elements times a row of 65536 elements. -/
example {a b : Tensor ℚ} {xs ys : List ℚ} (ha : Rep a [65536, 1] xs) (hb : Rep b [1, 65536] ys) :
    matmulT exOps a b .none = .error .panic :=
  C39_too_large (.naive exOps) (tr := .none) (A := []) (B := []) (m := 65536) (k := 1) (n := 65536) ha hb rfl fits_nil
    (by simp [fits_cons, fits_nil])

/-- A view of the start of a buffer. -/
theorem rep_prefix {α : Type} {ds : List Nat} {xs : List α} (ys : List α) (ha : Adm ds) (hf : Fits ds)
    (hl : xs.length = ds.prod) : Rep (⟨ofDims ds, 0, xs.length, xs ++ ys⟩ : Tensor α) ds xs := by
  have h := rep_fresh ha hf hl
  have hw : Tensor.WF (⟨ofDims ds, 0, xs.length, xs ++ ys⟩ : Tensor α) :=
    ⟨h.wf.shape, h.wf.size, by simp⟩
  refine ⟨hw, h.dims, ?_⟩
  rw [hw.asSlice]
  simp [Tensor.elems]

/-- The buffer of a three-matrix tensor, of which the first is taken as right operand: two left matrices are multiplied
with what follows, and the result is rejected. -/
example : matmulT exOps (⟨ofDims [2, 1, 1], 0, 2, [1, 2]⟩ : Tensor ℚ) (⟨ofDims [1, 1], 0, 1, [3, 4, 5]⟩ : Tensor ℚ) .none =
    .error .panic :=
  C40_more_left (.naive exOps) (tr := .none) (A := [2]) (B := []) (m := 1) (k := 1) (n := 1) (xs := [1, 2]) (ys := [3])
    (rep_fresh (ds := [2, 1, 1]) (xs := [1, 2]) ⟨by simp, by simp⟩ (fits_of_pos (by simp) (by simp)) rfl)
    (rep_prefix (ds := [1, 1]) (xs := [3]) [4, 5] ⟨by simp, by simp⟩ (fits_of_pos (by simp) (by simp)) rfl)
    (fits_of_pos (by simp) (by simp)) (by simp) (by simp) (by simp)

/-- Four left matrices are too many for that buffer. -/
example : matmulT exOps (⟨ofDims [4, 1, 1], 0, 4, [1, 2, 3, 4]⟩ : Tensor ℚ) (⟨ofDims [1, 1], 0, 1, [3, 4, 5]⟩ : Tensor ℚ) .none =
    .error .ub :=
  (C40_ub_iff (.naive exOps) (tr := .none) (A := [4]) (B := []) (m := 1) (k := 1) (n := 1) (xs := [1, 2, 3, 4]) (ys := [3])
    (rep_fresh (ds := [4, 1, 1]) (xs := [1, 2, 3, 4]) ⟨by simp, by simp⟩ (fits_of_pos (by simp) (by simp)) rfl)
    (rep_prefix (ds := [1, 1]) (xs := [3]) [4, 5] ⟨by simp, by simp⟩ (fits_of_pos (by simp) (by simp)) rfl)
    (fits_of_pos (by simp) (by simp))).2 (by simp)

example : matmulT exOps (⟨ofDims [4294967295, 2, 0, 1], 0, 0, []⟩ : Tensor ℚ) (⟨ofDims [1, 1], 0, 1, [3]⟩ : Tensor ℚ) .none =
    .error .panic :=
  C40_too_many (.naive exOps) (tr := .none) (A := [4294967295, 2]) (B := []) (m := 0) (k := 1) (n := 1) (xs := []) (ys := [3])
    (rep_fresh (ds := [4294967295, 2, 0, 1]) (xs := []) ⟨by simp, by simp⟩ (by simp [fits_cons, fits_nil]) (by simp))
    (rep_fresh (ds := [1, 1]) (xs := [3]) ⟨by simp, by simp⟩ (fits_of_pos (by simp) (by simp)) rfl)
    (by simp [fits_cons, fits_nil])

end Essay
