import Verif.Spec.Linalg
import Verif.Lemmas.Map
import Verif.Lemmas.Fold
import Verif.Lemmas.Array

/-!
# Helper lemmas for matrix products
-/

namespace Essay

open Shape

namespace Linalg

variable {F : Type}

/-- The pairs of factors of one entry. -/
def pairsR (k : Nat) (f g : Nat → F) : List (F × F) := (List.range k).map fun l => (f l, g l)

theorem pairsR_length (k : Nat) (f g : Nat → F) : (pairsR k f g).length = k := by simp [pairsR]

theorem pairsR_eq {k : Nat} {f g : Nat → F} {ps : List (F × F)} (hl : ps.length = k)
    (h : ∀ (l : Nat) p, ps[l]? = some p → f l = p.1 ∧ g l = p.2) : pairsR k f g = ps := by
  unfold pairsR
  apply List.ext_getElem?
  intro l
  by_cases hk : l < k
  · have hs : ps[l]? = some (ps[l]'(by omega)) := List.getElem?_eq_getElem (by omega)
    obtain ⟨h1, h2⟩ := h l _ hs
    rw [List.getElem?_map, List.getElem?_range hk, hs]
    simp [h1, h2]
  · rw [List.getElem?_eq_none (by simpa using hk), List.getElem?_eq_none (by omega)]

theorem naive_loop {fo : FOps F} {k pa ra pb rb : Nat} {a b : List F} {f g : Nat → F}
    (ha : ∀ l, l < k → a[pa + ra * l]? = some (f l)) (hb : ∀ l, l < k → b[pb + rb * l]? = some (g l)) :
    forR 0 k fo.zero (fun l v => do
        let x ← rawRead a (pa + ra * l)
        let y ← rawRead b (pb + rb * l)
        return fo.add v (fo.mul x y)) =
      (.ok ((pairsR k f g).foldl (fun v p => fo.add v (fo.mul p.1 p.2)) fo.zero) : Res F) := by
  induction k with
  | zero => rfl
  | succ k ih =>
    rw [forR_snoc (Nat.zero_le _), ih (fun l hl => ha l (by omega)) (fun l hl => hb l (by omega)), ok_bind,
      rawRead_ok (ha k (by omega)), ok_bind, rawRead_ok (hb k (by omega)), ok_bind]
    unfold pairsR
    rw [List.range_succ, List.map_append, List.foldl_append]
    rfl

theorem library_loop {k pa ra pb rb : Nat} {a b : List F} {f g : Nat → F}
    (ha : ∀ l, l < k → a[pa + ra * l]? = some (f l)) (hb : ∀ l, l < k → b[pb + rb * l]? = some (g l)) :
    forR 0 k [] (fun l ps => do
        let x ← rawRead a (pa + ra * l)
        let y ← rawRead b (pb + rb * l)
        return ps ++ [(x, y)]) = (.ok (pairsR k f g) : Res (List (F × F))) := by
  induction k with
  | zero => rfl
  | succ k ih =>
    rw [forR_snoc (Nat.zero_le _), ih (fun l hl => ha l (by omega)) (fun l hl => hb l (by omega)), ok_bind,
      rawRead_ok (ha k (by omega)), ok_bind, rawRead_ok (hb k (by omega)), ok_bind]
    unfold pairsR
    rw [List.range_succ, List.map_append]
    rfl

theorem sgemm_puts {bl : Blas F} {m k n : Nat} {a b ys : List F} {pa rsa csa pb rsb csb pc rsc csc : Nat}
    {fa fb : Nat → Nat → F}
    (ha : ∀ i l, i < m → l < k → a[pa + (rsa * i + csa * l)]? = some (fa i l))
    (hb : ∀ l j, l < k → j < n → b[pb + (rsb * l + csb * j)]? = some (fb l j))
    (hy : ∀ i j, i < m → j < n → ys[pc + (rsc * i + csc * j)]? =
      some (bl.entry m k n i j (pairsR k (fa i) (fun l => fb l j)))) :
    Puts ys (fun p => ∃ i, 0 ≤ i ∧ i < m ∧ ∃ j, 0 ≤ j ∧ j < n ∧ p = pc + (rsc * i + csc * j))
      (fun c => sgemm bl m k n bl.one a pa rsa csa b pb rsb csb c pc rsc csc) := by
  have pos : ∀ i j l, pa + (rsa * i + csa * l) = pa + rsa * i + csa * l ∧
      pb + (rsb * l + csb * j) = pb + csb * j + rsb * l := fun i j l => by omega
  cases bl with
  | naive fo =>
    show Puts _ _ (fun c => sgemmNaive fo m k n fo.one a pa rsa csa b pb rsb csb c pc rsc csc)
    unfold sgemmNaive
    apply puts_loop
    intro i _ hi
    apply puts_loop
    intro j _ hj
    apply (puts_write (hy i j hi hj)).congr (fun _ _ => Iff.rfl)
    intro c
    have h := naive_loop (fo := fo) (a := a) (b := b) (k := k) (pa := pa + rsa * i) (ra := csa) (pb := pb + csb * j)
      (rb := rsb) (f := fa i) (g := fun l => fb l j)
      (fun l hl => by rw [Nat.add_assoc]; exact ha i l hi hl)
      (fun l hl => by rw [Nat.add_assoc, Nat.add_comm (csb * j)]; exact hb l j hl hj)
    simp only [fun l => (pos i j l).1, fun l => (pos i j l).2]
    rw [h, ok_bind]
    rfl
  | library one ke =>
    show Puts _ _ (fun c => sgemmLibrary ke m k n one a pa rsa csa b pb rsb csb c pc rsc csc)
    unfold sgemmLibrary
    apply puts_loop
    intro i _ hi
    apply puts_loop
    intro j _ hj
    apply (puts_write (hy i j hi hj)).congr (fun _ _ => Iff.rfl)
    intro c
    have h := library_loop (a := a) (b := b) (k := k) (pa := pa + rsa * i) (ra := csa) (pb := pb + csb * j)
      (rb := rsb) (f := fa i) (g := fun l => fb l j)
      (fun l hl => by rw [Nat.add_assoc]; exact ha i l hi hl)
      (fun l hl => by rw [Nat.add_assoc, Nat.add_comm (csb * j)]; exact hb l j hl hj)
    simp only [fun l => (pos i j l).1, fun l => (pos i j l).2]
    rw [h, ok_bind]
    rfl

/-- All products of a batch, row by row. -/
def prodList (bl : Blas F) (N m n k : Nat) (fa fb : Nat → Nat → Nat → F) : List F :=
  (List.range (N * (m * n))).map fun p =>
    bl.entry m k n (p / n % m) (p % n) (pairsR k (fa (p / (m * n)) (p / n % m)) (fun l => fb (p / (m * n)) l (p % n)))

theorem prodList_length (bl : Blas F) (N m n k : Nat) (fa fb : Nat → Nat → Nat → F) :
    (prodList bl N m n k fa fb).length = N * (m * n) := by simp [prodList]

theorem prodList_get (bl : Blas F) {N m n k : Nat} (fa fb : Nat → Nat → Nat → F) {q i j : Nat} (hq : q < N) (hi : i < m)
    (hj : j < n) : (prodList bl N m n k fa fb)[q * (m * n) + (i * n + j)]? =
      some (bl.entry m k n i j (pairsR k (fa q i) (fun l => fb q l j))) := by
  have h1 : i * n + j < m * n := lt_mul_add hi hj
  unfold prodList
  rw [List.getElem?_map, List.getElem?_range (lt_mul_add hq h1)]
  simp only [Option.map_some, Option.some.injEq]
  rw [mul_add_div' h1]
  have e : q * (m * n) + (i * n + j) = (q * m + i) * n + j := by rw [Nat.add_mul, Nat.mul_assoc, Nat.add_assoc]
  rw [e, mul_add_div' hj, mul_add_mod' hj, mul_add_mod' hi]

theorem prod_cover {N m n p : Nat} (hp : p < N * (m * n)) :
    ∃ q, 0 ≤ q ∧ q < N ∧ ∃ i, 0 ≤ i ∧ i < m ∧ ∃ j, 0 ≤ j ∧ j < n ∧ p = q * (m * n) + (n * i + 1 * j) := by
  have hpos := pos_right_of_lt_mul hp
  have hn : 0 < n := by rcases Nat.eq_zero_or_pos n with h | h <;> simp_all
  have h1 := Nat.mod_lt p hpos
  refine ⟨p / (m * n), Nat.zero_le _, div_lt_of_lt_mul' hp, p % (m * n) / n, Nat.zero_le _, div_lt_of_lt_mul' h1,
    p % (m * n) % n, Nat.zero_le _, Nat.mod_lt _ hn, ?_⟩
  have e1 := Nat.div_add_mod p (m * n)
  have e2 := Nat.div_add_mod (p % (m * n)) n
  rw [Nat.one_mul, e2, Nat.mul_comm]; exact e1.symm

/-- Stored element `(i, j)` of matrix `q`, where the stored matrix is `flip t` of an `m x k` matrix. -/
def elemAt (bl : Blas F) (t : Bool) (m k : Nat) (xs : List F) (q i l : Nat) : F :=
  xs[q * (m * k) + (if t then l * m + i else i * k + l)]?.getD bl.one

theorem elemPos_lt {t : Bool} {m k q N i l : Nat} (hq : q < N) (hi : i < m) (hl : l < k) :
    q * (m * k) + (if t then l * m + i else i * k + l) < N * (m * k) := by
  apply lt_mul_add hq
  cases t
  · exact lt_mul_add hi hl
  · rw [Nat.mul_comm m k]; exact lt_mul_add hl hi

theorem elemAt_eq (bl : Blas F) {t : Bool} {m k q N i l : Nat} {xs : List F} (hx : xs.length = N * (m * k)) (hq : q < N)
    (hi : i < m) (hl : l < k) :
    xs[q * (m * k) + (if t then l * m + i else i * k + l)]? = some (elemAt bl t m k xs q i l) := by
  unfold elemAt
  rw [List.getElem?_eq_getElem (by rw [hx]; exact elemPos_lt hq hi hl)]
  rfl

theorem flip_length (t : Bool) (i j : Nat) : (flip t i j).length = 2 := by cases t <;> rfl
theorem flip_prod (t : Bool) (i j : Nat) : (flip t i j).prod = i * j := by cases t <;> simp [flip, Nat.mul_comm]

theorem ravel_flip {t : Bool} {m k i l : Nat} (hi : i < m) (hl : l < k) :
    ravel (flip t m k) (flip t i l) = some (if t then l * m + i else i * k + l) := by
  cases t <;> simp [flip, ravel, hi, hl]

theorem ravel_flip_some {t : Bool} {m k i l p : Nat} (h : ravel (flip t m k) (flip t i l) = some p) : i < m ∧ l < k := by
  cases t <;> simp [flip, ravel] at h <;> omega

/-- Reading `elemAt` through multi-indices. -/
theorem at_flip (bl : Blas F) {A : List Nat} {t : Bool} {m k i l q : Nat} {xs : List F} {ai : List Nat} {x : F}
    (hq : ravel A ai = some q) (h : at? (A ++ flip t m k) xs (ai ++ flip t i l) = some x) :
    elemAt bl t m k xs q i l = x ∧ i < m ∧ l < k := by
  unfold at? at h
  rw [ravel_append (ravel_length hq), hq, Option.bind_some] at h
  cases hr : ravel (flip t m k) (flip t i l) with
  | none => rw [hr] at h; cases h
  | some p =>
    obtain ⟨hi, hl⟩ := ravel_flip_some hr
    rw [ravel_flip hi hl] at h
    simp only [Option.map_some, Option.bind_some, flip_prod] at h
    unfold elemAt
    rw [h]
    exact ⟨rfl, hi, hl⟩

theorem flip_rows_cols {s : Shape} (h : s.WF) {A : List Nat} {t : Bool} {m k : Nat} (hd : s.toDims = A ++ flip t m k) :
    s.rows = .ok (if t then k else m) ∧ s.cols = .ok (if t then m else k) := by
  rw [rows_eq h, cols_eq h, hd]
  cases t <;> simp [flip]

theorem sublen_outer {A E : List Nat} (h : (A ++ E).length ≤ 6) :
    (ofDims (A ++ E)).sublen 0 A.length = A.reverse.foldlM mulU32 1 := by
  rw [sublen_ofDims h (Nat.zero_le _) (by simp)]
  simp

theorem foldl_fits {A : List Nat} (h : Fits A) : A.reverse.foldlM mulU32 1 = .ok A.prod := by
  rw [foldlM_mul_eq_ok (by omega)]
  refine ⟨?_, by rw [List.prod_reverse, Nat.one_mul]⟩
  intro k _
  rw [prod_take_reverse, Nat.one_mul]
  exact h _

theorem foldl_not_fits {A : List Nat} (h : ¬ Fits A) : A.reverse.foldlM mulU32 1 = .error .panic := by
  have hu := noUB_foldlM_mul A.reverse 1
  cases e : A.reverse.foldlM mulU32 1 with
  | error e' => cases e' with
    | panic => rfl
    | ub => exact absurd e hu
  | ok n =>
    exfalso
    rw [foldlM_mul_eq_ok (by omega)] at e
    apply h
    intro k
    by_cases hk : k ≤ A.length
    · have := e.1 (A.length - k) (by simp)
      rw [prod_take_reverse, Nat.one_mul, show A.length - (A.length - k) = k by omega] at this
      exact this
    · rw [List.drop_eq_nil_of_le (by omega)]; simp

theorem with_shape {B : List Nat} {t : Bool} {k n m : Nat} (hadm : Adm (B ++ flip t k n)) (hm : m < 2 ^ 32)
    (hn : n < 2 ^ 32) :
    ((ofDims (B ++ flip t k n)).withCols m >>= fun s => s.withRows n) = .ok (ofDims (B ++ [n, m])) := by
  have hlen := hadm.len
  simp only [List.length_append, flip_length] at hlen
  obtain ⟨c, r, e⟩ : ∃ c r, (B ++ flip t k n).reverse = c :: r :: B.reverse := by
    cases t <;> simp [flip]
  unfold ofDims
  rw [e, withCols_ofRev (by simp; omega) (by simp), ok_bind, withRows_ofRev (by simp; omega) (by simp),
    asU32_of_lt hm, asU32_of_lt hn]
  simp

theorem adm_swap {B : List Nat} {t : Bool} {k n m : Nat} (hadm : Adm (B ++ flip t k n)) (hm : m < 2 ^ 32)
    (hn : n < 2 ^ 32) (i : Bool) : Adm (B ++ flip i n m) := by
  have hlen := hadm.len
  simp only [List.length_append, flip_length] at hlen
  refine ⟨by simp [flip_length]; omega, ?_⟩
  intro d hd
  rcases List.mem_append.1 hd with h | h
  · exact hadm.lt d (List.mem_append.2 (Or.inl h))
  · cases i <;> simp [flip] at h <;> rcases h with rfl | rfl <;> assumption

theorem lt_of_mem_flip {B : List Nat} {t : Bool} {k n : Nat} (hadm : Adm (B ++ flip t k n)) : k < 2 ^ 32 ∧ n < 2 ^ 32 := by
  constructor
  · exact hadm.lt k (by cases t <;> simp [flip])
  · exact hadm.lt n (by cases t <;> simp [flip])

theorem mkn_ok {tr : Transpose} {a b : Tensor F} {A B : List Nat} {m k n : Nat} {xs ys : List F}
    (ha : Rep a (A ++ flip tr.left m k) xs) (hb : Rep b (B ++ flip tr.right k n) ys) :
    ∃ k', mkn tr a b = .ok (m, k', n) := by
  obtain ⟨e1, e2⟩ := flip_rows_cols ha.wf.shape ha.toDims
  obtain ⟨e3, e4⟩ := flip_rows_cols hb.wf.shape hb.toDims
  unfold mkn
  rw [e1, ok_bind, e2, ok_bind, e3, ok_bind, e4, ok_bind]
  cases tr <;> exact ⟨_, by simp [Transpose.left, Transpose.right, ensure]; rfl⟩

theorem matmulSgemm_puts (bl : Blas F) {tr : Transpose} {a b : Tensor F} {A B : List Nat} {m k n : Nat} {xs ys : List F}
    (ha : Rep a (A ++ flip tr.left m k) xs) (hb : Rep b (B ++ flip tr.right k n) ys) {N q : Nat} (hqA : q < A.prod)
    (hqB : q < B.prod) (hqN : q < N) :
    Puts (prodList bl N m n k (elemAt bl tr.left m k xs) (elemAt bl tr.right k n ys))
      (fun p => ∃ i, 0 ≤ i ∧ i < m ∧ ∃ j, 0 ≤ j ∧ j < n ∧ p = q * (m * n) + (n * i + 1 * j))
      (fun o => matmulSgemm bl tr a b (a.offset + q * (m * k)) (b.offset + q * (k * n)) o (q * (m * n))) := by
  obtain ⟨e1, e2⟩ := flip_rows_cols ha.wf.shape ha.toDims
  obtain ⟨e3, e4⟩ := flip_rows_cols hb.wf.shape hb.toDims
  have hxl : xs.length = A.prod * (m * k) := by rw [ha.length, List.prod_append, flip_prod]
  have hyl : ys.length = B.prod * (k * n) := by rw [hb.length, List.prod_append, flip_prod]
  have hA : ∀ i l, i < m → l < k → a.data[a.offset + (q * (m * k) + (if tr.left then l * m + i else i * k + l))]? =
      some (elemAt bl tr.left m k xs q i l) := by
    intro i l hi hl
    rw [ha.data_get (by rw [hxl]; exact elemPos_lt hqA hi hl)]
    exact elemAt_eq bl hxl hqA hi hl
  have hB : ∀ l j, l < k → j < n → b.data[b.offset + (q * (k * n) + (if tr.right then j * k + l else l * n + j))]? =
      some (elemAt bl tr.right k n ys q l j) := by
    intro l j hl hj
    rw [hb.data_get (by rw [hyl]; exact elemPos_lt hqB hl hj)]
    exact elemAt_eq bl hyl hqB hl hj
  unfold matmulSgemm
  simp only [e1, e2, e3, e4, ok_bind]
  cases tr
  all_goals
    simp only [Transpose.left, Transpose.right, if_true, Bool.false_eq_true, if_false] at hA hB ⊢
    apply sgemm_puts
    · intro i l hi hl
      rw [← hA i l hi hl]
      congr 1; grind
    · intro l j hl hj
      rw [← hB l j hl hj]
      congr 1; grind
    · intro i j hi hj
      rw [Nat.mul_comm n i, Nat.one_mul]
      exact prodList_get bl _ _ hqN hi hj

/-- `matmul_t` on operands with matching inner dimensions and enough right-hand matrices. -/
theorem matmulT_eq (bl : Blas F) {tr : Transpose} {a b : Tensor F} {A B : List Nat} {m k n : Nat} {xs ys : List F}
    (ha : Rep a (A ++ flip tr.left m k) xs) (hb : Rep b (B ++ flip tr.right k n) ys) (hle : A.prod ≤ B.prod)
    (hfit : Fits A) :
    matmulT bl a b tr = Tensor.new (prodList bl A.prod m n k (elemAt bl tr.left m k xs) (elemAt bl tr.right k n ys))
      (ofDims (B ++ [n, m])) := by
  obtain ⟨k', ek⟩ := mkn_ok ha hb
  obtain ⟨e1, e2⟩ := flip_rows_cols ha.wf.shape ha.toDims
  obtain ⟨e3, e4⟩ := flip_rows_cols hb.wf.shape hb.toDims
  have hm := (lt_of_mem_flip ha.adm).1
  have hn := (lt_of_mem_flip hb.adm).2
  have hlen := ha.adm.len
  unfold matmulT
  rw [ensure_true (by rw [ha.rank]; simp [flip_length]), ok_bind, ek, ok_bind]
  dsimp only
  rw [ha.rank, usub_ok (by simp [flip_length]), ok_bind,
    show (A ++ flip tr.left m k).length - 2 = A.length by simp [flip_length]]
  rw [ha.shape, sublen_outer hlen, foldl_fits hfit, ok_bind, ← ha.shape, e1, ok_bind, e2, ok_bind, e3, ok_bind, e4,
    ok_bind]
  rw [← bind_assoc, hb.shape, with_shape hb.adm hm hn, ok_bind]
  apply unsafeInit_puts (by rw [prodList_length, Nat.mul_comm])
  · apply puts_loop
    intro q _ hq
    intro o ho
    rw [prodList_length] at ho
    have s1 : (if tr.left = true then k else m) * (if tr.left = true then m else k) = m * k := by
      split <;> simp [Nat.mul_comm]
    have s2 : (if tr.right = true then n else k) * (if tr.right = true then k else n) = k * n := by
      split <;> simp [Nat.mul_comm]
    have b1 : q * (m * k) ≤ A.prod * (m * k) := Nat.mul_le_mul_right _ (Nat.le_of_lt hq)
    have b2 : q * (k * n) ≤ B.prod * (k * n) := Nat.mul_le_mul_right _ (by omega)
    have b3 : q * (m * n) ≤ A.prod * (m * n) := Nat.mul_le_mul_right _ (Nat.le_of_lt hq)
    have l1 := ha.wf.bound
    have l2 := hb.wf.bound
    rw [ha.size, ha.length, List.prod_append, flip_prod] at l1
    rw [hb.size, hb.length, List.prod_append, flip_prod] at l2
    dsimp only
    rw [s1, s2, Nat.mul_comm (m * k), Nat.mul_comm (k * n), Nat.mul_comm (m * n), rawAdd_ok (by omega), ok_bind,
      rawAdd_ok (by omega), ok_bind, rawAdd_ok (by omega), ok_bind]
    exact matmulSgemm_puts bl ha hb hq (by omega) hq o (by rw [prodList_length, ho])
  · intro p hp
    rw [prodList_length] at hp
    exact prod_cover hp

end Linalg

end Essay
