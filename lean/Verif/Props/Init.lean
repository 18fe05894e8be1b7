import Mathlib.Algebra.Order.Ring.Rat
import Verif.Lemmas.Init
import Verif.Props.From
import Verif.Props.Array
import Verif.Spec.Float

/-!
# Properties C33 - C38: matrices, grids, progressions, one-hot vectors
-/

namespace Essay

open Shape

variable {α F : Type}

/-! ## C33 diagonal and triangular matrices -/

/-- C33: `eye(n)` (and `identity(n)`) for `n > 0` is the `n x n` matrix with ones exactly on the diagonal. Missing for
the full property: `n = 0`, see `C33_eye_zero_violates`. -/
theorem C33_eye_partial [Zero α] [One α] {n : Nat} (hn : 0 < n) (h : n * n < 2 ^ 32) :
    ∃ t xs, (Init.eye n : Res (Tensor α)) = .ok t ∧ Init.identity n = .ok t ∧ Rep t [n, n] xs ∧
      ∀ i j, i < n → j < n → at? [n, n] xs [i, j] = some (if i = j then 1 else 0) := by
  have hlt := lt_of_sq h
  have ha := adm_two hlt hlt
  obtain ⟨t, xs, e, hr, hat⟩ := initRindexed_fun (α := α) ha (fits_sq h)
    (f := fun index => do
      let i0 ← idx index 0
      let i1 ← idx index 1
      return if i0 = i1 then 1 else 0)
    (g := fun is => if is.getD 0 0 = is.getD 1 0 then 1 else 0) (by
      intro is his
      obtain ⟨i, j, rfl, _, _⟩ := ravel_two his
      simp [idx, ok_bind, eq_comm])
  have e' : (Init.eye n : Res (Tensor α)) = .ok t := by
    unfold Init.eye
    rw [if_neg (by omega), ofSlice_adm ha, ok_bind]
    exact e
  refine ⟨t, xs, e', e', hr, ?_⟩
  intro i j hi hj
  rw [hat _ (ravel_two_some hi hj)]
  simp

example : ∃ t xs, (Init.eye 3 : Res (Tensor Int)) = .ok t ∧ Init.identity 3 = .ok t ∧ Rep t [3, 3] xs ∧
    ∀ i j, i < 3 → j < 3 → at? [3, 3] xs [i, j] = some (if i = j then 1 else 0) :=
  C33_eye_partial (by decide) (by decide)

/-- `eye(0)` is not an empty 0 x 0 matrix: it has rank 0 and holds one zero. -/
theorem C33_eye_zero_violates [Zero α] [One α] : ∃ t, (Init.eye 0 : Res (Tensor α)) = .ok t ∧ Rep t [] [0] ∧
    ¬ ∃ xs, Rep t [0, 0] xs := by
  obtain ⟨t, e, hr⟩ := C06_from_scalar (0 : α)
  refine ⟨t, e, hr, ?_⟩
  rintro ⟨xs, hx⟩
  have h1 := hr.rank
  have h2 := hx.rank
  rw [h1] at h2
  simp at h2

/-- C33: `diagflat(v)` of a vector of `n` elements is the `n x n` matrix with `v` on the diagonal and zeros elsewhere. -/
theorem C33_diagflat [Zero α] {v : Tensor α} {xs : List α} (hv : Rep v [xs.length] xs)
    (h : xs.length * xs.length < 2 ^ 32) :
    ∃ t ys, Init.diagflat v = .ok t ∧ Rep t [xs.length, xs.length] ys ∧
      ∀ i j x, xs[i]? = some x → j < xs.length →
        at? [xs.length, xs.length] ys [i, j] = some (if i = j then x else 0) := by
  have hlt := lt_of_sq h
  have ha := adm_two hlt hlt
  obtain ⟨t, ys, e, hr, hat⟩ := initRindexed_fun (α := α) ha (fits_sq h)
    (f := fun index => do
      let i0 ← idx index 0
      let i1 ← idx index 1
      if i0 = i1 then v.index1 i0 else return 0)
    (g := fun is => if is.getD 0 0 = is.getD 1 0 then xs[is.getD 0 0]?.getD 0 else 0) (by
      intro is his
      obtain ⟨i, j, rfl, hi, hj⟩ := ravel_two his
      simp only [List.reverse_cons, List.reverse_nil, List.nil_append, List.cons_append, idx, List.getElem?_cons_zero,
        List.getElem?_cons_succ, ok_bind, List.getD_cons_zero, List.getD_cons_succ]
      by_cases hij : i = j
      · subst hij
        simp only [if_true]
        rw [index1_eq hv, List.getElem?_eq_getElem hi]; rfl
      · rw [if_neg (Ne.symm hij), if_neg hij]; rfl)
  refine ⟨t, ys, ?_, hr, ?_⟩
  · unfold Init.diagflat
    rw [ensure_true (by rw [hv.rank]; rfl), ok_bind]
    dsimp only
    rw [hv.size, ofSlice_adm ha, ok_bind]
    exact e
  · intro i j x hx hj
    have hi : i < xs.length := (List.getElem?_eq_some_iff.1 hx).1
    rw [hat _ (ravel_two_some hi hj)]
    simp [hx]

/-- C33: `diagflat` of anything but a vector is rejected. -/
theorem C33_diagflat_rejects [Zero α] {v : Tensor α} {ds : List Nat} {xs : List α} (hv : Rep v ds xs)
    (h : ds.length ≠ 1) : Init.diagflat v = .error .panic := by
  unfold Init.diagflat
  rw [ensure_false (by rw [hv.rank]; exact h), error_bind]

def exVec3 : Tensor Int := { shape := ofDims [3], offset := 1, size := 3, data := [9, 5, 6, 7, 9] }

theorem exVec3_rep : Rep exVec3 [3] [5, 6, 7] := ⟨⟨wf_ofDims ⟨by simp, by simp⟩, rfl, by simp [exVec3]⟩, rfl, rfl⟩

example : ∃ t ys, Init.diagflat exVec3 = .ok t ∧ Rep t [3, 3] ys ∧
      ∀ i j x, [5, 6, 7][i]? = some x → j < 3 → at? [3, 3] ys [i, j] = some (if i = j then x else 0) :=
  C33_diagflat (xs := [5, 6, 7]) exVec3_rep (by decide)

/-- C33: `tri(n)` is the `n x n` matrix with ones on and below the diagonal. -/
theorem C33_tri [Zero α] [One α] {n : Nat} (h : n * n < 2 ^ 32) :
    ∃ t xs, (Init.tri n : Res (Tensor α)) = .ok t ∧ Rep t [n, n] xs ∧
      ∀ i j, i < n → j < n → at? [n, n] xs [i, j] = some (if j ≤ i then 1 else 0) := by
  have hlt := lt_of_sq h
  have ha := adm_two hlt hlt
  obtain ⟨t, xs, e, hr, hat⟩ := initRindexed_fun (α := α) ha (fits_sq h)
    (f := fun index => do
      let i0 ← idx index 0
      let i1 ← idx index 1
      return if i0 ≤ i1 then 1 else 0)
    (g := fun is => if is.getD 1 0 ≤ is.getD 0 0 then 1 else 0) (by
      intro is his
      obtain ⟨i, j, rfl, _, _⟩ := ravel_two his
      simp [idx, ok_bind])
  refine ⟨t, xs, ?_, hr, ?_⟩
  · unfold Init.tri
    rw [ofSlice_adm ha, ok_bind]
    exact e
  · intro i j hi hj
    rw [hat _ (ravel_two_some hi hj)]
    simp

example : ∃ t xs, (Init.tri 4 : Res (Tensor Int)) = .ok t ∧ Rep t [4, 4] xs ∧
    ∀ i j, i < 4 → j < 4 → at? [4, 4] xs [i, j] = some (if j ≤ i then 1 else 0) := C33_tri (by decide)

theorem triList_at [Zero α] (keep : Nat → Nat → Bool) {ds : List Nat} {rows cols : Nat} {xs : List α}
    {is : List Nat} {j i : Nat} {x : α} (hx : at? (ds ++ [rows, cols]) xs (is ++ [j, i]) = some x)
    (hl : is.length = ds.length) :
    at? (ds ++ [rows, cols]) (triList keep rows cols xs) (is ++ [j, i]) = some (if keep i j then x else 0) := by
  unfold at? at *
  cases hr : ravel (ds ++ [rows, cols]) (is ++ [j, i]) with
  | none => rw [hr] at hx; cases hx
  | some p =>
    rw [hr, Option.bind_some] at hx
    rw [Option.bind_some]
    rw [ravel_append hl] at hr
    obtain ⟨q, hq, hr⟩ := Option.bind_eq_some_iff.1 hr
    obtain ⟨r, hr1, rfl⟩ := Option.map_eq_some_iff.1 hr
    obtain ⟨hj, r', hr', rfl⟩ := ravel_cons.1 hr1
    obtain ⟨hi, r'', hr'', rfl⟩ := ravel_cons.1 hr'
    have : r'' = 0 := by simpa [ravel, eq_comm] using hr''
    subst this
    simp only [List.prod_cons, List.prod_nil, Nat.mul_one, Nat.add_zero] at hx ⊢
    have hlt := (List.getElem?_eq_some_iff.1 hx).1
    have e : q * (rows * cols) + (j * cols + i) = (q * rows + j) * cols + i := by grind
    have hm : (q * (rows * cols) + (j * cols + i)) % cols = i := by rw [e]; exact mul_add_mod' hi
    have hd : (q * (rows * cols) + (j * cols + i)) / cols % rows = j := by
      rw [e, mul_add_div' hi]; exact mul_add_mod' hj
    have hx' : xs[q * (rows * cols) + (j * cols + i)] = x := by simpa [List.getElem?_eq_getElem hlt] using hx
    simp [triList, hlt, hm, hd, hx']

/-- C33: `tril` keeps the elements on and below the diagonal of each matrix and zeroes the others. Missing for the full
property: matrices without elements, see `C33_empty_violates`. -/
theorem C33_tril_partial [Zero α] {t : Tensor α} {ds : List Nat} {rows cols : Nat} {xs : List α}
    (h : Rep t (ds ++ [rows, cols]) xs) (hpos : 0 < rows * cols) :
    ∃ u ys, Init.tril t = .ok u ∧ Rep u (ds ++ [rows, cols]) ys ∧
      ∀ is j i x, is.length = ds.length → at? (ds ++ [rows, cols]) xs (is ++ [j, i]) = some x →
        at? (ds ++ [rows, cols]) ys (is ++ [j, i]) = some (if i ≤ j then x else 0) := by
  obtain ⟨u, e, hr⟩ := triFill_rep (fun i j => decide (i ≤ j)) h hpos
  refine ⟨u, _, e, hr, ?_⟩
  intro is j i x hl hx
  rw [triList_at _ hx hl]; simp

/-- C33: `triu` keeps the elements on and above the diagonal of each matrix and zeroes the others (non-empty
matrices). -/
theorem C33_triu_partial [Zero α] {t : Tensor α} {ds : List Nat} {rows cols : Nat} {xs : List α}
    (h : Rep t (ds ++ [rows, cols]) xs) (hpos : 0 < rows * cols) :
    ∃ u ys, Init.triu t = .ok u ∧ Rep u (ds ++ [rows, cols]) ys ∧
      ∀ is j i x, is.length = ds.length → at? (ds ++ [rows, cols]) xs (is ++ [j, i]) = some x →
        at? (ds ++ [rows, cols]) ys (is ++ [j, i]) = some (if j ≤ i then x else 0) := by
  obtain ⟨u, e, hr⟩ := triFill_rep (fun i j => decide (j ≤ i)) h hpos
  refine ⟨u, _, e, hr, ?_⟩
  intro is j i x hl hx
  rw [triList_at _ hx hl]; simp

/-- `tril` and `triu` panic (division by zero) on every tensor whose matrices have no elements. -/
theorem C33_empty_violates [Zero α] {t : Tensor α} {ds : List Nat} {rows cols : Nat} {xs : List α}
    (h : Rep t (ds ++ [rows, cols]) xs) (h0 : rows * cols = 0) :
    Init.tril t = .error .panic ∧ Init.triu t = .error .panic := by
  have hr : t.shape.rows = Except.ok rows := by rw [rows_eq h.wf.shape, h.toDims]; simp
  have hc : t.shape.cols = Except.ok cols := by rw [cols_eq h.wf.shape, h.toDims]; simp
  have key : ∀ keep, Init.triFill keep t = .error .panic := by
    intro keep
    unfold Init.triFill
    rw [ensure_true (by rw [h.rank]; simp), ok_bind, h.size_eq, ok_bind]
    unfold Tensor.unsafeInit
    dsimp only
    rw [h.elems, ok_bind, hr, ok_bind, hc, ok_bind, h0]
    rfl
  exact ⟨key _, key _⟩

/-- C33: `tril` and `triu` reject vectors and scalars. -/
theorem C33_tril_triu_reject [Zero α] {t : Tensor α} {ds : List Nat} {xs : List α} (h : Rep t ds xs)
    (hl : ds.length < 2) : Init.tril t = .error .panic ∧ Init.triu t = .error .panic := by
  have key : ∀ keep, Init.triFill keep t = .error .panic := by
    intro keep
    unfold Init.triFill
    rw [ensure_false (by rw [h.rank]; omega), error_bind]
  exact ⟨key _, key _⟩

example : ∃ u ys, Init.triu exMat = .ok u ∧ Rep u [2, 3] ys ∧
      ∀ is j i x, is.length = 0 → at? [2, 3] [1, 2, 3, 4, 5, 6] (is ++ [j, i]) = some x →
        at? [2, 3] ys (is ++ [j, i]) = some (if j ≤ i then x else 0) :=
  C33_triu_partial (ds := []) exMat_rep (by decide)

example : ∃ u, Init.tril exMat = .ok u ∧ u.data = [1, 0, 0, 4, 5, 0] := ⟨_, rfl, rfl⟩

/-! ## C34 meshgrid -/

/-- The outputs of a meshgrid over the axes `A` (outermost first), all with dimensions of product `size`. -/
def meshOuts (size : Nat) : List (List α) → List (List α)
  | [] => []
  | xs :: rest => meshList xs size (rest.map List.length).prod :: meshOuts size rest

theorem meshOuts_get {size : Nat} (p q : List (List α)) (xs : List α) :
    (meshOuts size (p ++ xs :: q))[p.length]? = some (meshList xs size (q.map List.length).prod) := by
  induction p with
  | nil => simp [meshOuts]
  | cons a p ih => simpa [meshOuts] using ih

theorem meshOuts_length (size : Nat) (A : List (List α)) : (meshOuts size A).length = A.length := by
  induction A with
  | nil => rfl
  | cons a A ih => simp [meshOuts, ih]

theorem forL_append_one {γ β : Type} (xs : List γ) (x : γ) (s : β) (body : γ → β → Res β) :
    forL (xs ++ [x]) s body = forL xs s body >>= body x := by
  unfold forL
  rw [List.foldlM_append]
  congr 1
  funext b
  simp only [List.foldlM_cons, List.foldlM_nil]
  cases body x b <;> rfl

theorem meshLoop {ts : List (Tensor α)} {A : List (List α)} (h : RepAll ts (A.map fun xs => ([xs.length], xs)))
    (pre : List Nat) (ha : Adm (pre ++ A.map List.length)) (hpos : 0 < (pre ++ A.map List.length).prod)
    (hf : Fits (pre ++ A.map List.length)) :
    ∃ os, forL ts.reverse (([] : List (Tensor α)), 1) (fun x st => do
        let t ← Init.buildMeshgridAxis x (ofDims (pre ++ A.map List.length)) st.2
        return (st.1 ++ [t], st.2 * x.size)) = .ok (os.reverse, (A.map List.length).prod) ∧
      RepAll os ((meshOuts (pre ++ A.map List.length).prod A).map fun ys => (pre ++ A.map List.length, ys)) := by
  induction A generalizing ts pre with
  | nil => cases h; exact ⟨[], rfl, .nil⟩
  | cons xs A ih =>
    cases h with
    | @cons t _ _ ts _ hx hrest =>
      have e : pre ++ (xs :: A).map List.length = (pre ++ [xs.length]) ++ A.map List.length := by simp
      obtain ⟨os, e1, hos⟩ := ih hrest (pre ++ [xs.length]) (e ▸ ha) (e ▸ hpos) (e ▸ hf)
      rw [← e] at e1 hos
      obtain ⟨o, e2, ho⟩ := buildMeshgridAxis_rep hx (by simpa using ha) (by simpa using hpos) (by simpa using hf)
      refine ⟨o :: os, ?_, ?_⟩
      · rw [List.reverse_cons, forL_append_one, e1, ok_bind]
        dsimp only
        have e3 : pre ++ (xs :: A).map List.length = pre ++ xs.length :: A.map List.length := by simp
        rw [e3, e2, ok_bind, hx.size, List.reverse_cons, List.map_cons, List.prod_cons, Nat.mul_comm]
        rfl
      · simp only [meshOuts, List.map_cons]
        exact .cons (by simpa using ho) (by simpa using hos)

theorem repAll_reverse {ts : List (Tensor α)} {ps : List (List Nat × List α)} (h : RepAll ts ps) :
    RepAll ts.reverse ps.reverse := by
  have app : ∀ {us : List (Tensor α)} {qs : List (List Nat × List α)} {t : Tensor α} {p : List Nat × List α},
      RepAll us qs → Rep t p.1 p.2 → RepAll (us ++ [t]) (qs ++ [p]) := by
    intro us qs t p hu hp
    induction hu with
    | nil => exact .cons hp .nil
    | cons h _ ih => exact .cons h ih
  induction h with
  | nil => exact .nil
  | cons h _ ih => simpa using app ih h

theorem repAll_sizes {ts : List (Tensor α)} {A : List (List α)} (h : RepAll ts (A.map fun xs => ([xs.length], xs))) :
    ts.map (·.size) = A.map List.length := by
  induction A generalizing ts with
  | nil => cases h; rfl
  | cons xs A ih =>
    cases h with
    | cons hx hrest => simp [hx.size, ih hrest]

theorem mesh_at {A : List (List α)} {k : Nat} {xs : List α} (hk : A[k]? = some xs) :
    ∃ ys, (meshOuts (A.map List.length).prod A)[k]? = some ys ∧
      ∀ is (i : Nat), (ravel (A.map List.length) is).isSome → is[k]? = some i →
        at? (A.map List.length) ys is = xs[i]? := by
  obtain ⟨p, q, rfl, rfl⟩ : ∃ p q, A = p ++ xs :: q ∧ p.length = k := by
    have hlt := (List.getElem?_eq_some_iff.1 hk).1
    refine ⟨A.take k, A.drop (k + 1), ?_, by simp; omega⟩
    have : A[k] = xs := by simpa [List.getElem?_eq_getElem hlt] using hk
    rw [← this, List.cons_getElem_drop_succ, List.take_append_drop]
  refine ⟨_, meshOuts_get p q xs, ?_⟩
  intro is i hr hi
  have e : (p ++ xs :: q).map List.length = p.map List.length ++ xs.length :: q.map List.length := by simp
  rw [e] at hr ⊢
  obtain ⟨m, hm⟩ := Option.isSome_iff_exists.1 hr
  have hlen := ravel_length hm
  have hlt := (List.getElem?_eq_some_iff.1 hi).1
  have e2 : is = is.take p.length ++ i :: is.drop (p.length + 1) := by
    have : is[p.length] = i := by simpa [List.getElem?_eq_getElem hlt] using hi
    rw [← this, List.cons_getElem_drop_succ, List.take_append_drop]
  rw [e2] at hm ⊢
  rw [ravel_append (by simp; omega)] at hm
  obtain ⟨u, hu, hm⟩ := Option.bind_eq_some_iff.1 hm
  obtain ⟨v, hv, _⟩ := Option.map_eq_some_iff.1 hm
  obtain ⟨h1, w, hw, _⟩ := ravel_cons.1 hv
  exact meshList_at rfl (by simp [hu]) (by simp [hw]) h1

/-- C34: `meshgrid_ij(axes)` for non-empty vectors returns one tensor per axis, with the axis lengths as dimensions; the
element of output `k` at a multi-index is the `idx[k]`-th element of axis `k`. -/
theorem C34_meshgrid_ij {ts : List (Tensor α)} {A : List (List α)}
    (h : RepAll ts (A.map fun xs => ([xs.length], xs))) (h6 : A.length ≤ 6) (hne : ∀ xs ∈ A, xs ≠ [])
    (hf : (A.map List.length).prod < 2 ^ 32) :
    ∃ os, Init.meshgridIJ ts = .ok os ∧ os.length = A.length ∧ ∀ (k : Nat) xs, A[k]? = some xs →
      ∃ o ys, os[k]? = some o ∧ Rep o (A.map List.length) ys ∧
        ∀ is (i : Nat), (ravel (A.map List.length) is).isSome → is[k]? = some i →
          at? (A.map List.length) ys is = xs[i]? := by
  have hpos1 : ∀ d ∈ A.map List.length, 0 < d := by
    intro d hd
    obtain ⟨xs, hx, rfl⟩ := List.mem_map.1 hd
    exact List.length_pos_iff.2 (hne xs hx)
  have hpos := prod_pos hpos1
  have hfit := fits_of_pos hpos hf
  have ha : Adm (A.map List.length) := by
    refine ⟨by simpa using h6, ?_⟩
    intro d hd
    exact lt_of_le_of_lt (Nat.le_of_dvd hpos (List.dvd_prod hd)) hf
  obtain ⟨os, e, hos⟩ := meshLoop h [] (by simpa using ha) (by simpa using hpos) (by simpa using hfit)
  simp only [List.nil_append] at e hos
  refine ⟨os, ?_, ?_, ?_⟩
  · unfold Init.meshgridIJ Init.buildMeshgrid
    simp only [reduceCtorEq, if_false, if_true]
    rw [repAll_sizes h, ofVec_adm ha hpos1, ok_bind, e, ok_bind, List.reverse_reverse]
    rfl
  · rw [hos.length_eq, List.length_map, meshOuts_length]
  · intro k xs hk
    obtain ⟨ys, h1, h2⟩ := mesh_at hk
    obtain ⟨o, h3, h4⟩ := hos.get (k := k) (p := (A.map List.length, ys)) (by rw [List.getElem?_map, h1]; rfl)
    exact ⟨o, ys, h3, h4, h2⟩

/-- C34: `meshgrid(axes)` returns one tensor per axis, with the axis lengths in reversed order as dimensions; the
element of output `k` depends on the `k`-th index from the right: it is that element of axis `k`. -/
theorem C34_meshgrid {ts : List (Tensor α)} {A : List (List α)}
    (h : RepAll ts (A.map fun xs => ([xs.length], xs))) (h6 : A.length ≤ 6) (hne : ∀ xs ∈ A, xs ≠ [])
    (hf : (A.map List.length).prod < 2 ^ 32) :
    ∃ os, Init.meshgrid ts = .ok os ∧ os.length = A.length ∧ ∀ (k : Nat) xs, A[k]? = some xs →
      ∃ o ys, os[k]? = some o ∧ Rep o (A.map List.length).reverse ys ∧
        ∀ is (i : Nat), (ravel (A.map List.length).reverse is).isSome → is.reverse[k]? = some i →
          at? (A.map List.length).reverse ys is = xs[i]? := by
  have hpos1 : ∀ d ∈ A.map List.length, 0 < d := by
    intro d hd
    obtain ⟨xs, hx, rfl⟩ := List.mem_map.1 hd
    exact List.length_pos_iff.2 (hne xs hx)
  have hpos := prod_pos hpos1
  have hfit := fits_of_pos hpos hf
  have ha : Adm (A.map List.length) := by
    refine ⟨by simpa using h6, ?_⟩
    intro d hd
    exact lt_of_le_of_lt (Nat.le_of_dvd hpos (List.dvd_prod hd)) hf
  have hr : RepAll ts.reverse (A.reverse.map fun xs => ([xs.length], xs)) := by
    simpa using repAll_reverse h
  have er : (A.map List.length).reverse = A.reverse.map List.length := by simp
  have ha' : Adm (A.reverse.map List.length) := er ▸ ha.reverse
  have hposr : 0 < (A.reverse.map List.length).prod := by rw [← er, List.prod_reverse]; exact hpos
  have hfr : Fits (A.reverse.map List.length) := fits_of_pos hposr (by rw [← er, List.prod_reverse]; exact hf)
  obtain ⟨os, e, hos⟩ := meshLoop hr [] (by simpa using ha') (by rw [List.nil_append]; exact hposr) (by rw [List.nil_append]; exact hfr)
  simp only [List.nil_append] at e hos
  have hlen : os.length = A.length := by rw [hos.length_eq, List.length_map, meshOuts_length, List.length_reverse]
  refine ⟨os.reverse, ?_, by simpa using hlen, ?_⟩
  · unfold Init.meshgrid Init.buildMeshgrid
    simp only [reduceCtorEq, if_false, if_true]
    rw [repAll_sizes hr, ofVec_adm ha' (by rw [← er]; intro d hd; exact hpos1 d (List.mem_reverse.1 hd)), ok_bind, e, ok_bind]
    rfl
  · intro k xs hk
    have hlt := (List.getElem?_eq_some_iff.1 hk).1
    have hk' : A.reverse[A.length - 1 - k]? = some xs := by
      rw [List.getElem?_reverse (by omega), show A.length - 1 - (A.length - 1 - k) = k by omega]; exact hk
    obtain ⟨ys, h1, h2⟩ := mesh_at hk'
    obtain ⟨o, h3, h4⟩ := hos.get (k := A.length - 1 - k) (p := (A.reverse.map List.length, ys))
      (by rw [List.getElem?_map, h1]; rfl)
    refine ⟨o, ys, ?_, er ▸ h4, ?_⟩
    · rw [List.getElem?_reverse (by omega), hlen]; exact h3
    · intro is i hs hi
      rw [er] at hs ⊢
      apply h2 is i hs
      obtain ⟨m, hm⟩ := Option.isSome_iff_exists.1 hs
      have hil := ravel_length hm
      simp only [List.length_map, List.length_reverse] at hil
      rw [List.getElem?_reverse (by omega), hil] at hi
      exact hi

theorem RepAll.of_mem {ts : List (Tensor α)} {ps : List (List Nat × List α)} (h : RepAll ts ps) {t : Tensor α}
    (ht : t ∈ ts) : ∃ ds xs, Rep t ds xs := by
  induction h with
  | nil => simp at ht
  | cons hr _ ih =>
    rcases List.mem_cons.1 ht with rfl | ht
    · exact ⟨_, _, hr⟩
    · exact ih ht

/-- C34: an axis without elements or one that is not a vector is rejected. -/
theorem C34_rejects {ts : List (Tensor α)} {ps : List (List Nat × List α)} (h : RepAll ts ps)
    (hbad : ∃ p ∈ ps, p.1.length ≠ 1 ∨ p.2 = []) :
    Init.meshgrid ts = .error .panic ∧ Init.meshgridIJ ts = .error .panic := by
  have hloop : ∀ (us : List (Tensor α)) (qs : List (List Nat × List α)) (s : Shape), RepAll us qs →
      (∃ p ∈ qs, p.1.length ≠ 1 ∨ p.2 = []) →
      forL us (([] : List (Tensor α)), 1) (fun x st => do
        let t ← Init.buildMeshgridAxis x s st.2
        return (st.1 ++ [t], st.2 * x.size)) = .error .panic := by
    intro us qs s hu ⟨p, hp, hb⟩
    have hub : NoUB (forL us (([] : List (Tensor α)), 1) (fun x st => do
        let t ← Init.buildMeshgridAxis x s st.2
        return (st.1 ++ [t], st.2 * x.size))) := by
      apply forL_noUB
      intro x hx st
      obtain ⟨ds, xs, hr⟩ := hu.of_mem hx
      exact noUB_bind (buildMeshgridAxis_safe hr s _).1 fun _ _ => by simp [pure_eq_ok]
    cases hc : forL us (([] : List (Tensor α)), 1) (fun x st => do
        let t ← Init.buildMeshgridAxis x s st.2
        return (st.1 ++ [t], st.2 * x.size)) with
    | error e =>
      cases e with
      | panic => rfl
      | ub => exact absurd hc hub
    | ok st =>
      exfalso
      obtain ⟨k, hk, hkp⟩ := List.mem_iff_getElem.1 hp
      obtain ⟨t, ht, hr⟩ := hu.get (k := k) (p := p) (by rw [List.getElem?_eq_getElem hk, hkp])
      obtain ⟨a, b, e⟩ := forL_ok_all hc t (List.mem_of_getElem? ht)
      obtain ⟨o, ho, _⟩ := bind_eq_ok.1 e
      obtain ⟨h1, h2⟩ := (buildMeshgridAxis_safe hr s _).2 o ho
      rcases hb with hb | hb
      · rw [h1] at hb; exact hb rfl
      · rw [hb] at h2; simp at h2
  have key : ∀ order, Init.buildMeshgrid ts order = .error .panic := by
    intro order
    unfold Init.buildMeshgrid
    dsimp only
    rcases ofVec_cases ((if order = Init.Order.XY then ts.reverse else ts).map (·.size)) with ⟨_, _, e⟩ | e
    · rw [e, ok_bind]
      cases order
      · simp only [if_true, List.reverse_reverse]
        rw [hloop ts ps _ h hbad, error_bind]
      · simp only [reduceCtorEq, if_false]
        rw [hloop ts.reverse ps.reverse _ (repAll_reverse h) (by simpa using hbad), error_bind]
    · rw [e, error_bind]
  exact ⟨key _, key _⟩

example : ∃ a b, Init.meshgrid [exVec3, exVec3] = .ok [a, b] ∧ a.data = [5, 6, 7, 5, 6, 7, 5, 6, 7] ∧
    b.data = [5, 5, 5, 6, 6, 6, 7, 7, 7] := ⟨_, _, rfl, rfl, rfl⟩

example : ∃ os, Init.meshgridIJ [exVec3, exVec3] = .ok os ∧ os.length = 2 ∧ ∀ (k : Nat) xs, [[5, 6, 7], [5, 6, 7]][k]? = some xs →
      ∃ o ys, os[k]? = some o ∧ Rep o [3, 3] ys ∧
        ∀ is (i : Nat), (ravel [3, 3] is).isSome → is[k]? = some i → at? [3, 3] ys is = xs[i]? :=
  C34_meshgrid_ij (A := [[5, 6, 7], [5, 6, 7]]) (.cons exVec3_rep (.cons exVec3_rep .nil)) (by simp) (by simp) (by decide)

/-! ## C38 one_hot -/

/-- C38: `one_hot(indices, n)` with all indices below `n` has length `n`, one at the listed positions, zero elsewhere. -/
theorem C38_one_hot (fo : FOps F) {indices : List Nat} {n : Nat} (hn : n < 2 ^ 32) (h : ∀ i ∈ indices, i < n) :
    ∃ t xs, Init.oneHot fo indices n = .ok t ∧ Rep t [n] xs ∧
      ∀ i, i < n → xs[i]? = some (if i ∈ indices then fo.one else fo.zero) := by
  have key : ∀ (l : List Nat) (vec : List F), vec.length = n → (∀ i ∈ l, i < n) →
      ∃ vec', forL l vec (fun i vec => setIdx vec i fo.one) = .ok vec' ∧ vec'.length = n ∧
        ∀ i, i < n → vec'[i]? = if i ∈ l then some fo.one else vec[i]? := by
    intro l
    unfold forL
    induction l with
    | nil => intro vec hv _; exact ⟨vec, rfl, hv, by simp⟩
    | cons a l ih =>
      intro vec hv hl
      have ha := hl a (by simp)
      obtain ⟨v', e, h1, h2⟩ := ih (vec.set a fo.one) (by simpa using hv) (fun i hi => hl i (by simp [hi]))
      refine ⟨v', ?_, h1, ?_⟩
      · rw [List.foldlM_cons]
        dsimp only
        rw [setIdx_ok (by omega), ok_bind]; exact e
      · intro i hi
        rw [h2 i hi]
        by_cases hil : i ∈ l
        · simp [hil]
        · by_cases hia : i = a
          · subst hia; simp [hil, hv, hi]
          · simp [hil, hia, List.getElem?_set_ne (Ne.symm hia)]
  obtain ⟨vec, e, hl, hg⟩ := key indices (List.replicate n fo.zero) (by simp) h
  obtain ⟨t, et, hr⟩ := C12_vec1 vec (by omega)
  refine ⟨t, vec, ?_, hl ▸ hr, ?_⟩
  · unfold Init.oneHot
    dsimp only
    rw [e, ok_bind]; exact et
  · intro i hi
    rw [hg i hi]
    by_cases h1 : i ∈ indices <;> simp [h1, hi]

example : ∃ t xs, Init.oneHot (.exact id id id fun x _ => x : FOps ℚ) [3, 1, 3] 5 = .ok t ∧ Rep t [5] xs ∧
    ∀ i, i < 5 → xs[i]? = some (if i ∈ [3, 1, 3] then 1 else 0) :=
  C38_one_hot (.exact id id id fun x _ => x : FOps ℚ) (by decide) (by decide)

/-- C38: an index out of range panics. -/
theorem C38_rejects (fo : FOps F) {indices : List Nat} {n : Nat} (h : ∃ i ∈ indices, n ≤ i) :
    Init.oneHot fo indices n = .error .panic := by
  have key : ∀ (l : List Nat) (vec : List F), vec.length = n → (∃ i ∈ l, n ≤ i) →
      forL l vec (fun i vec => setIdx vec i fo.one) = .error .panic := by
    intro l
    unfold forL
    induction l with
    | nil => rintro vec _ ⟨i, hi, _⟩; simp at hi
    | cons a l ih =>
      rintro vec hv ⟨i, hi, hni⟩
      rw [List.foldlM_cons]
      dsimp only
      by_cases ha : a < n
      · rw [setIdx_ok (by omega), ok_bind]
        apply ih _ (by simpa using hv)
        rcases List.mem_cons.1 hi with rfl | hi
        · omega
        · exact ⟨i, hi, hni⟩
      · simp [setIdx, hv, ha, error_bind]
  unfold Init.oneHot
  dsimp only
  rw [key _ _ (by simp) h, error_bind]

example : Init.diagflat (⟨ofDims [1, 2], 0, 2, [4, 5]⟩ : Tensor Int) = .error .panic :=
  C33_diagflat_rejects (rep_fresh (ds := [1, 2]) (xs := [4, 5]) ⟨by simp, by simp⟩ (fits_of_pos (by simp) (by simp)) rfl)
    (by simp)

example : ∃ u ys, Init.tril exView = .ok u ∧ Rep u [3, 2] ys ∧
    ∀ is j i x, is.length = 0 → at? [3, 2] [2, 3, 4, 5, 6, 7] (is ++ [j, i]) = some x →
      at? [3, 2] ys (is ++ [j, i]) = some (if i ≤ j then x else 0) :=
  C33_tril_partial (ds := []) exView_rep (by simp)

example : Init.tril (⟨ofDims [2, 0], 0, 0, []⟩ : Tensor Int) = .error .panic :=
  (C33_empty_violates (ds := []) (rows := 2) (cols := 0) (xs := [])
    ⟨⟨wf_ofDims (l := [2, 0]) ⟨by simp, by simp⟩, rfl, by simp⟩, rfl, rfl⟩ (by simp)).1

example : Init.tril exVec3 = .error .panic ∧ Init.triu exVec3 = .error .panic := C33_tril_triu_reject exVec3_rep (by simp)

example : ∃ os, Init.meshgrid [exVec3, ⟨ofDims [2], 0, 2, [8, 9]⟩] = .ok os ∧ os.length = 2 ∧
    ∀ (k : Nat) xs, [[5, 6, 7], [8, 9]][k]? = some xs → ∃ o ys, os[k]? = some o ∧ Rep o [2, 3] ys ∧
      ∀ is (i : Nat), (ravel [2, 3] is).isSome → is.reverse[k]? = some i → at? [2, 3] ys is = xs[i]? :=
  C34_meshgrid (A := [[5, 6, 7], [8, 9]]) (.cons exVec3_rep (.cons
    (rep_fresh (ds := [2]) (xs := [8, 9]) ⟨by simp, by simp⟩ (fits_of_pos (by simp) (by simp)) rfl) .nil))
    (by simp) (by simp) (by simp)

example : Init.meshgrid [exView] = .error .panic :=
  (C34_rejects (ps := [([3, 2], [2, 3, 4, 5, 6, 7])]) (.cons exView_rep .nil) (by simp)).1

example (fo : FOps F) : Init.oneHot fo [1, 4] 4 = .error .panic := C38_rejects fo ⟨4, by simp, by simp⟩

end Essay
