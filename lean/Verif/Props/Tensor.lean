import Mathlib.Data.List.Forall2
import Verif.Lemmas.Tensor
import Verif.Props.Shape

/-!
# Properties C05 (tensor part), C06, C08 - C11, C58, C62, C63

`Rep t ds xs` (Spec/Tensor): `t` is a valid view, `t.shape().as_vec()` is `ds`, `t.as_slice()` is `xs`.
-/

namespace Essay

open Shape

variable {α : Type}

/-! ## C06 Construction succeeds exactly when sizes match -/

/-- C06: `Tensor::from_vec(vec, shape)` succeeds exactly when the shape has as many elements as `vec` (and its element
count fits in 32 bits), and then shows exactly `vec` with that shape; otherwise it panics. -/
theorem C06_from_vec {s : Shape} {ds : List Nat} (hs : s.WF) (hds : s.asVec = .ok ds) (vec : List α) :
    (Fits ds ∧ vec.length = ds.prod → ∃ t, Tensor.fromVec vec s = .ok t ∧ Rep t ds vec) ∧
    (¬ (Fits ds ∧ vec.length = ds.prod) → Tensor.fromVec vec s = .error .panic) := by
  obtain ⟨rfl, ha⟩ := toDims_of_asVec hs hds
  unfold Tensor.fromVec
  constructor
  · rintro ⟨h1, h2⟩
    exact ⟨_, new_ok ha h1 h2, rep_fresh ha h1 h2⟩
  · intro h
    apply new_panic
    rw [ne_eq, size_ofDims_iff ha]
    exact h

example : ∃ t, Tensor.fromVec [10, 20, 30, 40, 50, 60] (ofDims [2, 3]) = .ok t ∧ Rep t [2, 3] [10, 20, 30, 40, 50, 60] :=
  (C06_from_vec (ds := [2, 3]) (wf_ofDims ⟨by simp, by simp⟩) rfl _).1 ⟨fits_of_pos (by simp) (by simp), rfl⟩

/-- C06: a scalar. -/
theorem C06_from_scalar (v : α) : ∃ t, Tensor.fromScalar v = .ok t ∧ Rep t [] [v] :=
  ⟨_, new_ok adm_nil fits_nil rfl, rep_fresh adm_nil fits_nil rfl⟩

example : ∃ t, Tensor.fromScalar "a" = .ok t ∧ Rep t [] ["a"] := C06_from_scalar "a"

/-- C06: `Tensor::from_slice` copies the slice into a vector tensor. -/
theorem C06_from_slice (data : List α) (h : data.length < 2 ^ 32) :
    ∃ t, Tensor.fromSlice data = .ok t ∧ Rep t [data.length] data := by
  unfold Tensor.fromSlice
  rw [ofUsize_eq, asU32_of_lt h, ok_bind]
  cases data with
  | nil => exact ⟨_, rfl, rep_fresh (xs := []) (ds := [0]) ⟨by simp, by simp⟩ (fits_one (by simp)) rfl⟩
  | cons a l =>
    obtain ⟨t, e, hr⟩ := unsafeInit_rep (ds := [(a :: l).length]) (L := (a :: l).length)
      (g := fun i => (a :: l)[i]?.getD a)
      (body := fun o => forR 0 (a :: l).length o fun i o => do
        let v ← idx (a :: l) i
        o.write i v)
      (fills_loop (P := fun i p => p = i) fun i _ hi => by
        refine (fills_write hi (v := (a :: l)[i]) (by simp [List.getElem?_eq_getElem hi])).congr (fun _ _ => Iff.rfl) ?_
        intro b
        rw [idx_lt hi, ok_bind]) (fun p hp => ⟨p, by omega, hp, rfl⟩)
      ⟨by simp, by simpa using h⟩ (fits_one h) (by simp)
    refine ⟨t, e, ?_⟩
    have : (List.range (a :: l).length).map (fun i => (a :: l)[i]?.getD a) = a :: l := by
      apply List.ext_getElem
      · simp
      · intro i h1 h2; rw [List.getElem_map, List.getElem_range, List.getElem?_eq_getElem h2]; rfl
    rwa [this] at hr

example : ∃ t, Tensor.fromSlice [4, 5, 6] = .ok t ∧ Rep t [3] [4, 5, 6] := C06_from_slice [4, 5, 6] (by simp)

/-! ## C08 reshape and flatten keep the elements -/

/-- C08: `reshape` succeeds exactly when the new shape has the same number of elements; the flat elements do not
change. -/
theorem C08_reshape {t : Tensor α} {ds es : List Nat} {xs : List α} {s : Shape} (h : Rep t ds xs) (hs : s.WF)
    (hes : s.asVec = .ok es) :
    (Fits es ∧ es.prod = ds.prod → ∃ t', t.reshape s = .ok t' ∧ Rep t' es xs) ∧
    (¬ (Fits es ∧ es.prod = ds.prod) → t.reshape s = .error .panic) := by
  obtain ⟨rfl, ha⟩ := toDims_of_asVec hs hes
  constructor
  · rintro ⟨h1, h2⟩
    exact h.reshape ha h1 h2
  · intro hn
    unfold Tensor.reshape
    have hub := noUB_size (ofDims es)
    cases hc : (ofDims es).size with
    | error e =>
      rw [hc] at hub
      cases e
      · rfl
      · exact absurd rfl hub
    | ok n =>
      rw [ok_bind]
      obtain ⟨h1, rfl⟩ := (size_ofDims_iff ha).1 hc
      rw [ensure_false]
      · rfl
      · intro he
        exact hn ⟨h1, by rw [he, h.size, h.length]⟩

/-- C08: reshaping back returns an equal tensor (even the same view). -/
theorem C08_reshape_back {t t' : Tensor α} {s : Shape} (ht : t.WF) (h : t.reshape s = .ok t') :
    t'.reshape t.shape = .ok t := by
  unfold Tensor.reshape at h ⊢
  obtain ⟨n, hn, h⟩ := bind_eq_ok.1 h
  rw [ensure_bind_eq_ok] at h
  obtain ⟨rfl, h⟩ := h
  cases h
  rw [ht.size, ok_bind, ensure_true rfl]; rfl

/-- C08: `flatten` is the reshape to one dimension and always succeeds. -/
theorem C08_flatten {t : Tensor α} {ds : List Nat} {xs : List α} (h : Rep t ds xs) :
    ∃ t', t.flatten = .ok t' ∧ Rep t' [xs.length] xs := by
  unfold Tensor.flatten
  have hlt : xs.length < 4294967296 := by rw [h.length]; exact h.prod_lt
  have ha : Adm [xs.length] := ⟨by simp, by simpa using hlt⟩
  rw [h.size, ofSlice_adm ha, ok_bind]
  exact h.reshape ha (fits_one hlt) (by simp [h.length])

/-- The tensor used in the examples below: a 3 x 2 view of a 4 x 2 buffer. -/
def exView : Tensor Nat := { shape := ofDims [3, 2], offset := 2, size := 6, data := [0, 1, 2, 3, 4, 5, 6, 7] }

theorem exView_rep : Rep exView [3, 2] [2, 3, 4, 5, 6, 7] :=
  ⟨⟨wf_ofDims ⟨by simp, by simp⟩, rfl, by simp [exView]⟩, rfl, rfl⟩

example : ∃ t', exView.reshape (ofDims [1, 6]) = .ok t' ∧ Rep t' [1, 6] [2, 3, 4, 5, 6, 7] :=
  (C08_reshape exView_rep (wf_ofDims (l := [1, 6]) ⟨by simp, by simp⟩) rfl).1
    ⟨fits_of_pos (by simp) (by simp), by simp⟩

example : ∃ t', exView.flatten = .ok t' ∧ Rep t' [6] [2, 3, 4, 5, 6, 7] := C08_flatten exView_rep

/-! ## C05, tensor part -/

theorem prod_insertIdx_one (l : List Nat) (i : Nat) : (l.insertIdx i 1).prod = l.prod := by
  induction l generalizing i with
  | nil => cases i <;> simp
  | cons a l ih => cases i <;> simp [ih]

theorem prod_filter_ne_one (l : List Nat) : (l.filter (· ≠ 1)).prod = l.prod := by
  induction l with
  | nil => simp
  | cons a l ih =>
    by_cases h : a = 1
    · subst h; simpa using ih
    · simp only [ne_eq, h, not_false_eq_true, decide_true, List.filter_cons_of_pos, List.prod_cons]
      rw [← ih]

/-- C05: `expand_dims(axis)` keeps the data and inserts a unit dimension. -/
theorem C05_tensor_expand_dims {t : Tensor α} {ds : List Nat} {xs : List α} (h : Rep t ds xs) (hpos : ∀ d ∈ ds, 0 < d)
    (hl : ds.length < 6) (axis : Int) (h1 : -((ds.length : Int) + 1) ≤ axis) (h2 : axis ≤ ds.length) :
    ∃ t', t.expandDims (some axis) = .ok t' ∧ Rep t' (ds.insertIdx (expandIndex ds.length axis) 1) xs := by
  unfold Tensor.expandDims
  simp only [Option.getD_some]
  have hA : Adm (ds.insertIdx (expandIndex ds.length axis) 1) := h.adm.insertIdx hl (expandIndex ds.length axis) 1
  have e : (ofDims ds).expandDims axis = .ok (ofDims (ds.insertIdx (expandIndex ds.length axis) 1)) :=
    expandDims_ofDims h.adm hpos hl h1 h2
  rw [h.shape, e, ok_bind]
  have hp := prod_insertIdx_one ds (expandIndex ds.length axis)
  refine h.reshape hA (fits_of_pos ?_ ?_) hp
  · rw [hp]; exact prod_pos hpos
  · rw [hp]; exact h.prod_lt

example : ∃ t', exView.expandDims (some 1) = .ok t' ∧ Rep t' [3, 1, 2] [2, 3, 4, 5, 6, 7] :=
  C05_tensor_expand_dims exView_rep (by simp) (by simp) 1 (by simp) (by simp)

theorem fits_filter_ne_one {ds : List Nat} (h : Fits ds) : Fits (ds.filter (· ≠ 1)) := by
  intro k
  obtain ⟨m, hm⟩ : ∃ m, (ds.filter (· ≠ 1)).drop k = (ds.drop m).filter (· ≠ 1) := by
    clear h
    induction ds generalizing k with
    | nil => exact ⟨0, by simp⟩
    | cons d ds ih =>
      by_cases hd : d ≠ 1
      · rw [List.filter_cons_of_pos (by simpa using hd)]
        cases k with
        | zero => exact ⟨0, by rw [List.drop_zero, List.drop_zero, List.filter_cons_of_pos (by simpa using hd)]⟩
        | succ k =>
          obtain ⟨m, hm⟩ := ih k
          exact ⟨m + 1, by rw [List.drop_succ_cons, List.drop_succ_cons]; exact hm⟩
      · rw [List.filter_cons_of_neg (by simpa using hd)]
        obtain ⟨m, hm⟩ := ih k
        exact ⟨m + 1, by rw [List.drop_succ_cons]; exact hm⟩
  rw [hm, prod_filter_ne_one]
  exact h m

/-- C05: `squeeze()` keeps the data and drops exactly the unit dimensions. -/
theorem C05_tensor_squeeze {t : Tensor α} {ds : List Nat} {xs : List α} (h : Rep t ds xs) :
    ∃ t', t.squeeze = .ok t' ∧
      Rep t' (if ds.filter (· ≠ 1) = [] then [1] else ds.filter (· ≠ 1)) xs := by
  obtain ⟨s', e, hw, hv⟩ := C05_squeeze h.wf.shape h.dims
  unfold Tensor.squeeze
  rw [e, ok_bind]
  have hp : (if ds.filter (· ≠ 1) = [] then [1] else ds.filter (· ≠ 1)).prod = ds.prod := by
    split
    · rename_i h0
      have := prod_filter_ne_one ds
      rw [h0] at this; simpa using this
    · exact prod_filter_ne_one ds
  refine (C08_reshape h hw hv).1 ⟨?_, hp⟩
  split
  · exact fits_one (by simp)
  · exact fits_filter_ne_one h.fits

example : ∃ t', (⟨ofDims [1, 2, 1], 0, 2, [7, 8]⟩ : Tensor Nat).squeeze = .ok t' ∧ Rep t' [2] [7, 8] :=
  C05_tensor_squeeze (rep_fresh (ds := [1, 2, 1]) (xs := [7, 8]) ⟨by simp, by simp⟩ (fits_of_pos (by simp) (by simp)) rfl)

/-- C05 without an axis: `expand_dims(None)` puts the unit dimension first, `squeeze_axis(None)` is `squeeze()`. -/
theorem C05_no_axis {t : Tensor α} {ds : List Nat} {xs : List α} (h : Rep t ds xs) :
    ((∀ d ∈ ds, 0 < d) → ds.length < 6 → ∃ t', t.expandDims none = .ok t' ∧ Rep t' (1 :: ds) xs) ∧
    ∃ t', t.squeezeAxis none = .ok t' ∧ Rep t' (if ds.filter (· ≠ 1) = [] then [1] else ds.filter (· ≠ 1)) xs := by
  refine ⟨fun hpos hl => ?_, C05_tensor_squeeze h⟩
  obtain ⟨t', e, r⟩ := C05_tensor_expand_dims h hpos hl 0 (by omega) (by omega)
  exact ⟨t', e, r⟩

example : (∃ t', exView.expandDims none = .ok t' ∧ Rep t' [1, 3, 2] [2, 3, 4, 5, 6, 7]) ∧
    ∃ t', exView.squeezeAxis none = .ok t' ∧ Rep t' [3, 2] [2, 3, 4, 5, 6, 7] :=
  ⟨(C05_no_axis exView_rep).1 (by simp) (by simp), (C05_no_axis exView_rep).2⟩

/-- C05 fails for `squeeze_axis`: adding axis 0 and squeezing axis 0 does not give back the tensor. -/
theorem C05_squeeze_axis_not_inverse : ∃ t' t'', exView.expandDims (some 0) = .ok t' ∧
    t'.squeezeAxis (some 0) = .ok t'' ∧ t''.shape.asVec = .ok [1, 3, 2] :=
  ⟨{ exView with shape := ofDims [1, 3, 2] }, { exView with shape := ofDims [1, 3, 2] },
    by decide +kernel, by decide +kernel, rfl⟩

/-! ## C09 subslice is a contiguous range of outer rows -/

/-- C09: for a tensor with no zero dimension, `subslice(o, n)` is the rows `o..o+n`; it panics exactly when the range is
empty or does not fit. -/
theorem C09_subslice {t : Tensor α} {d : Nat} {ds : List Nat} {xs : List α} (h : Rep t (d :: ds) xs)
    (hpos : ∀ e ∈ ds, 0 < e) (o n : Nat) :
    (0 < n ∧ o + n ≤ d →
      ∃ t', t.subslice o n = .ok t' ∧ Rep t' (n :: ds) ((xs.drop (o * ds.prod)).take (n * ds.prod))) ∧
    (¬ (0 < n ∧ o + n ≤ d) → t.subslice o n = .error .panic) := by
  have ha := h.adm
  have hdim : t.shape.dim 0 = .ok d := dim_eq h.wf.shape (by rw [h.toDims]; rfl)
  have hlen : ds.length < 6 := by have := ha.len; simp at this; omega
  unfold Tensor.subslice
  simp only [wrap_checked]
  rw [hdim, ok_bind]
  by_cases hfit : o + n ≤ d
  · rw [ensure_true hfit, ok_bind, h.dims, ok_bind, ensure_true (by simp), ok_bind]
    simp only [List.drop_succ_cons, List.drop_zero]
    rw [setIdx_ok (by simp), ok_bind, foldl_mul_eq, Nat.one_mul]
    simp only [List.set_cons_zero]
    by_cases hn : 0 < n
    · have hd : d < 4294967296 := ha.lt d (by simp)
      have hA : Adm (n :: ds) := ⟨by simp; omega, by
        intro e he
        rcases List.mem_cons.1 he with rfl | he
        · omega
        · exact ha.lt e (by simp [he])⟩
      have hp0 : 0 < ds.prod := prod_pos hpos
      have hle : n * ds.prod ≤ d * ds.prod := Nat.mul_le_mul_right _ (by omega)
      have hlt : d * ds.prod < 4294967296 := by have := h.prod_lt; rwa [List.prod_cons] at this
      have hF : Fits (n :: ds) := fits_of_pos (by rw [List.prod_cons]; exact Nat.mul_pos hn hp0)
        (by rw [List.prod_cons]; omega)
      have hsz : t.size = d * ds.prod := by rw [h.size, h.length, List.prod_cons]
      have hb : o * ds.prod + n * ds.prod ≤ d * ds.prod := by
        rw [← Nat.add_mul]; exact Nat.mul_le_mul_right _ hfit
      refine ⟨fun _ => ?_, fun hc => absurd ⟨hn, hfit⟩ hc⟩
      rw [ofVec_adm hA (by
        intro e he
        rcases List.mem_cons.1 he with rfl | he
        · exact hn
        · exact hpos e he), ok_bind]
      unfold Tensor.subsliceFlat
      simp only [wrap_checked]
      rw [ensure_true (by omega), ok_bind, ensure_true (by omega), ok_bind, (size_ofDims_iff hA).2 ⟨hF, rfl⟩, ok_bind,
        ensure_true (by left; rw [List.prod_cons]), ok_bind]
      have hbd := h.wf.bound
      have hw : Tensor.WF (⟨ofDims (n :: ds), t.offset + o * ds.prod, n * ds.prod, t.data⟩ : Tensor α) := by
        refine ⟨wf_ofDims hA, ?_, ?_⟩
        · show (ofDims (n :: ds)).size = .ok (n * ds.prod)
          rw [(size_ofDims_iff hA).2 ⟨hF, rfl⟩, List.prod_cons]
        · show t.offset + o * ds.prod + n * ds.prod ≤ t.data.length
          omega
      refine ⟨_, rfl, hw, asVec_ofDims hA, ?_⟩
      rw [hw.asSlice, ← h.elems_eq]
      unfold Tensor.elems
      simp only
      congr 1
      rw [List.drop_take, List.take_take, List.drop_drop, Nat.min_eq_left (by omega)]
    · refine ⟨fun hc => absurd hc.1 hn, fun _ => ?_⟩
      rw [ofVec_zero_panic (by simp; omega) (by simp; omega)]; rfl
  · refine ⟨fun hc => absurd hc.2 hfit, fun _ => ?_⟩
    rw [ensure_false hfit]; rfl

example : ∃ t', exView.subslice 1 2 = .ok t' ∧ Rep t' [2, 2] [4, 5, 6, 7] :=
  (C09_subslice exView_rep (by simp) 1 2).1 (by simp)

/-- C09: a scalar has no outer rows. -/
theorem C09_subslice_scalar {t : Tensor α} {xs : List α} (h : Rep t [] xs) (o n : Nat) :
    t.subslice o n = .error .panic := by
  unfold Tensor.subslice
  rw [dim_ge (by rw [h.rank]; simp)]; rfl

example : (⟨ofDims [], 0, 1, [7]⟩ : Tensor Nat).subslice 0 1 = .error .panic :=
  C09_subslice_scalar (rep_fresh (ds := []) (xs := [7]) ⟨by simp, by simp⟩ fits_nil rfl) 0 1

/-- C09: a subslice of a subslice is the combined subslice of the original (the same view). -/
theorem C09_subslice_subslice {t t1 : Tensor α} {d : Nat} {ds : List Nat} {xs : List α} (h : Rep t (d :: ds) xs)
    (hpos : ∀ e ∈ ds, 0 < e) (o n o' n' : Nat) (h1 : t.subslice o n = .ok t1) (hn' : 0 < n') (hfit : o' + n' ≤ n) :
    t1.subslice o' n' = t.subslice (o + o') n' := by
  by_cases hc : 0 < n ∧ o + n ≤ d
  · obtain ⟨t1', e1, hr⟩ := (C09_subslice h hpos o n).1 hc
    rw [h1] at e1; cases e1
    obtain ⟨t2, e2, hr2⟩ := (C09_subslice hr hpos o' n').1 ⟨hn', hfit⟩
    obtain ⟨t3, e3, hr3⟩ := (C09_subslice h hpos (o + o') n').1 ⟨hn', by omega⟩
    rw [e2, e3]
    have key : ∀ {t t' : Tensor α} {d : Nat} {xs : List α} {o n : Nat}, Rep t (d :: ds) xs → t.subslice o n = .ok t' →
        t'.offset = t.offset + o * ds.prod ∧ t'.data = t.data := by
      intro t t' d xs o n h e
      unfold Tensor.subslice at e
      simp only [wrap_checked] at e
      obtain ⟨_, _, e⟩ := bind_eq_ok.1 e
      obtain ⟨_, _, e⟩ := bind_eq_ok.1 e
      rw [h.dims, ok_bind] at e
      obtain ⟨_, _, e⟩ := bind_eq_ok.1 e
      simp only [List.drop_succ_cons, List.drop_zero] at e
      rw [foldl_mul_eq, Nat.one_mul] at e
      obtain ⟨_, _, e⟩ := bind_eq_ok.1 e
      obtain ⟨_, _, e⟩ := bind_eq_ok.1 e
      unfold Tensor.subsliceFlat at e
      simp only [wrap_checked] at e
      obtain ⟨_, _, e⟩ := bind_eq_ok.1 e
      obtain ⟨_, _, e⟩ := bind_eq_ok.1 e
      obtain ⟨_, _, e⟩ := bind_eq_ok.1 e
      obtain ⟨_, _, e⟩ := bind_eq_ok.1 e
      cases e
      exact ⟨rfl, rfl⟩
    obtain ⟨a1, b1⟩ := key h h1
    obtain ⟨a2, b2⟩ := key hr e2
    obtain ⟨a3, b3⟩ := key h e3
    have hs : t2.shape = t3.shape := by rw [hr2.shape, hr3.shape]
    have hz : t2.size = t3.size := by rw [hr2.size, hr3.size, hr2.length, hr3.length]
    have ho : t2.offset = t3.offset := by rw [a2, a1, a3, Nat.add_mul]; omega
    have hd : t2.data = t3.data := by rw [b2, b1, b3]
    cases t2; cases t3; simp_all
  · rw [(C09_subslice h hpos o n).2 hc] at h1; cases h1

example : ∃ t1, exView.subslice 1 2 = .ok t1 ∧ t1.subslice 1 1 = exView.subslice 2 1 :=
  ⟨_, rfl, C09_subslice_subslice exView_rep (by simp) 1 2 1 1 rfl (by simp) (by simp)⟩

/-! ## C10 Multi-index access is row-major and bounds checked -/

/-- C10: the access result demanded by the property: the element at the row-major position, or a panic. -/
def accessSpec (ds : List Nat) (xs : List α) (is : List Nat) : Res α :=
  match at? ds xs is with
  | some x => .ok x
  | none => .error .panic

theorem index1_eq {t : Tensor α} {ds : List Nat} {xs : List α} (h : Rep t ds xs) (i : Nat) :
    t.index1 i = (match xs[i]? with | some x => .ok x | none => .error .panic) := by
  unfold Tensor.index1
  by_cases hi : i < xs.length
  · rw [ensure_true (by rw [h.size]; exact hi), ok_bind]
    rw [List.getElem?_eq_getElem hi, rawRead_ok (x := xs[i]) (by rw [h.data_get hi, List.getElem?_eq_getElem hi])]
  · rw [ensure_false (by rw [h.size]; exact hi), List.getElem?_eq_none (by omega)]; rfl

/-- C10, rank 1 (and the flat index `t[i]` of any tensor): the `i`-th element of `as_slice`, or a panic. -/
theorem C10_index1 {t : Tensor α} {ds : List Nat} {xs : List α} (h : Rep t ds xs) (i : Nat) :
    t.index1 i = accessSpec [xs.length] xs [i] := by
  rw [index1_eq h]
  unfold accessSpec at?
  by_cases hi : i < xs.length
  · simp [ravel, hi]
  · simp [ravel, hi]

example : exView.index1 3 = .ok 5 ∧ exView.index1 6 = .error .panic :=
  ⟨C10_index1 exView_rep 3, C10_index1 exView_rep 6⟩

theorem at?_none {ds : List Nat} {xs : List α} {is : List Nat} (h : ravel ds is = none) :
    accessSpec ds xs is = .error .panic := by simp [accessSpec, at?, h]

theorem at?_some {t : Tensor α} {ds : List Nat} {xs : List α} {is : List Nat} {p : Nat} (h : Rep t ds xs)
    (hp : ravel ds is = some p) : t.index1 p = accessSpec ds xs is := by
  rw [index1_eq h]; simp [accessSpec, at?, hp]

/-- C10, rank 3, for tensors with more than two elements. Missing from the full statement: tensors of rank 3 with at most
two elements, for which the code wrongly panics (`C10_index3_violates`). -/
theorem C10_index3_partial {t : Tensor α} {a b c : Nat} {xs : List α} (h : Rep t [a, b, c] xs) (hsz : 2 < xs.length)
    (i j k : Nat) : t.index3 i j k = accessSpec [a, b, c] xs [i, j, k] := by
  have r0 : t.shape.rdim 0 = .ok c := by rw [rdim_eq h.wf.shape (by omega), h.toDims]; rfl
  have r1 : t.shape.rdim 1 = .ok b := by rw [rdim_eq h.wf.shape (by omega), h.toDims]; rfl
  have r2 : t.shape.rdim 2 = .ok a := by rw [rdim_eq h.wf.shape (by omega), h.toDims]; rfl
  unfold Tensor.index3
  rw [h.wf.size, ok_bind, ensure_true (by rw [h.size]; exact hsz), ok_bind, r2, ok_bind]
  by_cases hi : i < a
  · rw [ensure_true hi, ok_bind, r1, ok_bind]
    by_cases hj : j < b
    · rw [ensure_true hj, ok_bind, r0, ok_bind]
      by_cases hk : k < c
      · rw [ensure_true hk, ok_bind]
        apply at?_some h
        simp [ravel, hi, hj, hk]; grind
      · rw [ensure_false hk, at?_none (by simp [ravel, hk])]; rfl
    · rw [ensure_false hj, at?_none (by simp [ravel, hj])]; rfl
  · rw [ensure_false hi, at?_none (by simp [ravel, hi])]; rfl

/-- C10, rank 4, for tensors with more than three elements (the code wrongly panics below, `C10_index4_violates`). -/
theorem C10_index4_partial {t : Tensor α} {a b c d : Nat} {xs : List α} (h : Rep t [a, b, c, d] xs)
    (hsz : 3 < xs.length) (i j k l : Nat) : t.index4 i j k l = accessSpec [a, b, c, d] xs [i, j, k, l] := by
  have r0 : t.shape.rdim 0 = .ok d := by rw [rdim_eq h.wf.shape (by omega), h.toDims]; rfl
  have r1 : t.shape.rdim 1 = .ok c := by rw [rdim_eq h.wf.shape (by omega), h.toDims]; rfl
  have r2 : t.shape.rdim 2 = .ok b := by rw [rdim_eq h.wf.shape (by omega), h.toDims]; rfl
  have r3 : t.shape.rdim 3 = .ok a := by rw [rdim_eq h.wf.shape (by omega), h.toDims]; rfl
  unfold Tensor.index4
  rw [h.wf.size, ok_bind, ensure_true (by rw [h.size]; exact hsz), ok_bind, r3, ok_bind]
  by_cases hi : i < a
  · rw [ensure_true hi, ok_bind, r2, ok_bind]
    by_cases hj : j < b
    · rw [ensure_true hj, ok_bind, r1, ok_bind]
      by_cases hk : k < c
      · rw [ensure_true hk, ok_bind, r0, ok_bind]
        by_cases hl : l < d
        · rw [ensure_true hl, ok_bind]
          apply at?_some h
          simp [ravel, hi, hj, hk, hl]; grind
        · rw [ensure_false hl, at?_none (by simp [ravel, hl])]; rfl
      · rw [ensure_false hk, at?_none (by simp [ravel, hk])]; rfl
    · rw [ensure_false hj, at?_none (by simp [ravel, hj])]; rfl
  · rw [ensure_false hi, at?_none (by simp [ravel, hi])]; rfl

example : (⟨ofDims [1, 2, 2, 2], 0, 8, [0, 1, 2, 3, 4, 5, 6, 7]⟩ : Tensor Nat).index4 0 1 0 1 = .ok 5 :=
  C10_index4_partial (rep_fresh (ds := [1, 2, 2, 2]) (xs := [0, 1, 2, 3, 4, 5, 6, 7]) ⟨by simp, by simp⟩
    (fits_of_pos (by simp) (by simp)) rfl) (by simp) 0 1 0 1

/-- C10, rank 5. -/
theorem C10_index5 {t : Tensor α} {a b c d e : Nat} {xs : List α} (h : Rep t [a, b, c, d, e] xs)
    (i j k l m : Nat) : t.index5 i j k l m = accessSpec [a, b, c, d, e] xs [i, j, k, l, m] := by
  have r0 : t.shape.rdim 0 = .ok e := by rw [rdim_eq h.wf.shape (by omega), h.toDims]; rfl
  have r1 : t.shape.rdim 1 = .ok d := by rw [rdim_eq h.wf.shape (by omega), h.toDims]; rfl
  have r2 : t.shape.rdim 2 = .ok c := by rw [rdim_eq h.wf.shape (by omega), h.toDims]; rfl
  have r3 : t.shape.rdim 3 = .ok b := by rw [rdim_eq h.wf.shape (by omega), h.toDims]; rfl
  have r4 : t.shape.rdim 4 = .ok a := by rw [rdim_eq h.wf.shape (by omega), h.toDims]; rfl
  unfold Tensor.index5
  rw [ensure_true (by rw [h.rank]; simp), ok_bind, r4, ok_bind]
  by_cases hi : i < a
  · rw [ensure_true hi, ok_bind, r3, ok_bind]
    by_cases hj : j < b
    · rw [ensure_true hj, ok_bind, r2, ok_bind]
      by_cases hk : k < c
      · rw [ensure_true hk, ok_bind, r1, ok_bind]
        by_cases hl : l < d
        · rw [ensure_true hl, ok_bind, r0, ok_bind]
          by_cases hm : m < e
          · rw [ensure_true hm, ok_bind]
            apply at?_some h
            simp [ravel, hi, hj, hk, hl, hm]; grind
          · rw [ensure_false hm, at?_none (by simp [ravel, hm])]; rfl
        · rw [ensure_false hl, at?_none (by simp [ravel, hl])]; rfl
      · rw [ensure_false hk, at?_none (by simp [ravel, hk])]; rfl
    · rw [ensure_false hj, at?_none (by simp [ravel, hj])]; rfl
  · rw [ensure_false hi, at?_none (by simp [ravel, hi])]; rfl

example : (⟨ofDims [1, 2, 2, 1, 2], 0, 8, [0, 1, 2, 3, 4, 5, 6, 7]⟩ : Tensor Nat).index5 0 1 0 0 1 = .ok 5 :=
  C10_index5 (rep_fresh (ds := [1, 2, 2, 1, 2]) (xs := [0, 1, 2, 3, 4, 5, 6, 7]) ⟨by simp, by simp⟩
    (fits_of_pos (by simp) (by simp)) rfl) 0 1 0 0 1

/-- Example tensor of rank 3. -/
def exCube : Tensor Nat := { shape := ofDims [2, 2, 2], offset := 0, size := 8, data := [0, 1, 2, 3, 4, 5, 6, 7] }
theorem exCube_rep : Rep exCube [2, 2, 2] [0, 1, 2, 3, 4, 5, 6, 7] :=
  ⟨⟨wf_ofDims ⟨by simp, by simp⟩, rfl, by simp [exCube]⟩, rfl, rfl⟩

example : exCube.index3 1 0 1 = .ok 5 := by rw [C10_index3_partial exCube_rep (by simp)]; rfl

/-- C10 is violated: the in-range index (0,0,1) of a `[1,1,2]` tensor panics. -/
theorem C10_index3_violates : ∃ t : Tensor Nat, Rep t [1, 1, 2] [7, 8] ∧ t.index3 0 0 1 = .error .panic ∧
    at? [1, 1, 2] [7, 8] [0, 0, 1] = some 8 :=
  ⟨{ shape := ofDims [1, 1, 2], offset := 0, size := 2, data := [7, 8] },
    ⟨⟨wf_ofDims ⟨by simp, by simp⟩, rfl, by simp⟩, rfl, rfl⟩, rfl, rfl⟩

/-- C10 is violated: the in-range index (0,0,0,2) of a `[1,1,1,3]` tensor panics. -/
theorem C10_index4_violates : ∃ t : Tensor Nat, Rep t [1, 1, 1, 3] [7, 8, 9] ∧ t.index4 0 0 0 2 = .error .panic ∧
    at? [1, 1, 1, 3] [7, 8, 9] [0, 0, 0, 2] = some 9 :=
  ⟨{ shape := ofDims [1, 1, 1, 3], offset := 0, size := 3, data := [7, 8, 9] },
    ⟨⟨wf_ofDims ⟨by simp, by simp⟩, rfl, by simp⟩, rfl, rfl⟩, rfl, rfl⟩

/-! ## C11 get agrees with as_slice -/

/-- C11 for tensors that start at the beginning of their buffer. Missing: views with a non-zero offset, where it is
false (`C11_view_violates`, `C11_view_out_of_bounds`). -/
theorem C11_get_partial {t : Tensor α} {ds : List Nat} {xs : List α} (h : Rep t ds xs) (h0 : t.offset = 0) (i : Nat) :
    t.get i = .ok xs[i]? := by
  unfold Tensor.get
  by_cases hi : i < xs.length
  · rw [if_pos (by rw [h.size]; exact hi)]
    simp only [h0, Nat.zero_add, Nat.add_zero]
    have := h.data_get hi
    rw [h0, Nat.zero_add, List.getElem?_eq_getElem hi] at this
    rw [rawRead_ok this, ok_bind, List.getElem?_eq_getElem hi]; rfl
  · rw [if_neg (by rw [h.size]; exact hi), List.getElem?_eq_none (by omega)]; rfl

example : exCube.get 5 = .ok (some 5) := by rw [C11_get_partial exCube_rep rfl]; rfl

/-- C11 is violated on views: element 0 of the view is 2 but `get(0)` returns 4. -/
theorem C11_view_violates : exView.asSlice = .ok [2, 3, 4, 5, 6, 7] ∧ exView.get 0 = .ok (some 4) := ⟨rfl, rfl⟩

/-- On views `get` can even read outside the buffer for an index inside the tensor. -/
theorem C11_view_out_of_bounds : 5 < exView.size ∧ exView.get 5 = .error .ub := ⟨by decide, rfl⟩

/-- What `get` does on any view: it adds the offset of the view twice. An index inside the tensor reads the buffer that far
in, or outside of it. -/
theorem C11_get_actual {t : Tensor α} {ds : List Nat} {xs : List α} (h : Rep t ds xs) (i : Nat) :
    (xs.length ≤ i → t.get i = .ok none) ∧
    (i < xs.length → (∀ x, t.data[2 * t.offset + i]? = some x → t.get i = .ok (some x)) ∧
      (t.data[2 * t.offset + i]? = none → t.get i = .error .ub)) := by
  have hs : xs.length = t.size := h.size.symm
  have hi : t.offset + (i + t.offset) = 2 * t.offset + i := by omega
  refine ⟨fun hle => ?_, fun hlt => ⟨fun x hx => ?_, fun hx => ?_⟩⟩
  · unfold Tensor.get
    rw [if_neg (by omega)]; rfl
  · unfold Tensor.get rawRead
    rw [if_pos (by omega)]
    simp only [hi, hx]; rfl
  · unfold Tensor.get rawRead
    rw [if_pos (by omega)]
    simp only [hi, hx]; rfl

example : exView.get 1 = .ok (some 5) ∧ exView.get 4 = .error .ub ∧ exView.get 6 = .ok none :=
  ⟨((C11_get_actual exView_rep 1).2 (by simp)).1 5 rfl, ((C11_get_actual exView_rep 4).2 (by simp)).2 rfl,
    (C11_get_actual exView_rep 6).1 (by simp)⟩

/-! ## C58 Equality looks only at shape and elements -/

/-- C58 for any equality of the elements, which need not be reflexive (floats): `t == u` exactly when the dimensions are
equal and the elements are, one by one. It never panics. -/
theorem C58_eq_any [BEq α] {t u : Tensor α} {ds es : List Nat} {xs ys : List α} (ht : Rep t ds xs) (hu : Rep u es ys) :
    ∃ b, t.eq u = .ok b ∧ (b = true ↔ ds = es ∧ List.Forall₂ (fun x y => (x == y) = true) xs ys) := by
  have key : ∀ l m : List α, (l == m) = true ↔ List.Forall₂ (fun x y => (x == y) = true) l m := by
    intro l
    induction l with
    | nil => intro m; cases m <;> simp
    | cons x l ih => intro m; cases m <;> simp [ih]
  unfold Tensor.eq
  rw [ht.shape, hu.shape]
  by_cases h : ds = es
  · subst h
    simp only [if_true, ht.elems, hu.elems, ok_bind]
    exact ⟨xs == ys, rfl, by simp [key]⟩
  · have : ofDims ds ≠ ofDims es := fun hc => h (by rw [← toDims_ofDims ds, hc, toDims_ofDims])
    simp only [this, if_false]
    exact ⟨false, rfl, by simp [h]⟩

example : ∃ b, exView.eq exView = .ok b ∧
    (b = true ↔ [3, 2] = [3, 2] ∧ List.Forall₂ (fun x y : Nat => (x == y) = true) [2, 3, 4, 5, 6, 7] [2, 3, 4, 5, 6, 7]) :=
  C58_eq_any exView_rep exView_rep

/-- C58 for elements whose equality is equality of values. -/
theorem C58_eq [DecidableEq α] {t u : Tensor α} {ds es : List Nat} {xs ys : List α} (ht : Rep t ds xs)
    (hu : Rep u es ys) : t.eq u = .ok (decide (ds = es ∧ xs = ys)) := by
  obtain ⟨b, e, h⟩ := C58_eq_any ht hu
  rw [e]
  congr 1
  rw [Bool.eq_iff_iff, h, decide_eq_true_iff]
  refine and_congr_right fun _ => ?_
  simp only [beq_iff_eq]
  exact List.forall₂_eq_eq_eq ▸ Iff.rfl

/-- C58: a clone (the same handle) is equal to its source exactly when every element is equal to itself (so not if one is
NaN). -/
theorem C58_clone_any [BEq α] {t : Tensor α} {ds : List Nat} {xs : List α} (ht : Rep t ds xs) :
    ∃ b, t.eq t = .ok b ∧ (b = true ↔ ∀ x ∈ xs, (x == x) = true) := by
  obtain ⟨b, e, h⟩ := C58_eq_any ht ht
  refine ⟨b, e, h.trans ?_⟩
  rw [List.forall₂_same]
  simp

/-- C58: a clone is equal to its source, when equality of the elements is equality of values. -/
theorem C58_clone [DecidableEq α] {t : Tensor α} (ht : t.WF) : t.eq t = .ok true := by
  rw [C58_eq ht.rep ht.rep]; simp

example : exView.eq exView = .ok true := C58_clone exView_rep.wf

/-- Elements that are never equal to themselves: no tensor with elements equals its clone, the empty one does. -/
example : @Tensor.eq Nat ⟨fun _ _ => false⟩ exView exView = .ok false := by
  obtain ⟨b, e, h⟩ := @C58_clone_any Nat ⟨fun _ _ => false⟩ _ _ _ exView_rep
  rw [e]
  cases b with
  | false => rfl
  | true => exact absurd (h.1 rfl 2 (by simp)) (by simp)

/-- Views into different buffers at different offsets compare equal when they show the same thing. -/
example : exView.eq { shape := ofDims [3, 2], offset := 0, size := 6, data := [2, 3, 4, 5, 6, 7] } = .ok true := by
  have h := rep_fresh (ds := [3, 2]) (xs := [2, 3, 4, 5, 6, 7]) ⟨by simp, by simp⟩
    (fits_of_pos (by simp) (by simp)) rfl
  simpa using C58_eq exView_rep h

/-! ## C62 append and merge keep all rows in order -/

theorem concatSlices_eq {ts : List (Tensor α)} {ps : List (List Nat × List α)}
    (h : RepAll ts ps) : Tensor.concatSlices ts = .ok (ps.map (·.2)).flatten := by
  unfold Tensor.concatSlices forL
  suffices ∀ acc : List α, ts.foldlM (fun s x => (do
      let xs ← x.asSlice
      return s ++ xs : Res (List α))) acc = .ok (acc ++ (ps.map (·.2)).flatten) by simpa using this []
  induction h with
  | nil => intro acc; simp
  | cons hr _ ih =>
    intro acc
    simp only [List.foldlM_cons]
    rw [hr.elems]
    refine (ih _).trans ?_
    simp

theorem sum_sizes {ts : List (Tensor α)} {ps : List (List Nat × List α)}
    (h : RepAll ts ps) : (ts.map (·.size)).sum = (ps.map (·.2)).flatten.length := by
  induction h with
  | nil => rfl
  | cons hr _ ih =>
    simp only [List.map_cons, List.sum_cons, List.flatten_cons, List.length_append]
    rw [ih, hr.size]

/-- C62: `from_merge(parts, shape)` holds all elements of all parts in order when the shape has that many elements;
otherwise it panics. -/
theorem C62_from_merge {ts : List (Tensor α)} {ps : List (List Nat × List α)} {s : Shape} {es : List Nat}
    (h : RepAll ts ps) (hs : s.WF) (hes : s.asVec = .ok es) :
    (Fits es ∧ es.prod = (ps.map (·.2)).flatten.length →
      ∃ t, Tensor.fromMerge ts s = .ok t ∧ Rep t es (ps.map (·.2)).flatten) ∧
    (¬ (Fits es ∧ es.prod = (ps.map (·.2)).flatten.length) → Tensor.fromMerge ts s = .error .panic) := by
  obtain ⟨rfl, ha⟩ := toDims_of_asVec hs hes
  unfold Tensor.fromMerge
  rw [sum_sizes h]
  constructor
  · rintro ⟨hf, hp⟩
    rw [(size_ofDims_iff ha).2 ⟨hf, rfl⟩, ok_bind, ensure_true hp.symm, ok_bind, concatSlices_eq h, ok_bind]
    exact (C06_from_vec hs hes _).1 ⟨hf, hp.symm⟩
  · intro hn
    have hub := noUB_size (ofDims es)
    cases hc : (ofDims es).size with
    | error e =>
      rw [hc] at hub
      cases e
      · rfl
      · exact absurd rfl hub
    | ok n =>
      rw [ok_bind]
      obtain ⟨h1, rfl⟩ := (size_ofDims_iff ha).1 hc
      rw [ensure_false (fun he => hn ⟨h1, he.symm⟩)]; rfl

example : ∃ t, Tensor.fromMerge [exView, exView] (ofDims [2, 3, 2]) = .ok t ∧
    Rep t [2, 3, 2] [2, 3, 4, 5, 6, 7, 2, 3, 4, 5, 6, 7] :=
  (C62_from_merge (.cons exView_rep (.cons exView_rep .nil)) (wf_ofDims (l := [2, 3, 2]) ⟨by simp, by simp⟩) rfl).1
    ⟨fits_of_pos (by simp) (by simp), rfl⟩

/-- C62: `a.append(b)` for equal row shapes holds a's rows, then b's. -/
theorem C62_append {t u : Tensor α} {a b : Nat} {ds : List Nat} {xs ys : List α} (ht : Rep t (a :: ds) xs)
    (hu : Rep u (b :: ds) ys) (hpos : ∀ d ∈ ds, 0 < d) (h0 : 0 < a + b) (hlt : (a + b) * ds.prod < 2 ^ 32) :
    ∃ r, t.append u = .ok r ∧ Rep r ((a + b) :: ds) (xs ++ ys) := by
  have ha := ht.adm
  have hp := prod_pos hpos
  have hAds : Adm ds := ⟨by have := ha.len; simp at this; omega, fun d hd => ha.lt d (by simp [hd])⟩
  have hlt' : ds.prod < 4294967296 :=
    Nat.lt_of_le_of_lt (Nat.le_mul_of_pos_left _ h0) hlt
  have hab : a + b < 4294967296 := Nat.lt_of_le_of_lt (Nat.le_mul_of_pos_right _ hp) hlt
  have hsub : ∀ {v : Tensor α} {c : Nat} {zs : List α}, Rep v (c :: ds) zs →
      v.shape.sublen 1 v.shape.rank = .ok ds.prod := by
    intro v c zs hv
    rw [hv.shape, rank_ofDims, sublen_ofDims hv.adm.len (by simp) (by simp)]
    simp only [List.drop_succ_cons, List.drop_zero, List.length_cons, Nat.add_sub_cancel, List.take_length]
    rw [foldlM_mul_ok (by rwa [List.prod_reverse]) (by rwa [List.prod_reverse]), List.prod_reverse]
  have hA : Adm ((a + b) :: ds) := ⟨by have := ha.len; simpa using this, by
    intro d hd
    rcases List.mem_cons.1 hd with rfl | hd
    · exact hab
    · exact ha.lt d (by simp [hd])⟩
  unfold Tensor.append
  rw [hsub ht, ok_bind, hsub hu, ok_bind, ensure_true rfl, ok_bind, ht.dims, ok_bind,
    dim_eq ht.wf.shape (d := a) (by rw [ht.toDims]; rfl), ok_bind,
    dim_eq hu.wf.shape (d := b) (by rw [hu.toDims]; rfl), ok_bind, setIdx_ok (by simp), ok_bind]
  simp only [List.set_cons_zero]
  rw [ofVec_adm hA (by
    intro d hd
    rcases List.mem_cons.1 hd with rfl | hd
    · exact h0
    · exact hpos d hd), ok_bind]
  have hf2 : RepAll [t, u] [(a :: ds, xs), (b :: ds, ys)] := .cons ht (.cons hu .nil)
  have hpp : ((a + b) :: ds).prod = ([(a :: ds, xs), (b :: ds, ys)].map (·.2)).flatten.length := by
    simp [ht.length, hu.length, Nat.add_mul]
  have := (C62_from_merge hf2 (wf_ofDims hA) (asVec_ofDims hA)).1
    ⟨fits_of_pos (by rw [List.prod_cons]; exact Nat.mul_pos h0 hp) (by rw [List.prod_cons]; exact hlt), hpp⟩
  simpa using this

example : ∃ r, exView.append exView = .ok r ∧ Rep r [6, 2] ([2, 3, 4, 5, 6, 7] ++ [2, 3, 4, 5, 6, 7]) :=
  C62_append exView_rep exView_rep (by simp) (by simp) (by simp)

/-- C62: parts whose row sizes differ are rejected. -/
theorem C62_append_rejects {t u : Tensor α} {a b : Nat} {ds es : List Nat} {xs ys : List α} (ht : Rep t (a :: ds) xs)
    (hu : Rep u (b :: es) ys) (hne : ds.prod ≠ es.prod) : t.append u = .error .panic := by
  unfold Tensor.append
  have hsub : ∀ {v : Tensor α} {c : Nat} {fs : List Nat} {zs : List α}, Rep v (c :: fs) zs →
      v.shape.sublen 1 v.shape.rank = .ok fs.prod := by
    intro v c fs zs hv
    rw [hv.shape, rank_ofDims, sublen_ofDims hv.adm.len (by simp) (by simp)]
    simp only [List.drop_succ_cons, List.drop_zero, List.length_cons, Nat.add_sub_cancel, List.take_length]
    rw [foldlM_mul_eq_ok (by omega)]
    refine ⟨fun k _ => ?_, by simp⟩
    rw [Nat.one_mul, prod_take_reverse]
    have := hv.fits ((fs.length - k) + 1)
    simpa using this
  rw [hsub ht, ok_bind, hsub hu, ok_bind, ensure_false hne]; rfl

example : exView.append (⟨ofDims [1, 3], 0, 3, [7, 8, 9]⟩ : Tensor Nat) = .error .panic :=
  C62_append_rejects exView_rep (rep_fresh (ds := [1, 3]) (xs := [7, 8, 9]) ⟨by simp, by simp⟩
    (fits_of_pos (by simp) (by simp)) rfl) (by simp)

/-- Rows of the same size but different shape are not rejected: `[1,2,3]` and `[1,3,2]` merge into `[2,2,3]`.
The English C62 only asks to reject different row sizes. -/
theorem C62_append_reshapes : ∃ r, Tensor.append
    { shape := ofDims [1, 2, 3], offset := 0, size := 6, data := [0, 1, 2, 3, 4, 5] }
    ({ shape := ofDims [1, 3, 2], offset := 0, size := 6, data := [6, 7, 8, 9, 10, 11] } : Tensor Nat) = .ok r ∧
    r.shape.asVec = .ok [2, 2, 3] :=
  ⟨{ shape := ofDims [2, 2, 3], offset := 0, size := 12, data := [0, 1, 2, 3, 4, 5, 6, 7, 8, 9, 10, 11] }, rfl, rfl⟩

/-- C62: `join_vec` concatenates the vectors. -/
theorem C62_join_vec (vec : List (List α)) (h : vec.flatten.length < 2 ^ 32) :
    ∃ t, Tensor.joinVec vec = .ok t ∧ Rep t [vec.flatten.length] vec.flatten := by
  unfold Tensor.joinVec
  simp only
  rw [ofUsize_eq, asU32_of_lt h, ok_bind]
  have ha : Adm [vec.flatten.length] := ⟨by simp, by simpa using h⟩
  exact (C06_from_vec (wf_ofDims ha) (asVec_ofDims ha) _).1 ⟨fits_one h, by simp⟩

example : ∃ t, Tensor.joinVec [[1, 2], [], [3]] = .ok t ∧ Rep t [3] [1, 2, 3] := C62_join_vec [[1, 2], [], [3]] (by simp)

/-! ## C63 iter_row yields the rows in order -/

/-- C63: for rank at least two (innermost dimension not zero) `iter_row` yields the rows: each has the innermost length,
and together, in order, they are exactly the elements. Missing from the full statement: rank 0 and 1, where the rows have
length one (`C63_vector`), and an innermost dimension of zero, where the call panics (`C63_empty_rows`). -/
theorem C63_iter_row_partial {t : Tensor α} {ds : List Nat} {c : Nat} {xs : List α} (h : Rep t (ds ++ [c]) xs)
    (hds : ds ≠ []) (hc : 0 < c) :
    ∃ rows, t.iterRow = .ok rows ∧ rows.length = ds.prod ∧ (∀ r ∈ rows, r.length = c) ∧ rows.flatten = xs ∧
      ∀ i r, rows[i]? = some r → r = (xs.drop (i * c)).take c := by
  unfold Tensor.iterRow
  rw [cols_eq h.wf.shape, h.toDims]
  simp only [List.reverse_append, List.reverse_cons, List.reverse_nil, List.nil_append, List.singleton_append,
    List.getElem?_cons_zero, Option.getD_some, ok_bind]
  rw [h.elems, ok_bind, if_pos (by
    rw [h.rank]; have := List.length_pos_iff.2 hds; simp; omega)]
  unfold Tensor.chunksExact
  rw [ensure_true (by omega), ok_bind]
  have hl : xs.length = ds.prod * c := by rw [h.length]; simp
  have hdiv : xs.length / c = ds.prod := by rw [hl, Nat.mul_div_cancel _ hc]
  refine ⟨_, rfl, by simp [hdiv], ?_, ?_, ?_⟩
  · intro r hr
    obtain ⟨i, hi, rfl⟩ := List.mem_map.1 hr
    rw [List.mem_range, hdiv] at hi
    have : (i + 1) * c ≤ ds.prod * c := Nat.mul_le_mul_right _ hi
    rw [Nat.succ_mul] at this
    simp; omega
  · rw [hdiv]; exact chunks_flatten c _ xs hl
  · intro i r hr
    rw [List.getElem?_map] at hr
    by_cases hi : i < xs.length / c
    · simp [hi] at hr; exact hr.symm
    · simp [hi] at hr

example : ∃ rows, exView.iterRow = .ok rows ∧ rows.length = 3 ∧ ∀ i r, rows[i]? = some r → r = ([2, 3, 4, 5, 6, 7].drop (i * 2)).take 2 := by
  obtain ⟨rows, e, hl, _, _, h⟩ := C63_iter_row_partial (ds := [3]) (c := 2) exView_rep (by simp) (by simp)
  exact ⟨rows, e, hl, h⟩

example : ∃ rows, exView.iterRow = .ok rows ∧ rows = [[2, 3], [4, 5], [6, 7]] := ⟨_, rfl, rfl⟩
example : Rep exView ([3] ++ [2]) [2, 3, 4, 5, 6, 7] := exView_rep

/-- A scalar or vector yields rows of one element. -/
theorem C63_vector {t : Tensor α} {ds : List Nat} {xs : List α} (h : Rep t ds xs) (hd : ds.length ≤ 1) :
    t.iterRow = .ok (xs.map fun x => [x]) := by
  unfold Tensor.iterRow
  rw [cols_eq h.wf.shape, ok_bind, h.elems, ok_bind, if_neg (by rw [h.rank]; omega)]
  unfold Tensor.chunksExact
  rw [ensure_true (by omega), ok_bind, Nat.div_one]
  simp only [Nat.mul_one, pure_eq_ok, Except.ok.injEq]
  apply List.ext_getElem
  · simp
  · intro i h1 h2
    simp at h1
    simp [List.take_one, List.head?_drop, h1]

example : (⟨ofDims [3], 1, 3, [6, 7, 8, 9]⟩ : Tensor Nat).iterRow = .ok [[7], [8], [9]] :=
  C63_vector (ds := [3]) (xs := [7, 8, 9]) ⟨⟨wf_ofDims ⟨by simp, by simp⟩, rfl, by simp⟩, rfl, rfl⟩ (by simp)

/-- An innermost dimension of zero panics. -/
theorem C63_empty_rows {t : Tensor α} {ds : List Nat} {xs : List α} (h : Rep t (ds ++ [0]) xs) (hds : ds ≠ []) :
    t.iterRow = .error .panic := by
  unfold Tensor.iterRow
  rw [cols_eq h.wf.shape, h.toDims]
  simp only [List.reverse_append, List.reverse_cons, List.reverse_nil, List.nil_append, List.singleton_append,
    List.getElem?_cons_zero, Option.getD_some, ok_bind]
  rw [h.elems, ok_bind, if_pos (by
    rw [h.rank]; have := List.length_pos_iff.2 hds; simp; omega)]
  rfl

example : (⟨ofDims [2, 0], 0, 0, []⟩ : Tensor Nat).iterRow = .error .panic :=
  C63_empty_rows (ds := [2]) (xs := []) ⟨⟨wf_ofDims (l := [2, 0]) ⟨by simp, by simp⟩, rfl, by simp⟩, rfl, rfl⟩ (by simp)

example : ∃ t', exView.reshape (ofDims [1, 6]) = .ok t' ∧ t'.reshape (ofDims [3, 2]) = .ok exView :=
  ⟨⟨ofDims [1, 6], 2, 6, exView.data⟩, rfl, C08_reshape_back exView_rep.wf (s := ofDims [1, 6]) rfl⟩

end Essay
