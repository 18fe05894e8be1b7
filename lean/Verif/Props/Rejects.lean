import Verif.Lemmas.SafeOps
import Verif.Props.Fold
import Verif.Model.Fmt

/-!
# Where operations panic, and what they do on tensors without elements

Complements to C02, C05, C06, C09, C10, C20, C21 and C24: together with the theorems of those properties they describe the
result for every argument, not only for the arguments that are accepted.
-/

namespace Essay

open Shape

variable {σ α T U V W S S1 : Type}

theorem setIdx_panic {xs : List α} {i : Nat} {x : α} (h : xs.length ≤ i) : setIdx xs i x = .error .panic := by
  unfold setIdx
  rw [if_neg (by omega)]

/-! ## C02 -/

/-- C02: `rinsert` panics for the axes from 5 on, and for every axis up to the rank of a shape that already has six
dimensions. -/
theorem C02_rinsert_panics {s : Shape} {ds : List Nat} (hs : s.WF) (hds : s.asVec = .ok ds) (axis n : Nat)
    (h : 5 ≤ axis ∨ ds.length = 6 ∧ axis ≤ ds.length) : s.rinsert axis n = .error .panic := by
  obtain ⟨rfl, ha⟩ := toDims_of_asVec hs hds
  unfold Shape.rinsert
  by_cases h5 : axis + 1 < MAX_RANK
  · have h6 : ds.length = 6 := by
      rcases h with h | h
      · simp [MAX_RANK] at h5; omega
      · exact h.1
    rw [ensure_true h5, ok_bind, rank_ofDims]
    have hlen : (ofDims ds).dims.length = 6 := (wf_ofDims ha).len
    obtain ⟨k, hk⟩ : ∃ k, ds.length - axis = k + 1 := ⟨ds.length - axis - 1, by simp [MAX_RANK] at h5; omega⟩
    rw [hk, forR_cons (by omega)]
    simp only [Nat.sub_zero]
    rw [idx_ok (List.getElem?_eq_getElem (by omega)), ok_bind, setIdx_panic (by omega)]
    rfl
  · rw [ensure_false h5]; rfl

example : (ofDims [1, 2, 3, 4, 5, 6]).rinsert 2 7 = .error .panic :=
  C02_rinsert_panics (ds := [1, 2, 3, 4, 5, 6]) (wf_ofDims ⟨by simp, by simp⟩) rfl 2 7 (by simp)

/-! ## C05 -/

/-- C05: `expand_dims` panics for an axis outside `-(rank + 1) ..= rank`, for a shape with six dimensions, and for a shape
with a dimension 0. (`axis` is an `isize`.) -/
theorem C05_expand_dims_panics {s : Shape} {ds : List Nat} (hs : s.WF) (hds : s.asVec = .ok ds) (axis : Int)
    (hi : -2 ^ 63 ≤ axis ∧ axis < 2 ^ 63)
    (h : axis < -((ds.length : Int) + 1) ∨ (ds.length : Int) < axis ∨ ds.length = 6 ∨ 0 ∈ ds) :
    s.expandDims axis = .error .panic := by
  have h6 : ds.length ≤ 6 := (toDims_of_asVec hs hds).2.len
  unfold Shape.expandDims
  rw [hds, ok_bind]
  have key : ∀ index, (ensure (index ≤ ds.length) >>= fun _ => Shape.ofVec (ds.insertIdx index 1)) =
      Except.error Err.panic ∨ (index ≤ ds.length ∧ ds.length < 6 ∧ 0 ∉ ds) := by
    intro index
    by_cases h1 : index ≤ ds.length
    · rw [ensure_true h1, ok_bind]
      by_cases h2 : ds.length < 6
      · by_cases h3 : 0 ∈ ds
        · left
          apply ofVec_zero_panic
          · rw [List.length_insertIdx_of_le_length h1]; omega
          · exact (List.mem_insertIdx h1).2 (Or.inr h3)
        · exact Or.inr ⟨h1, h2, h3⟩
      · left
        apply ofVec_panic
        rw [List.length_insertIdx_of_le_length h1]; omega
    · left; rw [ensure_false h1]; rfl
  by_cases h0 : axis ≥ 0
  · rw [if_pos h0, pure_eq_ok, ok_bind, isizeAsUsize_eq (by omega) (by omega)]
    rcases key axis.toNat with hk | ⟨hk1, hk2, hk3⟩
    · exact hk
    · exfalso
      rcases h with h | h | h | h
      · omega
      · omega
      · omega
      · exact hk3 h
  · rw [if_neg h0, iadd_small (by omega) (by omega), ok_bind, iadd_small (by omega) (by omega), ok_bind, pure_eq_ok,
      ok_bind]
    rcases key (isizeAsUsize ((ds.length : Int) + axis + 1)) with hk | ⟨hk1, hk2, hk3⟩
    · exact hk
    · exfalso
      rcases h with h | h | h | h
      · unfold isizeAsUsize at hk1
        omega
      · omega
      · omega
      · exact hk3 h

example : (ofDims [2, 3]).expandDims 3 = .error .panic ∧ (ofDims [2, 3]).expandDims (-4) = .error .panic :=
  ⟨C05_expand_dims_panics (ds := [2, 3]) (wf_ofDims ⟨by simp, by simp⟩) rfl 3 (by simp) (by simp),
   C05_expand_dims_panics (ds := [2, 3]) (wf_ofDims ⟨by simp, by simp⟩) rfl (-4) (by simp) (by simp)⟩

/-- C05: the same for tensors. -/
theorem C05_tensor_expand_dims_panics {t : Tensor α} {ds : List Nat} {xs : List α} (h : Rep t ds xs) (axis : Int)
    (hi : -2 ^ 63 ≤ axis ∧ axis < 2 ^ 63)
    (hbad : axis < -((ds.length : Int) + 1) ∨ (ds.length : Int) < axis ∨ ds.length = 6 ∨ 0 ∈ ds) :
    t.expandDims (some axis) = .error .panic := by
  unfold Tensor.expandDims
  rw [show Option.getD (some axis) 0 = axis from rfl, C05_expand_dims_panics h.wf.shape h.dims axis hi hbad]
  rfl

example : exView.expandDims (some 3) = .error .panic ∧ exView.expandDims (some (-4)) = .error .panic :=
  ⟨C05_tensor_expand_dims_panics exView_rep 3 (by decide) (by decide),
    C05_tensor_expand_dims_panics exView_rep (-4) (by decide) (by decide)⟩

/-! ## C06 -/

/-- C06: a slice of 2^32 elements or more is rejected by `from_slice` (its length does not fit the `u32` dimensions). -/
theorem C06_from_slice_too_long (data : List α) (h : 2 ^ 32 ≤ data.length) : Tensor.fromSlice data = .error .panic := by
  unfold Tensor.fromSlice
  rw [ofUsize_eq, ok_bind]
  cases data with
  | nil => simp at h
  | cons a l =>
    have hlt : asU32 (a :: l).length < 2 ^ 32 := Nat.mod_lt _ (by simp)
    rw [unsafeInit_fills (L := (a :: l).length) (g := fun i => (a :: l)[i]?.getD a)
      (fills_loop (P := fun i p => p = i) fun i _ hi => by
        refine (fills_write hi (v := (a :: l)[i]) (by simp [List.getElem?_eq_getElem hi])).congr (fun _ _ => Iff.rfl) ?_
        intro b
        rw [idx_lt hi, ok_bind]) (fun p hp => ⟨p, by omega, hp, rfl⟩)]
    apply new_panic
    rw [(size_ofDims_iff (ds := [asU32 (a :: l).length]) ⟨by simp, by simpa using hlt⟩).2 ⟨fits_one hlt, rfl⟩]
    simp only [List.prod_cons, List.prod_nil, Nat.mul_one, List.length_map, List.length_range, ne_eq, Except.ok.injEq]
    omega

/-- Slices of that length exist. -/
example : Tensor.fromSlice (List.replicate (2 ^ 32) ()) = .error .panic :=
  C06_from_slice_too_long _ (by rw [List.length_replicate])

/-! ## C09 -/

/-- C09: if an inner dimension is 0, `subslice` always panics (the shape conversion rejects dimensions 0). -/
theorem C09_subslice_empty_panics {t : Tensor α} {d : Nat} {ds : List Nat} {xs : List α} (h : Rep t (d :: ds) xs)
    (h0 : 0 ∈ ds) (o n : Nat) : t.subslice o n = .error .panic := by
  have ha := h.adm
  have hdim : t.shape.dim 0 = .ok d := dim_eq h.wf.shape (by rw [h.toDims]; rfl)
  have hlen : (d :: ds).length ≤ 6 := ha.len
  unfold Tensor.subslice
  simp only [wrap_checked]
  rw [hdim, ok_bind]
  by_cases hfit : o + n ≤ d
  · rw [ensure_true hfit, ok_bind, h.dims, ok_bind, ensure_true (by simp), ok_bind]
    simp only [List.drop_succ_cons, List.drop_zero]
    rw [setIdx_ok (by simp), ok_bind]
    simp only [List.set_cons_zero]
    rw [ofVec_zero_panic (by simpa using hlen) (List.mem_cons_of_mem _ h0)]
    rfl
  · rw [ensure_false hfit]; rfl

/-- A tensor with dimensions 2 and 0. -/
def exHollow : Tensor Nat := { shape := ofDims [2, 0], offset := 0, size := 0, data := [] }
theorem exHollow_rep : Rep exHollow [2, 0] [] := ⟨⟨wf_ofDims ⟨by simp, by simp⟩, rfl, by simp [exHollow]⟩, rfl, rfl⟩

example : exHollow.subslice 0 1 = .error .panic := C09_subslice_empty_panics exHollow_rep (by simp) 0 1

/-! ## C10 -/

/-- C10: what the code does for rank 3 and at most two elements, rank 4 and at most three: every index panics. -/
theorem C10_small_actual {t : Tensor α} {ds : List Nat} {xs : List α} (h : Rep t ds xs) (i j k l : Nat) :
    (xs.length ≤ 2 → t.index3 i j k = .error .panic) ∧ (xs.length ≤ 3 → t.index4 i j k l = .error .panic) := by
  constructor
  · intro hs
    unfold Tensor.index3
    rw [h.wf.size, ok_bind, ensure_false (by rw [h.size]; omega)]; rfl
  · intro hs
    unfold Tensor.index4
    rw [h.wf.size, ok_bind, ensure_false (by rw [h.size]; omega)]; rfl

example : (⟨ofDims [1, 1, 2], 0, 2, [7, 8]⟩ : Tensor Nat).index3 0 0 1 = .error .panic :=
  (C10_small_actual (rep_fresh (ds := [1, 1, 2]) (xs := [7, 8]) ⟨by simp, by simp⟩ (fits_of_pos (by simp) (by simp)) rfl)
    0 0 1 0).1 (by simp)

/-- C10: accesses with five indices, and with two, need at least that many dimensions. -/
theorem C10_rank_rejects {t : Tensor α} {ds : List Nat} {xs : List α} (h : Rep t ds xs) (i j k l m : Nat) :
    (ds.length < 2 → t.index2 i j = .error .panic) ∧ (ds.length < 5 → t.index5 i j k l m = .error .panic) := by
  constructor
  · intro hs
    unfold Tensor.index2
    rw [ensure_false (by rw [h.rank]; omega)]; rfl
  · intro hs
    unfold Tensor.index5
    rw [ensure_false (by rw [h.rank]; omega)]; rfl

example : exView.index5 0 0 0 0 0 = .error .panic := (C10_rank_rejects exView_rep 0 0 0 0 0).2 (by simp)

/-! ## C20 -/

/-- C20: `map_row` panics if the rows have no elements, and on a scalar, whatever the closure. -/
theorem C20_map_row_rejects {t : Tensor U} {ds : List Nat} {xs : List U} (h : Rep t ds xs) {N : Nat}
    (h0 : ds = [] ∨ ds.getLast? = some 0) (f : List U → Exec σ (Vector V N)) (s : σ) :
    (t.mapRow N f).run s = .error .panic := by
  have hcols : t.shape.cols = Except.ok 0 := by
    rw [cols_eq h.wf.shape, h.toDims]
    rcases h0 with rfl | h0
    · rfl
    · rw [← List.head?_eq_getElem?, List.head?_reverse, h0]; rfl
  have hb : ∀ shape, (Tensor.mapRowShape shape t N f).run s = .error .panic := by
    intro shape
    unfold Tensor.mapRowShape
    rw [hcols]; rfl
  have e2 : t.mapRow N f = ((liftM (if N = 1 ∧ t.shape.rank > 1 then t.shape.rremove 0 else t.shape.withCols N) :
      Exec σ Shape) >>= fun shape => Tensor.mapRowShape shape t N f) := by
    unfold Tensor.mapRow
    split <;> rfl
  rw [e2, StateT.run_bind]
  cases he : (if N = 1 ∧ t.shape.rank > 1 then t.shape.rremove 0 else t.shape.withCols N) with
  | ok shape => exact hb shape
  | error e =>
    cases e with
    | panic => rfl
    | ub =>
      exfalso
      split at he
      · exact noUB_rremove _ _ he
      · exact noUB_withCols _ _ he

/-- C20: `map_expand` of a tensor with six dimensions panics. -/
theorem C20_map_expand_rejects {t : Tensor U} {ds : List Nat} {xs : List U} (h : Rep t ds xs) (h6 : ds.length = 6)
    {N : Nat} (f : U → Exec σ (Vector V N)) (s : σ) : (t.mapExpand N f).run s = .error .panic := by
  unfold Tensor.mapExpand
  rw [C02_rinsert_panics h.wf.shape h.dims 0 N (Or.inr ⟨h6, by omega⟩)]
  rfl

example : ((⟨ofDims [1, 1, 1, 1, 1, 2], 0, 2, [7, 8]⟩ : Tensor Nat).mapExpand 1
    fun x => (pure #v[x] : Exec Unit (Vector Nat 1))).run () = .error .panic :=
  C20_map_expand_rejects (rep_fresh (ds := [1, 1, 1, 1, 1, 2]) (xs := [7, 8]) ⟨by simp, by simp⟩
    (fits_of_pos (by simp) (by simp)) rfl) rfl _ _

example : (exHollow.mapRow 1 fun _ => (pure #v[0] : Exec Unit (Vector Nat 1))).run () = .error .panic :=
  C20_map_row_rejects exHollow_rep (Or.inr rfl) _ ()

/-! ## C21, C24 -/

theorem reduce_zero {pre post : List Nat} {d : Nat} (hadm : Adm (pre ++ d :: post))
    (h0 : 0 ∈ pre ++ post) {a : Int} (ha : axisIndex (pre.length + post.length + 1) a = some pre.length) :
    Axis.reduce (some a) (ofDims (pre ++ d :: post)) = .error .panic := by
  have hlen := hadm.len
  have hwf := wf_ofDims hadm
  have hrk : (ofDims (pre ++ d :: post)).rank = pre.length + post.length + 1 := by simp; omega
  have h1 : ¬ pre.length + post.length + 1 = 1 := by
    intro hc
    have := List.length_pos_of_mem h0
    simp at this; omega
  unfold Axis.reduce
  simp only
  rw [hrk, normAxis_eq (by simp at hlen; omega) ha, ok_bind,
    if_neg h1, dimsLoop_eq hwf (Nat.zero_le _) (by rw [hrk]; omega), ok_bind]
  simp only [toDims_ofDims]
  rw [dimsLoop_eq hwf (by omega) (by omega), ok_bind]
  simp only [toDims_ofDims]
  have e1 : List.take (pre.length - 0) (List.drop 0 (pre ++ d :: post)) = pre := by simp
  have e2 : List.take (pre.length + post.length + 1 - (pre.length + 1)) (List.drop (pre.length + 1) (pre ++ d :: post)) =
      post := by
    rw [List.drop_append, List.drop_eq_nil_of_le (by omega)]
    simp only [Nat.add_sub_cancel_left, List.drop_succ_cons, List.drop_zero, List.nil_append]
    rw [List.take_of_length_le (by omega)]
  rw [e1, e2, List.nil_append, ofVec_zero_panic (by simp at hlen ⊢; omega) h0]
  rfl

/-- C21, C24: if a dimension other than the axis is 0, then `fold_axis`, `reduce_axis` and `normalize` along the axis
panic without calling the closure. -/
theorem C21_axis_rejects {t : Tensor T} {pre post : List Nat} {d : Nat} {xs : List T} (h : Rep t (pre ++ d :: post) xs)
    (h0 : 0 ∈ pre ++ post) {a : Int} (ha : axisIndex (pre ++ d :: post).length a = some pre.length)
    (init : S) (f : S → T → Exec σ S) (g : S → V) (r : T → T → Exec σ T) (complete : S → Exec σ S1)
    (norm : S1 → T → Exec σ V) (s : σ) :
    (t.foldAxis (some a) init f g).run s = .error .panic ∧ (t.reduceAxis (some a) r).run s = .error .panic ∧
    (t.normalize (some a) init f complete norm).run s = .error .panic := by
  have e : Axis.reduce (some a) t.shape = .error .panic := by
    rw [h.shape]
    exact reduce_zero h.adm h0 (by rw [← ha]; congr 1; simp; omega)
  refine ⟨?_, ?_, ?_⟩
  · unfold Tensor.foldAxis; rw [e]; rfl
  · unfold Tensor.reduceAxis; rw [e]; rfl
  · unfold Tensor.normalize; rw [e]; rfl

/-- C21: along an axis of length 0 (the other dimensions positive, their product below 2^32) `fold_axis` gives the
initial value everywhere, and `reduce_axis` panics, both without calling the closure. -/
theorem C21_zero_axis {t : Tensor T} {pre post : List Nat} {xs : List T} (h : Rep t (pre ++ 0 :: post) xs)
    (hpos : ∀ x ∈ pre ++ post, 0 < x) (hfit : Fits (pre ++ post)) {a : Int}
    (ha : axisIndex (pre ++ 0 :: post).length a = some pre.length)
    (init : S) (f : S → T → Exec σ S) (g : S → V) (r : T → T → Exec σ T) (s : σ) :
    (∃ u, (t.foldAxis (some a) init f g).run s = .ok (u, s) ∧
      Rep u (pre ++ post) (List.replicate (pre ++ post).prod (g init))) ∧
    (t.reduceAxis (some a) r).run s = .error .panic := by
  have hadm := adm_erase h.adm
  have hx : xs.length = pre.prod * 0 * post.prod := by rw [h.length, prod_mid]
  obtain ⟨lanes, hl⟩ := lanesAt_exists hx
  have hnil : ∀ l ∈ lanes, l = [] := fun l hm => List.length_eq_zero_iff.1 (hl.lane_length l hm)
  have hlen : lanes.length = (pre ++ post).prod := by rw [hl.1, List.prod_append]
  have hrep : lanes = List.replicate (pre ++ post).prod [] := List.eq_replicate_iff.2 ⟨hlen, hnil⟩
  have hred := reduce_some h.adm h.fits hpos (a := a) (by rw [← ha]; congr 1; simp; omega)
  have hsz : (ofDims (pre ++ post)).size = .ok (pre.prod * post.prod) := by
    rw [(size_ofDims_iff hadm).2 ⟨hfit, rfl⟩, List.prod_append]
  have e1 := foldAxis_eq h (axis := some a) (by rw [h.shape]; exact hred) hsz hl init f g
  have e2 := reduceAxis_eq h (axis := some a) (by rw [h.shape]; exact hred) hsz hx hl r
  constructor
  · have e3 : lanes.mapM (fun lane => lane.foldlM f init >>= fun s => (pure (g s) : Exec σ V)) =
        pure (List.replicate (pre ++ post).prod (g init)) := by
      rw [hrep]
      generalize (pre ++ post).prod = n
      induction n with
      | zero => rfl
      | succ n ih => rw [List.replicate_succ, List.mapM_cons, ih]; simp [List.replicate_succ]
    rw [e3, pure_bind, new_ok hadm hfit (by simp), lift_ok] at e1
    exact ⟨_, by rw [e1]; rfl, rep_fresh hadm hfit (by simp)⟩
  · obtain ⟨n, hn⟩ : ∃ n, (pre ++ post).prod = n + 1 :=
      ⟨(pre ++ post).prod - 1, by have := prod_pos hpos; omega⟩
    rw [e2, hrep, hn, List.replicate_succ, List.mapM_cons]
    rfl

/-- Summing along the empty axis of a 2 x 0 tensor gives two zeros; along the other axis it panics. -/
example : ∃ u, (exHollow.foldAxis (some 1) 0 (fun s x => (pure (s + x) : Exec Unit Nat)) id).run () = .ok (u, ()) ∧
    Rep u [2] [0, 0] :=
  (C21_zero_axis (pre := [2]) (post := []) exHollow_rep (by simp) (fits_of_pos (by simp) (by simp)) rfl 0
    (fun s x => (pure (s + x) : Exec Unit Nat)) id (fun x _ => pure x) ()).1
example : (exHollow.foldAxis (some 0) 0 (fun s x => (pure (s + x) : Exec Unit Nat)) id).run () = .error .panic :=
  (C21_axis_rejects (S1 := Nat) (pre := []) (post := [0]) exHollow_rep (by simp) rfl 0
    (fun s x => (pure (s + x) : Exec Unit Nat)) id (fun x _ => pure x) pure (fun _ x => pure x) ()).1

end Essay
