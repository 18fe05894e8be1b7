import Verif.Lemmas.Perm
import Verif.Props.Map

/-!
# Properties C19 - C25: init, row operations, folds, reductions, normalize, axes
-/

namespace Essay

open Shape

variable {σ α T U V W S S1 : Type}

/-! ## C19 init, init_rindexed -/

/-- C19: `Tensor::init(shape, f)` calls `f` once per element, in row-major order. -/
theorem C19_init {s : Shape} {ds : List Nat} (hs : s.WF) (hds : s.asVec = .ok ds) (hf : Fits ds) (f : Exec σ V) :
    Yields (Tensor.init s f) ((List.replicate ds.prod ()).mapM fun _ => f) ds := by
  obtain ⟨rfl, ha⟩ := toDims_of_asVec hs hds
  have e : ((List.replicate ds.prod ()).mapM fun _ => f) = (List.range ds.prod).mapM fun _ => f := by
    apply mapM_congr_list (by simp)
    intro i a b _ _; rfl
  rw [e]
  apply yields_of_eq (init_eq ha hf f) _ ha hf
  intro s vs s' hr
  rw [mapM_length _ _ _ _ _ hr]; simp

/-- A counting closure fills a 2x3 tensor with 0..5. -/
example : ∃ t, (Tensor.init (ofDims [2, 3]) (fun n => .ok (n, n + 1) : Exec Nat Nat)).run 0 = .ok (t, 6) ∧
    Rep t [2, 3] [0, 1, 2, 3, 4, 5] :=
  C19_init (ds := [2, 3]) (wf_ofDims (l := [2, 3]) ⟨by simp, by simp⟩) rfl (fits_of_pos (by simp) (by simp))
    (fun n => .ok (n, n + 1) : Exec Nat Nat) 0

/-- C19: the calls of `init_rindexed` get, in row-major order, the reversed multi-indices of all positions. -/
theorem C19_init_rindexed {s : Shape} {ds : List Nat} (hs : s.WF) (hds : s.asVec = .ok ds) (hf : Fits ds)
    (f : List Nat → Exec σ V) :
    ∃ is : List (List Nat), is.length = ds.prod ∧
      (∀ idx p, ravel ds idx = some p → is[p]? = some idx.reverse) ∧
      Yields (Tensor.initRindexed s f) (is.mapM f) ds := by
  obtain ⟨rfl, ha⟩ := toDims_of_asVec hs hds
  refine ⟨(List.range ds.prod).map (unravel ds.reverse), by simp, ?_, ?_⟩
  · intro idx p hp
    rw [List.getElem?_map, List.getElem?_range (ravel_lt hp), Option.map_some, unravel_ravel hp]
  · apply yields_of_eq (initRindexed_eq ha hf f) _ ha hf
    intro s vs s' hr
    rw [mapM_length _ _ _ _ _ hr]; simp

example : ∃ is : List (List Nat), is.length = 6 ∧
    (∀ idx p, ravel [2, 3] idx = some p → is[p]? = some idx.reverse) ∧
    Yields (Tensor.initRindexed (ofDims [2, 3]) fun i => (pure (i.getD 0 0) : Exec Unit Nat))
      (is.mapM fun i => (pure (i.getD 0 0) : Exec Unit Nat)) [2, 3] :=
  C19_init_rindexed (ds := [2, 3]) (wf_ofDims ⟨by simp, by simp⟩) rfl (fits_of_pos (by simp) (by simp)) _

/-- The closure gets (column, row): the result of `10 * row + column` on 2x3. -/
example : ∃ t s', (Tensor.initRindexed (ofDims [2, 3]) (fun i => (pure (10 * i.getD 1 0 + i.getD 0 0) : Exec Unit Nat))).run
    () = .ok (t, s') ∧ t.data = [0, 1, 2, 10, 11, 12] := ⟨_, _, rfl, rfl⟩

/-! ## C20 map_row, map_expand -/

/-- C20: `map_row` replaces each innermost row (of length `c > 0`) by the `N` values the closure returns for it, in
order, keeping the outer dimensions; the innermost dimension becomes `N`. -/
theorem C20_map_row {t : Tensor U} {ds : List Nat} {c N : Nat} {xs : List U} (h : Rep t (ds ++ [c]) xs) (hc : 0 < c)
    (hN : ¬ (N = 1 ∧ 0 < ds.length)) (hfit : Fits (ds ++ [N])) (f : List U → Exec σ (Vector V N)) :
    ∃ rows : List (List U), rows.flatten = xs ∧ rows.length = ds.prod ∧ (∀ r ∈ rows, r.length = c) ∧
      Yields (t.mapRow N f) (rows.mapM f >>= fun vs => pure (vs.map Vector.toList).flatten) (ds ++ [N]) := by
  have hx : xs.length = ds.prod * c := by rw [h.length]; simp
  have hcols : t.shape.cols = Except.ok c := by rw [cols_eq h.wf.shape, h.toDims]; simp
  have hNlt : N < 4294967296 := by
    have := hfit ds.length; simpa using this
  have hlen := h.adm.len
  have hadm : Adm (ds ++ [N]) := ⟨by simpa using hlen, fun d hd => by
    rcases List.mem_append.1 hd with hd | hd
    · exact h.adm.lt d (by simp [hd])
    · simp at hd; omega⟩
  refine ⟨rowsOf xs c ds.prod, rowsOf_flatten hx, rowsOf_length _ _ _, ?_, ?_⟩
  · intro r hr
    obtain ⟨i, hi⟩ := List.getElem?_of_mem hr
    obtain ⟨hlt, rfl⟩ := rowsOf_get hi
    exact row_length hx hlt
  · apply yields_of_eq _ _ hadm hfit
    · have e : (if N = 1 ∧ t.shape.rank > 1 then t.shape.rremove 0 else t.shape.withCols N) =
          Except.ok (ofDims (ds ++ [N])) := by
        rw [if_neg (by rw [h.rank]; simp at hN ⊢; omega), h.shape]
        unfold ofDims
        rw [withCols_ofRev (by simpa using hlen) (by simp), asU32_of_lt hNlt]
        simp
      have e2 : t.mapRow N f = ((liftM (if N = 1 ∧ t.shape.rank > 1 then t.shape.rremove 0 else t.shape.withCols N) :
          Exec σ Shape) >>= fun shape => Tensor.mapRowShape shape t N f) := by
        unfold Tensor.mapRow
        split <;> rfl
      rw [e2, e, lift_ok, pure_bind, mapRow_eq h hcols hc hx]
      simp only [bind_assoc, pure_bind]
    · intro s vs s' hr
      obtain ⟨ws, s1, h1, h2⟩ := run_bind_ok hr
      cases h2
      rw [flatten_vec_length, mapM_length _ _ _ _ _ h1, rowsOf_length]
      simp

/-- C20: with `N = 1` and rank at least two, the innermost dimension is dropped. -/
theorem C20_map_row_scalar {t : Tensor U} {ds : List Nat} {c : Nat} {xs : List U} (h : Rep t (ds ++ [c]) xs) (hc : 0 < c)
    (hds : ds ≠ []) (hfit : Fits ds) (f : List U → Exec σ (Vector V 1)) :
    ∃ rows : List (List U), rows.flatten = xs ∧ rows.length = ds.prod ∧ (∀ r ∈ rows, r.length = c) ∧
      Yields (t.mapRow 1 f) (rows.mapM f >>= fun vs => pure (vs.map Vector.toList).flatten) ds := by
  have hx : xs.length = ds.prod * c := by rw [h.length]; simp
  have hcols : t.shape.cols = Except.ok c := by rw [cols_eq h.wf.shape, h.toDims]; simp
  have hlen := h.adm.len
  have hadm : Adm ds := ⟨by simp at hlen; omega, fun d hd => h.adm.lt d (by simp [hd])⟩
  refine ⟨rowsOf xs c ds.prod, rowsOf_flatten hx, rowsOf_length _ _ _, ?_, ?_⟩
  · intro r hr
    obtain ⟨i, hi⟩ := List.getElem?_of_mem hr
    obtain ⟨hlt, rfl⟩ := rowsOf_get hi
    exact row_length hx hlt
  · apply yields_of_eq _ _ hadm hfit
    · have e : (if 1 = 1 ∧ t.shape.rank > 1 then t.shape.rremove 0 else t.shape.withCols 1) =
          Except.ok (ofDims ds) := by
        rw [if_pos (by rw [h.rank]; have := List.length_pos_iff.2 hds; simp; omega), h.shape]
        unfold ofDims
        rw [rremove_ofRev (by simpa using hlen) (by simp)]
        simp
      have e2 : t.mapRow 1 f = ((liftM (if 1 = 1 ∧ t.shape.rank > 1 then t.shape.rremove 0 else t.shape.withCols 1) :
          Exec σ Shape) >>= fun shape => Tensor.mapRowShape shape t 1 f) := by
        unfold Tensor.mapRow
        split <;> rfl
      rw [e2, e, lift_ok, pure_bind, mapRow_eq h hcols hc hx]
      simp only [bind_assoc, pure_bind]
    · intro s vs s' hr
      obtain ⟨ws, s1, h1, h2⟩ := run_bind_ok hr
      cases h2
      rw [flatten_vec_length, mapM_length _ _ _ _ _ h1, rowsOf_length]
      simp

/-- Row sums (`N = 1`) and (sum, length) pairs (`N = 2`) of a view. -/
example : ∃ t s', (exView.mapRow 1 fun r => (pure #v[r.sum] : Exec Unit (Vector Nat 1))).run () = .ok (t, s') ∧
    t.data = [5, 9, 13] ∧ t.shape = ofDims [3] := ⟨_, _, rfl, rfl, rfl⟩
example : ∃ t s', (exView.mapRow 2 fun r => (pure #v[r.sum, r.length] : Exec Unit (Vector Nat 2))).run () = .ok (t, s') ∧
    t.data = [5, 2, 9, 2, 13, 2] ∧ t.shape = ofDims [3, 2] := ⟨_, _, rfl, rfl, rfl⟩

/-- C20: `map_expand` (rank at most 5) adds an innermost dimension of length `N` holding the closure's values for each
element. -/
theorem C20_map_expand {t : Tensor U} {ds : List Nat} {N : Nat} {xs : List U} (h : Rep t ds xs) (hr : ds.length < 6)
    (hfit : Fits (ds ++ [N])) (f : U → Exec σ (Vector V N)) :
    Yields (t.mapExpand N f) (xs.mapM f >>= fun vs => pure (vs.map Vector.toList).flatten) (ds ++ [N]) := by
  have hNlt : N < 4294967296 := by
    have := hfit ds.length; simpa using this
  have hadm : Adm (ds ++ [N]) := ⟨by simp; omega, fun d hd => by
    rcases List.mem_append.1 hd with hd | hd
    · exact h.adm.lt d hd
    · simp at hd; omega⟩
  apply yields_of_eq _ _ hadm hfit
  · unfold Tensor.mapExpand
    rw [h.shape]
    unfold ofDims
    rw [rinsert_ofRev (by simpa using hr) (by omega) (by omega), asU32_of_lt hNlt, lift_ok, pure_bind, mapExpand_eq h]
    simp only [bind_assoc, pure_bind]
    congr 1
    funext vs
    simp
  · intro s vs s' hr
    obtain ⟨ws, s1, h1, h2⟩ := run_bind_ok hr
    cases h2
    rw [flatten_vec_length, mapM_length _ _ _ _ _ h1, h.length]
    simp

example : ∃ t s', (exRow.mapExpand 2 fun x => (pure #v[x, x + 1] : Exec Unit (Vector Nat 2))).run () = .ok (t, s') ∧
    t.data = [10, 11, 20, 21] ∧ t.shape = ofDims [2, 2] := ⟨_, _, rfl, rfl, rfl⟩

/-! ## C21 fold, reduce -/

/-- C21: `fold` is the left fold in row-major order; the result is a scalar. -/
theorem C21_fold {t : Tensor U} {ds : List Nat} {xs : List U} (h : Rep t ds xs) (init : S) (f : S → U → Exec σ S)
    (g : S → V) : Yields (t.fold init f g) (xs.foldlM f init >>= fun s => pure [g s]) [] := by
  apply yields_of_eq _ _ adm_nil fits_nil
  · rw [fold_eq h]; simp only [bind_assoc, pure_bind]; rfl
  · intro s vs s' hr
    obtain ⟨ws, s1, h1, h2⟩ := run_bind_ok hr
    cases h2; rfl

/-- C21: `reduce` is the left fold starting from the first element; on an empty tensor it panics. -/
theorem C21_reduce {t : Tensor U} {ds : List Nat} {xs : List U} (h : Rep t ds xs) (f : U → U → Exec σ U) :
    Yields (t.reduce f) (reduceLane f xs >>= fun v => pure [v]) [] := by
  apply yields_of_eq _ _ adm_nil fits_nil
  · rw [reduce_eq h]; simp only [bind_assoc, pure_bind]; rfl
  · intro s vs s' hr
    obtain ⟨ws, s1, h1, h2⟩ := run_bind_ok hr
    cases h2; rfl

/-- C21: `fold_axis` along an axis of a tensor with positive dimensions: every remaining index holds the left fold of
its lane, in increasing order along the axis; lanes are processed in row-major order. -/
theorem C21_fold_axis {t : Tensor T} {pre post : List Nat} {d : Nat} {xs : List T} (h : Rep t (pre ++ d :: post) xs)
    (hne : xs ≠ []) {a : Int} (ha : axisIndex (pre ++ d :: post).length a = some pre.length) (init : S)
    (f : S → T → Exec σ S) (g : S → V) :
    ∃ lanes, IsLanes pre d post xs lanes ∧
      Yields (t.foldAxis (some a) init f g) (lanes.mapM fun lane => lane.foldlM f init >>= fun s => pure (g s))
        (pre ++ post) := by
  have hxp : 0 < (pre ++ d :: post).prod := by rw [← h.length]; exact List.length_pos_iff.2 hne
  have hp := pos_of_prod_pos hxp
  have hpos : ∀ x ∈ pre ++ post, 0 < x := fun x hx => hp x (by
    rcases List.mem_append.1 hx with h | h
    · exact List.mem_append.2 (Or.inl h)
    · exact List.mem_append.2 (Or.inr (List.mem_cons_of_mem _ h)))
  have hd : 0 < d := hp d (by simp)
  have hadm := adm_erase h.adm
  have hfit := fits_erase h.fits hpos hd
  have hx : xs.length = pre.prod * d * post.prod := by rw [h.length, prod_mid]
  obtain ⟨lanes, hl⟩ := lanesAt_exists hx
  refine ⟨lanes, hl.isLanes h.length, ?_⟩
  apply yields_of_eq _ _ hadm hfit
  · apply foldAxis_eq h _ _ hl
    · rw [h.shape]
      exact reduce_some h.adm h.fits hpos (by
        rw [← ha]; congr 1; simp; omega)
    · rw [(size_ofDims_iff hadm).2 ⟨hfit, rfl⟩, List.prod_append]
  · intro s vs s' hr
    rw [mapM_length _ _ _ _ _ hr, hl.1, List.prod_append]

/-- C21: `fold_axis` without an axis folds everything. -/
theorem C21_fold_axis_none {t : Tensor T} {ds : List Nat} {xs : List T} (h : Rep t ds xs) (init : S)
    (f : S → T → Exec σ S) (g : S → V) :
    Yields (t.foldAxis none init f g) (xs.foldlM f init >>= fun s => pure [g s]) [] := by
  have hl : LanesAt xs 1 xs.length 1 [xs] := by
    refine ⟨rfl, fun p hp => ⟨xs, ?_, rfl, fun k hk => ?_⟩⟩
    · have : p = 0 := by omega
      subst this; rfl
    · have : p = 0 := by omega
      subst this; simp
  apply yields_of_eq _ _ adm_nil fits_nil
  · rw [foldAxis_eq h (os := []) (batch := 1) (aLen := xs.length) (inner := 1) _ rfl hl]
    · simp
    · show (t.shape.size >>= fun n => _) = _
      rw [h.size_eq, h.length]; rfl
  · intro s vs s' hr
    obtain ⟨ws, s1, h1, h2⟩ := run_bind_ok hr
    cases h2; rfl

/-- C21: `reduce_axis` without an axis reduces everything (and, like `reduce`, panics if there is nothing). -/
theorem C21_reduce_axis_none {t : Tensor T} {ds : List Nat} {xs : List T} (h : Rep t ds xs) (f : T → T → Exec σ T) :
    Yields (t.reduceAxis none f) (reduceLane f xs >>= fun v => pure [v]) [] := by
  have hl : LanesAt xs 1 xs.length 1 [xs] := by
    refine ⟨rfl, fun p hp => ⟨xs, ?_, rfl, fun k hk => ?_⟩⟩
    · have : p = 0 := by omega
      subst this; rfl
    · have : p = 0 := by omega
      subst this; simp
  apply yields_of_eq _ _ adm_nil fits_nil
  · rw [reduceAxis_eq h (os := []) (batch := 1) (aLen := xs.length) (inner := 1) _ rfl (by simp) hl]
    · simp
    · show (t.shape.size >>= fun n => _) = _
      rw [h.size_eq, h.length]; rfl
  · intro s vs s' hr
    obtain ⟨ws, s1, h1, h2⟩ := run_bind_ok hr
    cases h2; rfl

/-- C21: `reduce_axis` along an axis of a non-empty tensor: every remaining index holds the left fold of its lane starting
from the lane's first element. -/
theorem C21_reduce_axis {t : Tensor T} {pre post : List Nat} {d : Nat} {xs : List T} (h : Rep t (pre ++ d :: post) xs)
    (hne : xs ≠ []) {a : Int} (ha : axisIndex (pre ++ d :: post).length a = some pre.length) (f : T → T → Exec σ T) :
    ∃ lanes, IsLanes pre d post xs lanes ∧
      Yields (t.reduceAxis (some a) f) (lanes.mapM (reduceLane f)) (pre ++ post) := by
  have hxp : 0 < (pre ++ d :: post).prod := by rw [← h.length]; exact List.length_pos_iff.2 hne
  have hp := pos_of_prod_pos hxp
  have hpos : ∀ x ∈ pre ++ post, 0 < x := fun x hx => hp x (by
    rcases List.mem_append.1 hx with h | h
    · exact List.mem_append.2 (Or.inl h)
    · exact List.mem_append.2 (Or.inr (List.mem_cons_of_mem _ h)))
  have hd : 0 < d := hp d (by simp)
  have hadm := adm_erase h.adm
  have hfit := fits_erase h.fits hpos hd
  have hx : xs.length = pre.prod * d * post.prod := by rw [h.length, prod_mid]
  obtain ⟨lanes, hl⟩ := lanesAt_exists hx
  refine ⟨lanes, hl.isLanes h.length, ?_⟩
  apply yields_of_eq _ _ hadm hfit
  · apply reduceAxis_eq h _ _ hx hl
    · rw [h.shape]
      exact reduce_some h.adm h.fits hpos (by
        rw [← ha]; congr 1; simp; omega)
    · rw [(size_ofDims_iff hadm).2 ⟨hfit, rfl⟩, List.prod_append]
  · intro s vs s' hr
    rw [mapM_length _ _ _ _ _ hr, hl.1, List.prod_append]

/-- Differences along the first axis of a 3x2 view, as (first - second) - third: not commutative, not associative. -/
example : (exView.reduceAxis (some (-2)) fun x y => (pure (100 * x + y) : Exec Unit Nat)).run () =
    .ok ({ shape := ofDims [2], offset := 0, size := 2, data := [20406, 30507] }, ()) := by decide +kernel
example : axisIndex ([] ++ 3 :: [2]).length (-2) = some 0 := rfl
example : (exView.foldAxis (some 1) 0 (fun s x => (pure (10 * s + x) : Exec Unit Nat)) id).run () =
    .ok ({ shape := ofDims [3], offset := 0, size := 3, data := [23, 45, 67] }, ()) := by decide +kernel

/-! ## C22 sums of axis sums -/

/-- C22: for an associative and commutative operation on a non-empty tensor, reducing along any axis and then everything
gives the same tensor as reducing everything at once. -/
theorem C22_reduce_axis_total {t : Tensor T} {pre post : List Nat} {d : Nat} {xs : List T}
    (h : Rep t (pre ++ d :: post) xs) (hne : xs ≠ []) {a : Int}
    (ha : axisIndex (pre ++ d :: post).length a = some pre.length) (op : T → T → T) [Std.Associative op]
    [Std.Commutative op] (s : σ) :
    ∃ u v, (t.reduceAxis (some a) fun x y => (pure (op x y) : Exec σ T)).run s = .ok (u, s) ∧
      (u.reduce fun x y => (pure (op x y) : Exec σ T)).run s = .ok (v, s) ∧
      (t.reduce fun x y => (pure (op x y) : Exec σ T)).run s = .ok (v, s) := by
  have hxp : 0 < (pre ++ d :: post).prod := by rw [← h.length]; exact List.length_pos_iff.2 hne
  have hp := pos_of_prod_pos hxp
  have hpos : ∀ x ∈ pre ++ post, 0 < x := fun x hx => hp x (by
    rcases List.mem_append.1 hx with h | h
    · exact List.mem_append.2 (Or.inl h)
    · exact List.mem_append.2 (Or.inr (List.mem_cons_of_mem _ h)))
  have hd : 0 < d := hp d (by simp)
  have hadm := adm_erase h.adm
  have hfit := fits_erase h.fits hpos hd
  have hx : xs.length = pre.prod * d * post.prod := by rw [h.length, prod_mid]
  obtain ⟨lanes, hl⟩ := lanesAt_exists hx
  have hperm := hl.perm hx
  obtain ⟨vs, hvs⟩ := red1_exists op (ls := lanes) (fun l hlm => by
    have := hl.lane_length l hlm
    intro hc; subst hc; simp at this; omega)
  have hlen : vs.length = (pre ++ post).prod := by
    have := congrArg List.length hvs
    simp only [List.length_map] at this
    rw [← this, hl.1, List.prod_append]
  have e1 := reduceAxis_eq h (axis := some a) (os := pre ++ post) (by
      rw [h.shape]
      exact reduce_some h.adm h.fits hpos (by rw [← ha]; congr 1; simp; omega))
    (by rw [(size_ofDims_iff hadm).2 ⟨hfit, rfl⟩, List.prod_append]) hx hl (fun x y => (pure (op x y) : Exec σ T))
  rw [mapM_reduceLane_pure op hvs, pure_bind, new_ok hadm hfit hlen, lift_ok] at e1
  have hu := rep_fresh hadm hfit hlen
  have e2 := reduce_eq hu (fun x y => (pure (op x y) : Exec σ T))
  have e3 := reduce_eq h (fun x y => (pure (op x y) : Exec σ T))
  obtain ⟨w, hw⟩ : ∃ w, red1 op xs = some w := by
    cases xs with
    | nil => exact absurd rfl hne
    | cons x xs => exact ⟨_, rfl⟩
  have hw' : red1 op vs = some w := by
    rw [← red1_flatten op hvs, red1_perm op hperm, hw]
  rw [reduceLane_pure op hw', pure_bind] at e2
  rw [reduceLane_pure op hw, pure_bind] at e3
  exact ⟨_, _, by rw [e1]; rfl, by rw [e2]; rfl, by rw [e3]; rfl⟩

instance : Std.Associative (fun x y : Nat => x + y) := ⟨Nat.add_assoc⟩
instance : Std.Commutative (fun x y : Nat => x + y) := ⟨Nat.add_comm⟩

example : ∃ u v, (exView.reduceAxis (some 0) fun x y => (pure (x + y) : Exec Unit Nat)).run () = .ok (u, ()) ∧
      (u.reduce fun x y => (pure (x + y) : Exec Unit Nat)).run () = .ok (v, ()) ∧
      (exView.reduce fun x y => (pure (x + y) : Exec Unit Nat)).run () = .ok (v, ()) :=
  C22_reduce_axis_total (pre := []) exView_rep (by simp) rfl (fun x y => x + y) ()

/-! ## C23 fold_row -/

/-- C23 without an axis, for a tensor that starts at its buffer's beginning: the rows are folded in order, each exactly
once. Missing from the full statement: views with an offset, and vectors with an axis, where the code is wrong
(`C23_view_violates`, `C23_vector_axis_violates`). -/
theorem C23_fold_row_partial {t : Tensor T} {ds : List Nat} {c N : Nat} {xs : List T} (h : Rep t (ds ++ [c]) xs)
    (h0 : t.offset = 0) (hc : 0 < c) (hN : N < 2 ^ 32) (init : S) (f : S → List T → Exec σ S) (g : S → Vector V N) :
    ∃ rows : List (List T), rows.flatten = xs ∧ rows.length = ds.prod ∧ (∀ r ∈ rows, r.length = c) ∧
      Yields (t.foldRow none N init f g) (rows.foldlM f init >>= fun s => pure (g s).toList) [N] := by
  have hx : xs.length = ds.prod * c := by rw [h.length]; simp
  have hcols : t.shape.cols = Except.ok c := by rw [cols_eq h.wf.shape, h.toDims]; simp
  refine ⟨rowsOf xs c ds.prod, rowsOf_flatten hx, rowsOf_length _ _ _, ?_, ?_⟩
  · intro r hr
    obtain ⟨i, hi⟩ := List.getElem?_of_mem hr
    obtain ⟨hlt, rfl⟩ := rowsOf_get hi
    exact row_length hx hlt
  · have hl : LanesAt (rowsOf xs c ds.prod) 1 ds.prod 1 [rowsOf xs c ds.prod] := by
      refine ⟨rfl, fun p hp => ⟨rowsOf xs c ds.prod, ?_, rowsOf_length _ _ _, fun k hk => ?_⟩⟩
      · have : p = 0 := by omega
        subst this; rfl
      · have : p = 0 := by omega
        subst this; simp
    have hadm : Adm [N] := ⟨by simp, by simpa using hN⟩
    apply yields_of_eq _ _ hadm (fits_one hN)
    · have e1 : 1 * ds.prod * 1 = ds.prod := by omega
      rw [foldRow_eq (axis := none) h h0 (os := [N]) (batch := 1) (aLen := ds.prod) (inner := 1) (c := c)
        (by rw [h.shape]; exact reduceRow_none h.adm h.fits hc hN) hcols hc (by rw [e1]; exact hx)
        (by rw [(size_ofDims_iff hadm).2 ⟨fits_one hN, rfl⟩]; simp) (by rw [e1]; exact hl)]
      simp
    · intro s vs s' hr
      obtain ⟨ws, s1, h1, h2⟩ := run_bind_ok hr
      cases h2; simp

/-- C23 along an axis (not the innermost), for a tensor that starts at its buffer's beginning: at every remaining index
the rows along the axis are folded in order. -/
theorem C23_fold_row_axis_partial {t : Tensor T} {pre post : List Nat} {d c N : Nat} {xs : List T}
    (h : Rep t (pre ++ d :: post ++ [c]) xs) (h0 : t.offset = 0) (hne : xs ≠ []) (hN : 0 < N)
    (hfit : Fits (pre ++ post ++ [N])) {a : Int}
    (ha : axisIndex (pre ++ d :: post ++ [c]).length a = some pre.length) (init : S) (f : S → List T → Exec σ S)
    (g : S → Vector V N) :
    ∃ (rows : List (List T)) (lanes : List (List (List T))), rows.flatten = xs ∧ (∀ r ∈ rows, r.length = c) ∧
      IsLanes pre d post rows lanes ∧
      Yields (t.foldRow (some a) N init f g)
        (lanes.mapM (fun lane => lane.foldlM f init >>= fun s => pure (g s)) >>=
          fun vs => pure (vs.map Vector.toList).flatten) (pre ++ post ++ [N]) := by
  have hxp : 0 < (pre ++ d :: post ++ [c]).prod := by rw [← h.length]; exact List.length_pos_iff.2 hne
  have hp := pos_of_prod_pos hxp
  have hpos : ∀ x ∈ pre ++ post, 0 < x := fun x hx => hp x (by
    rcases List.mem_append.1 hx with h | h <;> simp [h])
  have hc : 0 < c := hp c (by simp)
  have hx : xs.length = pre.prod * d * post.prod * c := by
    rw [h.length, List.prod_append, prod_mid]; simp
  have hcols : t.shape.cols = Except.ok c := by rw [cols_eq h.wf.shape, h.toDims]; simp
  have hNlt : N < 4294967296 := by
    have := hfit (pre ++ post).length; simpa using this
  have hlen := h.adm.len
  have hadm : Adm (pre ++ post ++ [N]) := ⟨by simp at hlen ⊢; omega, fun x hx => by
    simp only [List.mem_append, List.mem_singleton] at hx
    rcases hx with (hx | hx) | hx
    · exact h.adm.lt x (by simp [hx])
    · exact h.adm.lt x (by simp [hx])
    · omega⟩
  obtain ⟨lanes, hl⟩ := lanesAt_exists (xs := rowsOf xs c (pre.prod * d * post.prod)) (rowsOf_length _ _ _)
  refine ⟨rowsOf xs c (pre.prod * d * post.prod), lanes, rowsOf_flatten hx, ?_, ?_, ?_⟩
  · intro r hr
    obtain ⟨i, hi⟩ := List.getElem?_of_mem hr
    obtain ⟨hlt, rfl⟩ := rowsOf_get hi
    exact row_length hx hlt
  · exact hl.isLanes (by rw [rowsOf_length, prod_mid])
  · apply yields_of_eq _ _ hadm hfit
    · rw [foldRow_eq (axis := some a) h h0 (by
          rw [h.shape]
          exact reduceRow_some h.adm hpos hN hNlt (by rw [← ha]; congr 1; simp; omega)) hcols hc hx
        (by rw [(size_ofDims_iff hadm).2 ⟨hfit, rfl⟩]; simp [Nat.mul_assoc]) hl]
      simp only [bind_assoc, pure_bind]
    · intro s vs s' hr
      obtain ⟨ws, s1, h1, h2⟩ := run_bind_ok hr
      cases h2
      rw [flatten_vec_length, mapM_length _ _ _ _ _ h1, hl.1]
      simp [Nat.mul_assoc]

/-- The rows of a 2x2x2 tensor folded along the first axis. -/
def exCube2 : Tensor Nat := { shape := ofDims [2, 2, 2], offset := 0, size := 8, data := [0, 1, 2, 3, 4, 5, 6, 7] }
example : Rep exCube2 ([] ++ 2 :: [2] ++ [2]) [0, 1, 2, 3, 4, 5, 6, 7] :=
  ⟨⟨wf_ofDims ⟨by simp, by simp⟩, rfl, by simp [exCube2]⟩, rfl, rfl⟩
example : (exCube2.foldRow (some 0) 1 [] (fun s r => (pure (s ++ r) : Exec Unit (List Nat))) fun s => #v[s]).run () =
    .ok ({ shape := ofDims [2, 1], offset := 0, size := 2, data := [[0, 1, 4, 5], [2, 3, 6, 7]] }, ()) := by
  decide +kernel

/-- The 2x2 view `[[2,3],[4,5]]` of a buffer. -/
def exView2 : Tensor Nat := { shape := ofDims [2, 2], offset := 2, size := 4, data := [0, 1, 2, 3, 4, 5, 6, 7] }
theorem exView2_rep : Rep exView2 [2, 2] [2, 3, 4, 5] :=
  ⟨⟨wf_ofDims ⟨by simp, by simp⟩, rfl, by simp [exView2]⟩, rfl, rfl⟩

/-- C23 fails for views: with the rows `[2,3]` and `[4,5]`, the first closure call gets the row `[4,5]` (the offset is
added twice) and then the call panics. -/
theorem C23_view_violates : Rep exView2 [2, 2] [2, 3, 4, 5] ∧
    (exView2.foldRow none 1 () (fun _ _ => (pure () : Exec Unit Unit)) fun _ => #v[0]).run () = .error .panic ∧
    exView2.asWrapSliceN 0 2 = .ok [4, 5] :=
  ⟨exView2_rep, by decide, rfl⟩

/-- C23 fails for vectors with an axis: the only row of a vector of length 3 is folded three times. -/
theorem C23_vector_axis_violates : ∃ t : Tensor Nat, Rep t [3] [1, 2, 3] ∧
    (t.foldRow (some 0) 1 [] (fun s r => (pure (s ++ [r]) : Exec Unit (List (List Nat)))) fun s => #v[s]).run () =
      .ok ({ shape := ofDims [1], offset := 0, size := 1, data := [[[1, 2, 3], [1, 2, 3], [1, 2, 3]]] }, ()) :=
  ⟨{ shape := ofDims [3], offset := 0, size := 3, data := [1, 2, 3] },
    ⟨⟨wf_ofDims ⟨by simp, by simp⟩, rfl, by simp⟩, rfl, rfl⟩, by decide +kernel⟩

/-! ## C24 normalize -/

/-- What `normalize` does along any axis (the other dimensions positive; the axis may have length 0): it folds each lane, completes the state, and emits the
normalised elements lane by lane, one lane after the other. -/
theorem C24_actual {t : Tensor T} {pre post : List Nat} {d : Nat} {xs : List T} (h : Rep t (pre ++ d :: post) xs)
    (hpos : ∀ x ∈ pre ++ post, 0 < x) {a : Int} (ha : axisIndex (pre ++ d :: post).length a = some pre.length) (init : S)
    (accum : S → T → Exec σ S) (complete : S → Exec σ S1) (norm : S1 → T → Exec σ V) :
    ∃ lanes, IsLanes pre d post xs lanes ∧ (∀ l ∈ lanes, l.length = d) ∧ (post = [] → lanes.flatten = xs) ∧
      Yields (t.normalize (some a) init accum complete norm)
        ((lanes.mapM fun lane => do
          let s ← lane.foldlM accum init
          let s1 ← complete s
          lane.mapM (norm s1)) >>= fun vs => pure vs.flatten) (pre ++ d :: post) := by
  have hx : xs.length = pre.prod * d * post.prod := by rw [h.length, prod_mid]
  obtain ⟨lanes, hl⟩ := lanesAt_exists hx
  refine ⟨lanes, hl.isLanes h.length, hl.lane_length, ?_, ?_⟩
  · rintro rfl
    simp only [List.prod_nil, Nat.mul_one] at hx
    apply List.ext_getElem?
    intro q
    by_cases hq : q < xs.length
    · rw [flatten_get hl.lane_length q (by rw [hl.1]; simpa [hx] using hq)]
      rw [hx] at hq
      obtain ⟨lane, h1, h2, h3⟩ := hl.2 (q / d) (by simpa using div_lt_of_lt_mul' hq)
      rw [h1, Option.bind_some, h3 _ (Nat.mod_lt _ (pos_right_of_lt_mul hq))]
      simp [div_add_mod', Nat.mod_one]
    · rw [List.getElem?_eq_none (by rw [flatten_length_const hl.lane_length, hl.1]; simp; omega),
        List.getElem?_eq_none (by omega)]
  · apply yields_of_eq _ _ h.adm h.fits
    · rw [normalize_eq h (axis := some a) (by
        rw [h.shape]
        exact reduce_some h.adm h.fits hpos (by rw [← ha]; congr 1; simp; omega)) hx hl, h.shape]
      simp only [bind_assoc, pure_bind]
    · intro s vs s' hr
      obtain ⟨ws, s1, h1, h2⟩ := run_bind_ok hr
      cases h2
      rw [mapM_flatten_length _ _ d _ _ _ _ h1, hl.1, prod_mid]
      · grind
      · intro lane hlm s vs s' hrun
        obtain ⟨_, _, _, hrun⟩ := run_bind_ok hrun
        obtain ⟨_, _, _, hrun⟩ := run_bind_ok hrun
        rw [mapM_length _ _ _ _ _ hrun, hl.lane_length _ hlm]

/-- C24 for the innermost axis: the rows `lanes` (whose concatenation is the tensor's elements, each of the innermost
length) are replaced, in place, by the normalised rows. Missing from the full statement: other axes, where elements end
up in the wrong places (`C24_inner_axis_violates`). -/
theorem C24_last_axis_partial {t : Tensor T} {pre : List Nat} {d : Nat} {xs : List T} (h : Rep t (pre ++ [d]) xs)
    (hpos : ∀ x ∈ pre, 0 < x) {a : Int} (ha : axisIndex (pre ++ [d]).length a = some pre.length) (init : S)
    (accum : S → T → Exec σ S) (complete : S → Exec σ S1) (norm : S1 → T → Exec σ V) :
    ∃ rows : List (List T), rows.flatten = xs ∧ (∀ l ∈ rows, l.length = d) ∧
      Yields (t.normalize (some a) init accum complete norm)
        ((rows.mapM fun row => do
          let s ← row.foldlM accum init
          let s1 ← complete s
          row.mapM (norm s1)) >>= fun vs => pure vs.flatten) (pre ++ [d]) := by
  obtain ⟨lanes, _, h2, h3, h4⟩ := C24_actual h (by simpa using hpos) ha init accum complete norm
  exact ⟨lanes, h3 rfl, h2, h4⟩

/-- C24 without an axis: the whole tensor is one lane. -/
theorem C24_no_axis {t : Tensor T} {ds : List Nat} {xs : List T} (h : Rep t ds xs) (init : S)
    (accum : S → T → Exec σ S) (complete : S → Exec σ S1) (norm : S1 → T → Exec σ V) :
    Yields (t.normalize none init accum complete norm) (do
      let s ← xs.foldlM accum init
      let s1 ← complete s
      xs.mapM (norm s1)) ds := by
  have hl : LanesAt xs 1 xs.length 1 [xs] := by
    refine ⟨rfl, fun p hp => ⟨xs, ?_, rfl, fun k hk => ?_⟩⟩
    · have : p = 0 := by omega
      subst this; rfl
    · have : p = 0 := by omega
      subst this; simp
  apply yields_of_eq _ _ h.adm h.fits
  · rw [normalize_eq h (axis := none) (os := Shape.scalar) (batch := 1) (aLen := xs.length) (inner := 1) (by
      show (t.shape.size >>= fun n => _) = _
      rw [h.size_eq, h.length]; rfl) (by simp) hl, h.shape]
    simp
  · intro s vs s' hr
    obtain ⟨_, _, _, hr⟩ := run_bind_ok hr
    obtain ⟨_, _, _, hr⟩ := run_bind_ok hr
    rw [mapM_length _ _ _ _ _ hr, h.length]

/-- C24 fails for other axes: "normalising" a 2x3 tensor along axis 0 with a function that returns the element unchanged
moves elements. -/
theorem C24_inner_axis_violates : ∃ t : Tensor Nat, Rep t [2, 3] [0, 1, 2, 3, 4, 5] ∧
    ∃ u, (t.normalize (some 0) () (fun _ _ => (pure () : Exec Unit Unit)) (fun _ => pure ()) fun _ x => pure x).run () =
      .ok (u, ()) ∧ Rep u [2, 3] [0, 3, 1, 4, 2, 5] :=
  ⟨{ shape := ofDims [2, 3], offset := 0, size := 6, data := [0, 1, 2, 3, 4, 5] },
    ⟨⟨wf_ofDims ⟨by simp, by simp⟩, rfl, by simp⟩, rfl, rfl⟩,
    { shape := ofDims [2, 3], offset := 0, size := 6, data := [0, 3, 1, 4, 2, 5] }, by decide +kernel,
    ⟨⟨wf_ofDims (l := [2, 3]) ⟨by simp, by simp⟩, rfl, by simp⟩, rfl, rfl⟩⟩

example : (exView.normalize (some (-1)) 0 (fun s x => (pure (s + x) : Exec Unit Nat)) (fun s => pure s)
    fun s x => pure (x, s)).run () =
      .ok (⟨ofDims [3, 2], 0, 6, [(2, 5), (3, 5), (4, 9), (5, 9), (6, 13), (7, 13)]⟩, ()) := by decide +kernel

/-! ## C25 axes -/

/-- C25: wherever an axis is accepted, `0 ≤ a < rank` and `-rank ≤ a < 0` select the axis the user means: the result is
that of the plain non-negative axis number. The three functions are the only places of the crate where a signed axis is
turned into a position (for `expand_dims` see C05). -/
theorem C25_valid_axis_partial {s : Shape} (hs : s.WF) {a : Int} {i : Nat} (h : axisIndex s.rank a = some i) (N : Nat) :
    Axis.axisFromRank (some a) s.rank = .ok i ∧
    Axis.reduce (some a) s = Axis.reduce (some (i : Int)) s ∧
    Axis.reduceRow (some a) s N = Axis.reduceRow (some (i : Int)) s N ∧
    Axis.axisFromRank (some (i : Int)) s.rank = .ok i := by
  have hi := axisIndex_lt h
  have h' : axisIndex s.rank (i : Int) = some i := by
    unfold axisIndex; rw [if_pos ⟨by omega, by omega⟩]; simp
  refine ⟨axisFromRank_eq hs.rank_le h, ?_, ?_, axisFromRank_eq hs.rank_le h'⟩
  · unfold Axis.reduce; simp only; rw [normAxis_eq hs.rank_le h, normAxis_eq hs.rank_le h']
  · unfold Axis.reduceRow; simp only; rw [normAxis_eq hs.rank_le h, normAxis_eq hs.rank_le h']

example : Axis.axisFromRank (some (-1)) 2 = .ok 1 ∧
    Axis.reduce (some (-1)) (ofDims [3, 4]) = Axis.reduce (some 1) (ofDims [3, 4]) ∧
    Axis.reduceRow (some (-1)) (ofDims [3, 4]) 5 = Axis.reduceRow (some 1) (ofDims [3, 4]) 5 ∧
    Axis.axisFromRank (some 1) 2 = .ok 1 :=
  C25_valid_axis_partial (s := ofDims [3, 4]) (wf_ofDims ⟨by simp, by simp⟩) (by decide) 5

example : axisIndex 3 (-1) = some 2 ∧ axisIndex 3 0 = some 0 ∧ axisIndex 3 3 = none := by decide

/-- C25, the false part: an axis of at least the rank is not rejected, it wraps around (axis 2 of a matrix is axis 0);
and below `-rank` the two normalisations disagree (rank 3, axis -5: one gives 2, the other panics). -/
theorem C25_out_of_range_violates :
    Axis.axisFromRank (some 2) 2 = .ok 0 ∧ Axis.reduce (some 2) (ofDims [3, 4]) = Axis.reduce (some 0) (ofDims [3, 4]) ∧
    axisIndex 2 2 = none ∧
    Axis.axisFromRank (some (-5)) 3 = .ok 2 ∧ Axis.normAxis (-5) 3 = .error .panic ∧ axisIndex 3 (-5) = none := by
  refine ⟨by decide +kernel, by decide +kernel, by decide, by decide +kernel, by decide +kernel, by decide⟩

/-- C25: what an axis of at least the rank does, exactly: it counts modulo the rank. -/
theorem C25_beyond_rank_actual {rank : Nat} (h0 : 0 < rank) (hr : rank ≤ 6) {n : Nat} (hn : n < 2 ^ 62) :
    Axis.axisFromRank (some (n : Int)) rank = .ok (n % rank) ∧ Axis.normAxis n rank = .ok (n % rank) := by
  have e : (n : Int) + rank = ((n + rank : Nat) : Int) := by omega
  constructor
  · unfold Axis.axisFromRank
    simp only
    rw [iadd_small (by omega) (by omega), ok_bind, isizeAsUsize_eq (by omega) (by omega), umod_ok (by omega), e,
      Int.toNat_natCast, Nat.add_mod_right]
  · unfold Axis.normAxis
    rw [iadd_small (by omega) (by omega), ok_bind]
    unfold imod
    have h1 : ((n + rank : Nat) : Int).tmod rank = ((n % rank : Nat) : Int) := by
      rw [Int.tmod_eq_emod_of_nonneg (by omega), ← Int.natCast_emod, Nat.add_mod_right]
    have h2 := Nat.mod_lt n h0
    rw [if_neg (by omega), ok_bind, e, h1, isizeAsUsize_eq (by omega) (by omega)]
    simp only [Int.toNat_natCast]
    rw [ensure_true h2]; rfl

example : Axis.axisFromRank (some 7) 3 = .ok 1 ∧ Axis.normAxis 7 3 = .ok 1 :=
  C25_beyond_rank_actual (rank := 3) (n := 7) (by simp) (by simp) (by simp)

example : ∃ rows : List (List Nat), rows.flatten = [2, 3, 4, 5, 6, 7] ∧ rows.length = [3].prod ∧ (∀ r ∈ rows, r.length = 2) ∧
    Yields (exView.mapRow 2 fun r => (pure #v[r.sum, r.length] : Exec Unit (Vector Nat 2)))
      (rows.mapM (fun r => (pure #v[r.sum, r.length] : Exec Unit (Vector Nat 2))) >>=
        fun vs => pure (vs.map Vector.toList).flatten) [3, 2] :=
  C20_map_row (ds := [3]) exView_rep (by simp) (by simp) (fits_of_pos (by simp) (by simp)) _

example : ∃ rows : List (List Nat), rows.flatten = [2, 3, 4, 5, 6, 7] ∧ rows.length = [3].prod ∧ (∀ r ∈ rows, r.length = 2) ∧
    Yields (exView.mapRow 1 fun r => (pure #v[r.sum] : Exec Unit (Vector Nat 1)))
      (rows.mapM (fun r => (pure #v[r.sum] : Exec Unit (Vector Nat 1))) >>=
        fun vs => pure (vs.map Vector.toList).flatten) [3] :=
  C20_map_row_scalar (ds := [3]) exView_rep (by simp) (by simp) (fits_one (by simp)) _

example : Yields (exView.mapExpand 2 fun x => (pure #v[x, x + 1] : Exec Unit (Vector Nat 2)))
    ([2, 3, 4, 5, 6, 7].mapM (fun x => (pure #v[x, x + 1] : Exec Unit (Vector Nat 2))) >>=
      fun vs => pure (vs.map Vector.toList).flatten) [3, 2, 2] :=
  C20_map_expand exView_rep (by simp) (fits_of_pos (by simp) (by simp)) _

example : Yields (exView.fold 1 (fun s x => (pure (s * x) : Exec Unit Nat)) (· + 1))
    ([2, 3, 4, 5, 6, 7].foldlM (fun s x => (pure (s * x) : Exec Unit Nat)) 1 >>= fun s => pure [s + 1]) [] :=
  C21_fold exView_rep _ _ _

example : Yields (exView.reduce fun x y => (pure (x - y) : Exec Unit Nat))
    (reduceLane (fun x y => (pure (x - y) : Exec Unit Nat)) [2, 3, 4, 5, 6, 7] >>= fun v => pure [v]) [] :=
  C21_reduce exView_rep _

example : ∃ lanes, IsLanes [3] 2 [] [2, 3, 4, 5, 6, 7] lanes ∧
    Yields (exView.foldAxis (some (-1)) 0 (fun s x => (pure (10 * s + x) : Exec Unit Nat)) id)
      (lanes.mapM fun lane => lane.foldlM (fun s x => (pure (10 * s + x) : Exec Unit Nat)) 0 >>= fun s => pure s) [3] :=
  C21_fold_axis (pre := [3]) (post := []) exView_rep (by simp) (by decide) 0 _ id

example : Yields (exView.foldAxis none 0 (fun s x => (pure (10 * s + x) : Exec Unit Nat)) id)
    ([2, 3, 4, 5, 6, 7].foldlM (fun s x => (pure (10 * s + x) : Exec Unit Nat)) 0 >>= fun s => pure [s]) [] :=
  C21_fold_axis_none exView_rep 0 _ id

example : Yields (exView.reduceAxis none fun x y => (pure (x - y) : Exec Unit Nat))
    (reduceLane (fun x y => (pure (x - y) : Exec Unit Nat)) [2, 3, 4, 5, 6, 7] >>= fun v => pure [v]) [] :=
  C21_reduce_axis_none exView_rep _

example : ∃ lanes, IsLanes [] 3 [2] [2, 3, 4, 5, 6, 7] lanes ∧
    Yields (exView.reduceAxis (some (-2)) fun x y => (pure (100 * x + y) : Exec Unit Nat))
      (lanes.mapM (reduceLane fun x y => (pure (100 * x + y) : Exec Unit Nat))) [2] :=
  C21_reduce_axis (pre := []) (post := [2]) exView_rep (by simp) (by decide) _

example : ∃ rows : List (List Nat), rows.flatten = [0, 1, 2, 3, 4, 5, 6, 7] ∧ rows.length = [2, 2].prod ∧
    (∀ r ∈ rows, r.length = 2) ∧
    Yields (exCube2.foldRow none 1 0 (fun s r => (pure (s + r.length) : Exec Unit Nat)) fun s => #v[s])
      (rows.foldlM (fun s r => (pure (s + r.length) : Exec Unit Nat)) 0 >>= fun s => pure #v[s].toList) [1] :=
  C23_fold_row_partial (ds := [2, 2]) (c := 2) (xs := [0, 1, 2, 3, 4, 5, 6, 7])
    ⟨⟨wf_ofDims ⟨by simp, by simp⟩, rfl, by simp [exCube2]⟩, rfl, rfl⟩ rfl (by simp) (by simp) 0 _ _

example : ∃ (rows : List (List Nat)) (lanes : List (List (List Nat))), rows.flatten = [0, 1, 2, 3, 4, 5, 6, 7] ∧
    (∀ r ∈ rows, r.length = 2) ∧ IsLanes [2] 2 [] rows lanes ∧
    Yields (exCube2.foldRow (some 1) 1 0 (fun s r => (pure (s + r.length) : Exec Unit Nat)) fun s => #v[s])
      (lanes.mapM (fun lane => lane.foldlM (fun s r => (pure (s + r.length) : Exec Unit Nat)) 0 >>= fun s => pure #v[s]) >>=
        fun vs => pure (vs.map Vector.toList).flatten) [2, 1] :=
  C23_fold_row_axis_partial (pre := [2]) (post := []) (c := 2) (xs := [0, 1, 2, 3, 4, 5, 6, 7])
    ⟨⟨wf_ofDims ⟨by simp, by simp⟩, rfl, by simp [exCube2]⟩, rfl, rfl⟩ rfl (by simp) (by simp)
    (fits_of_pos (by simp) (by simp)) (by decide) 0 _ _

example : ∃ lanes, IsLanes [] 3 [2] [2, 3, 4, 5, 6, 7] lanes ∧ (∀ l ∈ lanes, l.length = 3) ∧
    ([2] = [] → lanes.flatten = [2, 3, 4, 5, 6, 7]) ∧
    Yields (exView.normalize (some 0) 0 (fun s x => (pure (s + x) : Exec Unit Nat)) (fun s => pure s) fun s x => pure (x, s))
      ((lanes.mapM fun lane => do
        let s ← lane.foldlM (fun s x => (pure (s + x) : Exec Unit Nat)) 0
        let s1 ← pure s
        lane.mapM fun x => pure (x, s1)) >>= fun vs => pure vs.flatten) [3, 2] :=
  C24_actual (pre := []) (post := [2]) exView_rep (by simp) (by decide) 0 _ _ _

example : ∃ rows : List (List Nat), rows.flatten = [2, 3, 4, 5, 6, 7] ∧ (∀ l ∈ rows, l.length = 2) ∧
    Yields (exView.normalize (some 1) 0 (fun s x => (pure (s + x) : Exec Unit Nat)) (fun s => pure s) fun s x => pure (x, s))
      ((rows.mapM fun row => do
        let s ← row.foldlM (fun s x => (pure (s + x) : Exec Unit Nat)) 0
        let s1 ← pure s
        row.mapM fun x => pure (x, s1)) >>= fun vs => pure vs.flatten) [3, 2] :=
  C24_last_axis_partial (pre := [3]) exView_rep (by simp) (by decide) 0 _ _ _

example : Yields (exView.normalize none 0 (fun s x => (pure (s + x) : Exec Unit Nat)) (fun s => pure s) fun s x => pure (x, s))
    (do
      let s ← [2, 3, 4, 5, 6, 7].foldlM (fun s x => (pure (s + x) : Exec Unit Nat)) 0
      let s1 ← pure s
      [2, 3, 4, 5, 6, 7].mapM fun x => pure (x, s1)) [3, 2] :=
  C24_no_axis exView_rep 0 _ _ _

end Essay
