import Verif.Lemmas.Tile

/-! # Transposing, joining, splitting and tiling (C26 - C32) -/

namespace Essay

open Shape

variable {α : Type}

/-! ## C26 transpose -/

theorem split_last2 {l : List Nat} {n : Nat} (h : l.length = n + 2) :
    ∃ i j k, l = i ++ [j, k] ∧ i.length = n := by
  have hd : (l.drop n).length = 2 := by simp; omega
  match hm : l.drop n, hd with
  | [j, k], _ => exact ⟨l.take n, j, k, by rw [← hm, List.take_append_drop], by simp; omega⟩

/-- C26: for rank 2 and above, `transpose` swaps the two innermost dimensions at every batch index. -/
theorem C26_transpose {t : Tensor α} {pre : List Nat} {r c : Nat} {xs : List α} (h : Rep t (pre ++ [r, c]) xs)
    (hne : xs ≠ []) : ∃ u ys, t.transpose = .ok u ∧ Rep u (pre ++ [c, r]) ys ∧
      ∀ (i : List Nat) (j k : Nat), i.length = pre.length →
        at? (pre ++ [c, r]) ys (i ++ [j, k]) = at? (pre ++ [r, c]) xs (i ++ [k, j]) := by
  have hxp : 0 < (pre ++ [r, c]).prod := by rw [← h.length]; exact List.length_pos_iff.2 hne
  have hpos := pos_of_prod_pos hxp
  have hr : 0 < r := hpos r (by simp)
  have hc : 0 < c := hpos c (by simp)
  have hrb : r < 4294967296 := h.adm.lt r (by simp)
  have hcb : c < 4294967296 := h.adm.lt c (by simp)
  have hlen := h.adm.len
  have hrev : (pre ++ [r, c]).reverse = c :: r :: pre.reverse := by simp
  have hprod : (pre ++ [r, c]).prod = pre.prod * (c * r) := by simp [List.prod_append, Nat.mul_comm c]
  have hadm : Adm (pre ++ [c, r]) := ⟨by simpa using hlen, fun e he => h.adm.lt e (by
    simp at he ⊢; tauto)⟩
  have hprod' : (pre ++ [c, r]).prod = pre.prod * (c * r) := by simp [List.prod_append]
  have hfit : Fits (pre ++ [c, r]) := fits_of_pos (by rw [hprod', ← hprod]; exact hxp)
    (by rw [hprod', ← hprod]; exact h.prod_lt)
  have hx : xs.length = pre.prod * (c * r) := by rw [h.length, hprod]
  unfold Tensor.transpose
  rw [cols_eq h.wf.shape, ok_bind, rows_eq h.wf.shape, ok_bind, h.size_eq, ok_bind, h.toDims, hrev]
  have e1 : max ((c :: r :: pre.reverse)[0]?.getD 0) 1 = c := by simp; omega
  have e2 : max ((c :: r :: pre.reverse)[1]?.getD 0) 1 = r := by simp; omega
  simp only [e1, e2]
  have hb : udiv (pre ++ [r, c]).prod (c * r) = Except.ok pre.prod := by
    rw [udiv_ok (by have := Nat.mul_pos hc hr; omega), hprod, Nat.mul_div_cancel _ (Nat.mul_pos hc hr)]
  have hsh : t.shape = ofRev (c :: r :: pre.reverse) := by rw [h.shape, ofDims, hrev]
  have h6 : (c :: r :: pre.reverse).length ≤ 6 := by simp at hlen ⊢; omega
  rw [hb, ok_bind, if_neg (by rw [h.rank]; simp), hsh, withCols_ofRev h6 (by simp), ok_bind,
    withRows_ofRev (by simpa using h6) (by simp), asU32_of_lt hrb, asU32_of_lt hcb]
  have e3 : ofRev (((c :: r :: pre.reverse).set 0 r).set 1 c) = ofDims (pre ++ [c, r]) := by simp [ofDims]
  rw [e3, ok_bind]
  simp only [h.elems, ok_bind]
  obtain ⟨u, eu, ru⟩ := unsafeInit_puts_rep (L := (pre ++ [r, c]).prod) (by
      rw [hprod, gather_length fun p hp => by rw [hx]; exact trSrc_lt hp])
    (transpose_puts hx) (fun p hp => transpose_all (by
      rwa [gather_length fun p hp => by rw [hx]; exact trSrc_lt hp] at hp)) hadm hfit (by
      rw [hprod', gather_length fun p hp => by rw [hx]; exact trSrc_lt hp])
  exact ⟨u, _, eu, ru, fun i j k hi => transpose_at (by rw [h.length]) hi j k⟩

/-- C26: transposing twice gives back the same dimensions and elements. -/
theorem C26_transpose_twice {t : Tensor α} {pre : List Nat} {r c : Nat} {xs : List α} (h : Rep t (pre ++ [r, c]) xs)
    (hne : xs ≠ []) : ∃ u v, t.transpose = .ok u ∧ u.transpose = .ok v ∧ Rep v (pre ++ [r, c]) xs := by
  obtain ⟨u, ys, e1, h1, a1⟩ := C26_transpose h hne
  have hl : xs.length = ys.length := by
    rw [h.length, h1.length, List.prod_append, List.prod_append]; simp [Nat.mul_comm]
  obtain ⟨v, zs, e2, h2, a2⟩ := C26_transpose h1 (by
    intro h0; subst h0; exact hne (List.length_eq_zero_iff.1 (by simpa using hl)))
  refine ⟨u, v, e1, e2, ?_⟩
  have : zs = xs := by
    apply at_ext h2.length h.length
    intro idx
    by_cases hlen : idx.length = pre.length + 2
    · obtain ⟨i, j, k, rfl, hi⟩ := split_last2 hlen
      rw [a2 i j k hi, a1 i k j hi]
    · have : ravel (pre ++ [r, c]) idx = none := by
        cases hr : ravel (pre ++ [r, c]) idx with
        | none => rfl
        | some p => exact absurd (by simpa using ravel_length hr) hlen
      unfold at?
      rw [this]
      rfl
  rw [← this]; exact h2

/-- C26: a non-empty vector becomes a column with the same elements. -/
theorem C26_transpose_vector {t : Tensor α} {n : Nat} {xs : List α} (h : Rep t [n] xs) (hne : xs ≠ []) :
    ∃ u, t.transpose = .ok u ∧ Rep u [n, 1] xs := by
  have hx : xs.length = n := by simpa using h.length
  have hn : 0 < n := by rw [← hx]; exact List.length_pos_iff.2 hne
  have hnb : n < 4294967296 := h.adm.lt n (by simp)
  unfold Tensor.transpose
  rw [cols_eq h.wf.shape, ok_bind, rows_eq h.wf.shape, ok_bind, h.size_eq, ok_bind, h.toDims]
  have e1 : max ([n].reverse[0]?.getD 0) 1 = n := by simp; omega
  have e2 : max ([n].reverse[1]?.getD 0) 1 = 1 := by simp
  simp only [e1, e2]
  have hb : udiv [n].prod (n * 1) = Except.ok 1 := by
    rw [udiv_ok (by omega)]; simp [Nat.div_self hn]
  have hadm : Adm [n, 1] := ⟨by simp, by simpa using hnb⟩
  have hsh : t.shape = ofRev [n] := by rw [h.shape]; rfl
  rw [hb, ok_bind, if_pos (by rw [h.rank]; rfl), hsh, rinsert_ofRev (by simp) (by simp) (by omega), asU32_of_lt (by omega)]
  have e3 : ofRev ([n].insertIdx 0 1) = ofDims [n, 1] := by simp [ofDims]
  rw [e3, ok_bind]
  simp only [h.elems, ok_bind]
  have hx' : xs.length = 1 * (n * 1) := by omega
  have hg : gather (1 * (n * 1)) (trSrc 1 n) xs = xs := by
    apply List.ext_getElem?
    intro p
    by_cases hp : p < 1 * (n * 1)
    · rw [gather_get (fun p hp => by rw [hx']; exact trSrc_lt hp) hp]
      congr 1
      have := trSrc_at (rows := 1) (cols := n) (n := 0) (i := p) (j := 0) (by omega) (by omega)
      simpa using this
    · rw [List.getElem?_eq_none (by rw [gather_length fun p hp => by rw [hx']; exact trSrc_lt hp]; omega),
        List.getElem?_eq_none (by omega)]
  have hp := transpose_puts (rows := 1) hx'
  rw [hg] at hp
  exact unsafeInit_puts_rep (L := [n].prod) (by simp [hx]) hp (fun p hp => transpose_all (by omega)) hadm
    (fits_of_pos (by simpa using hn) (by simpa using hnb)) (by simp [hx])

example : ∃ u, (⟨ofDims [3], 0, 3, [4, 5, 6]⟩ : Tensor Nat).transpose = .ok u ∧ Rep u [3, 1] [4, 5, 6] :=
  C26_transpose_vector (rep_fresh (ds := [3]) (xs := [4, 5, 6]) ⟨by simp, by simp⟩ (fits_of_pos (by simp) (by simp)) rfl)
    (by simp)

/-- C26: `transpose` of a scalar panics. -/
theorem C26_transpose_scalar {t : Tensor α} {xs : List α} (h : Rep t [] xs) : t.transpose = .error .panic := by
  unfold Tensor.transpose
  rw [cols_eq h.wf.shape, ok_bind, rows_eq h.wf.shape, ok_bind, h.size_eq, ok_bind, h.toDims, h.shape]
  rfl

example : (⟨ofDims [], 0, 1, [4]⟩ : Tensor Nat).transpose = .error .panic :=
  C26_transpose_scalar (rep_fresh (ds := []) (xs := [4]) ⟨by simp, by simp⟩ fits_nil rfl)

/-- A 2 by 3 matrix. -/
def exMat : Tensor Nat := { shape := ofDims [2, 3], offset := 0, size := 6, data := [1, 2, 3, 4, 5, 6] }

theorem exMat_rep : Rep exMat [2, 3] [1, 2, 3, 4, 5, 6] :=
  ⟨⟨wf_ofDims ⟨by simp, by simp⟩, rfl, by simp [exMat]⟩, rfl, rfl⟩

example : ∃ u v, exMat.transpose = .ok u ∧ u.transpose = .ok v ∧ Rep v [2, 3] [1, 2, 3, 4, 5, 6] :=
  C26_transpose_twice (pre := []) exMat_rep (by simp)

example : ∃ u ys, exMat.transpose = .ok u ∧ Rep u [3, 2] ys ∧ ∀ (i : List Nat) (j k : Nat), i.length = 0 →
    at? [3, 2] ys (i ++ [j, k]) = at? [2, 3] [1, 2, 3, 4, 5, 6] (i ++ [k, j]) :=
  C26_transpose (pre := []) exMat_rep (by simp)

/-! ## C27 concatenate -/

theorem axis_head {ts : List (Tensor α)} {t : Tensor α} {axis : Axis} {k : Nat} (h : ts.head? = some t)
    (ha : axis.axisFromRank t.shape.rank = .ok k) : Tensor.concatenateAxis axis ts = Tensor.concatAxis k ts := by
  cases ts with
  | nil => simp at h
  | cons t' ts =>
    simp at h
    subst h
    unfold Tensor.concatenateAxis
    simp only [ha]
    rfl

theorem concat_spec {pre post : List Nat} {ps : List (Nat × List α)} {ts : List (Tensor α)}
    (hrep : RepAll ts (ps.map fun p => (pre ++ p.1 :: post, p.2))) :
    IsConcat pre post ps (concatList pre.prod post.prod ps) := by
  intro A p B hps
  have hlens : ∀ p ∈ ps, p.2.length = pre.prod * (p.1 * post.prod) := by
    intro p hp
    have := hrep.mem_length (pre ++ p.1 :: post, p.2) (List.mem_map.2 ⟨p, hp, rfl⟩)
    simpa [List.prod_append] using this
  subst hps
  exact concatList_isSlice hlens

theorem repAll_head {pre post : List Nat} {ps : List (Nat × List α)} {ts : List (Tensor α)}
    (hrep : RepAll ts (ps.map fun p => (pre ++ p.1 :: post, p.2))) (hne : ps ≠ []) :
    ∃ t, ts.head? = some t ∧ t.shape.rank = pre.length + 1 + post.length ∧ (pre.length + 1 + post.length) ≤ 6 := by
  cases ps with
  | nil => exact absurd rfl hne
  | cons p ps =>
    cases hrep with
    | cons h _ =>
      have := h.adm.len
      refine ⟨_, rfl, ?_, ?_⟩
      · rw [h.rank]; simp; omega
      · simp at this; omega

/-- C27: `concatenate` along any axis: the length along the axis is the sum of the lengths of the parts, the other
dimensions are unchanged, and each part is the slice that starts where the earlier parts end.
Element counts must be below 2^32 (`hD32`, `hfit`, `hpre`; with elements in the result, `fits_parts` reduces all three to
the count of the result).
Missing from the full claim: results with six dimensions along axis 0 (`hr`, they panic, see `C27_rank6_violates`). -/
theorem C27_concatenate_partial {pre post : List Nat} {ps : List (Nat × List α)} {ts : List (Tensor α)}
    (hrep : RepAll ts (ps.map fun p => (pre ++ p.1 :: post, p.2))) (hne : ps ≠ []) {D : Nat} (hD : (ps.map (·.1)).sum = D)
    (hD32 : D < 2 ^ 32) (hfit : Fits (pre ++ D :: post)) (hpre : Fits pre) (hr : post.length < 5)
    {a : Int} (ha : axisIndex (pre.length + 1 + post.length) a = some pre.length) :
    ∃ t out, Tensor.concatenateAxis (some a) ts = .ok t ∧ Rep t (pre ++ D :: post) out ∧ IsConcat pre post ps out := by
  obtain ⟨t0, h0, hrk, h6⟩ := repAll_head hrep hne
  obtain ⟨t, et, rt⟩ := concatAxis_gen hrep hne hD hD32 hfit hpre hr
  refine ⟨t, _, ?_, rt, concat_spec hrep⟩
  rw [axis_head h0 (by rw [hrk]; exact axisFromRank_eq h6 ha), et]

/-- C27, `concatenate` without an axis: joins along the outermost axis. -/
theorem C27_concatenate_outer_partial {post : List Nat} {ps : List (Nat × List α)} {ts : List (Tensor α)}
    (hrep : RepAll ts (ps.map fun p => (p.1 :: post, p.2))) (hne : ps ≠ []) {D : Nat} (hD : (ps.map (·.1)).sum = D)
    (hD32 : D < 2 ^ 32) (hfit : Fits (D :: post)) (hr : post.length < 5) :
    ∃ t out, Tensor.concatenate ts = .ok t ∧ Tensor.concatenateAxis none ts = .ok t ∧ Rep t (D :: post) out ∧
      IsConcat [] post ps out := by
  obtain ⟨t, et, rt⟩ := concatAxis_gen (pre := []) hrep hne hD hD32 hfit fits_nil hr
  refine ⟨t, _, et, ?_, rt, concat_spec (pre := []) hrep⟩
  obtain ⟨t0, h0, hrk, h6⟩ := repAll_head (pre := []) hrep hne
  rw [axis_head (k := 0) h0 (by rfl)]
  exact et

/-- C27: an empty list of parts is rejected. -/
theorem C27_rejects_empty (axis : Axis) : Tensor.concatenateAxis axis ([] : List (Tensor α)) = .error .panic := rfl

example : Tensor.concatenateAxis (some 3) ([] : List (Tensor Nat)) = .error .panic := C27_rejects_empty _

/-- C27: parts with different rank, or that differ in a dimension other than the axis, are rejected. -/
theorem C27_rejects {ts : List (Tensor α)} {t0 x y : Tensor α} {d0 dx dy : List Nat} {e0 ex ey : List α}
    (h0 : ts.head? = some t0) (hr0 : Rep t0 d0 e0) (hx : x ∈ ts) (hy : y ∈ ts) (hrx : Rep x dx ex) (hry : Rep y dy ey)
    {a : Int} {k : Nat} (ha : axisIndex d0.length a = some k)
    (hbad : dx.length ≠ dy.length ∨ ∃ i, i ≠ k ∧ dx[i]? ≠ dy[i]?) :
    Tensor.concatenateAxis (some a) ts = .error .panic := by
  rw [axis_head h0 (k := k) (by rw [hr0.rank]; exact axisFromRank_eq hr0.adm.len ha)]
  apply concatAxis_bad
  intro n hn
  have hag := validate_agree hn x hx y hy
  rw [hrx.rank, hry.rank] at hag
  rcases hbad with hb | ⟨i, hik, hne⟩
  · exact hb hag.1
  · by_cases hi : i < dx.length
    · obtain ⟨d, e1, e2⟩ := hag.2 i hi hik
      have hi' : i < dy.length := by omega
      rw [dim_eq hrx.wf.shape (d := dx[i]) (by rw [hrx.toDims]; exact List.getElem?_eq_getElem hi)] at e1
      rw [dim_eq hry.wf.shape (d := dy[i]) (by rw [hry.toDims]; exact List.getElem?_eq_getElem hi')] at e2
      cases e1
      have := Except.ok.inj e2
      rw [List.getElem?_eq_getElem hi, List.getElem?_eq_getElem hi', this] at hne
      exact hne rfl
    · rw [List.getElem?_eq_none (by omega), List.getElem?_eq_none (by omega)] at hne
      exact hne rfl

/-- A one-element tensor with six dimensions. -/
def exDeep : Tensor Nat := { shape := ofDims [1, 1, 1, 1, 1, 1], offset := 0, size := 1, data := [7] }

theorem exDeep_rep : Rep exDeep [1, 1, 1, 1, 1, 1] [7] :=
  ⟨⟨wf_ofDims ⟨by simp, by simp⟩, rfl, by simp [exDeep]⟩, rfl, rfl⟩

/-- C27 fails for six dimensions: joining two valid six-dimensional tensors along axis 0 panics, while axis 1 works. -/
theorem C27_rank6_violates : Tensor.concatenateAxis (some 0) [exDeep, exDeep] = .error .panic ∧
    ∃ t, Tensor.concatenateAxis (some 1) [exDeep, exDeep] = .ok t ∧ t.shape.asVec = .ok [1, 2, 1, 1, 1, 1] :=
  ⟨by decide +kernel, { shape := ofDims [1, 2, 1, 1, 1, 1], offset := 0, size := 2, data := [7, 7] }, by decide +kernel, rfl⟩

/-- A 2 by 1 matrix. -/
def exCol : Tensor Nat := { shape := ofDims [2, 1], offset := 1, size := 2, data := [0, 7, 8] }

theorem exCol_rep : Rep exCol [2, 1] [7, 8] :=
  ⟨⟨wf_ofDims ⟨by simp, by simp⟩, rfl, by simp [exCol]⟩, rfl, rfl⟩

example : ∃ t out, Tensor.concatenateAxis (some (-1)) [exMat, exCol] = .ok t ∧ Rep t [2, 4] out ∧
    IsConcat [2] [] [(3, [1, 2, 3, 4, 5, 6]), (1, [7, 8])] out :=
  C27_concatenate_partial (pre := [2]) (post := []) (ps := [(3, [1, 2, 3, 4, 5, 6]), (1, [7, 8])])
    (.cons exMat_rep (.cons exCol_rep .nil)) (by simp) (by simp) (by simp) (fits_of_pos (by simp) (by simp))
    (fits_of_pos (by simp) (by simp)) (by simp) (by decide)

/-- A 2 by 0 matrix. -/
def exNoCols : Tensor Nat := { shape := ofDims [2, 0], offset := 0, size := 0, data := [] }

theorem exNoCols_rep : Rep exNoCols [2, 0] [] :=
  rep_fresh (ds := [2, 0]) (xs := []) ⟨by simp, by simp⟩ (fits_cons.2 ⟨by simp, fits_one (by simp)⟩) (by simp)

example : ∃ t out, Tensor.concatenate [exNoCols, exNoCols] = .ok t ∧ Tensor.concatenateAxis none [exNoCols, exNoCols] = .ok t ∧
    Rep t [4, 0] out ∧ IsConcat [] [0] [(2, []), (2, [])] out :=
  C27_concatenate_outer_partial (post := [0]) (ps := [(2, []), (2, [])]) (.cons exNoCols_rep (.cons exNoCols_rep .nil))
    (by simp) (by simp) (by simp) (fits_cons.2 ⟨by simp, fits_one (by simp)⟩) (by simp)

example : Tensor.concatenateAxis (some 0) [exMat, exCol] = .error .panic :=
  C27_rejects (x := exMat) (y := exCol) rfl exMat_rep (by simp) (by simp) exMat_rep exCol_rep (k := 0) (by decide)
    (.inr ⟨1, by simp, by simp⟩)

/-! ## C28 stack -/

theorem stack_spec {pre post : List Nat} {ps : List (List α)} {ts : List (Tensor α)}
    (hrep : RepAll ts (ps.map fun x => (pre ++ post, x))) :
    IsStack pre post ps (concatList pre.prod post.prod (ps.map fun x => (1, x))) := by
  intro k x hk i j hi
  have hlens : ∀ p ∈ ps.map (fun x => ((1 : Nat), x)), p.2.length = pre.prod * (p.1 * post.prod) := by
    intro p hp
    obtain ⟨y, hy, rfl⟩ := List.mem_map.1 hp
    have := hrep.mem_length (pre ++ post, y) (List.mem_map.2 ⟨y, hy, rfl⟩)
    simpa [List.prod_append] using this
  have hk' : (ps.map fun x => ((1 : Nat), x))[k]? = some (1, x) := by simp [hk]
  have hsp := append_take_drop hk'
  have hs := concatList_isSlice (pre := pre) (post := post) (p := (1, x)) (by rw [← hsp]; exact hlens)
  rw [← hsp, sum_ones] at hs
  have hsum : (((ps.map fun x => ((1 : Nat), x)).take k).map (·.1)).sum = k := by
    rw [← List.map_take, sum_ones, List.length_take]
    have := (List.getElem?_eq_some_iff.1 hk).1
    omega
  rw [hsum] at hs
  have := hs.2.2 i 0 j hi (by simp)
  rw [Nat.add_zero] at this
  rw [← this, at_unit i j hi]

/-- C28: `stack_axis` inserts a dimension equal to the number of tensors, and its slice `k` along that axis is tensor `k`.
Missing from the full claim: stacking five-dimensional tensors along axis 0 (`hr`, panics, see `C28_rank5_violates`),
six-dimensional ones (no seven-dimensional shape exists), and tensors with a dimension 0 behind the new axis (`hpos`,
panics, see `C28_empty_violates`). -/
theorem C28_stack_partial {pre post : List Nat} {ps : List (List α)} {ts : List (Tensor α)}
    (hrep : RepAll ts (ps.map fun x => (pre ++ post, x))) (hne : ps ≠ []) (h32 : ps.length < 2 ^ 32)
    (hpos : 0 < post.prod) (hfit : Fits (pre ++ ps.length :: post)) (hr : post.length < 5) (hr6 : pre.length + post.length < 6)
    {a : Int} (ha : axisIndex (pre.length + post.length + 1) a = some pre.length) :
    ∃ t out, Tensor.stackVec (some a) ts = .ok t ∧ Rep t (pre ++ ps.length :: post) out ∧ IsStack pre post ps out := by
  obtain ⟨t, et, rt⟩ := stackVec_gen hrep hne h32 hpos hfit hr (by simpa using hr6)
    (axis := some a) (by rw [List.length_append]; exact axisFromRank_eq (by omega) ha)
  exact ⟨t, _, et, rt, stack_spec hrep⟩

/-- C28: without an axis, `stack` inserts the new dimension in front. -/
theorem C28_stack_outer_partial {post : List Nat} {ps : List (List α)} {ts : List (Tensor α)}
    (hrep : RepAll ts (ps.map fun x => (post, x))) (hne : ps ≠ []) (h32 : ps.length < 2 ^ 32)
    (hpos : 0 < post.prod) (hfit : Fits (ps.length :: post)) (hr : post.length < 5) :
    ∃ t out, Tensor.stack ts = .ok t ∧ Rep t (ps.length :: post) out ∧ IsStack [] post ps out := by
  obtain ⟨t, et, rt⟩ := stackVec_gen (pre := []) hrep hne h32 hpos hfit hr (by simp; omega) (axis := none) rfl
  exact ⟨t, _, et, rt, stack_spec (pre := []) hrep⟩

example : ∃ t out, Tensor.stack [exMat, exMat] = .ok t ∧ Rep t [2, 2, 3] out ∧
    IsStack [] [2, 3] [[1, 2, 3, 4, 5, 6], [1, 2, 3, 4, 5, 6]] out :=
  C28_stack_outer_partial (ps := [[1, 2, 3, 4, 5, 6], [1, 2, 3, 4, 5, 6]]) (.cons exMat_rep (.cons exMat_rep .nil))
    (by simp) (by simp) (by simp) (fits_of_pos (by simp) (by simp)) (by simp)

/-- C28: false for tensors with a dimension 0 behind the new axis: the code divides by the number of elements behind the
axis, so it panics (for example when stacking two empty vectors). -/
theorem C28_empty_violates {pre post : List Nat} {ps : List (List α)} {ts : List (Tensor α)}
    (hrep : RepAll ts (ps.map fun x => (pre ++ post, x))) (hzero : post.prod = 0)
    {axis : Axis} (ha : axis.axisFromRank ((pre ++ post).length + 1) = .ok pre.length) :
    Tensor.stackVec axis ts = .error .panic := by
  cases ps with
  | nil =>
    cases hrep
    rfl
  | cons p0 ps =>
    obtain ⟨t0, ht0, hr0⟩ := hrep.get (k := 0) (p := (pre ++ post, p0)) rfl
    simp only at hr0
    obtain ⟨s, hs⟩ := stackCheck_eq hrep
    unfold Tensor.stackVec
    rw [hs, ok_bind, idx_ok ht0, ok_bind]
    dsimp only
    rw [hr0.rank, ha, ok_bind, hr0.size_eq, ok_bind]
    cases e : t0.shape.sublen pre.length (pre ++ post).length with
    | error err =>
      have := noUB_sublen t0.shape pre.length (pre ++ post).length
      rw [e] at this
      cases err with
      | panic => rfl
      | ub => exact absurd rfl this
    | ok n =>
      have := sublen_eq_ok hr0.wf.shape (by simp) (by rw [hr0.rank]; exact Nat.le_refl _) e
      rw [hr0.toDims] at this
      have h0 : n = 0 := by rw [this]; simpa using hzero
      subst h0
      rfl

example : Tensor.stack [exNoCols, exNoCols] = .error .panic :=
  C28_empty_violates (pre := []) (post := [2, 0]) (ps := [[], []]) (.cons exNoCols_rep (.cons exNoCols_rep .nil)) (by simp) rfl

/-- C28: tensors of different shapes, or an empty list, are rejected. -/
theorem C28_rejects {ts : List (Tensor α)} {x y : Tensor α} (hx : x ∈ ts) (hy : y ∈ ts) {dx dy : List Nat}
    {ex ey : List α} (hrx : Rep x dx ex) (hry : Rep y dy ey) (hne : dx ≠ dy) (axis : Axis) :
    Tensor.stackVec axis ts = .error .panic ∧ Tensor.stackVec axis ([] : List (Tensor α)) = .error .panic := by
  refine ⟨?_, rfl⟩
  unfold Tensor.stackVec
  cases hs : Tensor.stackCheck ts with
  | ok s =>
    have := stackCheck_agree hs x hx y hy
    exact absurd (by rw [← hrx.toDims, ← hry.toDims, this]) hne
  | error e =>
    have := noUB_stackCheck ts
    rw [hs] at this
    cases e with
    | panic => rfl
    | ub => exact absurd rfl this

example : Tensor.stackVec none [exMat, exCol] = .error .panic :=
  (C28_rejects (x := exMat) (y := exCol) (by simp) (by simp) exMat_rep exCol_rep (by simp) none).1

/-- A one-element tensor with five dimensions. -/
def exFive : Tensor Nat := { shape := ofDims [1, 1, 1, 1, 1], offset := 0, size := 1, data := [7] }

theorem exFive_rep : Rep exFive [1, 1, 1, 1, 1] [7] :=
  ⟨⟨wf_ofDims ⟨by simp, by simp⟩, rfl, by simp [exFive]⟩, rfl, rfl⟩

/-- C28 fails for five dimensions: stacking along axis 0 panics, while axis 1 works. -/
theorem C28_rank5_violates : Tensor.stackVec (some 0) [exFive, exFive] = .error .panic ∧
    ∃ t, Tensor.stackVec (some 1) [exFive, exFive] = .ok t ∧ t.shape.asVec = .ok [1, 2, 1, 1, 1, 1] :=
  ⟨by decide +kernel, { shape := ofDims [1, 2, 1, 1, 1, 1], offset := 0, size := 2, data := [7, 7] }, by decide +kernel, rfl⟩

example : ∃ t out, Tensor.stackVec (some (-1)) [exMat, exMat, exMat] = .ok t ∧ Rep t [2, 3, 3] out ∧
    IsStack [2, 3] [] [[1, 2, 3, 4, 5, 6], [1, 2, 3, 4, 5, 6], [1, 2, 3, 4, 5, 6]] out :=
  C28_stack_partial (pre := [2, 3]) (post := []) (ps := [[1, 2, 3, 4, 5, 6], [1, 2, 3, 4, 5, 6], [1, 2, 3, 4, 5, 6]])
    (.cons exMat_rep (.cons exMat_rep (.cons exMat_rep .nil))) (by simp) (by simp) (by simp)
    (fits_of_pos (by simp) (by simp)) (by simp) (by simp) (by decide)

/-! ## C29 vstack, hstack, dstack -/

theorem isConcat_stack {pre post : List Nat} {ps : List (List α)} {out : List α}
    (h : IsConcat pre post (ps.map fun x => (1, x)) out) : IsStack pre post ps out := by
  intro k x hk i j hi
  have hk' : (ps.map fun x => ((1 : Nat), x))[k]? = some (1, x) := by simp [hk]
  have hs := h _ _ _ (append_take_drop hk')
  rw [sum_ones] at hs
  have hsum : (((ps.map fun x => ((1 : Nat), x)).take k).map (·.1)).sum = k := by
    rw [← List.map_take, sum_ones, List.length_take]
    have := (List.getElem?_eq_some_iff.1 hk).1
    omega
  rw [hsum] at hs
  have := hs.2.2 i 0 j hi (by simp)
  rw [Nat.add_zero] at this
  rw [← this, at_unit i j hi]

theorem reshape_rep {t : Tensor α} {ds es : List Nat} {xs : List α} (h : Rep t ds xs) (ha : Adm es)
    (hf : Fits es) (hp : es.prod = ds.prod) : ∃ t', t.reshape (ofDims es) = .ok t' ∧ Rep t' es xs :=
  (C08_reshape h (wf_ofDims ha) (asVec_ofDims ha)).1 ⟨hf, hp⟩

theorem vstack_args {ds : List Nat} (hr : ds.length < 5) (ps : List (List α)) (ts : List (Tensor α))
    (hrep : RepAll ts (ps.map fun x => (ds, x))) (acc : List (Tensor α)) :
    ∃ us, (forL ts acc fun t acc => do
      let s ← t.shape.insert 0 1
      let y ← t.reshape s
      return acc ++ [y]) = .ok (acc ++ us) ∧ RepAll us ((ps.map fun x => ((1 : Nat), x)).map fun p => (p.1 :: ds, p.2)) := by
  induction ps generalizing ts acc with
  | nil =>
    cases hrep
    exact ⟨[], by simp [forL], .nil⟩
  | cons x ps ih =>
    cases hrep with
    | cons h hrest =>
      rename_i t ts
      have hadm : Adm (1 :: ds) := ⟨by simp; omega, fun e he => by
        rcases List.mem_cons.1 he with rfl | he
        · simp
        · exact h.adm.lt e he⟩
      have hf : Fits (1 :: ds) := by
        intro k
        cases k with
        | zero => simpa using h.fits 0
        | succ k => simpa using h.fits k
      obtain ⟨t', e1, r1⟩ := reshape_rep h hadm hf (by simp)
      obtain ⟨us, e2, r2⟩ := ih ts hrest (acc ++ [t'])
      refine ⟨t' :: us, ?_, .cons r1 r2⟩
      unfold forL at e2 ⊢
      rw [List.foldlM_cons]
      dsimp only
      rw [h.shape, insert_ofDims (by omega) (Nat.zero_le _) (by omega), ok_bind, asU32_of_lt (by omega),
        List.insertIdx_zero, e1, ok_bind]
      simp only [pure_eq_ok, ok_bind] at e2 ⊢
      rw [e2, List.append_assoc]
      rfl

/-- C29: `vstack` stacks along a new axis 0, and `stack` gives the same result if the tensors have elements.
Missing from the full claim: five- and six-dimensional tensors (`hr`, both operations panic) and `stack` of tensors without
elements (which panics, `C28_empty_violates`). -/
theorem C29_vstack_partial {ds : List Nat} {ps : List (List α)} {ts : List (Tensor α)}
    (hrep : RepAll ts (ps.map fun x => (ds, x))) (hne : ps ≠ []) (h32 : ps.length < 2 ^ 32)
    (hfit : Fits (ps.length :: ds)) (hr : ds.length < 5) :
    ∃ t out, Tensor.vstack ts = .ok t ∧ Rep t (ps.length :: ds) out ∧ IsStack [] ds ps out ∧
      (0 < ds.prod → ∃ t', Tensor.stack ts = .ok t' ∧ Rep t' (ps.length :: ds) out) := by
  obtain ⟨us, e1, r1⟩ := vstack_args hr ps ts hrep []
  obtain ⟨t, out, _, e2, r2, c2⟩ := C27_concatenate_outer_partial (post := ds) r1 (by simpa using hne) (D := ps.length)
    (sum_ones ps) h32 hfit hr
  have e3 : Tensor.concatenateAxis (some 0) us = .ok t := by
    obtain ⟨t0, h0, hrk, h6⟩ := repAll_head (pre := []) r1 (by simpa using hne)
    rw [axis_head (k := 0) h0 (by rw [hrk]; exact axisFromRank_eq h6 (by simp [axisIndex]; omega))]
    rw [axis_head (k := 0) h0 (by rfl)] at e2
    exact e2
  have s2 := isConcat_stack c2
  refine ⟨t, out, ?_, r2, s2, fun hpos => ?_⟩
  · unfold Tensor.vstack
    rw [e1, ok_bind, List.nil_append, e3]
  obtain ⟨t', out', e4, r4, s4⟩ := C28_stack_outer_partial hrep hne h32 hpos hfit hr
  have : out = out' := by
    apply at_ext r2.length r4.length
    intro idx
    cases idx with
    | nil => simp [at?, ravel]
    | cons k j =>
      by_cases hk : k < ps.length
      · have h1 := s2 k ps[k] (List.getElem?_eq_getElem hk) [] j rfl
        have h2 := s4 k ps[k] (List.getElem?_eq_getElem hk) [] j rfl
        simp only [List.nil_append] at h1 h2
        rw [h1, h2]
      · simp [at?, ravel, hk]
  subst this
  exact ⟨t', e4, r4⟩

/-- C29: `hstack` joins vectors along their only axis. -/
theorem C29_hstack_vectors {ps : List (Nat × List α)} {ts : List (Tensor α)}
    (hrep : RepAll ts (ps.map fun p => ([p.1], p.2))) (hne : ps ≠ []) {D : Nat} (hD : (ps.map (·.1)).sum = D)
    (hfit : D < 2 ^ 32) : ∃ t out, Tensor.hstack ts = .ok t ∧ Rep t [D] out ∧ IsConcat [] [] ps out := by
  obtain ⟨t, out, e, r, c⟩ := C27_concatenate_partial (pre := []) (post := []) hrep hne hD hfit (fits_one hfit)
    fits_nil (by simp) (a := 0) (by decide)
  refine ⟨t, out, ?_, r, c⟩
  obtain ⟨t0, h0, hrk, _⟩ := repAll_head (pre := []) (post := []) hrep hne
  unfold Tensor.hstack
  cases ts with
  | nil => simp at h0
  | cons t1 ts =>
    simp at h0
    subst h0
    have : idx (t1 :: ts) 0 = .ok t1 := rfl
    rw [this, ok_bind, if_pos (by rw [hrk]; rfl)]
    exact e

/-- C29: for two or more dimensions `hstack` joins along axis 1. -/
theorem C29_hstack {d0 : Nat} {post : List Nat} {ps : List (Nat × List α)} {ts : List (Tensor α)}
    (hrep : RepAll ts (ps.map fun p => (d0 :: p.1 :: post, p.2))) (hne : ps ≠ []) {D : Nat} (hD : (ps.map (·.1)).sum = D)
    (hD32 : D < 2 ^ 32) (hfit : Fits (d0 :: D :: post)) :
    ∃ t out, Tensor.hstack ts = .ok t ∧ Rep t (d0 :: D :: post) out ∧ IsConcat [d0] post ps out := by
  obtain ⟨t0, h0, hrk, h6⟩ := repAll_head (pre := [d0]) (post := post) hrep hne
  have hd0 : d0 < 2 ^ 32 := by
    cases ps with
    | nil => exact absurd rfl hne
    | cons x ps => cases hrep with | cons h _ => exact h.adm.lt d0 (by simp)
  obtain ⟨t, out, e, r, c⟩ := C27_concatenate_partial (pre := [d0]) (post := post) hrep hne hD hD32 hfit (fits_one hd0)
    (by simp at h6; omega) (a := 1) (by simp [axisIndex]; omega)
  refine ⟨t, out, ?_, r, c⟩
  unfold Tensor.hstack
  cases ts with
  | nil => simp at h0
  | cons t1 ts =>
    simp at h0
    subst h0
    have : idx (t1 :: ts) 0 = .ok t1 := rfl
    rw [this, ok_bind, if_neg (by rw [hrk]; simp; omega)]
    exact e

theorem forL_push {ds es : List Nat} {body : Tensor α → List (Tensor α) → Res (List (Tensor α))}
    (hstep : ∀ (t : Tensor α) (x : List α) (acc : List (Tensor α)), Rep t ds x →
      ∃ t', body t acc = .ok (acc ++ [t']) ∧ Rep t' es x)
    (ps : List (List α)) (ts : List (Tensor α)) (hrep : RepAll ts (ps.map fun x => (ds, x))) (acc : List (Tensor α)) :
    ∃ us, forL ts acc body = .ok (acc ++ us) ∧ RepAll us (ps.map fun x => (es, x)) := by
  induction ps generalizing ts acc with
  | nil =>
    cases hrep
    exact ⟨[], by simp [forL], .nil⟩
  | cons x ps ih =>
    cases hrep with
    | cons h hrest =>
      rename_i t ts
      obtain ⟨t', e1, r1⟩ := hstep t x acc h
      obtain ⟨us, e2, r2⟩ := ih ts hrest (acc ++ [t'])
      refine ⟨t' :: us, ?_, .cons r1 r2⟩
      unfold forL at e2 ⊢
      rw [List.foldlM_cons, e1, ok_bind, e2, List.append_assoc]
      rfl

theorem dstack_of_args {ds es : List Nat} {ps : List (List α)} {ts : List (Tensor α)} (hne : ps ≠ [])
    (hstep : ∀ (t : Tensor α) (x : List α), Rep t ds x → ∃ t', Tensor.dstackArg t = .ok t' ∧ Rep t' es x)
    (hrep : RepAll ts (ps.map fun x => (ds, x))) :
    ∃ us, Tensor.dstack ts = Tensor.concatenateAxis (some 2) us ∧ RepAll us (ps.map fun x => (es, x)) := by
  obtain ⟨us, e, r⟩ := forL_push (body := fun x acc => do
    ensure (ofDims ds = x.shape)
    let y ← Tensor.dstackArg x
    return acc ++ [y]) (fun t x acc h => by
      obtain ⟨t', e1, r1⟩ := hstep t x h
      refine ⟨t', ?_, r1⟩
      rw [ensure_true h.shape.symm, ok_bind, e1]
      rfl) ps ts hrep []
  refine ⟨us, ?_, r⟩
  cases ps with
  | nil => exact absurd rfl hne
  | cons x ps =>
    cases hrep with
    | cons h hrest =>
      unfold Tensor.dstack Tensor.dstackArgs
      rename_i t ts
      have : idx (t :: ts) 0 = .ok t := rfl
      rw [this, ok_bind, h.shape, e, ok_bind, List.nil_append]

/-- C29: `dstack` of vectors of length `n` gives a `1 × n × k` tensor whose slices along the third axis are the vectors. -/
theorem C29_dstack_vectors {n : Nat} {ps : List (List α)} {ts : List (Tensor α)}
    (hrep : RepAll ts (ps.map fun x => ([n], x))) (hne : ps ≠ []) (h32 : ps.length < 2 ^ 32)
    (hfit : n * ps.length < 2 ^ 32) :
    ∃ t out, Tensor.dstack ts = .ok t ∧ Rep t [1, n, ps.length] out ∧ IsStack [1, n] [] ps out := by
  have hk : 0 < ps.length := List.length_pos_iff.2 hne
  have hnb : n < 2 ^ 32 := Nat.lt_of_le_of_lt (Nat.le_mul_of_pos_right _ hk) hfit
  obtain ⟨us, e, r⟩ := dstack_of_args (ds := [n]) (es := [1, n, 1]) hne (fun t x h => by
    have hadm : Adm [1, n, 1] := ⟨by simp, by simp; omega⟩
    obtain ⟨t', e1, r1⟩ := reshape_rep h hadm 
      (fits_cons.2 ⟨by simpa using hnb, fits_cons.2 ⟨by simpa using hnb, fits_one (by simp)⟩⟩) (by simp)
    refine ⟨t', ?_, r1⟩
    have hx : t.size = n := by rw [h.size, h.length]; simp
    unfold Tensor.dstackArg
    rw [h.rank]
    simp only [List.length_cons, List.length_nil]
    rw [hx, ofSlice_adm hadm, ok_bind, e1]) hrep
  have r' : RepAll us ((ps.map fun x => ((1 : Nat), x)).map fun p => ([1, n] ++ p.1 :: [], p.2)) := by
    simpa [List.map_map, Function.comp_def] using r
  obtain ⟨t, out, e2, r2, c2⟩ := C27_concatenate_partial (pre := [1, n]) (post := []) r' (by simpa using hne)
    (sum_ones ps) h32 (fits_cons.2 ⟨by simpa using hfit, fits_cons.2 ⟨by simpa using hfit, fits_one h32⟩⟩)
    (fits_cons.2 ⟨by simpa using hnb, fits_one hnb⟩) (by simp) (a := 2) (by simp [axisIndex])
  exact ⟨t, out, by rw [e, e2], r2, isConcat_stack c2⟩

/-- C29: `dstack` of `r × c` matrices gives a `r × c × k` tensor whose slices along the third axis are the matrices. -/
theorem C29_dstack_matrices {r c : Nat} {ps : List (List α)} {ts : List (Tensor α)}
    (hrep : RepAll ts (ps.map fun x => ([r, c], x))) (hne : ps ≠ []) (h32 : ps.length < 2 ^ 32)
    (hfit : Fits [r, c, ps.length]) :
    ∃ t out, Tensor.dstack ts = .ok t ∧ Rep t [r, c, ps.length] out ∧ IsStack [r, c] [] ps out := by
  have hpre : Fits [r, c] := by
    cases ps with
    | nil => exact absurd rfl hne
    | cons x ps => cases hrep with | cons h _ => exact h.fits
  obtain ⟨us, e, rr⟩ := dstack_of_args (ds := [r, c]) (es := [r, c, 1]) hne (fun t x h => by
    have hadm : Adm [r, c, 1] := ⟨by simp, fun e he => by
      rcases (by simpa using he : e = r ∨ e = c ∨ e = 1) with rfl | rfl | rfl
      · exact h.adm.lt _ (by simp)
      · exact h.adm.lt _ (by simp)
      · simp⟩
    obtain ⟨t', e1, r1⟩ := reshape_rep h hadm 
      (fits_cons.2 ⟨by simpa using h.prod_lt, fits_cons.2 ⟨by simpa using h.adm.lt c (by simp), fits_one (by simp)⟩⟩) (by simp)
    refine ⟨t', ?_, r1⟩
    unfold Tensor.dstackArg
    rw [h.rank]
    simp only [List.length_cons, List.length_nil]
    rw [rows_eq h.wf.shape, ok_bind, cols_eq h.wf.shape, ok_bind, h.toDims]
    have e2 : ([r, c].reverse[1]?.getD 0) = r := rfl
    have e3 : ([r, c].reverse[0]?.getD 0) = c := rfl
    rw [e2, e3, ofSlice_adm hadm, ok_bind, e1]) hrep
  have r' : RepAll us ((ps.map fun x => ((1 : Nat), x)).map fun p => ([r, c] ++ p.1 :: [], p.2)) := by
    simpa [List.map_map, Function.comp_def] using rr
  obtain ⟨t, out, e2, r2, c2⟩ := C27_concatenate_partial (pre := [r, c]) (post := []) r' (by simpa using hne)
    (sum_ones ps) h32 hfit hpre (by simp) (a := 2) (by simp [axisIndex])
  exact ⟨t, out, by rw [e, e2], r2, isConcat_stack c2⟩

/-- C29: for three or more dimensions `dstack` concatenates equally shaped tensors along axis 2. -/
theorem C29_dstack {d0 d1 d2 : Nat} {post : List Nat} {ps : List (List α)} {ts : List (Tensor α)}
    (hrep : RepAll ts (ps.map fun x => (d0 :: d1 :: d2 :: post, x)))
    (hne : ps ≠ []) (h32 : ps.length * d2 < 2 ^ 32) (hfit : Fits (d0 :: d1 :: (ps.length * d2) :: post))
    (hpre : d0 * d1 < 2 ^ 32) :
    ∃ t out, Tensor.dstack ts = .ok t ∧ Rep t (d0 :: d1 :: (ps.length * d2) :: post) out ∧
      IsConcat [d0, d1] post (ps.map fun x => (d2, x)) out := by
  have hd1 : d1 < 2 ^ 32 := by
    cases ps with
    | nil => exact absurd rfl hne
    | cons x ps => cases hrep with | cons h _ => exact h.adm.lt d1 (by simp)
  have h6 : post.length ≤ 3 := by
    cases ps with
    | nil => exact absurd rfl hne
    | cons x ps => cases hrep with | cons h _ => have := h.adm.len; simp at this; omega
  obtain ⟨us, e, r⟩ := dstack_of_args (ds := d0 :: d1 :: d2 :: post) (es := d0 :: d1 :: d2 :: post) hne (fun t x h => by
    refine ⟨t, ?_, h⟩
    unfold Tensor.dstackArg
    rw [h.rank]
    simp only [List.length_cons]
    rfl) hrep
  have r' : RepAll us ((ps.map fun x => (d2, x)).map fun p => ([d0, d1] ++ p.1 :: post, p.2)) := by
    simpa [List.map_map, Function.comp_def] using r
  have hsum : ∀ l : List (List α), ((l.map fun x => (d2, x)).map (·.1)).sum = l.length * d2 := by
    intro l
    induction l with
    | nil => simp
    | cons x l ih => rw [List.map_cons, List.map_cons, List.sum_cons, ih, List.length_cons, Nat.succ_mul, Nat.add_comm]
  obtain ⟨t, out, e2, r2, c2⟩ := C27_concatenate_partial (pre := [d0, d1]) (post := post) r'
    (by simpa using hne) (hsum ps) h32 hfit (fits_cons.2 ⟨by simpa using hpre, fits_one hd1⟩) (by omega)
    (a := 2) (by simp [axisIndex]; omega)
  exact ⟨t, out, by rw [e, e2], r2, c2⟩

/-- C29: `hstack` and `dstack` of scalars panic. -/
theorem C29_scalars_panic {t : Tensor α} {xs : List α} (h : Rep t [] xs) (ts : List (Tensor α)) :
    Tensor.hstack (t :: ts) = .error .panic ∧ Tensor.dstack (t :: ts) = .error .panic := by
  have hi : idx (t :: ts) 0 = .ok t := rfl
  constructor
  · unfold Tensor.hstack
    rw [hi, ok_bind, if_neg (by rw [h.rank]; simp)]
    unfold Tensor.concatenateAxis
    simp only [h.rank]
    rfl
  · unfold Tensor.dstack Tensor.dstackArgs forL
    rw [hi, ok_bind, List.foldlM_cons]
    dsimp only
    unfold Tensor.dstackArg
    rw [ensure_true rfl, ok_bind, h.rank]
    rfl

example : Tensor.hstack [(⟨ofDims [], 0, 1, [4]⟩ : Tensor Nat), exMat] = .error .panic :=
  (C29_scalars_panic (rep_fresh (ds := []) (xs := [4]) ⟨by simp, by simp⟩ fits_nil rfl) [exMat]).1

example : ∃ t out, Tensor.dstack [exMat, exMat] = .ok t ∧ Rep t [2, 3, 2] out ∧
    IsStack [2, 3] [] [[1, 2, 3, 4, 5, 6], [1, 2, 3, 4, 5, 6]] out :=
  C29_dstack_matrices (ps := [[1, 2, 3, 4, 5, 6], [1, 2, 3, 4, 5, 6]]) (.cons exMat_rep (.cons exMat_rep .nil))
    (by simp) (by simp) (fits_of_pos (by simp) (by simp))

example : ∃ t out, Tensor.vstack [exMat, exMat] = .ok t ∧
    Rep t [2, 2, 3] out ∧ IsStack [] [2, 3] [[1, 2, 3, 4, 5, 6], [1, 2, 3, 4, 5, 6]] out ∧
    (0 < [2, 3].prod → ∃ t', Tensor.stack [exMat, exMat] = .ok t' ∧ Rep t' [2, 2, 3] out) :=
  C29_vstack_partial (ds := [2, 3]) (ps := [[1, 2, 3, 4, 5, 6], [1, 2, 3, 4, 5, 6]])
    (.cons exMat_rep (.cons exMat_rep .nil)) (by simp) (by simp) (fits_of_pos (by simp) (by simp)) (by simp)

example : ∃ t out, Tensor.hstack [exMat, exCol] = .ok t ∧ Rep t [2, 4] out ∧
    IsConcat [2] [] [(3, [1, 2, 3, 4, 5, 6]), (1, [7, 8])] out :=
  C29_hstack (ps := [(3, [1, 2, 3, 4, 5, 6]), (1, [7, 8])]) (.cons exMat_rep (.cons exCol_rep .nil)) (by simp) (by simp)
    (by simp) (fits_of_pos (by simp) (by simp))

/-! ## C30 split -/

/-- C30: cut positions. Ascending cuts within the axis give one piece per non-empty range between consecutive cuts, each
piece holding exactly the coordinates of its range; every other list of cuts panics. -/
theorem C30_split_cuts {t : Tensor α} {pre post : List Nat} {d : Nat} {xs : List α} (h : Rep t (pre ++ d :: post) xs)
    (hne : xs ≠ []) {a : Int} (ha : axisIndex (pre ++ d :: post).length a = some pre.length) (cuts : List Nat) :
    (Ascending 0 (cuts ++ [d]) → ∃ ts, t.splitAxis (some a) (.splitCuts cuts) = .ok ts ∧
      IsPieces pre d post xs ts (ranges 0 (cuts ++ [d]))) ∧
    (¬ Ascending 0 (cuts ++ [d]) → t.splitAxis (some a) (.splitCuts cuts) = .error .panic) := by
  have hax := axisFromRank_eq h.adm.len ha
  constructor
  · intro hasc
    exact splitAxis_eq h hne hax rfl hasc (ascending_le hasc)
  · intro hasc
    exact splitAxis_bad h hne hax rfl fun hg => hasc hg.1

/-- C30: concatenating the pieces along the axis gives back the tensor. (`hr`: six-dimensional tensors cannot be
concatenated along axis 0, see `C27_rank6_violates`.) -/
theorem C30_split_concat_partial {t : Tensor α} {pre post : List Nat} {d : Nat} {xs : List α} (h : Rep t (pre ++ d :: post) xs)
    (hne : xs ≠ []) {a : Int} (ha : axisIndex (pre ++ d :: post).length a = some pre.length) (cuts : List Nat)
    (hasc : Ascending 0 (cuts ++ [d])) (hr : post.length < 5) :
    ∃ ts u, t.splitAxis (some a) (.splitCuts cuts) = .ok ts ∧ Tensor.concatenateAxis (some a) ts = .ok u ∧
      Rep u (pre ++ d :: post) xs := by
  have hxp : 0 < (pre ++ d :: post).prod := by rw [← h.length]; exact List.length_pos_iff.2 hne
  obtain ⟨ts, e, hp⟩ := (C30_split_cuts h hne ha cuts).1 hasc
  obtain ⟨u, eu, ru⟩ := concat_pieces h.length hxp h.prod_lt hr hasc hp
  refine ⟨ts, u, e, ?_, ru⟩
  have hd : 0 < d := pos_of_prod_pos hxp d (by simp)
  obtain ⟨k, r, hk, _⟩ := ranges_cover cuts 0 d 0 hasc (Nat.le_refl _) hd
  generalize ranges 0 (cuts ++ [d]) = rs at hp hk
  cases hp with
  | nil => simp at hk
  | cons hr1 _ _ =>
    have h6 := h.adm.len
    rw [axis_head (k := pre.length) rfl (by
      rw [hr1.rank]
      simp only [List.length_append, List.length_cons] at h6 ha ⊢
      exact axisFromRank_eq h6 ha)]
    exact eu

example : ∃ ts u, exMat.splitAxis (some (-1)) (.splitCuts [1, 2]) = .ok ts ∧
    Tensor.concatenateAxis (some (-1)) ts = .ok u ∧ Rep u [2, 3] [1, 2, 3, 4, 5, 6] :=
  C30_split_concat_partial (pre := [2]) (post := []) exMat_rep (by simp) (by decide) [1, 2]
    ⟨by omega, by omega, by omega, trivial⟩ (by simp)

/-- C30: `n` equal sections where `n` divides the axis length: exactly `n` pieces of `d / n` coordinates each. -/
theorem C30_split_equal {t : Tensor α} {pre post : List Nat} {d : Nat} {xs : List α} (h : Rep t (pre ++ d :: post) xs)
    (hne : xs ≠ []) {a : Int} (ha : axisIndex (pre ++ d :: post).length a = some pre.length) (n : Nat) (hn : n ∣ d) :
    ∃ ts, t.splitAxis (some a) (.splitEqual n) = .ok ts ∧ ts.length = n ∧
      IsPieces pre d post xs ts ((List.range n).map fun k => (k * (d / n), (k + 1) * (d / n))) := by
  have hxp : 0 < (pre ++ d :: post).prod := by rw [← h.length]; exact List.length_pos_iff.2 hne
  have hd : 0 < d := pos_of_prod_pos hxp d (by simp)
  have hax := axisFromRank_eq h.adm.len ha
  obtain ⟨s, rfl⟩ := hn
  have hn0 : 0 < n := Nat.pos_of_mul_pos_right hd
  have hs0 : 0 < s := Nat.pos_of_mul_pos_left hd
  have hq : n * s / n = s := Nat.mul_div_cancel_left s hn0
  have hceil : (n * s + s - 1) / s = n := by
    rw [Nat.div_eq_iff hs0]
    omega
  have hc := equalCuts_eq (len := n * s) hs0 (n * s) 0 (by rw [hceil]; exact Nat.le_trans (Nat.le_mul_of_pos_right _ hs0) (by omega))
  rw [Nat.zero_mul, hceil] at hc
  have hsec : Tensor.sectionCuts (n * s) (.splitEqual n) = .ok ((List.range' 1 n).map (· * s)) := by
    unfold Tensor.sectionCuts
    simp only
    rw [udiv_ok (by omega), ok_bind, hq, ensure_true hs0, ok_bind, hc]
    rfl
  have hasc := ascending_mul s 0 n
  have hrg := ranges_mul hs0 0 n
  rw [Nat.zero_mul] at hasc hrg
  obtain ⟨ts, e, hp⟩ := splitAxis_eq h hne hax hsec hasc (by
    intro c hc
    obtain ⟨k, hk, rfl⟩ := List.mem_map.1 hc
    have := List.mem_range'_1.1 hk
    exact Nat.mul_le_mul_right _ (by omega))
  rw [Nat.zero_add] at hrg
  rw [hrg, ← List.range_eq_range'] at hp
  refine ⟨ts, e, ?_, by rw [hq]; exact hp⟩
  have : ∀ {pre d post} {xs : List α} {ts rs}, IsPieces pre d post xs ts rs → ts.length = rs.length := by
    intro _ _ _ _ _ _ hp
    induction hp with
    | nil => rfl
    | cons _ _ _ ih => simp [ih]
  simpa using this hp

/-- C30: what happens when `n` does not divide the axis length `d`. Pieces of `d / n` coordinates are cut off; if they do
not add up to `d` the call panics (also when `d / n = 0`). -/
theorem C30_split_equal_uneven {t : Tensor α} {pre post : List Nat} {d : Nat} {xs : List α} (h : Rep t (pre ++ d :: post) xs)
    (hne : xs ≠ []) {a : Int} (ha : axisIndex (pre ++ d :: post).length a = some pre.length) (n : Nat)
    (hn : ¬ (d / n) ∣ d) : t.splitAxis (some a) (.splitEqual n) = .error .panic := by
  have hxp : 0 < (pre ++ d :: post).prod := by rw [← h.length]; exact List.length_pos_iff.2 hne
  have hd : 0 < d := pos_of_prod_pos hxp d (by simp)
  have hax := axisFromRank_eq h.adm.len ha
  have hdim : t.shape.dim pre.length = Except.ok d := dim_eq h.wf.shape (by rw [h.toDims]; simp)
  rcases Nat.eq_zero_or_pos (d / n) with h0 | h0
  · unfold Tensor.splitAxis
    rw [h.rank, hax, ok_bind, hdim, ok_bind]
    unfold Tensor.sectionCuts
    simp only
    by_cases hn0 : n = 0
    · subst hn0
      rfl
    · rw [udiv_ok hn0, ok_bind, h0]
      rfl
  · generalize hs : d / n = s at *
    have hn0 : n ≠ 0 := by intro h0; subst h0; simp at hs; omega
    have hc := equalCuts_eq (len := d) h0 d 0 (by simpa using ceil_le h0)
    rw [Nat.zero_mul] at hc
    have hsec : Tensor.sectionCuts d (.splitEqual n) = .ok ((List.range' 1 ((d + s - 1) / s)).map (· * s)) := by
      unfold Tensor.sectionCuts
      simp only
      rw [udiv_ok hn0, ok_bind, hs, ensure_true h0, ok_bind, hc]
      rfl
    apply splitAxis_bad h hne hax hsec
    rintro ⟨_, hle⟩
    have hm : 0 < (d + s - 1) / s := Nat.div_pos (by omega) h0
    have h1 := hle ((d + s - 1) / s * s) (List.mem_map.2 ⟨_, List.mem_range'_1.2 ⟨by omega, by omega⟩, rfl⟩)
    have h2 := Nat.div_add_mod (d + s - 1) s
    have h3 := Nat.mod_lt (d + s - 1) h0
    rw [Nat.mul_comm] at h2
    exact hn ⟨(d + s - 1) / s, by rw [Nat.mul_comm]; omega⟩

theorem res_bind_panic {γ δ : Type} {x : Res γ} (hx : NoUB x) {f : γ → Res δ} (h : ∀ a, f a = .error .panic) :
    x >>= f = .error .panic := by
  cases x with
  | ok a => exact h a
  | error e =>
    cases e with
    | panic => rfl
    | ub => exact absurd rfl hx

theorem splitPiece_zero {t : Tensor α} {pre post : List Nat} {d : Nat} {xs : List α} (h : Rep t (pre ++ d :: post) xs)
    (h0 : 0 ∈ pre ++ post) (o i l : Nat) (x : List α) (lo hi : Nat) :
    Tensor.splitPiece t pre.length o i l x lo hi = .error .panic := by
  have hlen := h.adm.len
  unfold Tensor.splitPiece
  rw [forR_dims h.wf.shape (Nat.zero_le _) (by rw [h.rank]; simp), ok_bind]
  refine res_bind_panic (by simp) fun n => ?_
  rw [h.rank, forR_dims h.wf.shape (by simp) (by rw [h.rank]; exact Nat.le_refl _), ok_bind, h.toDims]
  have ev : [] ++ List.take (pre.length - 0) (List.drop 0 (pre ++ d :: post)) ++ [n] ++
      List.take ((pre ++ d :: post).length - (pre.length + 1)) (List.drop (pre.length + 1) (pre ++ d :: post)) =
      pre ++ n :: post := by
    have : List.drop (pre.length + 1) (pre ++ d :: post) = post := by
      rw [List.drop_append]; simp
    rw [this]
    simp [show pre.length + (post.length + 1) - (pre.length + 1) = post.length by omega]
  rw [ev, ofVec_zero_panic (by simp at hlen ⊢; omega) (by
    rcases List.mem_append.1 h0 with h1 | h1
    · exact List.mem_append_left _ h1
    · exact List.mem_append_right _ (List.mem_cons_of_mem _ h1))]
  rfl

theorem subslice_zero {t : Tensor α} {post : List Nat} {d : Nat} {xs : List α} (h : Rep t (d :: post) xs)
    (h0 : 0 ∈ post) (o n : Nat) : t.subslice o n = .error .panic := by
  have hlen := h.adm.len
  unfold Tensor.subslice
  simp only [wrap_checked]
  refine res_bind_panic (noUB_dim _ _) fun _ => res_bind_panic (by simp) fun _ => ?_
  rw [h.dims, ok_bind]
  refine res_bind_panic (by simp) fun _ => ?_
  have : setIdx (d :: post) 0 n = .ok (n :: post) := rfl
  rw [this, ok_bind, ofVec_zero_panic (by simpa using hlen) (List.mem_cons_of_mem _ h0)]
  rfl

theorem splitOuter_zero {t : Tensor α} {post : List Nat} {d : Nat} {xs : List α} (h : Rep t (d :: post) xs)
    (h0 : 0 ∈ post) (cuts : List Nat) (prev : Nat) (hc : ∃ c ∈ cuts, c ≠ prev) :
    Tensor.splitOuter t cuts prev = .error .panic := by
  induction cuts with
  | nil => obtain ⟨c, hc, _⟩ := hc; cases hc
  | cons c cuts ih =>
    unfold Tensor.splitOuter
    by_cases e : c = prev
    · subst e
      rw [if_neg (by simp)]
      obtain ⟨c', h1, h2⟩ := hc
      rcases List.mem_cons.1 h1 with rfl | h1
      · exact absurd rfl h2
      · exact ih ⟨c', h1, h2⟩
    · rw [if_pos e]
      refine res_bind_panic (by simp) fun _ => ?_
      rw [subslice_zero h h0]
      rfl

theorem splitInner_zero {t : Tensor α} {pre post : List Nat} {d : Nat} {xs : List α} (h : Rep t (pre ++ d :: post) xs)
    (h0 : 0 ∈ pre ++ post) (o i l : Nat) (x : List α) (cuts : List Nat) (prev : Nat) (hc : ∃ c ∈ cuts, c ≠ prev) :
    Tensor.splitInner t pre.length o i l x cuts prev = .error .panic := by
  induction cuts with
  | nil => obtain ⟨c, hc, _⟩ := hc; cases hc
  | cons c cuts ih =>
    unfold Tensor.splitInner
    by_cases e : c = prev
    · subst e
      rw [if_pos rfl]
      obtain ⟨c', h1, h2⟩ := hc
      rcases List.mem_cons.1 h1 with rfl | h1
      · exact absurd rfl h2
      · exact ih ⟨c', h1, h2⟩
    · rw [if_neg e, splitPiece_zero h h0]
      rfl

theorem sectionCuts_pos {d : Nat} (hd : 0 < d) {sec : Tensor.Sections} {cuts : List Nat}
    (h : Tensor.sectionCuts d sec = .ok cuts) : ∃ c ∈ cuts, c ≠ 0 := by
  cases sec with
  | splitCuts cs =>
    cases h
    exact ⟨d, by simp, by omega⟩
  | splitEqual n =>
    obtain ⟨s, _, h⟩ := bind_eq_ok.1 h
    obtain ⟨_, h2, h⟩ := bind_eq_ok.1 h
    cases h
    have hs := ensure_eq_ok.1 h2
    obtain ⟨d, rfl⟩ : ∃ k, d = k + 1 := ⟨d - 1, by omega⟩
    refine ⟨s, ?_, by omega⟩
    unfold Tensor.equalCuts
    rw [if_pos (by omega)]
    simp

theorem noUB_sectionCuts (d : Nat) (sec : Tensor.Sections) : NoUB (Tensor.sectionCuts d sec) := by
  cases sec with
  | splitCuts cs => simp [Tensor.sectionCuts]
  | splitEqual n =>
    exact noUB_bind (by simp) fun _ _ => noUB_bind (by simp) fun _ _ => by simp

/-- C30: false for tensors with a dimension 0 other than the axis to split: every split panics, because the shape of a
piece is made by a conversion that rejects dimensions 0. -/
theorem C30_empty_violates {t : Tensor α} {pre post : List Nat} {d : Nat} {xs : List α} (h : Rep t (pre ++ d :: post) xs)
    (h0 : 0 ∈ pre ++ post) (hd : 0 < d) {a : Int} (ha : axisIndex (pre ++ d :: post).length a = some pre.length)
    (sec : Tensor.Sections) : t.splitAxis (some a) sec = .error .panic := by
  have hdim : t.shape.dim pre.length = Except.ok d := dim_eq h.wf.shape (by rw [h.toDims]; simp)
  unfold Tensor.splitAxis
  rw [h.rank, axisFromRank_eq h.adm.len ha, ok_bind, hdim, ok_bind]
  cases hs : Tensor.sectionCuts d sec with
  | error e =>
    have := noUB_sectionCuts d sec
    rw [hs] at this
    cases e with
    | panic => rfl
    | ub => exact absurd rfl this
  | ok cuts =>
    have hc := sectionCuts_pos hd hs
    rw [ok_bind]
    split
    · rename_i hp
      have : pre = [] := List.length_eq_zero_iff.1 hp
      subst this
      exact splitOuter_zero h (by simpa using h0) cuts 0 hc
    · unfold Tensor.splitByAxis
      refine res_bind_panic (noUB_sublen _ _ _) fun _ => ?_
      rw [h.rank, if_pos (by simp)]
      refine res_bind_panic (noUB_sublen _ _ _) fun _ => ?_
      dsimp only
      rw [hdim, ok_bind, h.elems, ok_bind]
      exact splitInner_zero h h0 _ _ _ _ cuts 0 hc

example : exNoCols.splitAxis (some 0) (.splitEqual 2) = .error .panic :=
  C30_empty_violates (pre := []) (post := [0]) exNoCols_rep (by simp) (by simp) (by decide) _

/-- C30: an axis of length 0 is split into no pieces at all if every cut is 0, and cannot be split into equal sections.
(`hpre`: the dimensions in front multiply to less than 2^32.) -/
theorem C30_zero_axis {t : Tensor α} {pre post : List Nat} {xs : List α} (h : Rep t (pre ++ 0 :: post) xs)
    (hpre : Fits pre) {a : Int} (ha : axisIndex (pre ++ 0 :: post).length a = some pre.length) (cuts : List Nat)
    (hc : ∀ c ∈ cuts, c = 0) (n : Nat) :
    t.splitAxis (some a) (.splitCuts cuts) = .ok [] ∧ t.splitAxis (some a) (.splitEqual n) = .error .panic := by
  have hdim : t.shape.dim pre.length = Except.ok 0 := dim_eq h.wf.shape (by rw [h.toDims]; simp)
  have ho : ∀ cs : List Nat, (∀ c ∈ cs, c = 0) → Tensor.splitOuter t cs 0 = .ok [] := by
    intro cs
    induction cs with
    | nil => intro _; rfl
    | cons c cs ih =>
      intro hc
      have : c = 0 := hc c (by simp)
      subst this
      unfold Tensor.splitOuter
      rw [if_neg (by simp)]
      exact ih fun c h => hc c (List.mem_cons_of_mem _ h)
  have hi : ∀ (o i l : Nat) (x : List α) (cs : List Nat), (∀ c ∈ cs, c = 0) →
      Tensor.splitInner t pre.length o i l x cs 0 = .ok [] := by
    intro o i l x cs
    induction cs with
    | nil => intro _; rfl
    | cons c cs ih =>
      intro hc
      have : c = 0 := hc c (by simp)
      subst this
      unfold Tensor.splitInner
      rw [if_pos rfl]
      exact ih fun c h => hc c (List.mem_cons_of_mem _ h)
  have hc' : ∀ c ∈ cuts ++ [0], c = 0 := by
    intro c hm
    rcases List.mem_append.1 hm with h1 | h1
    · exact hc c h1
    · simpa using h1
  unfold Tensor.splitAxis
  rw [h.rank, axisFromRank_eq h.adm.len ha]
  constructor
  · simp only [ok_bind, hdim, Tensor.sectionCuts, pure_eq_ok]
    split
    · exact ho _ hc'
    · unfold Tensor.splitByAxis
      rw [h.shape, sublen_ofDims h.adm.len (Nat.zero_le _) (by simp)]
      have e1 := foldlM_fits hpre
      have e2 := foldlM_fits h.fits.tail
      simp only [Nat.sub_zero, List.drop_zero, List.take_left']
      rw [e1, ok_bind, if_pos (by simp), sublen_ofDims h.adm.len (by simp) (by simp)]
      have : (List.take ((ofDims (pre ++ 0 :: post)).rank - (pre.length + 1)) (List.drop (pre.length + 1) (pre ++ 0 :: post))) = post := by
        rw [← List.drop_drop]; simp [show pre.length + (post.length + 1) - (pre.length + 1) = post.length by omega]
      rw [this, e2, ok_bind, ← h.shape, hdim, ok_bind, h.elems, ok_bind]
      exact hi _ _ _ _ _ hc'
  · simp only [ok_bind, hdim]
    have : Tensor.sectionCuts 0 (.splitEqual n) = .error .panic := by
      unfold Tensor.sectionCuts
      by_cases hn : n = 0
      · subst hn; rfl
      · simp only
        rw [udiv_ok hn, ok_bind, Nat.zero_div]
        rfl
    rw [this]; rfl

example : exNoCols.splitAxis (some 1) (.splitCuts []) = .ok [] :=
  (C30_zero_axis (pre := [2]) (post := []) exNoCols_rep (fits_one (by simp)) (by decide) [] (by simp) 1).1

/-- A vector of six elements and one of five. -/
def exSix : Tensor Nat := { shape := ofDims [6], offset := 0, size := 6, data := [0, 1, 2, 3, 4, 5] }
def exVec5 : Tensor Nat := { shape := ofDims [5], offset := 0, size := 5, data := [0, 1, 2, 3, 4] }

/-- C30: asking for 4 equal sections of 6 elements silently returns 6 pieces; 2 sections of 5 elements panic. -/
theorem C30_uneven_violates : (∃ ts, exSix.splitAxis (some 0) (.splitEqual 4) = .ok ts ∧ ts.length = 6) ∧
    exVec5.splitAxis (some 0) (.splitEqual 2) = .error .panic := by
  constructor
  · have : ∃ ts, exSix.splitAxis (some 0) (.splitEqual 4) = .ok ts := by
      cases h : exSix.splitAxis (some 0) (.splitEqual 4) with
      | ok ts => exact ⟨ts, rfl⟩
      | error e =>
        exfalso
        have : (match exSix.splitAxis (some 0) (.splitEqual 4) with | .ok _ => true | .error _ => false) = true := by
          decide +kernel
        rw [h] at this
        simp at this
    obtain ⟨ts, h⟩ := this
    refine ⟨ts, h, ?_⟩
    have : (match exSix.splitAxis (some 0) (.splitEqual 4) with | .ok ts => ts.length | .error _ => 0) = 6 := by
      decide +kernel
    rwa [h] at this
  · decide +kernel

example : ∃ ts, exMat.splitAxis (some (-1)) (.splitCuts [1, 1]) = .ok ts ∧
    IsPieces [2] 3 [] [1, 2, 3, 4, 5, 6] ts [(0, 1), (1, 3)] :=
  (C30_split_cuts (pre := [2]) (post := []) exMat_rep (by simp) (by decide) [1, 1]).1 ⟨by omega, by omega, by omega, trivial⟩

example : ∃ ts, exMat.splitAxis (some 1) (.splitEqual 3) = .ok ts ∧ ts.length = 3 ∧
    IsPieces [2] 3 [] [1, 2, 3, 4, 5, 6] ts [(0, 1), (1, 2), (2, 3)] :=
  C30_split_equal (pre := [2]) (post := []) exMat_rep (by simp) (by decide) 3 (by simp)

example : exMat.splitAxis (some 1) (.splitCuts [2, 1]) = .error .panic :=
  (C30_split_cuts (pre := [2]) (post := []) exMat_rep (by simp) (by decide) [2, 1]).2 (by simp [Ascending])

/-! ## C31 unstack -/

/-- C31 fails for every input: `unstack` along axis 0 always returns no tensors. -/
theorem C31_unstack_outer_violates {t : Tensor α} {ds : List Nat} {xs : List α} (h : Rep t ds xs) {a : Int}
    (ha : axisIndex ds.length a = some 0) : t.unstack (some a) = .ok [] ∧ t.unstack none = .ok [] := by
  constructor
  · unfold Tensor.unstack
    rw [h.rank, axisFromRank_eq h.adm.len ha]
    rfl
  · rfl

/-- C31 fails for every input: along any other axis of a non-empty tensor `unstack` returns the whole tensor as its only
piece, with the axis still there. -/
theorem C31_unstack_inner_violates {t : Tensor α} {pre post : List Nat} {d : Nat} {xs : List α}
    (h : Rep t (pre ++ d :: post) xs) (hne : xs ≠ []) (hp : pre ≠ []) {a : Int}
    (ha : axisIndex (pre ++ d :: post).length a = some pre.length) :
    ∃ u, t.unstack (some a) = .ok [u] ∧ Rep u (pre ++ d :: post) xs := by
  have hxp : 0 < (pre ++ d :: post).prod := by rw [← h.length]; exact List.length_pos_iff.2 hne
  have hd : 0 < d := pos_of_prod_pos hxp d (by simp)
  have ha2 : axisIndex (pre ++ d :: post).length (pre.length : Int) = some pre.length := by
    unfold axisIndex
    rw [if_pos (by simp; omega)]
    rfl
  obtain ⟨ts, e, hpc⟩ := (C30_split_cuts h hne ha2 []).1 ⟨Nat.zero_le _, trivial⟩
  have hrg : ranges 0 ([] ++ [d]) = [(0, d)] := by simp [ranges, hd]
  rw [hrg] at hpc
  cases hpc with
  | cons hr hs hnil =>
    rename_i u ys ts
    cases hnil
    refine ⟨u, ?_, ?_⟩
    · unfold Tensor.unstack
      rw [h.rank, axisFromRank_eq h.adm.len ha, ok_bind]
      simp only
      rw [if_neg (by simpa using hp)]
      exact e
    · rw [Nat.sub_zero] at hr hs
      have : ys = xs := by
        apply slices_ext (pre := pre) (post := post) (D := d) hr.length h.length
        intro c hc
        refine ⟨0, d, ys, Nat.zero_le _, by omega, ?_, hs⟩
        exact ⟨hs.1, by omega, fun i a j _ _ => by rw [Nat.zero_add]⟩
      rw [← this]
      exact hr

example : ∃ u, exMat.unstack (some 1) = .ok [u] ∧ Rep u [2, 3] [1, 2, 3, 4, 5, 6] :=
  C31_unstack_inner_violates (pre := [2]) (post := []) exMat_rep (by simp) (by simp) (by decide)

example : exMat.unstack (some (-2)) = .ok [] := (C31_unstack_outer_violates exMat_rep (by decide)).1

/-! ## C32 tile -/

/-- C32: tiling by a vector of positive multiples. Dimensions missing on either side count as 1 (in front); each dimension
of the result is the multiple times the dimension; each element is the element of `x` at the index taken modulo the
dimensions of `x`.
Missing from the full claim: multiples that are not a vector (see `C32_matrix_multiples_violates`). -/
theorem C32_tile_partial {t : Tensor α} {ds : List Nat} {xs : List α} (h : Rep t ds xs) {mt : Tensor Nat} {ms : List Nat}
    (hm : Rep mt [ms.length] ms) (hxs : xs ≠ []) (hms : ∀ m ∈ ms, 0 < m) (hN : ms.length ≤ 6)
    (hfit : ms.prod * ds.prod < 2 ^ 32) (hne : ds ≠ [] ∨ ms ≠ []) :
    ∃ u out, Tensor.tile t mt = .ok u ∧
      Rep u (mulDims (padLeft (max ds.length ms.length) ms) (padLeft (max ds.length ms.length) ds)) out ∧
      ∀ idx p, ravel (mulDims (padLeft (max ds.length ms.length) ms) (padLeft (max ds.length ms.length) ds)) idx = some p →
        out[p]? = at? (padLeft (max ds.length ms.length) ds) xs
          (List.zipWith (· % ·) idx (padLeft (max ds.length ms.length) ds)) := by
  have hl : 0 < max ds.length ms.length := by
    rcases hne with hne | hne <;> have := List.length_pos_iff.2 hne <;> omega
  obtain ⟨u, e, r⟩ := tile_eq h hm hxs hms hN hfit (by omega)
  refine ⟨u, _, e, r, fun idx p hp => ?_⟩
  exact tileElems_at _ _ (by rw [padLeft_length (by omega), padLeft_length (by omega)]) xs (by rw [padLeft_prod, h.length]) idx p hp

/-- C32: a zero multiple is rejected. -/
theorem C32_zero_multiple {t : Tensor α} {ds : List Nat} {xs : List α} (h : Rep t ds xs) {mt : Tensor Nat} {ms : List Nat}
    (hm : Rep mt [ms.length] ms) (h0 : 0 ∈ ms) : Tensor.tile t mt = .error .panic := by
  have hlen : mt.shape.len = Except.ok ms.length := by
    unfold Shape.len
    exact dim_eq hm.wf.shape (by rw [hm.toDims]; rfl)
  unfold Tensor.tile
  rw [asVec_eq h.wf.shape, ok_bind, h.toDims, hm.elems, ok_bind, h.size_eq, ok_bind, h.elems, ok_bind, hlen, ok_bind, h.rank]
  have ht := tile_shape (ds := ds) (ms := ms) (N := max ds.length ms.length)
  dsimp only at ht ⊢
  rw [ht, ok_bind]
  rcases ofVec_cases ((List.range (max ds.length ms.length)).map fun k =>
    ds.reverse.getD k 1 * ms.reverse.getD k 1).reverse with ⟨_, hpos, _⟩ | hp
  · exfalso
    obtain ⟨k, hk, hk0⟩ := List.mem_iff_getElem.1 (List.mem_reverse.2 h0)
    rw [List.length_reverse] at hk
    have := hpos (ds.reverse.getD k 1 * ms.reverse.getD k 1)
      (List.mem_reverse.2 (List.mem_map.2 ⟨k, List.mem_range.2 (by omega), rfl⟩))
    have hz : ms.reverse.getD k 1 = 0 := by
      rw [List.getD_eq_getElem?_getD, List.getElem?_eq_getElem (by simpa using hk), hk0]; rfl
    rw [hz] at this
    omega
  · rw [hp]
    rfl

example : Tensor.tile exMat (⟨ofDims [2], 0, 2, [3, 0]⟩ : Tensor Nat) = .error .panic :=
  C32_zero_multiple exMat_rep (ms := [3, 0])
    (rep_fresh (ds := [2]) (xs := [3, 0]) ⟨by simp, by simp⟩ (fits_of_pos (by simp) (by simp)) rfl) (by simp)

/-- C32: a scalar as multiples panics. -/
theorem C32_scalar_multiples {t : Tensor α} {ds : List Nat} {xs : List α} (h : Rep t ds xs) {mt : Tensor Nat}
    {ms : List Nat} (hm : Rep mt [] ms) : Tensor.tile t mt = .error .panic := by
  have hlen : mt.shape.len = Except.error .panic := by
    unfold Shape.len
    exact dim_ge (by rw [hm.rank]; simp)
  unfold Tensor.tile
  rw [asVec_eq h.wf.shape, ok_bind, h.toDims, hm.elems, ok_bind, h.size_eq, ok_bind, h.elems, ok_bind, hlen]
  rfl

example : Tensor.tile exMat (⟨ofDims [], 0, 1, [3]⟩ : Tensor Nat) = .error .panic :=
  C32_scalar_multiples exMat_rep (ms := [3]) (rep_fresh (ds := []) (xs := [3]) ⟨by simp, by simp⟩ fits_nil rfl)

/-- The `1 × 2` matrices `[[0, 3]]` and `[[2, 3]]` used as multiples, and a one-element vector. -/
def exMul03 : Tensor Nat := { shape := ofDims [1, 2], offset := 0, size := 2, data := [0, 3] }
def exMul23 : Tensor Nat := { shape := ofDims [1, 2], offset := 0, size := 2, data := [2, 3] }
def exOne : Tensor Nat := { shape := ofDims [1], offset := 0, size := 1, data := [9] }

theorem exMul03_rep : Rep exMul03 [1, 2] [0, 3] :=
  ⟨⟨wf_ofDims ⟨by simp, by simp⟩, rfl, by simp [exMul03]⟩, rfl, rfl⟩
theorem exMul23_rep : Rep exMul23 [1, 2] [2, 3] :=
  ⟨⟨wf_ofDims ⟨by simp, by simp⟩, rfl, by simp [exMul23]⟩, rfl, rfl⟩
theorem exOne_rep : Rep exOne [1] [9] :=
  ⟨⟨wf_ofDims ⟨by simp, by simp⟩, rfl, by simp [exOne]⟩, rfl, rfl⟩

/-- C32 fails for a matrix of multiples, with safe code only: the first call writes outside its result buffer, the second
leaves part of the buffer uninitialised. Both are undefined behaviour. -/
theorem C32_matrix_multiples_violates :
    Tensor.tile exOne exMul03 = .error .ub ∧ Tensor.tile exOne exMul23 = .error .ub :=
  ⟨by decide +kernel, by decide +kernel⟩

def exMul : Tensor Nat := { shape := ofDims [3], offset := 0, size := 3, data := [2, 1, 2] }

example : ∃ u out, Tensor.tile exMat exMul = .ok u ∧ Rep u [2, 2, 6] out ∧
    ∀ idx p, ravel [2, 2, 6] idx = some p →
      out[p]? = at? [1, 2, 3] [1, 2, 3, 4, 5, 6] (List.zipWith (· % ·) idx [1, 2, 3]) :=
  C32_tile_partial exMat_rep (ms := [2, 1, 2])
    ⟨⟨wf_ofDims ⟨by simp, by simp⟩, rfl, by simp [exMul]⟩, rfl, rfl⟩ (by simp) (by simp) (by simp) (by simp) (by simp)

example : ∃ t out, Tensor.hstack [exSix, exVec5] = .ok t ∧ Rep t [11] out ∧
    IsConcat [] [] [(6, [0, 1, 2, 3, 4, 5]), (5, [0, 1, 2, 3, 4])] out :=
  C29_hstack_vectors (ps := [(6, [0, 1, 2, 3, 4, 5]), (5, [0, 1, 2, 3, 4])])
    (.cons ⟨⟨wf_ofDims ⟨by simp, by simp⟩, rfl, by simp [exSix]⟩, rfl, rfl⟩
      (.cons ⟨⟨wf_ofDims ⟨by simp, by simp⟩, rfl, by simp [exVec5]⟩, rfl, rfl⟩ .nil)) (by simp) (by simp) (by simp)

example : ∃ t out, Tensor.dstack [exVec5, exVec5] = .ok t ∧ Rep t [1, 5, 2] out ∧
    IsStack [1, 5] [] [[0, 1, 2, 3, 4], [0, 1, 2, 3, 4]] out := by
  have h : Rep exVec5 [5] [0, 1, 2, 3, 4] := ⟨⟨wf_ofDims ⟨by simp, by simp⟩, rfl, by simp [exVec5]⟩, rfl, rfl⟩
  exact C29_dstack_vectors (ps := [[0, 1, 2, 3, 4], [0, 1, 2, 3, 4]]) (.cons h (.cons h .nil)) (by simp) (by simp) (by simp)

example : ∃ t out, Tensor.dstack [exCube, exCube] = .ok t ∧ Rep t [2, 2, 4] out ∧
    IsConcat [2, 2] [] [(2, [0, 1, 2, 3, 4, 5, 6, 7]), (2, [0, 1, 2, 3, 4, 5, 6, 7])] out :=
  C29_dstack (d0 := 2) (d1 := 2) (d2 := 2) (post := []) (ps := [[0, 1, 2, 3, 4, 5, 6, 7], [0, 1, 2, 3, 4, 5, 6, 7]])
    (.cons exCube_rep (.cons exCube_rep .nil)) (by simp) (by simp) (fits_of_pos (by simp) (by simp)) (by simp)

example : exVec5.splitAxis (some 0) (.splitEqual 2) = .error .panic :=
  C30_split_equal_uneven (pre := []) (post := []) (d := 5) (xs := [0, 1, 2, 3, 4])
    ⟨⟨wf_ofDims ⟨by simp, by simp⟩, rfl, by simp [exVec5]⟩, rfl, rfl⟩ (by simp) (by decide) 2 (by decide)

end Essay
