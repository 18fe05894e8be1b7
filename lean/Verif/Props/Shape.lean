import Verif.Lemmas.Shape

/-!
# Properties C01 - C05 (shape part)

The observer is `asVec` (the API's `as_vec`): the list of dimensions, outermost first. `s.WF` (Spec/Shape) is the
representation invariant; `Built` below lists the histories of public operations, and `built_wf` shows every such
history ends in a shape satisfying it.
-/

namespace Essay

open Shape

/-! ## C01 Shape conversion round trip -/

/-- What C01 says about a shape `s` and the dimensions `ds` it was built from. -/
structure ReadsBack (s : Shape) (ds : List Nat) : Prop where
  asVec : s.asVec = .ok ds
  rank : s.rank = ds.length
  dim : ∀ i d, ds[i]? = some d → s.dim i = .ok d
  dim_out : ∀ i, ds.length ≤ i → s.dim i = .error .panic
  rdim : ∀ i d, ds[i]? = some d → s.rdim (ds.length - 1 - i) = .ok d
  cols : ∀ d, ds.getLast? = some d → s.cols = .ok d
  rows : s.rows = .ok (if 2 ≤ ds.length then ds[ds.length - 2]?.getD 0 else 0)
  len : ∀ d, ds.head? = some d → s.len = .ok d
  size : 0 < ds.prod → ds.prod < 2 ^ 32 → s.size = .ok ds.prod
  size_exact : ∀ n, s.size = .ok n → n = ds.prod

theorem WF.readsBack {s : Shape} (h : s.WF) : ReadsBack s s.toDims := by
  constructor
  · exact asVec_eq h
  · exact h.rank_eq
  · intro i d hd; exact dim_eq h hd
  · intro i hi; exact dim_ge (by rw [h.rank_eq]; exact hi)
  · intro i d hd
    obtain ⟨hi, rfl⟩ := List.getElem?_eq_some_iff.1 hd
    have := h.rank_le; rw [h.rank_eq] at this
    rw [rdim_eq h (by omega), List.getElem?_reverse (by omega)]
    rw [show s.toDims.length - 1 - (s.toDims.length - 1 - i) = i by omega, hd]; rfl
  · intro d hd
    rw [cols_eq h]
    rw [← List.head?_eq_getElem?, List.head?_reverse, hd]; rfl
  · rw [rows_eq h]
    split
    · rw [List.getElem?_reverse (by omega)]; congr 3
    · rw [List.getElem?_eq_none (by simp; omega)]; rfl
  · intro d hd
    exact dim_eq h (by rw [← hd, List.head?_eq_getElem?])
  · exact size_ok h
  · intro n hn; exact size_eq_ok_prod h hn

/-- C01 for `Shape::from([usize; N])` and `Shape::from(&[usize])`: every list of at most six dimensions is read back
by every accessor; longer lists panic. -/
theorem C01_from_slice (ds : List Nat) (hlt : ∀ d ∈ ds, d < 2 ^ 32) :
    (ds.length ≤ 6 → ∃ s, Shape.ofSlice ds = .ok s ∧ ReadsBack s ds) ∧
    (6 < ds.length → Shape.ofSlice ds = .error .panic) := by
  constructor
  · intro h6
    refine ⟨_, ofSlice_adm ⟨h6, hlt⟩, ?_⟩
    have := WF.readsBack (wf_ofDims (l := ds) ⟨h6, hlt⟩)
    rwa [toDims_ofDims] at this
  · exact ofSlice_panic

example : ∃ s, Shape.ofSlice [2, 3, 4] = .ok s ∧ ReadsBack s [2, 3, 4] :=
  (C01_from_slice [2, 3, 4] (by simp)).1 (by simp)

/-- C01 for `Shape::from(Vec<usize>)`: as above for positive dimensions; a zero dimension panics. -/
theorem C01_from_vec (ds : List Nat) (hlt : ∀ d ∈ ds, d < 2 ^ 32) :
    (ds.length ≤ 6 → (∀ d ∈ ds, 0 < d) → ∃ s, Shape.ofVec ds = .ok s ∧ ReadsBack s ds) ∧
    (6 < ds.length ∨ 0 ∈ ds → Shape.ofVec ds = .error .panic) := by
  constructor
  · intro h6 hpos
    refine ⟨_, ofVec_adm ⟨h6, hlt⟩ hpos, ?_⟩
    have := WF.readsBack (wf_ofDims (l := ds) ⟨h6, hlt⟩)
    rwa [toDims_ofDims] at this
  · intro h
    by_cases h6 : 6 < ds.length
    · exact ofVec_panic h6
    · exact ofVec_zero_panic (by omega) (by rcases h with h | h; exact absurd h h6; exact h)

example : ∃ s, Shape.ofVec [5, 1, 7] = .ok s ∧ ReadsBack s [5, 1, 7] :=
  (C01_from_vec [5, 1, 7] (by simp)).1 (by simp) (by simp)

/-- C01 for `Shape::from(usize)` and `Shape::scalar()`. -/
theorem C01_from_usize (n : Nat) (hn : n < 2 ^ 32) :
    (∃ s, Shape.ofUsize n = .ok s ∧ ReadsBack s [n]) ∧ ReadsBack Shape.scalar [] := by
  constructor
  · refine ⟨_, by rw [ofUsize_eq n, asU32_of_lt hn], ?_⟩
    have := WF.readsBack (wf_ofDims (adm_singleton n))
    rwa [toDims_ofDims, show [asU32 n] = [n] by rw [asU32_of_lt hn]] at this
  · have := WF.readsBack wf_scalar
    rwa [scalar_eq, toDims_ofDims] at this

example : ∃ s, Shape.ofUsize 4294967295 = .ok s ∧ ReadsBack s [4294967295] := (C01_from_usize 4294967295 (by decide)).1

/-- C01 for `Shape::vector`: a length of at least 1 gives the shape with this one dimension, 0 panics. -/
theorem C01_vector (n : Nat) (hn : n < 2 ^ 32) :
    (0 < n → ∃ s, Shape.vector n = .ok s ∧ ReadsBack s [n]) ∧ (n = 0 → Shape.vector n = .error .panic) := by
  constructor
  · intro h0
    obtain ⟨⟨s, hs, hr⟩, -⟩ := C01_from_usize n hn
    refine ⟨s, ?_, hr⟩
    unfold Shape.vector
    rw [ensure_true h0, ok_bind]
    exact hs
  · rintro rfl
    rfl

example : ∃ s, Shape.vector 1 = .ok s ∧ ReadsBack s [1] := (C01_vector 1 (by decide)).1 (by decide)

/-- A dimension of 2^32 or more is silently truncated: C01 needs its bound. -/
theorem C01_truncates : ∃ s, Shape.ofSlice [2 ^ 32 + 5] = .ok s ∧ s.asVec = .ok [5] := ⟨_, rfl, rfl⟩

/-! ## C02 Shape edits are list edits -/

section C02
variable {s : Shape} {ds : List Nat}

theorem toDims_of_asVec (hs : s.WF) (hds : s.asVec = .ok ds) : s = ofDims ds ∧ Adm ds := by
  rw [asVec_eq hs] at hds
  cases hds
  obtain ⟨ds, h1, h2, h3⟩ := hs.exists_dims
  rw [h3]; exact ⟨h2, h1⟩

theorem asVec_ofDims {l : List Nat} (h : Adm l) : (ofDims l).asVec = .ok l := by
  rw [asVec_eq (wf_ofDims h), toDims_ofDims]

/-- `insert(axis, n)` succeeds exactly when there is room (`rank < 6`, axis in range, and not more than four dimensions
behind the new one) and then inserts `n` at `axis`. -/
theorem C02_insert (hs : s.WF) (hds : s.asVec = .ok ds) (axis n : Nat) (hn : n < 2 ^ 32) :
    (axis ≤ ds.length ∧ ds.length < 6 ∧ ds.length - axis < 5 →
      ∃ s', s.insert axis n = .ok s' ∧ s'.WF ∧ s'.asVec = .ok (ds.insertIdx axis n)) ∧
    (¬ (axis ≤ ds.length ∧ ds.length < 6 ∧ ds.length - axis < 5) → s.insert axis n = .error .panic) := by
  obtain ⟨rfl, ha⟩ := toDims_of_asVec hs hds
  constructor
  · rintro ⟨h1, h2, h3⟩
    have hA := ha.insertIdx h2 axis n
    rw [asU32_of_lt hn] at hA
    refine ⟨_, by rw [insert_ofDims h2 h1 h3, asU32_of_lt hn], wf_ofDims hA, asVec_ofDims hA⟩
  · intro h
    unfold Shape.insert
    rw [rank_ofDims]
    by_cases h1 : axis ≤ ds.length
    · rw [usub_ok h1, ok_bind]
      unfold Shape.rinsert
      by_cases h3 : ds.length - axis < 5
      · have h6 : ds.length = 6 := by have := ha.len; omega
        have h60 := dims_ofRev_length (l := ds.reverse) (by simpa using ha.len)
        rw [ensure_true (by unfold MAX_RANK; omega), ok_bind, rank_ofDims, forR_cons (by omega)]
        have : (ofDims ds).dims.length = 6 := h60
        show (((idx (ofDims ds).dims (ds.length - 1 - 0) >>= fun d => setIdx (ofDims ds).dims _ d) >>= _) >>= _) = _
        rw [idx_lt (by omega), ok_bind]
        simp [setIdx, this, h6]
      · rw [ensure_false (by unfold MAX_RANK; omega)]; rfl
    · rw [show usub ds.length axis = .error .panic by simp [usub, h1]]; rfl

example : ∃ s', (ofDims [2, 3]).insert 1 7 = .ok s' ∧ s'.WF ∧ s'.asVec = .ok [2, 7, 3] :=
  (C02_insert (ds := [2, 3]) (wf_ofDims ⟨by simp, by simp⟩) rfl 1 7 (by simp)).1 (by simp)

/-- `rinsert(axis, n)` counts the axis from the innermost end. Missing for the full property: a position beyond the rank,
see `C02_rinsert_beyond_rank_violates`. -/
theorem C02_rinsert_partial (hs : s.WF) (hds : s.asVec = .ok ds) (axis n : Nat) (hn : n < 2 ^ 32) (h1 : axis ≤ ds.length)
    (h2 : ds.length < 6) (h3 : axis < 5) :
    ∃ s', s.rinsert axis n = .ok s' ∧ s'.WF ∧ s'.asVec = .ok (ds.insertIdx (ds.length - axis) n) := by
  obtain ⟨s', e, hw, hv⟩ := (C02_insert hs hds (ds.length - axis) n hn).1 (by omega)
  refine ⟨s', ?_, hw, hv⟩
  obtain ⟨rfl, ha⟩ := toDims_of_asVec hs hds
  unfold Shape.insert at e
  rw [rank_ofDims, usub_ok (by omega), ok_bind, show ds.length - (ds.length - axis) = axis by omega] at e
  exact e

example : ∃ s', (ofDims [2, 3]).rinsert 1 7 = .ok s' ∧ s'.WF ∧ s'.asVec = .ok [2, 7, 3] :=
  C02_rinsert_partial (ds := [2, 3]) (wf_ofDims ⟨by simp, by simp⟩) rfl 1 7 (by simp) (by simp) (by simp) (by simp)

/-- A position beyond the rank is not rejected by `rinsert`: the requested dimension is not even visible in the result. -/
theorem C02_rinsert_beyond_rank_violates : ∃ s', (ofDims [2]).rinsert 3 7 = .ok s' ∧ s'.asVec = .ok [0, 2] := ⟨_, rfl, rfl⟩

/-- `remove(axis)` erases the axis, and panics when it is out of range. -/
theorem C02_remove (hs : s.WF) (hds : s.asVec = .ok ds) (axis : Nat) :
    (axis < ds.length → ∃ s', s.remove axis = .ok s' ∧ s'.WF ∧ s'.asVec = .ok (ds.eraseIdx axis)) ∧
    (ds.length ≤ axis → s.remove axis = .error .panic) := by
  obtain ⟨rfl, ha⟩ := toDims_of_asVec hs hds
  constructor
  · intro h
    exact ⟨_, remove_ofDims ha.len h, wf_ofDims (ha.eraseIdx _), asVec_ofDims (ha.eraseIdx _)⟩
  · intro h
    unfold Shape.remove
    rw [ensure_false (by rw [rank_ofDims]; omega)]; rfl

/-- `rremove(axis)` counts from the innermost end. -/
theorem C02_rremove (hs : s.WF) (hds : s.asVec = .ok ds) (axis : Nat) :
    (axis < ds.length →
      ∃ s', s.rremove axis = .ok s' ∧ s'.WF ∧ s'.asVec = .ok (ds.eraseIdx (ds.length - 1 - axis))) ∧
    (ds.length ≤ axis → s.rremove axis = .error .panic) := by
  constructor
  · intro h
    obtain ⟨s', e, hw, hv⟩ := (C02_remove hs hds (ds.length - 1 - axis)).1 (by omega)
    refine ⟨s', ?_, hw, hv⟩
    obtain ⟨rfl, ha⟩ := toDims_of_asVec hs hds
    unfold Shape.remove at e
    rw [rank_ofDims, ensure_true (by omega), ok_bind, usub_ok (by omega), ok_bind, usub_ok (by omega), ok_bind,
      show ds.length - 1 - (ds.length - 1 - axis) = axis by omega] at e
    exact e
  · intro h
    obtain ⟨rfl, ha⟩ := toDims_of_asVec hs hds
    unfold Shape.rremove
    rw [ensure_false (by rw [rank_ofDims]; omega)]; rfl

example : ∃ s', (ofDims [2, 3, 4]).rremove 2 = .ok s' ∧ s'.WF ∧ s'.asVec = .ok [3, 4] :=
  (C02_rremove (ds := [2, 3, 4]) (wf_ofDims ⟨by simp, by simp⟩) rfl 2).1 (by simp)

example : ∃ s', (ofDims [2, 3, 4]).remove 1 = .ok s' ∧ s'.WF ∧ s'.asVec = .ok [2, 4] :=
  (C02_remove (ds := [2, 3, 4]) (wf_ofDims ⟨by simp, by simp⟩) rfl 1).1 (by simp)

/-- `replace(axis, n)` and `with_dim(axis, n)` overwrite one entry. -/
theorem C02_replace (hs : s.WF) (hds : s.asVec = .ok ds) (axis n : Nat) (hn : n < 2 ^ 32) :
    (axis < ds.length → ∃ s', s.replace axis n = .ok s' ∧ s.withDim axis n = .ok s' ∧ s'.WF ∧
      s'.asVec = .ok (ds.set axis n)) ∧
    (ds.length ≤ axis → s.replace axis n = .error .panic ∧ s.withDim axis n = .error .panic) := by
  obtain ⟨rfl, ha⟩ := toDims_of_asVec hs hds
  constructor
  · intro h
    have hA := ha.set axis n
    rw [asU32_of_lt hn] at hA
    have e := replace_ofDims ha.len h n
    rw [asU32_of_lt hn] at e
    exact ⟨_, e, e, wf_ofDims hA, asVec_ofDims hA⟩
  · intro h
    have : (ofDims ds).replace axis n = .error .panic := by
      unfold Shape.replace
      rw [ensure_false (by rw [rank_ofDims]; omega)]; rfl
    exact ⟨this, this⟩

example : (ofDims [2, 3]).replace 2 9 = .error .panic :=
  ((C02_replace (ds := [2, 3]) (wf_ofDims ⟨by simp, by simp⟩) rfl 2 9 (by simp)).2 (by simp)).1

example : ∃ s', (ofDims [2, 3]).replace 1 9 = .ok s' ∧ (ofDims [2, 3]).withDim 1 9 = .ok s' ∧ s'.WF ∧
    s'.asVec = .ok [2, 9] :=
  (C02_replace (ds := [2, 3]) (wf_ofDims ⟨by simp, by simp⟩) rfl 1 9 (by simp)).1 (by simp)

/-- `rreplace(axis, n)` counts from the innermost end. -/
theorem C02_rreplace (hs : s.WF) (hds : s.asVec = .ok ds) (axis n : Nat) (hn : n < 2 ^ 32) :
    (axis < ds.length → ∃ s', s.rreplace axis n = .ok s' ∧ s'.WF ∧
      s'.asVec = .ok (ds.set (ds.length - 1 - axis) n)) ∧
    (ds.length ≤ axis → s.rreplace axis n = .error .panic) := by
  constructor
  · intro h
    obtain ⟨s', e, _, hw, hv⟩ := (C02_replace hs hds (ds.length - 1 - axis) n hn).1 (by omega)
    refine ⟨s', ?_, hw, hv⟩
    obtain ⟨rfl, ha⟩ := toDims_of_asVec hs hds
    unfold Shape.replace at e
    rw [rank_ofDims, ensure_true (by omega), ok_bind, usub_ok (by omega), ok_bind, usub_ok (by omega), ok_bind,
      show ds.length - 1 - (ds.length - 1 - axis) = axis by omega] at e
    exact e
  · intro h
    obtain ⟨rfl, ha⟩ := toDims_of_asVec hs hds
    unfold Shape.rreplace
    rw [ensure_false (by rw [rank_ofDims]; omega)]; rfl

example : ∃ s', (ofDims [2, 3]).rreplace 1 9 = .ok s' ∧ s'.WF ∧ s'.asVec = .ok [9, 3] :=
  (C02_rreplace (ds := [2, 3]) (wf_ofDims ⟨by simp, by simp⟩) rfl 1 9 (by simp)).1 (by simp)

/-- `with_cols(n)` overwrites the last dimension, `with_rows(n)` the one before it. -/
theorem C02_with_cols_rows (hs : s.WF) (hds : s.asVec = .ok ds) (n : Nat) (hn : n < 2 ^ 32) :
    (1 ≤ ds.length → ∃ s', s.withCols n = .ok s' ∧ s'.WF ∧ s'.asVec = .ok (ds.set (ds.length - 1) n)) ∧
    (2 ≤ ds.length → ∃ s', s.withRows n = .ok s' ∧ s'.WF ∧ s'.asVec = .ok (ds.set (ds.length - 2) n)) ∧
    (ds.length < 2 → s.withRows n = .error .panic) := by
  refine ⟨fun h => ?_, fun h => ?_, fun h => ?_⟩
  · obtain ⟨s', e, hw, hv⟩ := (C02_rreplace hs hds 0 n hn).1 (by omega)
    refine ⟨s', ?_, hw, by simpa using hv⟩
    obtain ⟨rfl, ha⟩ := toDims_of_asVec hs hds
    unfold Shape.rreplace at e
    rw [ensure_true (by rw [rank_ofDims]; omega), ok_bind] at e
    exact e
  · obtain ⟨s', e, hw, hv⟩ := (C02_rreplace hs hds 1 n hn).1 (by omega)
    refine ⟨s', ?_, hw, by rw [hv]; congr 2⟩
    obtain ⟨rfl, ha⟩ := toDims_of_asVec hs hds
    unfold Shape.rreplace at e
    rw [rank_ofDims, ensure_true (by omega), ok_bind] at e
    unfold Shape.withRows
    rw [rank_ofDims, ensure_true (by omega), ok_bind]
    exact e
  · obtain ⟨rfl, ha⟩ := toDims_of_asVec hs hds
    unfold Shape.withRows
    rw [rank_ofDims, ensure_false (by omega)]; rfl

example : ∃ s', (ofDims [5, 2, 3]).withRows 9 = .ok s' ∧ s'.WF ∧ s'.asVec = .ok [5, 9, 3] :=
  (C02_with_cols_rows (ds := [5, 2, 3]) (wf_ofDims ⟨by simp, by simp⟩) rfl 9 (by simp)).2.1 (by simp)

/-- `push(n)` adds an outermost dimension, `pop()` drops it. -/
theorem C02_push_pop (hs : s.WF) (hds : s.asVec = .ok ds) (n : Nat) (hn : n < 2 ^ 32) :
    (ds.length < 6 → ∃ s', s.push n = .ok s' ∧ s'.WF ∧ s'.asVec = .ok (n :: ds)) ∧
    (ds.length = 6 → s.push n = .error .panic) ∧
    (ds ≠ [] → ∃ s', s.pop = .ok s' ∧ s'.WF ∧ s'.asVec = .ok ds.tail) ∧
    (ds = [] → s.pop = .error .panic) := by
  obtain ⟨rfl, ha⟩ := toDims_of_asVec hs hds
  refine ⟨fun h => ?_, fun h => ?_, fun h => ?_, fun h => ?_⟩
  · have e := push_ofDims h n
    rw [asU32_of_lt hn] at e
    have hA : Adm (n :: ds) := ⟨by simp; omega, by
      intro d hd
      rcases List.mem_cons.1 hd with rfl | hd
      · exact hn
      · exact ha.lt d hd⟩
    exact ⟨_, e, wf_ofDims hA, asVec_ofDims hA⟩
  · unfold Shape.push
    have : (ofDims ds).dims.length = 6 := dims_ofRev_length (l := ds.reverse) (by simpa using ha.len)
    simp [setIdx, this, h]
  · have hl : 0 < ds.length := List.length_pos_iff.2 h
    have hA : Adm ds.tail := ⟨by have := ha.len; simp; omega, fun d hd => ha.lt d (List.mem_of_mem_tail hd)⟩
    exact ⟨_, pop_ofDims ha.len hl, wf_ofDims hA, asVec_ofDims hA⟩
  · subst h; rfl

example : ∃ s', (ofDims [3, 4]).push 9 = .ok s' ∧ s'.WF ∧ s'.asVec = .ok [9, 3, 4] :=
  (C02_push_pop (ds := [3, 4]) (wf_ofDims ⟨by simp, by simp⟩) rfl 9 (by simp)).1 (by simp)

/-- `append` violates C02: the rank of the result is always at least six. -/
theorem C02_append_violates : ∃ s', (ofDims [2]).append [3] = .ok s' ∧ s'.rank = 7 ∧ s'.asVec = .error .panic :=
  ⟨_, rfl, rfl, rfl⟩

end C02

/-! ## C03 remove undoes insert -/

/-- Whenever `insert(axis, n)` succeeds, `remove(axis)` gives back an equal shape. -/
theorem C03_remove_insert {s s' : Shape} (hs : s.WF) (axis n : Nat) (h : s.insert axis n = .ok s') :
    s'.remove axis = .ok s := by
  obtain ⟨ds, ha, rfl, _⟩ := hs.exists_dims
  have hds := asVec_ofDims ha
  have key : ∀ m, m < 2 ^ 32 → (ofDims ds).insert axis m = .ok s' → s'.remove axis = .ok (ofDims ds) := by
    intro m hm h
    obtain ⟨h1, h2⟩ := C02_insert hs hds axis m hm
    by_cases hc : axis ≤ ds.length ∧ ds.length < 6 ∧ ds.length - axis < 5
    · have e := insert_ofDims hc.2.1 hc.1 hc.2.2 m
      rw [h] at e
      cases e
      rw [remove_ofDims]
      · rw [List.eraseIdx_insertIdx_self]
      · rw [List.length_insertIdx]; split <;> omega
      · rw [List.length_insertIdx]; split <;> omega
    · rw [h2 hc] at h; cases h
  apply key (asU32 n) (asU32_lt n)
  rw [← h]
  unfold Shape.insert Shape.rinsert
  have : asU32 (asU32 n) = asU32 n := asU32_of_lt (asU32_lt n)
  rw [this]

example : ∃ s', (ofDims [2, 3]).insert 0 7 = .ok s' ∧ s'.remove 0 = .ok (ofDims [2, 3]) :=
  ⟨_, rfl, C03_remove_insert (wf_ofDims ⟨by simp, by simp⟩) 0 7 rfl⟩

/-! ## C04 Shape equality is equality of dimension lists -/

/-- Shapes built by any sequence of public shape operations. Left out: `append` (see `C02_append_violates`), `rinsert`
at a position beyond the rank (`C02_rinsert_beyond_rank_violates`), and `with_cols`/`reduce` on a scalar
(`C04_scalar_with_cols_violates`). -/
inductive Built : Shape → Prop
  | scalar : Built Shape.scalar
  | vector {n s} : Shape.vector n = .ok s → Built s
  | ofUsize {n s} : Shape.ofUsize n = .ok s → Built s
  | ofSlice {l s} : Shape.ofSlice l = .ok s → Built s
  | ofVec {l s} : Shape.ofVec l = .ok s → Built s
  | insert {s s' a n} : Built s → s.insert a n = .ok s' → Built s'
  | rinsert {s s' a n} : Built s → a ≤ s.rank → s.rinsert a n = .ok s' → Built s'
  | remove {s s' a} : Built s → s.remove a = .ok s' → Built s'
  | rremove {s s' a} : Built s → s.rremove a = .ok s' → Built s'
  | replace {s s' a n} : Built s → s.replace a n = .ok s' → Built s'
  | rreplace {s s' a n} : Built s → s.rreplace a n = .ok s' → Built s'
  | withDim {s s' a n} : Built s → s.withDim a n = .ok s' → Built s'
  | withCols {s s' n} : Built s → 0 < s.rank → s.withCols n = .ok s' → Built s'
  | withRows {s s' n} : Built s → s.withRows n = .ok s' → Built s'
  | reduce {s s'} : Built s → 0 < s.rank → s.reduce = .ok s' → Built s'
  | push {s s' n} : Built s → s.push n = .ok s' → Built s'
  | pop {s s'} : Built s → s.pop = .ok s' → Built s'
  | expandDims {s s' a} : Built s → s.expandDims a = .ok s' → Built s'
  | squeeze {s s' a} : Built s → s.squeeze a = .ok s' → Built s'
  | broadcastTo {s t s'} : Built s → Built t → s.broadcastTo t = .ok s' → Built s'

theorem wf_vector {n : Nat} {s : Shape} (h : Shape.vector n = .ok s) : s.WF := by
  unfold Shape.vector at h
  rw [ensure_bind_eq_ok] at h
  have := ofUsize_eq n
  unfold Shape.ofUsize at this
  rw [this] at h
  cases h.2
  exact wf_ofDims (adm_singleton n)

theorem wf_insert {s s' : Shape} {a n : Nat} (hs : s.WF) (h : s.insert a n = .ok s') : s'.WF := by
  have e : s.insert a n = s.insert a (asU32 n) := by
    unfold Shape.insert Shape.rinsert
    rw [asU32_of_lt (asU32_lt n)]
  obtain ⟨h1, h2⟩ := C02_insert hs (asVec_eq hs) a (asU32 n) (asU32_lt n)
  by_cases hc : a ≤ s.toDims.length ∧ s.toDims.length < 6 ∧ s.toDims.length - a < 5
  · obtain ⟨s'', e', hw, _⟩ := h1 hc
    rw [e, e'] at h; cases h; exact hw
  · rw [e, h2 hc] at h; cases h

theorem wf_rinsert {s s' : Shape} {a n : Nat} (hs : s.WF) (ha : a ≤ s.rank) (h : s.rinsert a n = .ok s') : s'.WF := by
  apply wf_insert hs (a := s.rank - a) (n := n)
  unfold Shape.insert
  rw [usub_ok (by omega), ok_bind, show s.rank - (s.rank - a) = a by omega]
  exact h

theorem wf_rremove {s s' : Shape} {a : Nat} (hs : s.WF) (h : s.rremove a = .ok s') : s'.WF := by
  obtain ⟨h1, h2⟩ := C02_rremove hs (asVec_eq hs) a
  by_cases hc : a < s.toDims.length
  · obtain ⟨s'', e', hw, _⟩ := h1 hc; rw [e'] at h; cases h; exact hw
  · rw [h2 (by omega)] at h; cases h

theorem wf_remove {s s' : Shape} {a : Nat} (hs : s.WF) (h : s.remove a = .ok s') : s'.WF := by
  obtain ⟨h1, h2⟩ := C02_remove hs (asVec_eq hs) a
  by_cases hc : a < s.toDims.length
  · obtain ⟨s'', e', hw, _⟩ := h1 hc; rw [e'] at h; cases h; exact hw
  · rw [h2 (by omega)] at h; cases h

theorem wf_rreplace {s s' : Shape} {a n : Nat} (hs : s.WF) (h : s.rreplace a n = .ok s') : s'.WF := by
  have e : s.rreplace a n = s.rreplace a (asU32 n) := by
    unfold Shape.rreplace; rw [asU32_of_lt (asU32_lt n)]
  obtain ⟨h1, h2⟩ := C02_rreplace hs (asVec_eq hs) a (asU32 n) (asU32_lt n)
  by_cases hc : a < s.toDims.length
  · obtain ⟨s'', e', hw, _⟩ := h1 hc; rw [e, e'] at h; cases h; exact hw
  · rw [e, h2 (by omega)] at h; cases h

theorem wf_replace {s s' : Shape} {a n : Nat} (hs : s.WF) (h : s.replace a n = .ok s') : s'.WF := by
  unfold Shape.replace at h
  obtain ⟨_, _, h⟩ := bind_eq_ok.1 h
  obtain ⟨_, _, h⟩ := bind_eq_ok.1 h
  obtain ⟨_, _, h⟩ := bind_eq_ok.1 h
  exact wf_rreplace hs h

theorem wf_withCols {s s' : Shape} {n : Nat} (hs : s.WF) (h0 : 0 < s.rank) (h : s.withCols n = .ok s') : s'.WF := by
  apply wf_rreplace hs (a := 0) (n := n)
  unfold Shape.rreplace
  rw [ensure_true h0, ok_bind]; exact h

theorem wf_withRows {s s' : Shape} {n : Nat} (hs : s.WF) (h : s.withRows n = .ok s') : s'.WF := by
  unfold Shape.withRows at h
  rw [ensure_bind_eq_ok] at h
  apply wf_rreplace hs (a := 1) (n := n)
  unfold Shape.rreplace
  rw [ensure_true h.1, ok_bind]; exact h.2

theorem wf_push {s s' : Shape} {n : Nat} (hs : s.WF) (h : s.push n = .ok s') : s'.WF := by
  have e : s.push n = s.push (asU32 n) := by
    unfold Shape.push; rw [asU32_of_lt (asU32_lt n)]
  obtain ⟨h1, h2, _, _⟩ := C02_push_pop hs (asVec_eq hs) (asU32 n) (asU32_lt n)
  have := hs.rank_le; rw [hs.rank_eq] at this
  by_cases hc : s.toDims.length < 6
  · obtain ⟨s'', e', hw, _⟩ := h1 hc; rw [e, e'] at h; cases h; exact hw
  · rw [e, h2 (by omega)] at h; cases h

theorem wf_pop {s s' : Shape} (hs : s.WF) (h : s.pop = .ok s') : s'.WF := by
  obtain ⟨_, _, h1, h2⟩ := C02_push_pop hs (asVec_eq hs) 0 (by omega)
  by_cases hc : s.toDims = []
  · rw [h2 hc] at h; cases h
  · obtain ⟨s'', e', hw, _⟩ := h1 hc; rw [e'] at h; cases h; exact hw

theorem adm_one : Adm [1] := ⟨by simp, by simp⟩

theorem wf_squeeze {s s' : Shape} {a : Option Int} (hs : s.WF) (h : s.squeeze a = .ok s') : s'.WF := by
  obtain ⟨l, hl, rfl⟩ := hs.exists_rev
  cases a with
  | none =>
    rw [squeezeNone_ofRev hl.len] at h
    cases h
    split
    · exact wf_ofRev adm_one
    · exact wf_ofRev ⟨Nat.le_trans (List.length_filter_le _ _) hl.len, fun d hd => hl.lt d (List.mem_filter.1 hd).1⟩
  | some a =>
    unfold Shape.squeeze at h
    obtain ⟨_, _, h⟩ := bind_eq_ok.1 h
    obtain ⟨_, _, h⟩ := bind_eq_ok.1 h
    obtain ⟨b, _, h⟩ := bind_eq_ok.1 h
    rw [squeezeLoop_axis_ofRev hl.len] at h
    cases h
    split
    · split
      · exact wf_ofRev adm_one
      · exact wf_ofRev (hl.eraseIdx _)
    · split
      · exact wf_ofRev adm_one
      · exact wf_ofRev hl

theorem wf_expandDims {s s' : Shape} {a : Int} (h : s.expandDims a = .ok s') : s'.WF := by
  unfold Shape.expandDims at h
  obtain ⟨vec, _, h⟩ := bind_eq_ok.1 h
  by_cases h0 : a ≥ 0
  · simp only [h0, if_true] at h
    obtain ⟨_, _, h⟩ := bind_eq_ok.1 h
    obtain ⟨_, _, h⟩ := bind_eq_ok.1 h
    exact ofVec_wf h
  · simp only [h0, if_false] at h
    obtain ⟨_, _, h⟩ := bind_eq_ok.1 h
    obtain ⟨_, _, h⟩ := bind_eq_ok.1 h
    obtain ⟨_, _, h⟩ := bind_eq_ok.1 h
    obtain ⟨_, _, h⟩ := bind_eq_ok.1 h
    exact ofVec_wf h

theorem wf_broadcastTo {s t s' : Shape} (hs : s.WF) (ht : t.WF) (h : s.broadcastTo t = .ok s') : s'.WF := by
  unfold Shape.broadcastTo at h
  obtain ⟨_, _, h⟩ := bind_eq_ok.1 h
  split at h <;> cases h <;> assumption

/-- Every history of shape operations keeps the representation invariant. -/
theorem built_wf {s : Shape} (h : Built s) : s.WF := by
  induction h with
  | scalar => exact wf_scalar
  | vector h => exact wf_vector h
  | ofUsize h => rw [ofUsize_eq] at h; cases h; exact wf_ofDims (adm_singleton _)
  | ofSlice h => exact ofSlice_wf h
  | ofVec h => exact ofVec_wf h
  | insert _ h ih => exact wf_insert ih h
  | rinsert _ ha h ih => exact wf_rinsert ih ha h
  | remove _ h ih => exact wf_remove ih h
  | rremove _ h ih => exact wf_rremove ih h
  | replace _ h ih => exact wf_replace ih h
  | rreplace _ h ih => exact wf_rreplace ih h
  | withDim _ h ih => exact wf_replace ih h
  | withCols _ h0 h ih => exact wf_withCols ih h0 h
  | withRows _ h ih => exact wf_withRows ih h
  | reduce _ h0 h ih =>
    unfold Shape.reduce at h
    split at h
    · exact wf_rremove ih h
    · exact wf_withCols ih h0 h
  | push _ h ih => exact wf_push ih h
  | pop _ h ih => exact wf_pop ih h
  | expandDims _ h _ => exact wf_expandDims h
  | squeeze _ h ih => exact wf_squeeze ih h
  | broadcastTo _ _ h ih1 ih2 => exact wf_broadcastTo ih1 ih2 h

example : (ofDims [2, 3]).WF := built_wf (.remove (a := 0) (s := ofDims [9, 2, 3]) (.ofSlice (l := [9, 2, 3]) rfl) rfl)

/-- C04 for all histories listed in `Built`: equality of shapes is equality of the `as_vec` lists.
Missing from the full statement: histories through `append`, `rinsert` beyond the rank, and `with_cols`/`reduce` of a
scalar, where the claim is false. -/
theorem C04_eq_iff_as_vec_partial {s t : Shape} (hs : Built s) (ht : Built t) : s = t ↔ s.asVec = t.asVec := by
  constructor
  · rintro rfl; rfl
  · intro h
    rw [asVec_eq (built_wf hs), asVec_eq (built_wf ht)] at h
    exact toDims_inj (built_wf hs) (built_wf ht) (Except.ok.inj h)

example : ∃ s t, Built s ∧ Built t ∧ (s = t ↔ s.asVec = t.asVec) ∧ s.asVec = .ok [2, 3] ∧ t.asVec = .ok [2, 3] := by
  have hs : Built _ := Built.remove (a := 0) (Built.ofSlice (l := [9, 2, 3]) rfl) rfl
  have ht : Built _ := Built.ofSlice (l := [2, 3]) rfl
  exact ⟨_, _, hs, ht, C04_eq_iff_as_vec_partial hs ht, rfl, rfl⟩

example : ∃ s, Built s ∧ s.asVec = .ok [2, 3] ∧ s = ofDims [2, 3] := by
  refine ⟨_, Built.remove (a := 0) (Built.ofSlice (l := [9, 2, 3]) rfl) rfl, rfl, rfl⟩

/-- The unrestricted C04 is false: `scalar.with_cols(5)` has the same (empty) dimension list as `scalar` but does not
compare equal to it. -/
theorem C04_scalar_with_cols_violates :
    ∃ s, Shape.scalar.withCols 5 = .ok s ∧ s.asVec = Shape.scalar.asVec ∧ s ≠ Shape.scalar :=
  ⟨_, rfl, rfl, by decide⟩

/-! ## C05 expand_dims and squeeze, on shapes -/

/-- The index at which `expand_dims(axis)` inserts for a tensor of rank `r`: `axis` itself, or counted from the end
with `-1` meaning after the last dimension. -/
def expandIndex (r : Nat) (axis : Int) : Nat := if 0 ≤ axis then axis.toNat else (axis + r + 1).toNat

/-- `expand_dims(axis)` inserts a unit dimension at the requested place. -/
theorem C05_expand_dims {s : Shape} {ds : List Nat} (hs : s.WF) (hds : s.asVec = .ok ds) (hpos : ∀ d ∈ ds, 0 < d)
    (hl : ds.length < 6) (axis : Int) (h1 : -((ds.length : Int) + 1) ≤ axis) (h2 : axis ≤ ds.length) :
    ∃ s', s.expandDims axis = .ok s' ∧ s'.WF ∧ s'.asVec = .ok (ds.insertIdx (expandIndex ds.length axis) 1) := by
  obtain ⟨rfl, ha⟩ := toDims_of_asVec hs hds
  have hA : Adm (ds.insertIdx (expandIndex ds.length axis) 1) := ha.insertIdx hl (expandIndex ds.length axis) 1
  exact ⟨_, expandDims_ofDims ha hpos hl h1 h2, wf_ofDims hA, asVec_ofDims hA⟩

example : ∃ s', (ofDims [2, 3]).expandDims (-1) = .ok s' ∧ s'.WF ∧ s'.asVec = .ok [2, 3, 1] :=
  C05_expand_dims (ds := [2, 3]) (wf_ofDims ⟨by simp, by simp⟩) rfl (by simp) (by simp) (-1) (by simp) (by simp)

/-- `squeeze()` drops exactly the unit dimensions; if nothing is left the result is `[1]`. -/
theorem C05_squeeze {s : Shape} {ds : List Nat} (hs : s.WF) (hds : s.asVec = .ok ds) :
    ∃ s', s.squeeze none = .ok s' ∧ s'.WF ∧
      s'.asVec = .ok (if ds.filter (· ≠ 1) = [] then [1] else ds.filter (· ≠ 1)) := by
  obtain ⟨rfl, ha⟩ := toDims_of_asVec hs hds
  have e := squeezeNone_ofRev (l := ds.reverse) (by simpa using ha.len)
  have hw := wf_squeeze hs e
  refine ⟨_, e, hw, ?_⟩
  rw [asVec_eq hw]
  rw [List.filter_reverse]
  by_cases h : ds.filter (· ≠ 1) = []
  · rw [if_pos h, if_pos (by rw [h]; rfl)]; rfl
  · rw [if_neg h, if_neg (by simpa using h), toDims_ofRev, List.reverse_reverse]

example : ∃ s', (ofDims [1, 2, 1, 3]).squeeze none = .ok s' ∧ s'.WF ∧ s'.asVec = .ok [2, 3] :=
  C05_squeeze (ds := [1, 2, 1, 3]) (wf_ofDims ⟨by simp, by simp⟩) rfl

/-- What `squeeze_axis` really does: with `a` the axis counted from the front, it drops axis `a - 1` (not `a`) when that
dimension is one, and axis 0 is never dropped. -/
theorem C05_squeeze_axis_actual {s : Shape} {ds : List Nat} (hs : s.WF) (hds : s.asVec = .ok ds) (axis : Int)
    (h1 : -(ds.length : Int) ≤ axis) (h2 : axis < ds.length) :
    ∃ s', s.squeeze (some axis) = .ok s' ∧ s'.WF ∧
      let a := if 0 ≤ axis then axis.toNat else (axis + ds.length).toNat
      s'.asVec = .ok (if 0 < a ∧ ds[a - 1]? = some 1 then ds.eraseIdx (a - 1) else ds) := by
  obtain ⟨rfl, ha⟩ := toDims_of_asVec hs hds
  have h0 : ds.length ≠ 0 := by omega
  have h6 := ha.len
  let a := if 0 ≤ axis then axis.toNat else (axis + ds.length).toNat
  have ha_lt : a < ds.length := by simp only [a]; split <;> omega
  have e1 : isizeAsUsize ((axis + ds.length).tmod ds.length) = a := by
    simp only [a]
    split
    · rw [Int.tmod_eq_emod_of_nonneg (by omega), Int.add_emod_right, Int.emod_eq_of_lt (by omega) (by omega),
        isizeAsUsize_nonneg (by omega) (by omega)]
    · rw [Int.tmod_eq_emod_of_nonneg (by omega), Int.emod_eq_of_lt (by omega) (by omega),
        isizeAsUsize_nonneg (by omega) (by omega)]
  have e : (ofDims ds).squeeze (some axis) =
      (ofDims ds).squeezeLoop (fun i d => i != ds.length - a || d != 1) := by
    unfold Shape.squeeze
    simp only [rank_ofDims]
    rw [iadd_ok (by omega) (by omega), ok_bind]
    unfold imod
    rw [if_neg (by omega), ok_bind, e1, usub_ok (by omega), ok_bind]
  have e' := squeezeLoop_axis_ofRev (l := ds.reverse) (by simpa using h6) (ds.length - a)
  rw [show ofRev ds.reverse = ofDims ds from rfl, ← e] at e'
  have hw := wf_squeeze hs e'
  refine ⟨_, e', hw, ?_⟩
  show _ = Except.ok (if 0 < a ∧ ds[a - 1]? = some 1 then ds.eraseIdx (a - 1) else ds)
  rw [asVec_eq hw]
  congr 1
  have hne : ds.reverse ≠ [] := by simpa using List.length_pos_iff.1 (by omega : 0 < ds.length)
  by_cases hc : 0 < a ∧ ds[a - 1]? = some 1
  · have hr : ds.reverse[ds.length - a]? = some 1 := by
      rw [List.getElem?_reverse (by omega), show ds.length - 1 - (ds.length - a) = a - 1 by omega]; exact hc.2
    rw [if_pos hc, if_pos hr, if_neg (by simp; omega), toDims_ofRev]
    have := reverse_eraseIdx ds.reverse (i := a - 1) (by simp; omega)
    simp only [List.length_reverse, List.reverse_reverse] at this
    rw [← this]
    congr 2; omega
  · have hr : ¬ ds.reverse[ds.length - a]? = some 1 := by
      by_cases h0a : 0 < a
      · rw [List.getElem?_reverse (by omega), show ds.length - 1 - (ds.length - a) = a - 1 by omega]
        exact fun h => hc ⟨h0a, h⟩
      · rw [List.getElem?_eq_none (by simp; omega)]; simp
    rw [if_neg hc, if_neg hr, if_neg hne, toDims_ofDims]

example : ∃ s', (ofDims [2, 1, 3]).squeeze (some (-1)) = .ok s' ∧ s'.WF ∧ s'.asVec = .ok [2, 3] :=
  C05_squeeze_axis_actual (ds := [2, 1, 3]) (wf_ofDims ⟨by simp, by simp⟩) rfl (-1) (by simp) (by simp)

/-- C05 is violated for `squeeze_axis`: the unit axis 0 of `[1, 2]` is not dropped, and asking to drop axis 1 of `[1, 2]`
(which is 2) drops axis 0. -/
theorem C05_squeeze_axis_violates :
    (∃ s', (ofDims [1, 2]).squeeze (some 0) = .ok s' ∧ s'.asVec = .ok [1, 2]) ∧
    (∃ s', (ofDims [1, 2]).squeeze (some 1) = .ok s' ∧ s'.asVec = .ok [2]) :=
  ⟨⟨ofDims [1, 2], by decide +kernel, rfl⟩, ⟨ofDims [2], by decide +kernel, rfl⟩⟩

end Essay
