import Verif.Lemmas.Clones
import Verif.Props.Twin
import Verif.Props.Array

/-!
# C95: copied elements are clones, one per slot
-/

namespace Essay

open Shape

variable {α σ : Type}

/-- The model with an explicit `clone` is the model of the other files when `clone` just returns its argument. -/
theorem C95_models_agree :
    (∀ d : List α, Clones.fromSlice (m := Except Err) pure d = Tensor.fromSlice d) ∧
    (∀ (s : Shape) (v : α), Clones.fill (m := Except Err) pure s v = Tensor.fill s v) ∧
    (∀ t : Tensor α, Clones.transpose (m := Except Err) pure t = t.transpose) ∧
    (∀ (t : Tensor α) axis s, Clones.splitAxis (m := Except Err) pure t axis s = t.splitAxis axis s) ∧
    (∀ axis (ts : List (Tensor α)), Clones.concatAxis (m := Except Err) pure axis ts = Tensor.concatAxis axis ts) ∧
    (∀ axis (ts : List (Tensor α)), Clones.stackVec (m := Except Err) pure axis ts = Tensor.stackVec axis ts) ∧
    (∀ (t : Tensor α) ms, Clones.tile (m := Except Err) pure t ms = t.tile ms) ∧
    (∀ (axes : List (Tensor α)) order, Clones.buildMeshgrid (m := Except Err) pure axes order = Init.buildMeshgrid axes order) ∧
    (∀ (ts : List (Tensor α)) s, Clones.fromMerge (m := Except Err) pure ts s = Tensor.fromMerge ts s) ∧
    (∀ t u : Tensor α, Clones.append (m := Except Err) pure t u = t.append u) ∧
    (∀ v : List (List α), Clones.joinVec (m := Except Err) pure v = Tensor.joinVec v) ∧
    (∀ v : List α, Clones.ofVec1 (m := Except Err) pure v = Tensor.ofVec1 v) ∧
    (∀ (N : Nat) (v : List (Vector α N)), Clones.ofRows (m := Except Err) pure v = Tensor.ofRows v) ∧
    (∀ v : List (List α), Clones.ofVec2 (m := Except Err) pure v = Tensor.ofVec2 v) ∧
    (∀ v : List (Tensor α), Clones.ofTensors (m := Except Err) pure v = Tensor.ofTensors v) :=
  ⟨Clones.fromSlice_agrees, Clones.fill_agrees, Clones.transpose_agrees, Clones.splitAxis_agrees, Clones.concatAxis_agrees,
    Clones.stackVec_agrees, Clones.tile_agrees, Clones.buildMeshgrid_agrees, Clones.fromMerge_agrees, Clones.append_agrees,
    Clones.joinVec_agrees, Clones.ofVec1_agrees, fun _ => Clones.ofRows_agrees, Clones.ofVec2_agrees, Clones.ofTensors_agrees⟩

/-- C95, `Tensor::from_slice`. -/
theorem C95_from_slice (data : List α) {u : Tensor α} {es : List Nat} {ys : List α} (h : Tensor.fromSlice data = .ok u)
    (hu : Rep u es ys) (clone : α → Exec σ α) : CopiesOnce clone (Clones.fromSlice clone data) es ys :=
  (Clones.fromSlice_isPuts data h).copiesOnce h hu clone

/-- C95, `fill`: the given value is cloned once for each slot. -/
theorem C95_fill {s : Shape} {v : α} {u : Tensor α} {es : List Nat} {ys : List α} (h : Tensor.fill s v = .ok u)
    (hu : Rep u es ys) (clone : α → Exec σ α) : CopiesOnce clone (Clones.fill clone s v) es ys := by
  rw [← Clones.fill_agrees] at h
  obtain ⟨n, hn, _⟩ := Clones.lift_eq_ok.1 h
  exact (Clones.fill_isPuts s v hn).copiesOnce h hu clone

/-- C95, `transpose`. -/
theorem C95_transpose {t : Tensor α} {ds : List Nat} {xs : List α} (ht : Rep t ds xs) {u : Tensor α} {es : List Nat}
    {ys : List α} (h : t.transpose = .ok u) (hu : Rep u es ys) (clone : α → Exec σ α) :
    CopiesOnce clone (Clones.transpose clone t) es ys := by
  rw [← Clones.transpose_agrees] at h
  exact (Clones.transpose_isPuts ht h).copiesOnce h hu clone

/-- C95, `split` and its variants, along any axis but the first: the pieces are copied one after the other. -/
theorem C95_split {t : Tensor α} {axis : Axis} {s : Tensor.Sections} {us : List (Tensor α)}
    {rs : List (List Nat × List α)} (h : t.splitAxis axis s = .ok us) (hu : RepAll us rs)
    (ha : axis.axisFromRank t.shape.rank ≠ .ok 0) (clone : α → Exec σ α) :
    CopiesEach clone (Clones.splitAxis clone t axis s) rs := Clones.splitAxis_copies h hu ha clone

/-- C95, `split` along the first axis: nothing is cloned, whatever the outcome. -/
theorem C95_split_views {t : Tensor α} {axis : Axis} {s : Tensor.Sections} (ha : axis.axisFromRank t.shape.rank = .ok 0)
    (clone : α → Exec σ α) (st : σ) :
    (Clones.splitAxis clone t axis s).run st = (t.splitAxis axis s).map fun us => (us, st) := by
  rw [Clones.splitAxis_views ha]
  cases t.splitAxis axis s <;> rfl

/-- C95, `concatenate` and the stacking functions built on it. -/
theorem C95_concatenate {axis : Nat} {ts : List (Tensor α)} {u : Tensor α} {es : List Nat} {ys : List α}
    (h : Tensor.concatAxis axis ts = .ok u) (hu : Rep u es ys) (clone : α → Exec σ α) :
    CopiesOnce clone (Clones.concatAxis clone axis ts) es ys := by
  rw [← Clones.concatAxis_agrees] at h
  exact (Clones.concatAxis_isPuts h).copiesOnce h hu clone

/-- C95, `stack`. -/
theorem C95_stack {axis : Axis} {ts : List (Tensor α)} {u : Tensor α} {es : List Nat} {ys : List α}
    (h : Tensor.stackVec axis ts = .ok u) (hu : Rep u es ys) (clone : α → Exec σ α) :
    CopiesOnce clone (Clones.stackVec clone axis ts) es ys := by
  rw [← Clones.stackVec_agrees] at h
  exact (Clones.stackVec_isPuts h).copiesOnce h hu clone

/-- C95, `tile`: one clone for each element of the result, so an element repeated `n` times is cloned `n` times. -/
theorem C95_tile {t : Tensor α} {ms : Tensor Nat} {u : Tensor α} {es : List Nat} {ys : List α} (h : t.tile ms = .ok u)
    (hu : Rep u es ys) (clone : α → Exec σ α) : CopiesOnce clone (Clones.tile clone t ms) es ys := by
  rw [← Clones.tile_agrees] at h
  exact (Clones.tile_isPuts h).copiesOnce h hu clone

/-- C95, `meshgrid`: the grids are built one after the other. -/
theorem C95_meshgrid {axes : List (Tensor α)} {ps : List (List Nat × List α)} (hw : RepAll axes ps)
    {us : List (Tensor α)} {rs : List (List Nat × List α)} (h : Init.meshgrid axes = .ok us) (hu : RepAll us rs)
    (clone : α → Exec σ α) : CopiesEach clone (Clones.buildMeshgrid clone axes .XY) rs :=
  Clones.buildMeshgrid_copies hw h hu clone

/-- C95, `meshgrid_ij`: the grids are built one after the other, the last one first. -/
theorem C95_meshgrid_ij {axes : List (Tensor α)} {ps : List (List Nat × List α)} (hw : RepAll axes ps)
    {us : List (Tensor α)} {rs : List (List Nat × List α)} (h : Init.meshgridIJ axes = .ok us) (hu : RepAll us rs)
    (clone : α → Exec σ α) :
    ∃ x, CopiesEach clone x rs.reverse ∧ Clones.buildMeshgrid clone axes .IJ = List.reverse <$> x :=
  Clones.buildMeshgrid_copies hw h hu clone

/-- C95, `Tensor::from_merge`. -/
theorem C95_from_merge {ts : List (Tensor α)} {rs : List (List Nat × List α)} (ht : RepAll ts rs) {s : Shape}
    {u : Tensor α} {es : List Nat} {ys : List α} (h : Tensor.fromMerge ts s = .ok u) (hu : Rep u es ys)
    (clone : α → Exec σ α) : CopiesOnce clone (Clones.fromMerge clone ts s) es ys := Clones.fromMerge_copies ht h hu clone

/-- C95, `append`. -/
theorem C95_append {t v : Tensor α} {dt dv : List Nat} {xt xv : List α} (ht : Rep t dt xt) (hv : Rep v dv xv)
    {u : Tensor α} {es : List Nat} {ys : List α} (h : t.append v = .ok u) (hu : Rep u es ys) (clone : α → Exec σ α) :
    CopiesOnce clone (Clones.append clone t v) es ys := Clones.append_copies ht hv h hu clone

/-- C95, the conversions that copy: `Tensor::join_vec`, `From<&Vec<T>>` (also `From<&[T]>`, `FromIterator<&T>`),
`From<&Vec<[T; N]>>` (also `From<&[[T; N]]>`), `From<&Vec<Vec<T>>>`. -/
theorem C95_from {N : Nat} {v : List (List α)} {l : List α} {rows : List (Vector α N)} {u : Tensor α} {es : List Nat}
    {ys : List α} (hu : Rep u es ys) (clone : α → Exec σ α) :
    (Tensor.joinVec v = .ok u → CopiesOnce clone (Clones.joinVec clone v) es ys) ∧
    (Tensor.ofVec1 l = .ok u → CopiesOnce clone (Clones.ofVec1 clone l) es ys) ∧
    (Tensor.ofRows rows = .ok u → CopiesOnce clone (Clones.ofRows clone rows) es ys) ∧
    (Tensor.ofVec2 v = .ok u → CopiesOnce clone (Clones.ofVec2 clone v) es ys) :=
  ⟨fun h => Clones.joinVec_copies h hu clone, fun h => Clones.ofVec1_copies h hu clone,
    fun h => Clones.ofRows_copies h hu clone, fun h => Clones.ofVec2_copies h hu clone⟩

/-- C95, `From<&[Tensor<T>]>`. -/
theorem C95_from_tensors {ts : List (Tensor α)} {rs : List (List Nat × List α)} (ht : RepAll ts rs) {u : Tensor α}
    {es : List Nat} {ys : List α} (h : Tensor.ofTensors ts = .ok u) (hu : Rep u es ys) (clone : α → Exec σ α) :
    CopiesOnce clone (Clones.ofTensors clone ts) es ys := Clones.ofTensors_copies ht h hu clone

/-- What a copying operation means for a clone that counts its calls: the count goes up by the number of elements of the
result, and the result has the elements themselves. -/
theorem C95_count {x : Exec Nat (Tensor α)} {ds : List Nat} {ys : List α}
    (h : CopiesOnce (fun a => do modify (· + 1); return a) x ds ys) (n : Nat) :
    ∃ t, x.run n = .ok (t, n + ys.length) ∧ Rep t ds ys := by
  obtain ⟨ps, hp, h⟩ := h
  have hm : ∀ (ps : List (Nat × α)) n, (ps.mapM (m := Exec Nat) fun p => do modify (· + 1); return p.2).run n =
      .ok (ps.map Prod.snd, n + ps.length) := by
    intro ps
    induction ps with
    | nil => intro n; rw [List.mapM_nil]; rfl
    | cons p ps ih =>
      intro n
      rw [List.mapM_cons, StateT.run_bind]
      show ((ps.mapM (m := Exec Nat) fun p => do modify (· + 1); return p.2) >>= fun vs => pure (p.2 :: vs)).run (n + 1) = _
      rw [StateT.run_bind, ih]
      show Except.ok (_, _) = Except.ok (_, _)
      rw [List.map_cons, List.length_cons, Nat.add_assoc, Nat.add_comm 1]
  have := h n
  rw [hm] at this
  obtain ⟨t, zs, hx, hr, hl, hz⟩ := this
  have hpl : ps.length = ys.length := by simpa using hp.length_eq
  refine ⟨t, by rw [hx, hpl], ?_⟩
  have e : zs = ys := by
    apply List.ext_getElem?
    intro i
    by_cases hi : i < ys.length
    · have hm : (i, ys[i]) ∈ ps := hp.mem_iff.2 (Clones.zipIdx_mem.2 (List.getElem?_eq_getElem hi))
      have := hz (i, ys[i]) (by
        rw [List.zip_map', List.mem_map]
        exact ⟨_, hm, rfl⟩)
      rw [this, List.getElem?_eq_getElem hi]
    · rw [List.getElem?_eq_none (by omega), List.getElem?_eq_none (by omega)]
  rw [← e]
  exact hr

/-- What a copying operation means for a clone that panics on some elements: if one of these elements is to be copied, the
operation panics. -/
theorem C95_panic {x : Exec σ (Tensor α)} {ds : List Nat} {ys : List α} {bad : α → Prop} [DecidablePred bad]
    (h : CopiesOnce (fun a => if bad a then (panicked : Res α) else pure a) x ds ys) {y : α} (hy : y ∈ ys) (hb : bad y)
    (s : σ) : x.run s = .error .panic := by
  obtain ⟨ps, hp, h⟩ := h
  have hm : ∀ ps : List (Nat × α), (∃ p ∈ ps, bad p.2) →
      (ps.mapM (m := Exec σ) fun p => if bad p.2 then (panicked : Res α) else pure p.2).run s = .error .panic := by
    intro ps
    induction ps with
    | nil => rintro ⟨p, hp, _⟩; cases hp
    | cons p ps ih =>
      rintro ⟨q, hq, hb⟩
      rw [List.mapM_cons, StateT.run_bind]
      by_cases hpb : bad p.2
      · rw [if_pos hpb]; rfl
      · rw [if_neg hpb]
        rcases List.mem_cons.1 hq with rfl | hq
        · exact absurd hb hpb
        · show ((ps.mapM (m := Exec σ) fun p => if bad p.2 then (panicked : Res α) else pure p.2) >>= fun vs =>
              pure (p.2 :: vs)).run s = _
          rw [StateT.run_bind, ih ⟨q, hq, hb⟩]
          rfl
  have := h s
  obtain ⟨i, hi⟩ := List.mem_iff_getElem?.1 hy
  rw [hm ps ⟨(i, y), hp.mem_iff.2 (Clones.zipIdx_mem.2 hi), hb⟩] at this
  exact this

/-! ## Examples -/

/-- A clone that counts its calls and returns a different value: the element plus 100 times the number of calls before. -/
def stampClone (a : Nat) : Exec Nat Nat := do
  let n ← get
  set (n + 1)
  return a + 100 * n

/-- A freshly made tensor for the examples. -/
def cloneT (ds : List Nat) (xs : List Nat) : Tensor Nat := ⟨ofDims ds, 0, xs.length, xs⟩

theorem cloneT_rep {ds xs : List Nat} (ha : Adm ds) (hp : 0 < ds.prod)
    (hs : ds.prod < 4294967296) (hl : xs.length = ds.prod) : Rep (cloneT ds xs) ds xs :=
  rep_fresh ha (fits_of_pos hp hs) hl

example (clone : Nat → Exec σ Nat) :
    CopiesOnce clone (Clones.fromSlice clone [7, 8, 9]) [3] [7, 8, 9] :=
  C95_from_slice _ (u := cloneT [3] [7, 8, 9]) rfl (cloneT_rep ⟨by simp, by simp⟩ (by simp) (by simp) rfl) clone

example (clone : Nat → Exec σ Nat) :
    CopiesOnce clone (Clones.fill clone (ofDims [2, 2]) 5) [2, 2] [5, 5, 5, 5] :=
  C95_fill (u := cloneT [2, 2] [5, 5, 5, 5]) rfl (cloneT_rep ⟨by simp, by simp⟩ (by simp) (by simp) rfl) clone

theorem exTransposed (clone : Nat → Exec σ Nat) :
    CopiesOnce clone (Clones.transpose clone exView) [2, 3] [2, 4, 6, 3, 5, 7] :=
  C95_transpose exView_rep (u := cloneT [2, 3] [2, 4, 6, 3, 5, 7]) rfl (cloneT_rep ⟨by simp, by simp⟩ (by simp) (by simp) rfl) clone

example (clone : Nat → Exec σ Nat) :
    CopiesEach clone (Clones.splitAxis clone exView (some 1) (.splitEqual 2)) [([3, 1], [2, 4, 6]), ([3, 1], [3, 5, 7])] :=
  C95_split (us := [cloneT [3, 1] [2, 4, 6], cloneT [3, 1] [3, 5, 7]]) (by decide +kernel)
    (.cons (cloneT_rep ⟨by simp, by simp⟩ (by simp) (by simp) rfl) (.cons (cloneT_rep ⟨by simp, by simp⟩ (by simp) (by simp) rfl) .nil))
    (by decide +kernel) clone

example (st : Nat) :
    ∃ us, us.length = 3 ∧ (Clones.splitAxis stampClone exView (some 0) (.splitEqual 3)).run st = .ok (us, st) := by
  rw [C95_split_views (axisFromRank_eq (by decide) (by decide))]
  obtain ⟨us, h, hl, _⟩ := C30_split_equal (a := 0) (pre := []) (post := [2]) exView_rep (by simp) (by decide) 3 (by simp)
  exact ⟨us, hl, by rw [h]; rfl⟩

example (clone : Nat → Exec σ Nat) :
    CopiesOnce clone (Clones.concatAxis clone 1 [exView, cloneT [3, 1] [7, 8, 9]]) [3, 3] [2, 3, 7, 4, 5, 8, 6, 7, 9] :=
  C95_concatenate (u := cloneT [3, 3] [2, 3, 7, 4, 5, 8, 6, 7, 9]) rfl (cloneT_rep ⟨by simp, by simp⟩ (by simp) (by simp) rfl) clone

example (clone : Nat → Exec σ Nat) :
    CopiesOnce clone (Clones.stackVec clone (some (-1)) [exRow, cloneT [2] [7, 8]]) [2, 2] [10, 7, 20, 8] :=
  C95_stack (u := cloneT [2, 2] [10, 7, 20, 8]) rfl (cloneT_rep ⟨by simp, by simp⟩ (by simp) (by simp) rfl) clone

theorem exTiled (clone : Nat → Exec σ Nat) :
    CopiesOnce clone (Clones.tile clone exRow (cloneT [2] [2, 2])) [2, 4] [10, 20, 10, 20, 10, 20, 10, 20] :=
  C95_tile (u := cloneT [2, 4] [10, 20, 10, 20, 10, 20, 10, 20]) rfl (cloneT_rep ⟨by simp, by simp⟩ (by simp) (by simp) rfl) clone

example (clone : Nat → Exec σ Nat) :
    CopiesEach clone (Clones.buildMeshgrid clone [exRow, cloneT [3] [1, 2, 3]] .XY)
      [([3, 2], [10, 20, 10, 20, 10, 20]), ([3, 2], [1, 1, 2, 2, 3, 3])] :=
  C95_meshgrid (.cons exRow_rep (.cons (cloneT_rep ⟨by simp, by simp⟩ (by simp) (by simp) rfl) .nil))
    (us := [cloneT [3, 2] [10, 20, 10, 20, 10, 20], cloneT [3, 2] [1, 1, 2, 2, 3, 3]]) rfl
    (.cons (cloneT_rep ⟨by simp, by simp⟩ (by simp) (by simp) rfl) (.cons (cloneT_rep ⟨by simp, by simp⟩ (by simp) (by simp) rfl) .nil)) clone

example (clone : Nat → Exec σ Nat) :
    ∃ x, CopiesEach clone x [([2, 3], [1, 2, 3, 1, 2, 3]), ([2, 3], [10, 10, 10, 20, 20, 20])] ∧
      Clones.buildMeshgrid clone [exRow, cloneT [3] [1, 2, 3]] .IJ = List.reverse <$> x :=
  C95_meshgrid_ij (.cons exRow_rep (.cons (cloneT_rep ⟨by simp, by simp⟩ (by simp) (by simp) rfl) .nil))
    (us := [cloneT [2, 3] [10, 10, 10, 20, 20, 20], cloneT [2, 3] [1, 2, 3, 1, 2, 3]]) rfl
    (.cons (cloneT_rep ⟨by simp, by simp⟩ (by simp) (by simp) rfl) (.cons (cloneT_rep ⟨by simp, by simp⟩ (by simp) (by simp) rfl) .nil)) clone

example (clone : Nat → Exec σ Nat) :
    CopiesOnce clone (Clones.fromMerge clone [exRow, exView] (ofDims [4, 2])) [4, 2] [10, 20, 2, 3, 4, 5, 6, 7] :=
  C95_from_merge (.cons exRow_rep (.cons exView_rep .nil)) (u := cloneT [4, 2] [10, 20, 2, 3, 4, 5, 6, 7]) rfl
    (cloneT_rep ⟨by simp, by simp⟩ (by simp) (by simp) rfl) clone

example (clone : Nat → Exec σ Nat) :
    CopiesOnce clone (Clones.append clone exView (cloneT [1, 2] [8, 9])) [4, 2] [2, 3, 4, 5, 6, 7, 8, 9] :=
  C95_append exView_rep (cloneT_rep ⟨by simp, by simp⟩ (by simp) (by simp) rfl) (u := cloneT [4, 2] [2, 3, 4, 5, 6, 7, 8, 9]) rfl
    (cloneT_rep ⟨by simp, by simp⟩ (by simp) (by simp) rfl) clone

example (clone : Nat → Exec σ Nat) : CopiesOnce clone (Clones.joinVec clone [[1, 2], [3]]) [3] [1, 2, 3] :=
  (C95_from (N := 0) (v := [[1, 2], [3]]) (l := []) (rows := []) (u := cloneT [3] [1, 2, 3])
    (cloneT_rep ⟨by simp, by simp⟩ (by simp) (by simp) rfl) clone).1 rfl

example (clone : Nat → Exec σ Nat) : CopiesOnce clone (Clones.ofVec1 clone [1, 2, 3]) [3] [1, 2, 3] :=
  (C95_from (N := 0) (v := []) (l := [1, 2, 3]) (rows := []) (u := cloneT [3] [1, 2, 3])
    (cloneT_rep ⟨by simp, by simp⟩ (by simp) (by simp) rfl) clone).2.1 rfl

example (clone : Nat → Exec σ Nat) : CopiesOnce clone (Clones.ofRows clone [#v[1, 2], #v[3, 4]]) [2, 2] [1, 2, 3, 4] :=
  (C95_from (v := []) (l := []) (rows := [#v[1, 2], #v[3, 4]]) (u := cloneT [2, 2] [1, 2, 3, 4])
    (cloneT_rep ⟨by simp, by simp⟩ (by simp) (by simp) rfl) clone).2.2.1 rfl

example (clone : Nat → Exec σ Nat) : CopiesOnce clone (Clones.ofVec2 clone [[1, 2], [3, 4]]) [2, 2] [1, 2, 3, 4] :=
  (C95_from (N := 0) (v := [[1, 2], [3, 4]]) (l := []) (rows := []) (u := cloneT [2, 2] [1, 2, 3, 4])
    (cloneT_rep ⟨by simp, by simp⟩ (by simp) (by simp) rfl) clone).2.2.2 rfl

example (clone : Nat → Exec σ Nat) :
    CopiesOnce clone (Clones.ofTensors clone [exRow, exRow]) [2, 2] [10, 20, 10, 20] :=
  C95_from_tensors (.cons exRow_rep (.cons exRow_rep .nil)) (u := cloneT [2, 2] [10, 20, 10, 20]) rfl
    (cloneT_rep ⟨by simp, by simp⟩ (by simp) (by simp) rfl) clone

/-- Transposing a 3 by 2 view makes six clones. -/
example : ∃ t, (Clones.transpose (fun a => do modify (· + 1); return a) exView : Exec Nat (Tensor Nat)).run 0 = .ok (t, 6) ∧
    Rep t [2, 3] [2, 4, 6, 3, 5, 7] := C95_count (exTransposed _) 0

/-- Tiling two elements four times makes eight clones. -/
example : ∃ t, (Clones.tile (fun a => do modify (· + 1); return a) exRow (cloneT [2] [2, 2]) :
    Exec Nat (Tensor Nat)).run 3 = .ok (t, 11) ∧
    Rep t [2, 4] [10, 20, 10, 20, 10, 20, 10, 20] := C95_count (exTiled _) 3

/-- Transposing panics if the clone of the element 5 panics. -/
example : (Clones.transpose (fun a => if a = 5 then (panicked : Res Nat) else pure a) exView : Exec Nat (Tensor Nat)).run 0 =
    .error .panic := C95_panic (bad := (· = 5)) (exTransposed _) (y := 5) (by simp) rfl 0

/-- The clones of a transposition are made in the order of the source, and end up in the transposed places. -/
example : (Clones.transpose stampClone exView).run 0 =
    .ok (⟨ofDims [2, 3], 0, 6, [2, 204, 406, 103, 305, 507]⟩, 6) := rfl

end Essay
