import Verif.Lemmas.Fold
import Verif.Lemmas.Init
import Verif.Model.CloneFold
import Verif.Spec.CloneFold

/-! # Helper lemmas for folds and matrices with visible copies (no claims here) -/

namespace Essay

open Shape

variable {σ α T U V S S1 : Type}

namespace Clones

theorem fold_eq {t : Tensor U} {ds : List Nat} {xs : List U} (h : Rep t ds xs) (c : Exec σ S) (f : S → U → Exec σ S)
    (g : S → Exec σ V) : fold t c f g = ((do
      let s ← c
      let s ← xs.foldlM f s
      g s) >>= fun v => (liftM (Tensor.fromScalar v) : Exec σ (Tensor V))) := by
  unfold fold
  rw [h.elems, lift_ok, pure_bind, h.size]
  simp only [bind_assoc]
  congr 1; funext s
  have := forR_lane xs id f xs 0 s (by simp)
  simp only [id, Nat.zero_add] at this
  rw [this]

theorem reduce_eq {t : Tensor U} {ds : List Nat} {xs : List U} (h : Rep t ds xs) (clone : U → Exec σ U)
    (f : U → U → Exec σ U) : reduce clone t f =
      (reduceCloned clone f xs >>= fun s => (liftM (Tensor.fromScalar s) : Exec σ (Tensor U))) := by
  unfold reduce
  rw [h.elems, lift_ok, pure_bind, h.size]
  cases xs with
  | nil => rfl
  | cons x xs =>
    rw [idx_ok (x := x) rfl, lift_ok, pure_bind]
    unfold reduceCloned
    simp only [bind_assoc]
    congr 1; funext s
    have := forR_lane (x :: xs) id (fun s y => clone y >>= fun v => f s v) xs 1 s
      (by intro k _; simp [Nat.add_comm 1 k])
    simp only [id, Nat.add_comm 1 xs.length] at this
    rw [List.length_cons, this]

theorem foldAxis_eq {t : Tensor T} {ds : List Nat} {xs : List T} (h : Rep t ds xs) {axis : Axis} {os : List Nat}
    {batch aLen inner : Nat} (hr : axis.reduce t.shape = Except.ok (ofDims os, batch, aLen, inner))
    (hos : (ofDims os).size = Except.ok (batch * inner)) {lanes : List (List T)}
    (hl : LanesAt xs batch aLen inner lanes) (c : Exec σ S) (f : S → T → Exec σ S) (g : S → Exec σ V) :
    foldAxis t axis c f g =
      (lanes.mapM (foldCloned c f g) >>= fun vs => (liftM (Tensor.new vs (ofDims os)) : Exec σ (Tensor V))) := by
  unfold foldAxis
  rw [hr, lift_ok, pure_bind]
  simp only
  rw [hos, lift_ok, pure_bind]
  apply unsafeInitM_eq
  rw [h.elems, lift_ok, pure_bind, forR_nest, ← mapM_idx lanes, hl.1, ← forR_push0]
  apply forR_congr
  intro p o _ hp
  obtain ⟨lane, h1, h2, h3⟩ := hl.2 p hp
  rw [idx_ok h1, lift_ok, pure_bind, div_add_mod']
  unfold foldCloned
  simp only [bind_assoc]
  congr 1; funext s
  have := forR_lane xs (fun k => (p / inner * aLen + k) * inner + p % inner) f lane 0 s
    (by intro k hk; rw [Nat.zero_add, h3 k (by omega)])
  rw [Nat.zero_add, h2] at this
  rw [this]

theorem reduceAxis_eq {t : Tensor T} {ds : List Nat} {xs : List T} (h : Rep t ds xs) {axis : Axis} {os : List Nat}
    {batch aLen inner : Nat} (hr : axis.reduce t.shape = Except.ok (ofDims os, batch, aLen, inner))
    (hos : (ofDims os).size = Except.ok (batch * inner)) (hx : xs.length = batch * aLen * inner) {lanes : List (List T)}
    (hl : LanesAt xs batch aLen inner lanes) (clone : T → Exec σ T) (f : T → T → Exec σ T) :
    reduceAxis clone t axis f =
      (lanes.mapM (reduceCloned clone f) >>= fun vs => (liftM (Tensor.new vs (ofDims os)) : Exec σ (Tensor T))) := by
  unfold reduceAxis
  rw [hr, lift_ok, pure_bind]
  simp only
  rw [hos, lift_ok, pure_bind]
  apply unsafeInitM_eq
  rw [h.elems, lift_ok, pure_bind, forR_nest, ← mapM_idx lanes, hl.1, ← forR_push0]
  apply forR_congr
  intro p o _ hp
  obtain ⟨lane, h1, h2, h3⟩ := hl.2 p hp
  rw [idx_ok h1, lift_ok, pure_bind, div_add_mod']
  have e : ∀ k, p / inner * aLen * inner + p % inner + k * inner = (p / inner * aLen + k) * inner + p % inner := by
    intro k; rw [Nat.add_mul]; omega
  simp only [e]
  cases lane with
  | nil =>
    simp at h2
    rw [idx_ge (by rw [hx, ← h2]; simp)]; rfl
  | cons x lane =>
    rw [idx_ok (x := x) (by rw [← h3 0 (by simp at h2; omega)]; rfl), lift_ok, pure_bind]
    unfold reduceCloned
    simp only [bind_assoc]
    congr 1; funext s
    have := forR_lane xs (fun k => (p / inner * aLen + k) * inner + p % inner) (fun s y => clone y >>= fun v => f s v) lane 1 s
      (by intro k hk; rw [← h3 (1 + k) (by simp at h2; omega), Nat.add_comm 1 k]; simp)
    rw [show 1 + lane.length = aLen by simp at h2; omega] at this
    rw [this]

theorem normalize_eq {t : Tensor T} {ds : List Nat} {xs : List T} (h : Rep t ds xs) {axis : Axis}
    {os : Shape} {batch aLen inner : Nat} (hr : axis.reduce t.shape = Except.ok (os, batch, aLen, inner))
    (hx : xs.length = batch * aLen * inner) {lanes : List (List T)}
    (hl : LanesAt xs batch aLen inner lanes) (c : Exec σ S) (accum : S → T → Exec σ S) (complete : S → Exec σ S1)
    (norm : S1 → T → Exec σ V) :
    normalize t axis c accum complete norm =
      (lanes.mapM (fun lane => do
          let s1 ← foldCloned c accum complete lane
          lane.mapM (norm s1)) >>= fun vs => (liftM (Tensor.new vs.flatten t.shape) : Exec σ (Tensor V))) := by
  unfold normalize
  rw [hr, lift_ok, pure_bind]
  simp only
  rw [h.size_eq, lift_ok, pure_bind]
  refine (unsafeInitM_eq (y := lanes.mapM (fun lane => do
          let s1 ← foldCloned c accum complete lane
          lane.mapM (norm s1)) >>= fun vs => pure vs.flatten) ?_).trans (by simp only [bind_assoc, pure_bind])
  rw [h.elems, lift_ok, pure_bind, forR_nest, ← hl.1, show ds.prod = lanes.length * aLen by
    rw [← h.length, hx, hl.1]; grind]
  simp only [bind_assoc, pure_bind]
  apply forR_lists
  · intro lane hmem s vs s' hrun
    obtain ⟨p, hp⟩ := List.getElem?_of_mem hmem
    have hplt : p < batch * inner := by rw [← hl.1]; exact (List.getElem?_eq_some_iff.1 hp).1
    obtain ⟨lane', h1, h2, _⟩ := hl.2 p hplt
    rw [hp] at h1; cases h1
    obtain ⟨_, _, _, hrun⟩ := run_bind_ok hrun
    rw [mapM_length _ _ _ _ _ hrun, h2]
  · intro p lane l r hp hlen
    have hplt : p < batch * inner := by rw [← hl.1]; exact (List.getElem?_eq_some_iff.1 hp).1
    obtain ⟨lane', h1, h2, h3⟩ := hl.2 p hplt
    rw [hp] at h1; cases h1
    have e1 := fun s => forR_lane xs (fun k => (p / inner * aLen + k) * inner + p % inner) accum lane 0 s
      (by intro k hk; rw [Nat.zero_add, h3 k (by omega)])
    simp only [Nat.zero_add, h2] at e1
    simp only [e1]
    unfold foldCloned
    simp only [bind_assoc]
    congr 1; funext s0
    congr 1; funext s
    congr 1; funext s1
    have e2 := forR_push (fun k => (liftM (idx xs ((p / inner * aLen + k) * inner + p % inner)) : Exec σ T) >>= norm s1)
      aLen l r
    rw [hlen] at e2
    rw [div_add_mod']
    simp only [bind_assoc] at e2
    rw [e2]
    congr 1
    rw [← mapM_idx lane, h2]
    apply mapM_congr_list rfl
    intro i a b ha hb
    rw [ha] at hb; cases hb
    have hi : i < aLen := by have := (List.getElem?_eq_some_iff.1 ha).1; simpa using this
    have : a = i := by
      rw [List.getElem?_range hi] at ha; exact (Option.some.inj ha).symm
    subst this
    unfold idx
    rw [h3 a hi]

theorem foldRow_eq {t : Tensor T} {ds : List Nat} {xs : List T} (h : Rep t ds xs) (h0 : t.offset = 0) {axis : Axis}
    {os : List Nat} {batch aLen inner N c : Nat}
    (hr : axis.reduceRow t.shape N = Except.ok (ofDims os, batch, aLen, inner)) (hc : t.shape.cols = Except.ok c)
    (hc0 : 0 < c) (hx : xs.length = (batch * aLen * inner) * c)
    (hos : (ofDims os).size = Except.ok (batch * inner * N)) {lanes : List (List (List T))}
    (hl : LanesAt (rowsOf xs c (batch * aLen * inner)) batch aLen inner lanes) (ci : Exec σ S) (f : S → List T → Exec σ S)
    (g : S → Exec σ (Vector V N)) :
    foldRow t axis N ci f g =
      (lanes.mapM (foldCloned ci f g) >>=
        fun vs => (liftM (Tensor.new (vs.map Vector.toList).flatten (ofDims os)) : Exec σ (Tensor V))) := by
  unfold foldRow
  rw [hr, lift_ok, pure_bind]
  simp only
  rw [hc, lift_ok, pure_bind, hos, lift_ok, pure_bind]
  refine (unsafeInitM_eq (y := lanes.mapM (foldCloned ci f g) >>=
    fun vs => pure (vs.map Vector.toList).flatten) ?_).trans (by simp only [bind_assoc, pure_bind])
  simp only [bind_assoc, pure_bind]
  rw [forR_nest, forR_rows (fun p => (liftM (idx lanes p) : Exec σ (List (List T))) >>= foldCloned ci f g)]
  · have := mapM_idx lanes (foldCloned ci f g)
    rw [hl.1] at this
    rw [this]
  · intro p l r hp hlen
    obtain ⟨lane, h1, h2, h3⟩ := hl.2 p hp
    rw [idx_ok h1, lift_ok, pure_bind, div_add_mod']
    unfold foldCloned
    simp only [bind_assoc]
    congr 1; funext s0
    have e := forR_lane (rowsOf xs c (batch * aLen * inner)) (fun k => (p / inner * aLen + k) * inner + p % inner) f lane
      0 s0 (by intro k hk; rw [Nat.zero_add, h3 k (by omega)])
    rw [Nat.zero_add, h2] at e
    rw [← e]
    have e2 : ∀ s, forR 0 aLen s (fun k state => do
          let v ← (liftM (t.asWrapSliceN (c * ((p / inner * aLen + k) * inner + p % inner)) c) : Exec σ (List T))
          f state v) = forR 0 aLen s (fun k s => (liftM (idx (rowsOf xs c (batch * aLen * inner))
            ((p / inner * aLen + k) * inner + p % inner)) : Exec σ (List T)) >>= fun v => f s v) := by
      intro s
      apply forR_congr
      intro k s _ hk
      have hlt := lane_lt hp hk
      rw [asWrapSliceN_eq h h0 hx hlt hc0, idx_ok (rowsOf_get' hlt)]
    rw [e2]
    congr 1; funext s
    congr 1; funext v
    have := writeRow_pre l r v.toList
    rw [hlen] at this
    rw [show v.toList.length = N by simp] at this
    rw [this]; rfl

/-- What stands in each slot of a triangular part: an element to copy, or nothing (a zero). -/
def triSources (keep : Nat → Nat → Bool) (rows cols : Nat) (xs : List α) : List (Option α) :=
  (List.range xs.length).map fun p => if keep (p % cols) (p / cols % rows) then xs[p]? else none

theorem triFill_eq (keep : Nat → Nat → Bool) {t : Tensor α} {ds : List Nat} {rows cols : Nat} {xs : List α}
    (h : Rep t (ds ++ [rows, cols]) xs) (hpos : 0 < rows * cols) (clone : α → Exec σ α) (zero : Exec σ α) :
    triFill clone zero keep t = ((triSources keep rows cols xs).mapM (copyOrZero clone zero) >>=
      fun vs => (liftM (Tensor.new vs t.shape) : Exec σ (Tensor α))) := by
  have hl := h.length
  have hprod : (ds ++ [rows, cols]).prod = ds.prod * (rows * cols) := by simp
  have hr : t.shape.rows = Except.ok rows := by rw [rows_eq h.wf.shape, h.toDims]; simp
  have hc : t.shape.cols = Except.ok cols := by rw [cols_eq h.wf.shape, h.toDims]; simp
  unfold triFill
  rw [ensure_true (by rw [h.rank]; simp), lift_ok, pure_bind, h.size_eq, lift_ok, pure_bind]
  apply unsafeInitM_eq
  have hdiv : udiv (ds ++ [rows, cols]).prod (rows * cols) = Except.ok ds.prod := by
    unfold udiv
    rw [if_neg (by omega), hprod, Nat.mul_div_cancel _ hpos]
  rw [h.elems, lift_ok, pure_bind, hr, lift_ok, pure_bind, hc, lift_ok, pure_bind, hdiv, lift_ok, pure_bind]
  have hcp : 0 < cols := Nat.pos_of_mul_pos_left hpos
  have e : (triSources keep rows cols xs).mapM (copyOrZero clone zero) = (List.range xs.length).mapM (fun p =>
      if keep (p % cols) (p / cols % rows) then (liftM (idx xs p) : Exec σ α) >>= clone else zero) := by
    apply mapM_congr_list (by simp [triSources])
    intro i a b ha hb
    have hi : i < xs.length := by have := (List.getElem?_eq_some_iff.1 hb).1; simpa using this
    rw [List.getElem?_range hi] at hb; cases hb
    unfold triSources at ha
    rw [List.getElem?_map, List.getElem?_range hi] at ha
    cases ha
    by_cases hk : keep (i % cols) (i / cols % rows)
    · simp only [hk, if_true]
      rw [List.getElem?_eq_getElem hi, idx_ok (List.getElem?_eq_getElem hi)]; rfl
    · simp only [hk]; rfl
  rw [e, ← forR_push0, hl, hprod]
  have e3 : ∀ k o, (forR 0 rows o fun j o => forR 0 cols o fun i o => (do
          let v ← if keep i j then do
              let v ← (liftM (idx xs (k * rows * cols + j * cols + i)) : Exec σ α)
              clone v
            else zero
          (liftM (Buf.write o (k * rows * cols + j * cols + i) v) : Exec σ (Buf α)))) =
      forR 0 (rows * cols) o fun p o => (do
          let v ← if keep (p % cols) (p / cols) then do
              let v ← (liftM (idx xs (k * (rows * cols) + p)) : Exec σ α)
              clone v
            else zero
          (liftM (Buf.write o (k * (rows * cols) + p) v) : Exec σ (Buf α))) := by
    intro k o
    rw [forR_nest]
    apply forR_congr
    intro p o _ hp
    rw [show k * rows * cols + p / cols * cols + p % cols = k * (rows * cols) + p by
      rw [Nat.add_assoc, div_add_mod', Nat.mul_assoc]]
  refine (forR_congr (fun k o _ _ => e3 k o)).trans ?_
  rw [forR_nest]
  apply forR_congr
  intro p o _ hp
  rw [div_add_mod', Nat.mod_mul_left_mod, Nat.mod_mul_left_div_self]
  dsimp only
  split
  · rw [bind_assoc]
  · rfl

theorem lift_forR {γ : Type} (lo hi : Nat) (s : γ) (body : Nat → γ → Res γ) :
    (liftM (forR lo hi s body) : Exec σ γ) = forR lo hi s fun i s => (liftM (body i s) : Exec σ γ) := by
  unfold forR
  generalize hi - lo = n
  induction n generalizing lo s with
  | zero => rfl
  | succ n ih =>
    rw [List.range'_succ, List.foldlM_cons, List.foldlM_cons, lift_bind]
    congr 1; funext s
    exact ih _ _

end Clones

end Essay
