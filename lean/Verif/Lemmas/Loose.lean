import Verif.Lemmas.Fold
import Verif.Model.Linalg
import Verif.Model.Array

/-! # Shapes whose storage beyond the rank is arbitrary (helper lemmas, no claims here)

`rinsert` beyond the rank leaves values in the unused slots of a shape. Such a shape shows the same dimensions as the
one with zeros there (`canon`). -/

namespace Essay

namespace Shape

/-- Valid storage; the unused slots are arbitrary, except that a shape of rank 0 has first slot 0. -/
structure Loose (s : Shape) : Prop where
  len : s.dims.length = 6
  rank_le : s.rank ≤ 6
  lt : ∀ d ∈ s.dims, d < 4294967296
  zero : s.rank = 0 → s.dims[0]? = some 0

theorem WF.loose {s : Shape} (h : s.WF) : s.Loose :=
  ⟨h.len, h.rank_le, h.lt, fun h0 => h.tail 0 (by omega) (by omega)⟩

/-- The shape with the same dimensions and zeros in the unused slots. -/
def canon (s : Shape) : Shape := ofDims s.toDims

variable {s : Shape}

theorem Loose.rank_eq (h : s.Loose) : s.rank = s.toDims.length := by
  have h1 := h.len; have h2 := h.rank_le
  simp [toDims]; omega

theorem Loose.adm (h : s.Loose) : Adm s.toDims :=
  ⟨by have := h.rank_eq; have := h.rank_le; omega, fun d hd => h.lt d (List.mem_of_mem_take (List.mem_reverse.1 hd))⟩

theorem Loose.canon_wf (h : s.Loose) : s.canon.WF := wf_ofDims h.adm

theorem toDims_canon : s.canon.toDims = s.toDims := toDims_ofDims _

theorem Loose.rank_canon (h : s.Loose) : s.canon.rank = s.rank := by rw [h.rank_eq]; simp [canon]

theorem Loose.get_canon (h : s.Loose) {i : Nat} (hi : i < s.rank) : s.canon.dims[i]? = s.dims[i]? := by
  have h1 := h.rank_eq
  have h2 := h.adm.len
  unfold canon ofDims
  rw [ofRev_get (by simpa using h2), if_pos (by simp; omega)]
  simp only [toDims, List.reverse_reverse]
  rw [List.getElem?_take_of_lt hi]

theorem Loose.take_canon (h : s.Loose) : s.canon.dims.take s.rank = s.dims.take s.rank := by
  apply List.ext_getElem?
  intro i
  by_cases hi : i < s.rank
  · rw [List.getElem?_take_of_lt hi, List.getElem?_take_of_lt hi, h.get_canon hi]
  · rw [List.getElem?_eq_none (by simp; omega), List.getElem?_eq_none (by simp; omega)]

theorem Loose.idx_canon (h : s.Loose) {i : Nat} (hi : i < s.rank) : idx s.canon.dims i = idx s.dims i := by
  unfold idx; rw [h.get_canon hi]

theorem Loose.size_canon (h : s.Loose) : s.canon.size = s.size := by
  unfold size productTo
  rw [h.rank_canon, h.take_canon, h.canon_wf.len, h.len]

theorem Loose.dim_canon (h : s.Loose) (i : Nat) : s.canon.dim i = s.dim i := by
  by_cases hi : i < s.rank
  · unfold dim
    rw [h.rank_canon, usub_ok (by omega), ok_bind, ok_bind, usub_ok (by omega), ok_bind, ok_bind, h.idx_canon (by omega)]
  · rw [dim_ge (by rw [h.rank_canon]; omega), dim_ge (by omega)]

theorem Loose.cols_canon (h : s.Loose) : s.canon.cols = s.cols := by
  unfold cols
  by_cases h0 : s.rank = 0
  · rw [idx_ok (h.zero h0), idx_ok (h.canon_wf.tail 0 (by rw [h.rank_canon]; omega) (by omega))]
  · exact h.idx_canon (by omega)

theorem Loose.rows_canon (h : s.Loose) : s.canon.rows = s.rows := by
  unfold rows
  rw [h.rank_canon]
  split
  · exact h.idx_canon (by omega)
  · rfl

theorem Loose.rsublen_canon (h : s.Loose) {lo hi : Nat} (hh : hi ≤ s.rank) : s.canon.rsublen lo hi = s.rsublen lo hi := by
  unfold rsublen
  exact forR_congr fun i _ hi _ => by rw [h.idx_canon (by omega)]

theorem Loose.sublen_canon (h : s.Loose) (lo hi : Nat) : s.canon.sublen lo hi = s.sublen lo hi := by
  unfold sublen
  rw [h.rank_canon]
  refine bind_congr fun a => ?_
  by_cases hl : lo ≤ s.rank
  · rw [usub_ok hl, ok_bind, ok_bind, h.rsublen_canon (by omega)]
  · rw [show usub s.rank lo = Except.error Err.panic by simp [usub]; omega]; rfl

theorem Loose.asVec_canon (h : s.Loose) : s.canon.asVec = s.asVec := by
  unfold asVec
  rw [h.rank_canon]
  exact forR_congr fun i _ _ _ => by rw [h.dim_canon]

theorem Loose.dimsLoop_canon (h : s.Loose) (lo hi : Nat) (vec : List Nat) :
    Axis.dimsLoop s.canon lo hi vec = Axis.dimsLoop s lo hi vec := by
  unfold Axis.dimsLoop
  exact forR_congr fun i _ _ _ => by rw [h.dim_canon]

theorem Loose.reduce_canon (h : s.Loose) (axis : Axis) : axis.reduce s.canon = axis.reduce s := by
  unfold Axis.reduce
  simp only [h.rank_canon, h.size_canon, h.dim_canon, h.dimsLoop_canon]

theorem Loose.reduceRow_canon (h : s.Loose) (axis : Axis) (c : Nat) : axis.reduceRow s.canon c = axis.reduceRow s c := by
  unfold Axis.reduceRow
  simp only [h.rank_canon, h.size_canon, h.dim_canon, h.dimsLoop_canon, h.cols_canon]

theorem Loose.broadcastMin_canon {u : Shape} (h : s.Loose) (hu : u.Loose) (i j : Nat) :
    s.canon.broadcastMin i u.canon j = s.broadcastMin i u j := by
  unfold broadcastMin
  rw [h.rank_canon, hu.rank_canon]
  by_cases hi : i ≤ s.rank
  · by_cases hj : j ≤ u.rank
    · rw [usub_ok hi, usub_ok hj]
      simp only [ok_bind]
      simp only [h.sublen_canon, hu.sublen_canon]
      congr 1
      exact forR_congr fun k _ hk _ => by rw [h.idx_canon (by omega), hu.idx_canon (by omega)]
    · rw [show usub u.rank j = Except.error Err.panic by simp [usub]; omega]; rfl
  · rw [show usub s.rank i = Except.error Err.panic by simp [usub]; omega]; rfl

/-! ### operations keep shapes loose -/

theorem Loose.cols_eq (h : s.Loose) : s.cols = Except.ok (s.toDims.reverse[0]?.getD 0) := by
  rw [← h.cols_canon, Shape.cols_eq h.canon_wf, toDims_canon]

theorem Loose.rows_eq (h : s.Loose) : s.rows = Except.ok (s.toDims.reverse[1]?.getD 0) := by
  rw [← h.rows_canon, Shape.rows_eq h.canon_wf, toDims_canon]

theorem Loose.size_prod (h : s.Loose) {n : Nat} (hn : s.size = Except.ok n) : n = s.toDims.prod := by
  rw [← h.size_canon] at hn
  rw [size_eq_ok_prod h.canon_wf hn, toDims_canon]

theorem Loose.asVec_eq (h : s.Loose) : s.asVec = Except.ok s.toDims := by
  rw [← h.asVec_canon, Shape.asVec_eq h.canon_wf, toDims_canon]

theorem Loose.dim_eq (h : s.Loose) {i d : Nat} (hd : s.toDims[i]? = some d) : s.dim i = Except.ok d := by
  rw [← h.dim_canon]
  exact Shape.dim_eq h.canon_wf (by rw [toDims_canon]; exact hd)

theorem Loose.dim_lt (h : s.Loose) {i : Nat} (hi : i < s.toDims.length) : s.dim i = Except.ok s.toDims[i] :=
  h.dim_eq (by simp [hi])

theorem Loose.sublen_ok (h : s.Loose) {lo hi n : Nat} (hle : lo ≤ hi) (hhi : hi ≤ s.rank)
    (hn : s.sublen lo hi = Except.ok n) : n = ((s.toDims.drop lo).take (hi - lo)).prod := by
  rw [← h.sublen_canon] at hn
  rw [sublen_eq_ok h.canon_wf hle (by rw [h.rank_canon]; exact hhi) hn, toDims_canon]

end Shape

open Shape

namespace Tensor

/-- A tensor inside its buffer, of the size of its shape. -/
structure LWF {α : Type} (t : Tensor α) : Prop where
  shape : t.shape.Loose
  size : t.shape.size = .ok t.size
  bound : t.offset + t.size ≤ t.data.length

/-- The tensor with zeros in the unused slots of its shape. -/
def canon {α : Type} (t : Tensor α) : Tensor α := { t with shape := t.shape.canon }

variable {α : Type} {t : Tensor α}

theorem WF.loose (h : t.WF) : t.LWF := ⟨h.shape.loose, h.size, h.bound⟩

theorem LWF.canon_wf (h : t.LWF) : t.canon.WF := ⟨h.shape.canon_wf, h.shape.size_canon.trans h.size, h.bound⟩

theorem LWF.canon_rep (h : t.LWF) : Rep t.canon t.shape.toDims t.elems := by
  have := h.canon_wf.rep
  rwa [show t.canon.shape.toDims = t.shape.toDims from toDims_canon, show t.canon.elems = t.elems from rfl] at this

end Tensor

/-! ### the same call on shapes showing the same dimensions -/

/-- Both fail in the same way or both return, with related results. -/
inductive RelR {α β : Type} (P : α → β → Prop) : Res α → Res β → Prop
  | ok {a b} : P a b → RelR P (.ok a) (.ok b)
  | error (e) : RelR P (.error e) (.error e)

section
variable {α β γ δ : Type}

theorem RelR.refl (x : Res α) : RelR (fun a b => a = b) x x := by
  cases x with
  | ok a => exact .ok rfl
  | error e => exact .error e

theorem RelR.bind {P : α → β → Prop} {Q : γ → δ → Prop} {x : Res α} {y : Res β} {f : α → Res γ} {g : β → Res δ}
    (h : RelR P x y) (hf : ∀ a b, P a b → RelR Q (f a) (g b)) : RelR Q (x >>= f) (y >>= g) := by
  cases h with
  | ok h => exact hf _ _ h
  | error e => exact .error e

theorem RelR.same {Q : γ → δ → Prop} {x : Res α} {f : α → Res γ} {g : α → Res δ}
    (hf : ∀ a, RelR Q (f a) (g a)) : RelR Q (x >>= f) (x >>= g) :=
  (RelR.refl x).bind fun a b h => h ▸ hf a

theorem forR_relR (P : α → β → Prop) {lo hi : Nat} {s : α} {s' : β} {f : Nat → α → Res α} {g : Nat → β → Res β} (h0 : P s s')
    (h : ∀ i s s', lo ≤ i → i < hi → P s s' → RelR P (f i s) (g i s')) : RelR P (forR lo hi s f) (forR lo hi s' g) := by
  by_cases hle : lo ≤ hi
  · obtain ⟨n, rfl⟩ : ∃ n, hi = lo + n := ⟨hi - lo, by omega⟩
    induction n with
    | zero => rw [forR_stop (by omega), forR_stop (by omega)]; exact .ok h0
    | succ n ih =>
      rw [← Nat.add_assoc, forR_snoc (by omega), forR_snoc (by omega)]
      exact (ih (fun i s s' h1 h2 => h i s s' h1 (by omega)) (by omega)).bind fun a b hab =>
        h (lo + n) a b (by omega) (by omega) hab
  · rw [forR_stop (by omega), forR_stop (by omega)]; exact .ok h0

theorem RelR.noUB {P : α → β → Prop} {x : Res α} {y : Res β} (h : RelR P x y) (hy : NoUB y) : NoUB x := by
  cases h with
  | ok h => exact noUB_ok _
  | error e => intro h; cases h; exact hy rfl

end

namespace Shape

/-- The lists agree below `n`. -/
structure Agrees (n : Nat) (l l' : List Nat) : Prop where
  len : l.length = 6
  len' : l'.length = 6
  get : ∀ i, i < n → l[i]? = l'[i]?

/-- Same dimensions. -/
def Sim (s s' : Shape) : Prop := s.rank = s'.rank ∧ Agrees s.rank s.dims s'.dims

theorem Loose.sim {s : Shape} (h : s.Loose) : Sim s s.canon :=
  ⟨h.rank_canon.symm, h.len, h.canon_wf.len, fun _ hi => (h.get_canon hi).symm⟩

theorem Agrees.idx {n i : Nat} {l l' : List Nat} (h : Agrees n l l') (hi : i < n) :
    RelR (fun a b => a = b) (Essay.idx l i) (Essay.idx l' i) := by
  unfold Essay.idx
  rw [h.get i hi]
  exact RelR.refl _

theorem Agrees.setIdx {n : Nat} {l l' : List Nat} (h : Agrees n l l') (i v : Nat) :
    RelR (Agrees n) (Essay.setIdx l i v) (Essay.setIdx l' i v) := by
  by_cases hi : i < 6
  · rw [setIdx_ok (by rw [h.len]; exact hi), setIdx_ok (by rw [h.len']; exact hi)]
    refine .ok ⟨by simpa using h.len, by simpa using h.len', fun j hj => ?_⟩
    rw [List.getElem?_set, List.getElem?_set, h.get j hj, h.len, h.len']
  · rw [show Essay.setIdx l i v = Except.error Err.panic by simp [Essay.setIdx, h.len, hi],
      show Essay.setIdx l' i v = Except.error Err.panic by simp [Essay.setIdx, h.len', hi]]
    exact .error _

theorem Agrees.mono {n m : Nat} {l l' : List Nat} (h : Agrees n l l') (hm : m ≤ n) : Agrees m l l' :=
  ⟨h.len, h.len', fun i hi => h.get i (by omega)⟩

variable {s s' : Shape}

theorem Sim.withCols (h : Sim s s') (v : Nat) : RelR Sim (s.withCols v) (s'.withCols v) := by
  unfold Shape.withCols
  exact (h.2.setIdx _ _).bind fun d d' hd => .ok ⟨h.1, hd⟩

theorem Sim.withRows (h : Sim s s') (v : Nat) : RelR Sim (s.withRows v) (s'.withRows v) := by
  unfold Shape.withRows
  rw [← h.1]
  exact .same fun _ => (h.2.setIdx _ _).bind fun d d' hd => .ok ⟨rfl, hd⟩

theorem Sim.rremove (h : Sim s s') (a : Nat) : RelR Sim (s.rremove a) (s'.rremove a) := by
  unfold Shape.rremove
  rw [← h.1]
  refine .same fun _ => ?_
  by_cases h0 : 1 ≤ s.rank
  · rw [usub_ok h0, ok_bind, ok_bind]
    refine (forR_relR (Agrees s.rank) h.2 fun i d d' _ hi hd => ?_).bind fun d d' hd =>
      (hd.setIdx _ _).bind fun e e' he => .ok ⟨rfl, he.mono (by simp)⟩
    refine (hd.idx (by omega)).bind fun v v' hv => ?_
    subst hv
    exact hd.setIdx _ _
  · rw [show usub s.rank 1 = Except.error Err.panic by simp [usub]; omega]; exact .error _

theorem Sim.remove (h : Sim s s') (a : Nat) : RelR Sim (s.remove a) (s'.remove a) := by
  unfold Shape.remove
  rw [← h.1]
  exact .same fun _ => .same fun _ => .same fun _ => h.rremove _

theorem Sim.toDims (h : Sim s s') : s.toDims = s'.toDims := by
  unfold Shape.toDims
  congr 1
  rw [← h.1]
  apply List.ext_getElem?
  intro i
  by_cases hi : i < s.rank
  · rw [List.getElem?_take_of_lt hi, List.getElem?_take_of_lt hi, h.2.get i hi]
  · rw [List.getElem?_eq_none (by simp; omega), List.getElem?_eq_none (by simp; omega)]

theorem Sim.size (h : Sim s s') : s.size = s'.size := by
  have h1 := h.toDims
  unfold Shape.toDims at h1
  rw [List.reverse_inj] at h1
  unfold Shape.size productTo
  rw [h1, ← h.1, h.2.len, h.2.len']

theorem Sim.sublen (h : Sim s s') (lo hi : Nat) : s.sublen lo hi = s'.sublen lo hi := by
  unfold Shape.sublen
  rw [← h.1]
  refine bind_congr fun a => ?_
  by_cases hl : lo ≤ s.rank
  · rw [usub_ok hl, ok_bind, ok_bind]
    unfold Shape.rsublen
    refine forR_congr fun i _ hi _ => ?_
    unfold Essay.idx
    rw [h.2.get i (by omega)]
  · rw [show usub s.rank lo = Except.error Err.panic by simp [usub]; omega]; rfl

end Shape

section
variable {α : Type}

theorem validateConcat_canon {ts : List (Tensor α)} (h : ∀ t ∈ ts, t.LWF) (axis : Nat) :
    Tensor.validateConcat (ts.map Tensor.canon) axis = Tensor.validateConcat ts axis := by
  cases ts with
  | nil => rfl
  | cons a ts =>
    have ha := (h a List.mem_cons_self).shape
    unfold Tensor.validateConcat
    rw [List.map_cons, show idx (a.canon :: ts.map Tensor.canon) 0 = .ok a.canon from rfl,
      show idx (a :: ts) 0 = .ok a from rfl, ok_bind, ok_bind]
    dsimp only
    rw [← List.map_cons]
    unfold forL
    rw [List.foldlM_map]
    generalize a :: ts = us at h
    suffices H : ∀ acc : Nat, List.foldlM (fun s (x : Tensor α) => do
        ensure (a.canon.shape.rank = x.canon.shape.rank)
        forR 0 a.canon.shape.rank s fun i axisLen =>
          if i = axis then do
            let d ← x.canon.shape.dim axis
            pure (axisLen + d)
          else do
            let d ← x.canon.shape.dim i
            let e ← a.canon.shape.dim i
            ensure (d = e)
            pure axisLen) acc us = List.foldlM (fun s (x : Tensor α) => do
        ensure (a.shape.rank = x.shape.rank)
        forR 0 a.shape.rank s fun i axisLen =>
          if i = axis then do
            let d ← x.shape.dim axis
            pure (axisLen + d)
          else do
            let d ← x.shape.dim i
            let e ← a.shape.dim i
            ensure (d = e)
            pure axisLen) acc us from H 0
    intro acc
    induction us generalizing acc with
    | nil => rfl
    | cons u us ih =>
      have hu := (h u List.mem_cons_self).shape
      rw [List.foldlM_cons, List.foldlM_cons]
      have e1 : ∀ i, a.canon.shape.dim i = a.shape.dim i := ha.dim_canon
      have e2 : ∀ i, u.canon.shape.dim i = u.shape.dim i := hu.dim_canon
      have e3 : a.canon.shape.rank = a.shape.rank := ha.rank_canon
      have e4 : u.canon.shape.rank = u.shape.rank := hu.rank_canon
      rw [funext (ih (fun t ht => h t (List.mem_cons_of_mem _ ht)))]
      simp only [e1, e2, e3, e4]

/-- Failing does not depend on the unused slots of the shape. -/
theorem unsafeInit_sim {L : Nat} {s s' : Shape} {f : Buf α → Res (Buf α)} (h : Shape.Sim s s') :
    RelR (fun _ _ => True) (Tensor.unsafeInit L s f) (Tensor.unsafeInit L s' f) := by
  unfold Tensor.unsafeInit
  refine .same fun b => ?_
  unfold Tensor.finish
  split
  · unfold Tensor.new
    rw [← h.size]
    exact .same fun _ => .same fun _ => .ok trivial
  · exact .error _

end

section
variable {F : Type}

theorem matvecT_canon {bl : Linalg.Blas F} {a x : Tensor F} (ha : a.LWF) (hx : x.LWF) (tr : Linalg.Transpose) :
    RelR (fun _ _ => True) (Linalg.matvecT bl a x tr) (Linalg.matvecT bl a.canon x.canon tr) := by
  have e1 : Linalg.oSize tr a.canon x.canon = Linalg.oSize tr a x := by
    unfold Linalg.oSize
    simp only [Tensor.canon, ha.shape.rows_canon, ha.shape.cols_canon, hx.shape.rows_canon, hx.shape.cols_canon]
  have e2 : Linalg.matvecSgemm bl tr a.canon x.canon = Linalg.matvecSgemm bl tr a x := by
    unfold Linalg.matvecSgemm
    simp only [Tensor.canon, ha.shape.cols_canon, hx.shape.cols_canon]
  unfold Linalg.matvecT
  rw [e1, e2]
  simp only [Tensor.canon, ha.shape.rank_canon, hx.shape.rank_canon, ha.shape.broadcastMin_canon hx.shape,
    ha.shape.rows_canon, ha.shape.cols_canon, hx.shape.rows_canon, hx.shape.cols_canon]
  refine .same fun _ => .same fun _ => .same fun _ => .same fun _ => .same fun _ => .same fun _ => .same fun _ => ?_
  exact (hx.shape.sim.withCols _).bind fun s s' hs => unsafeInit_sim hs

theorem matmulT_canon {bl : Linalg.Blas F} {a b : Tensor F} (ha : a.LWF) (hb : b.LWF) (tr : Linalg.Transpose) :
    RelR (fun _ _ => True) (Linalg.matmulT bl a b tr) (Linalg.matmulT bl a.canon b.canon tr) := by
  have e1 : Linalg.mkn tr a.canon b.canon = Linalg.mkn tr a b := by
    unfold Linalg.mkn
    simp only [Tensor.canon, ha.shape.rows_canon, ha.shape.cols_canon, hb.shape.rows_canon, hb.shape.cols_canon]
  have e2 : Linalg.matmulSgemm bl tr a.canon b.canon = Linalg.matmulSgemm bl tr a b := by
    unfold Linalg.matmulSgemm
    simp only [Tensor.canon, ha.shape.rows_canon, ha.shape.cols_canon, hb.shape.rows_canon, hb.shape.cols_canon]
  unfold Linalg.matmulT
  rw [e1, e2]
  simp only [Tensor.canon, ha.shape.rank_canon, ha.shape.sublen_canon,
    ha.shape.rows_canon, ha.shape.cols_canon, hb.shape.rows_canon, hb.shape.cols_canon]
  refine .same fun _ => .same fun _ => .same fun _ => .same fun _ => .same fun _ => .same fun _ => .same fun _ =>
    .same fun _ => ?_
  exact (hb.shape.sim.withCols _).bind fun s s' hs => (hs.withRows _).bind fun s s' hs => unsafeInit_sim hs

end

end Essay
