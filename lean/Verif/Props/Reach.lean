import Verif.Lemmas.SafeCall
import Verif.Spec.Float

/-!
# Properties of all histories of API calls: C07, C64

`After R n o`: a program keeping to the rules `R` can hold the object `o` after `n` calls (Spec/Reach). `Rules.none`
restricts nothing.
-/

namespace Essay

open Shape

variable {R : Rules} {α : Type}

/-! ## C07 views stay inside their buffer -/

/-- After every history of calls (whatever the other rules, so also without any) that assigns no public field, every
tensor lies inside the buffer it shares, and `as_slice` returns `size()` elements of it. Missing for the full property:
`C07_fields_violates`. -/
theorem C07_inside_partial (hF : R.fields) {n : Nat} {t : Tensor α} (h : After R n (.tensor t)) :
    t.offset + t.size ≤ t.data.length ∧
      ∃ xs, t.asSlice = .ok xs ∧ xs.length = t.size ∧ ∀ i < t.size, xs[i]? = t.data[t.offset + i]? := by
  have hb := (after_good hF n _ h : Good R t).bound
  refine ⟨hb, _, rawSlice_ok hb, ?_, fun i hi => ?_⟩
  · rw [List.length_take, List.length_drop]; omega
  · rw [List.getElem?_take_of_lt hi, List.getElem?_drop]

theorem asVec_of_size {s : Shape} {n : Nat} (h : s.size = .ok n) : ∃ ds, s.asVec = .ok ds ∧ n = ds.prod := by
  unfold size productTo at h
  obtain ⟨hle, h⟩ := ensure_bind_eq_ok.1 h
  refine ⟨(s.dims.take s.rank).reverse, ?_, ?_⟩
  · unfold asVec
    rw [forR_collect _ (fun i => ((s.dims.take s.rank).reverse)[i]?.getD 0)]
    · rw [map_range'_getElem _ _ _ (by simp; omega)]
      simp [Nat.min_eq_left hle]
    · intro i _ hi
      unfold dim
      have h1 : usub s.rank 1 = .ok (s.rank - 1) := usub_eq_ok.2 ⟨by omega, rfl⟩
      have h2 : usub (s.rank - 1) i = .ok (s.rank - 1 - i) := usub_eq_ok.2 ⟨by omega, rfl⟩
      rw [h1, ok_bind, h2, ok_bind]
      apply idx_ok
      rw [List.getElem?_reverse (by simp; omega)]
      have e : (List.take s.rank s.dims).length - 1 - i = s.rank - 1 - i := by simp; omega
      rw [e, List.getElem?_take_of_lt (by omega), List.getElem?_eq_getElem (by omega)]
      rfl
  · rw [foldlM_mul_eq_ok (by omega)] at h
    rw [h.2, List.prod_reverse, Nat.one_mul]

/-- After every history in which `subslice_flat` gets shapes of the size of the slice and no public field is assigned,
`size()` is the product of the dimensions. Missing for the full property: `subslice_flat` with another shape, see
`C07_size_violates`, and assignments. -/
theorem C07_size_partial (hR : R.exactFlat) (hF : R.fields) {n : Nat} {t : Tensor α} (h : After R n (.tensor t)) :
    ∃ ds, t.shape.asVec = .ok ds ∧ t.size = ds.prod :=
  asVec_of_size ((after_good hF n _ h : Good R t).size hR)

theorem After.step {n : Nat} {β : Type} {x : Res β} {outs : β → List Obj} {r : β} {o : Obj}
    (h : Call R (After R n) x outs) (hx : x = .ok r) (ho : o ∈ outs r) : After R (n + 1) o :=
  Or.inr ⟨β, x, outs, r, h, hx, ho⟩

theorem After.mono {n : Nat} {o : Obj} (h : After R n o) : After R (n + 1) o := Or.inl h

/-- C07 is false for the size: `Tensor::from(vec![5]).subslice_flat(0, 1, [0])` has `size()` 1 and shape `[0]`. -/
theorem C07_size_violates : ∃ t : Tensor Nat, After Rules.none 2 (.tensor t) ∧
    t.shape.asVec = .ok [0] ∧ t.size = 1 := by
  have h1 : After Rules.none 1 (.tensor (⟨ofDims [1], 0, 1, [5]⟩ : Tensor Nat)) :=
    After.step (Call.ofVec1 (xs := [5])) (by decide +kernel) (List.mem_singleton.2 rfl)
  have h2 : After Rules.none 1 (.shape (ofDims [0])) :=
    After.step (Call.ofSlice (l := [0])) (by decide +kernel) (List.mem_singleton.2 rfl)
  exact ⟨⟨ofDims [0], 0, 1, [5]⟩,
    After.step (Call.subsliceFlat (o := 0) (n := 1) h1 h2 (fun h => h.elim)) (by decide +kernel) (List.mem_singleton.2 rfl),
    by decide +kernel, rfl⟩

/-- All rules but `fields`. -/
def Rules.anyFields : Rules := ⟨True, True, True, True, True, True, False⟩

theorem exFields : After .anyFields 2 (.tensor (⟨ofDims [1], 0, 2, [5]⟩ : Tensor Nat)) := by
  have h1 : After .anyFields 1 (.tensor (⟨ofDims [1], 0, 1, [5]⟩ : Tensor Nat)) :=
    After.step (Call.ofVec1 (xs := [5])) (by decide +kernel) (List.mem_singleton.2 rfl)
  exact After.step (Call.setSize (n := 2) h1 id) rfl (List.mem_singleton.2 rfl)

/-- C07 is false if the public fields are assigned: after `t.size = 2` the tensor reaches beyond its buffer. -/
theorem C07_fields_violates : ∃ t : Tensor Nat, After .anyFields 2 (.tensor t) ∧ t.data.length < t.offset + t.size :=
  ⟨_, exFields, by decide⟩

/-! ## C64 no undefined behaviour -/

/-- After every history keeping to the rules, every further call that keeps to them, with valid or invalid arguments,
returns or panics: it never reads or writes outside a buffer, nor hands out memory that was not written. Missing for the
full property: calls against one of the rules. Every rule is needed: `C64_flat_violates`, `C64_scalar_cols_violates`,
`C64_view_get_violates`, `C64_view_debug_violates`, `C64_view_index_violates`, `C64_tile_violates`, `C64_matmul_violates`,
`C64_fold_row_violates` and `C64_fields_violates` reach undefined behaviour from calls keeping to all the others. -/
theorem C64_safe_partial (hR : R.Kept) {n : Nat} {x : Res α} {outs : α → List Obj} (h : Call R (After R n) x outs) :
    x ≠ .error .ub :=
  call_safe hR (after_good hR.fields n) h

/-- All rules but `exactFlat`. -/
def Rules.anyFlat : Rules := ⟨False, True, True, True, True, True, True⟩

/-- The rule `exactFlat` is needed: `concatenate` of the tensor `Tensor::from(vec![5]).subslice_flat(0, 1, [0])` allocates
one element, writes none and drops it. -/
theorem C64_flat_violates : ∃ outs : Tensor Nat → List Obj, Call .anyFlat (After .anyFlat 2) (.error .ub) outs := by
  have h1 : After .anyFlat 1 (.tensor (⟨ofDims [1], 0, 1, [5]⟩ : Tensor Nat)) :=
    After.step (Call.ofVec1 (xs := [5])) (by decide +kernel) (List.mem_singleton.2 rfl)
  have h2 : After .anyFlat 1 (.shape (ofDims [0])) :=
    After.step (Call.ofSlice (l := [0])) (by decide +kernel) (List.mem_singleton.2 rfl)
  have h3 : After .anyFlat 2 (.tensor (⟨ofDims [0], 0, 1, [5]⟩ : Tensor Nat)) :=
    After.step (Call.subsliceFlat (o := 0) (n := 1) h1 h2 (fun h => h.elim)) (by decide +kernel) (List.mem_singleton.2 rfl)
  have key := Call.concatenate (R := .anyFlat) (ts := [⟨ofDims [0], 0, 1, [5]⟩]) (by simpa using h3)
  have e : Tensor.concatenate [(⟨ofDims [0], 0, 1, [5]⟩ : Tensor Nat)] = .error .ub := by decide +kernel
  rw [e] at key
  exact ⟨_, key⟩

/-- All rules but `scalarCols`. -/
def Rules.anyCols : Rules := ⟨True, False, True, True, True, True, True⟩

/-- The rule `scalarCols` is needed: a tensor of one element with the shape `Shape::scalar().with_cols(5)` makes `matvec`
with a matrix of 5 columns read outside the buffer. -/
theorem C64_scalar_cols_violates : ∃ outs : Tensor ℚ → List Obj, Call .anyCols (After .anyCols 3) (.error .ub) outs := by
  have h1 : After .anyCols 1 (.shape scalar) := After.step Call.scalar rfl (List.mem_singleton.2 rfl)
  have h2 : After .anyCols 2 (.shape ⟨[5, 0, 0, 0, 0, 0], 0⟩) :=
    After.step (Call.withCols (v := 5) h1 (fun h => h.elim)) (by decide +kernel) (List.mem_singleton.2 rfl)
  have h3 : After .anyCols 3 (.tensor (⟨⟨[5, 0, 0, 0, 0, 0], 0⟩, 0, 1, [7]⟩ : Tensor ℚ)) :=
    After.step (Call.fromVec (xs := [7]) h2) (by decide +kernel) (List.mem_singleton.2 rfl)
  have h4 : After .anyCols 1 (.tensor (⟨ofDims [1, 5], 0, 5, [1, 2, 3, 4, 5]⟩ : Tensor ℚ)) :=
    After.step (Call.ofVec2 (xs := [[1, 2, 3, 4, 5]])) (by decide +kernel) (List.mem_singleton.2 rfl)
  have key := Call.matvec (R := .anyCols) (bl := .naive (.exact id id id fun x _ => x)) (tr := .none) h4.mono.mono h3
  have e : Linalg.matvecT (.naive (.exact id id id fun x _ => x)) (⟨ofDims [1, 5], 0, 5, [1, 2, 3, 4, 5]⟩ : Tensor ℚ)
      (⟨⟨[5, 0, 0, 0, 0, 0], 0⟩, 0, 1, [7]⟩ : Tensor ℚ) .none = .error .ub := by decide +kernel
  rw [e] at key
  exact ⟨_, key⟩

/-- All rules but `view`. -/
def Rules.anyView : Rules := ⟨True, True, False, True, True, True, True⟩

theorem exHalf : After .anyView 2 (.tensor (⟨ofDims [2], 2, 2, [1, 2, 3, 4]⟩ : Tensor Nat)) := by
  have h1 : After .anyView 1 (.tensor (⟨ofDims [4], 0, 4, [1, 2, 3, 4]⟩ : Tensor Nat)) :=
    After.step (Call.ofVec1 (xs := [1, 2, 3, 4])) (by decide +kernel) (List.mem_singleton.2 rfl)
  exact After.step (Call.subslice (o := 2) (n := 2) h1) (by decide +kernel) (List.mem_singleton.2 rfl)

/-- The rule `view` is needed: `get` on the second half of a tensor reads outside the buffer. -/
theorem C64_view_get_violates : ∃ outs : Option Nat → List Obj, Call .anyView (After .anyView 2) (.error .ub) outs := by
  have key := Call.get (R := .anyView) (i := 0) exHalf (fun h => h.elim)
  have e : Tensor.get (⟨ofDims [2], 2, 2, [1, 2, 3, 4]⟩ : Tensor Nat) 0 = .error .ub := by decide +kernel
  rw [e] at key
  exact ⟨_, key⟩

/-- The rule `view` is needed: so does printing it with `{:?}`. -/
theorem C64_view_debug_violates : ∃ outs : String → List Obj, Call .anyView (After .anyView 2) (.error .ub) outs := by
  have key := Call.debug (R := .anyView) (fmt := fun n : Nat => toString n) (name := "Tensor") exHalf (fun h => h.elim)
  have e : Fmt.debug (fun n : Nat => toString n) "Tensor" (⟨ofDims [2], 2, 2, [1, 2, 3, 4]⟩ : Tensor Nat) = .error .ub := rfl
  rw [e] at key
  exact ⟨_, key⟩

/-- The rule `view` is needed: so does an access outside a matrix, `t.subslice(1, 1)[(1, 0)]`, whose panic message prints the
matrix. -/
theorem C64_view_index_violates : ∃ outs : Nat → List Obj, Call .anyView (After .anyView 2) (.error .ub) outs := by
  have h1 : After .anyView 1 (.tensor (⟨ofDims [2, 2], 0, 4, [1, 2, 3, 4]⟩ : Tensor Nat)) :=
    After.step (Call.ofVec2 (xs := [[1, 2], [3, 4]])) (by decide +kernel) (List.mem_singleton.2 rfl)
  have h2 : After .anyView 2 (.tensor (⟨ofDims [1, 2], 2, 2, [1, 2, 3, 4]⟩ : Tensor Nat)) :=
    After.step (Call.subslice (o := 1) (n := 1) h1) (by decide +kernel) (List.mem_singleton.2 rfl)
  have key := Call.index2 (R := .anyView) (i := 1) (j := 0) h2 (fun h => h.elim)
  have e : Tensor.index2 (⟨ofDims [1, 2], 2, 2, [1, 2, 3, 4]⟩ : Tensor Nat) 1 0 = .error .ub := rfl
  rw [e] at key
  exact ⟨_, key⟩

/-- All rules but `tile`. -/
def Rules.anyTile : Rules := ⟨True, True, True, False, True, True, True⟩

/-- The rule `tile` is needed: `tile` with a matrix of multiples writes outside its block. -/
theorem C64_tile_violates : ∃ outs : Tensor Nat → List Obj, Call .anyTile (After .anyTile 1) (.error .ub) outs := by
  have h1 : After .anyTile 1 (.tensor (⟨ofDims [1], 0, 1, [7]⟩ : Tensor Nat)) :=
    After.step (Call.ofVec1 (xs := [7])) (by decide +kernel) (List.mem_singleton.2 rfl)
  have h2 : After .anyTile 1 (.tensor (⟨ofDims [2, 3], 0, 6, [2, 2, 2, 2, 2, 2]⟩ : Tensor Nat)) :=
    After.step (Call.ofVec2 (xs := [[2, 2, 2], [2, 2, 2]])) (by decide +kernel) (List.mem_singleton.2 rfl)
  have key := Call.tile (R := .anyTile) h1 h2 (fun h => h.elim)
  have e : Tensor.tile (⟨ofDims [1], 0, 1, [7]⟩ : Tensor Nat) (⟨ofDims [2, 3], 0, 6, [2, 2, 2, 2, 2, 2]⟩ : Tensor Nat) =
    .error .ub := by decide +kernel
  rw [e] at key
  exact ⟨_, key⟩

/-- All rules but `matmul`. -/
def Rules.anyMatmul : Rules := ⟨True, True, True, True, False, True, True⟩

/-- The rule `matmul` is needed: `matmul` of two matrices with one reads outside the buffer of the second. -/
theorem C64_matmul_violates : ∃ outs : Tensor ℚ → List Obj, Call .anyMatmul (After .anyMatmul 1) (.error .ub) outs := by
  have h1 : After .anyMatmul 1 (.tensor (⟨ofDims [2, 1, 1], 0, 2, [1, 2]⟩ : Tensor ℚ)) :=
    After.step (Call.ofVec3 (xs := [[[1]], [[2]]])) (by decide +kernel) (List.mem_singleton.2 rfl)
  have h2 : After .anyMatmul 1 (.tensor (⟨ofDims [1, 1], 0, 1, [3]⟩ : Tensor ℚ)) :=
    After.step (Call.ofVec2 (xs := [[3]])) (by decide +kernel) (List.mem_singleton.2 rfl)
  have key := Call.matmul (R := .anyMatmul) (bl := .naive (.exact id id id fun x _ => x)) (tr := .none) h1 h2 (fun h => h.elim)
  have e : Linalg.matmulT (.naive (.exact id id id fun x _ => x)) (⟨ofDims [2, 1, 1], 0, 2, [1, 2]⟩ : Tensor ℚ)
      (⟨ofDims [1, 1], 0, 1, [3]⟩ : Tensor ℚ) .none = .error .ub := by decide +kernel
  rw [e] at key
  exact ⟨_, key⟩

theorem foldRow_wide {N : Nat} (h0 : 0 < N) (h : asU32 N = 0) (g : Unit → Vector Nat N) :
    (Tensor.foldRow (⟨ofDims [1], 0, 1, [7]⟩ : Tensor Nat) none N () (fun _ _ => (pure () : Exec Unit Unit)) g).run () =
      .error .ub := by
  have e1 : Axis.reduceRow none (ofDims [1]) N = .ok (ofDims [0], 1, 1, 1) := by
    have : Shape.ofSlice [N] = .ok (ofDims [0]) := by
      unfold Shape.ofSlice
      simp only [List.length_cons, List.length_nil, forR, Nat.zero_add, Nat.sub_zero, List.range'_one, List.foldlM_cons,
        List.foldlM_nil]
      rw [show idx [N].reverse 0 = .ok N from rfl, ok_bind, h]
      rfl
    unfold Axis.reduceRow
    rw [this]
    rfl
  obtain ⟨v, row, hrow⟩ : ∃ v row, (g ()).toList = v :: row := by
    cases hg : (g ()).toList with
    | nil => have := congrArg List.length hg; simp at this; omega
    | cons v row => exact ⟨v, row, rfl⟩
  have hw : ∀ base, Tensor.writeRow ([] : Buf Nat) base (g ()).toList = .error .ub := fun base => by
    unfold Tensor.writeRow
    rw [hrow, forR_cons (by simp)]
    rfl
  unfold Tensor.foldRow
  rw [e1]
  have hc : (ofDims [1]).cols = .ok 1 := rfl
  have hs : (ofDims [0]).size = .ok 0 := by decide +kernel
  have hl : ∀ {β : Type} (x : β), (liftM (Except.ok x : Res β) : Exec Unit β) = pure x := fun _ => rfl
  simp only [hl, pure_bind, hc, hs, Tensor.unsafeInitM, forR, Nat.sub_zero, List.range'_one, List.foldlM_cons,
    List.foldlM_nil, bind_pure, Buf.uninit, List.replicate_zero, hw]
  rfl

/-- All rules but `foldRow`. -/
def Rules.anyFoldRow : Rules := ⟨True, True, True, True, True, False, True⟩

/-- The rule `foldRow` is needed: `fold_row` with 2^32 results per row writes outside its block. -/
theorem C64_fold_row_violates : ∃ outs : Tensor Nat × Unit → List Obj,
    Call .anyFoldRow (After .anyFoldRow 1) (.error .ub) outs := by
  have h1 : After .anyFoldRow 1 (.tensor (⟨ofDims [1], 0, 1, [7]⟩ : Tensor Nat)) :=
    After.step (Call.ofVec1 (xs := [7])) (by decide +kernel) (List.mem_singleton.2 rfl)
  have key := Call.foldRow (R := .anyFoldRow) (axis := none) (N := 4294967296) (i := ()) (f := fun _ _ => (pure () : Exec Unit Unit))
    (g := fun _ => Vector.replicate 4294967296 (0 : Nat)) (st := ()) h1 (fun h => h.elim) fun _ _ _ => by
      intro h; cases h
  have e : (Tensor.foldRow (⟨ofDims [1], 0, 1, [7]⟩ : Tensor Nat) none 4294967296 ()
      (fun _ _ => (pure () : Exec Unit Unit)) (fun _ => Vector.replicate 4294967296 (0 : Nat))).run () =
      .error .ub := foldRow_wide (by decide) (by decide) _
  rw [e] at key
  exact ⟨_, key⟩

/-- The rule `fields` is needed: `let mut t = Tensor::from(vec![5]); t.size = 2; t.as_slice()` reads outside the buffer,
in code without `unsafe`. -/
theorem C64_fields_violates : ∃ outs : List Nat → List Obj, Call .anyFields (After .anyFields 2) (.error .ub) outs := by
  have key := Call.asSlice (R := .anyFields) exFields
  have e : Tensor.asSlice (⟨ofDims [1], 0, 2, [5]⟩ : Tensor Nat) = .error .ub := by decide +kernel
  rw [e] at key
  exact ⟨_, key⟩

/-! ### examples: a history of four calls keeping to the rules -/

theorem exCalls : After Rules.all 3 (.tensor (⟨ofDims [1, 3], 3, 3, [1, 2, 3, 4, 5, 6]⟩ : Tensor Nat)) := by
  have h1 : After Rules.all 1 (.tensor (⟨ofDims [6], 0, 6, [1, 2, 3, 4, 5, 6]⟩ : Tensor Nat)) :=
    After.step (Call.ofVec1 (xs := [1, 2, 3, 4, 5, 6])) (by decide +kernel) (List.mem_singleton.2 rfl)
  have h2 : After Rules.all 1 (.shape (ofDims [2, 3])) :=
    After.step (Call.ofSlice (l := [2, 3])) (by decide +kernel) (List.mem_singleton.2 rfl)
  have h3 : After Rules.all 2 (.tensor (⟨ofDims [2, 3], 0, 6, [1, 2, 3, 4, 5, 6]⟩ : Tensor Nat)) :=
    After.step (Call.reshape h1 h2) (by decide +kernel) (List.mem_singleton.2 rfl)
  exact After.step (Call.subslice (o := 1) (n := 1) h3) (by decide +kernel) (List.mem_singleton.2 rfl)

example : ∃ xs, (⟨ofDims [1, 3], 3, 3, [1, 2, 3, 4, 5, 6]⟩ : Tensor Nat).asSlice = .ok xs ∧ xs.length = 3 :=
  let ⟨_, xs, h, hl, _⟩ := C07_inside_partial trivial exCalls
  ⟨xs, h, hl⟩

example : ∃ ds, (ofDims [1, 3]).asVec = .ok ds ∧ 3 = ds.prod := C07_size_partial trivial trivial exCalls

example (f : Nat → Nat → Nat) :
    ((⟨ofDims [1, 3], 3, 3, [1, 2, 3, 4, 5, 6]⟩ : Tensor Nat).reduceAxis (some (-1))
      fun x y => (pure (f x y) : Exec Unit Nat)).run () ≠ .error .ub :=
  C64_safe_partial ⟨trivial, trivial, trivial, trivial, trivial, trivial, trivial⟩ (Call.reduceAxis (R := Rules.all) (K := After Rules.all 3)
    exCalls fun _ _ _ => noUB_ok _)

/-- The rules allow `rinsert` beyond the rank, which leaves a value in a slot above the rank. -/
example : Tensor.concatenate [(⟨⟨[3, 2, 0, 7, 0, 0], 3⟩, 0, 0, []⟩ : Tensor Nat)] ≠ .error .ub := by
  have h1 : After Rules.all 1 (.shape (ofDims [2, 3])) :=
    After.step (Call.ofSlice (l := [2, 3])) (by decide +kernel) (List.mem_singleton.2 rfl)
  have h2 : After Rules.all 2 (.shape ⟨[3, 2, 0, 7, 0, 0], 3⟩) :=
    After.step (Call.rinsert (a := 3) (n := 7) h1) (by decide +kernel) (List.mem_singleton.2 rfl)
  have h3 : After Rules.all 3 (.tensor (⟨⟨[3, 2, 0, 7, 0, 0], 3⟩, 0, 0, []⟩ : Tensor Nat)) :=
    After.step (Call.fromVec (xs := []) h2) (by decide +kernel) (List.mem_singleton.2 rfl)
  exact C64_safe_partial ⟨trivial, trivial, trivial, trivial, trivial, trivial, trivial⟩
    (Call.concatenate (R := Rules.all) (K := After Rules.all 3) (by simpa using h3))

end Essay
