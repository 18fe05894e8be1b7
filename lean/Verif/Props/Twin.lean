import Verif.Lemmas.TwinLoops
import Verif.Props.Linalg
import Verif.Props.Matvec
import Verif.Props.Signal

/-!
# C93: a view behaves like a copy of it
-/

namespace Essay

open Shape

variable {α F σ : Type}

theorem Twin.rep {t u : Tensor α} (h : Twin t u) (ht : t.WF) :
    ∃ ds xs, Rep t ds xs ∧ Rep u ds xs := by
  obtain ⟨xs, hx⟩ : ∃ xs, t.asSlice = .ok xs := ⟨_, if_pos ht.bound⟩
  refine ⟨t.shape.toDims, xs, ⟨ht, asVec_eq ht.shape, hx⟩, ⟨⟨?_, ?_, ?_⟩, ?_, ?_⟩⟩
  · rw [← h.shape]; exact ht.shape
  · rw [← h.shape, ← h.size]; exact ht.size
  · rcases h.inside with rfl | ⟨_, h2, _⟩
    · exact ht.bound
    · rw [← h.size]; exact h2
  · rw [← h.shape]; exact asVec_eq ht.shape
  · rw [← h.asSlice]; exact hx

theorem forall2_twins {K : Seen → Seen → Prop} (hK : ∀ o o', K o o' → SameSeen o o') {ts us : List (Tensor α)}
    (h : List.Forall₂ (fun t t' => K (.tensor t) (.tensor t')) ts us) : Twins ts us := by
  refine h.imp fun t u htu => ?_
  cases hK _ _ htu with
  | tensor h => exact h

theorem forall2_getElem? {γ : Type 1} {R : γ → γ → Prop} {l l' : List γ} (h : List.Forall₂ R l l') {i : Nat} {a b : γ}
    (ha : l[i]? = some a) (hb : l'[i]? = some b) : R a b := by
  induction h generalizing i with
  | nil => simp at ha
  | cons hab _ ih =>
    cases i with
    | zero =>
      simp only [List.getElem?_cons_zero, Option.some.injEq] at ha hb
      subst ha hb
      exact hab
    | succ i => exact ih (by simpa using ha) (by simpa using hb)

/-- C93: a function called on tensors that show the same as others, wherever the elements lie in memory, ends the same
way: with the same error, or with results that show the same. -/
theorem C93_call_partial {K : Seen → Seen → Prop} (hK : ∀ o o', K o o' → SameSeen o o') {α : Type} {x x' : Res α}
    {shows : α → List Seen} (h : PairCall K x x' shows) : Alike x x' shows := by
  have hT : ∀ {β : Type} {t u : Tensor β}, K (.tensor t) (.tensor u) → Twin t u := by
    intro β t u h
    cases hK _ _ h with
    | tensor h => exact h
  have hL : ∀ {β : Type} {ts us : List (Tensor β)}, List.Forall₂ (fun t t' => K (.tensor t) (.tensor t')) ts us →
      Twins ts us := fun h => forall2_twins hK h
  induction h with
  | other => exact .of_eq rfl
  | shapeOf h => exact .of_eq (by rw [(hT h).shape])
  | sizeOf h => exact .of_eq (by rw [(hT h).size])
  | asSlice h => exact .of_eq (hT h).asSlice
  | asWrapSlice h => exact .of_eq ((hT h).asWrapSlice _)
  | asWrapSliceN h h0 h0' => exact .of_eq ((hT h).asWrapSliceN h0 h0' _ _)
  | get h h0 h0' => exact .of_eq ((hT h).get h0 h0' _)
  | iterRow h => exact .of_eq (by simp only [Tensor.iterRow, (hT h).shape, (hT h).asSlice])
  | index1 h => exact .of_eq ((hT h).index1 _)
  | index2 h hr hc hi hj =>
    have h := hT h
    refine .of_eq ?_
    rw [h.shape] at hr hc
    unfold Tensor.index2
    rw [h.shape, h.size, hr, hc]
    simp only [ok_then, Fmt.ensureShown, if_pos hi, if_pos hj, h.index1]
  | index2Start h h0 h0' =>
    have h := hT h
    refine .of_eq ?_
    simp only [Tensor.index2, Fmt.ensureShown, debug_twin h h0 h0', h.shape, h.size, h.index1]
  | debug h h0 h0' => exact .of_eq (debug_twin (hT h) h0 h0' _ _)
  | index3 h => exact .of_eq (by simp only [Tensor.index3, (hT h).shape, (hT h).index1])
  | index4 h => exact .of_eq (by simp only [Tensor.index4, (hT h).shape, (hT h).index1])
  | index5 h => exact .of_eq (by simp only [Tensor.index5, (hT h).shape, (hT h).index1])
  | eq h h' => exact .of_eq (by simp only [Tensor.eq, (hT h).shape, (hT h').shape, (hT h).asSlice, (hT h').asSlice])
  | partialCmp h h' => exact .of_eq (by simp only [Tensor.partialCmp, (hT h).asSlice, (hT h').asSlice])
  | clone h => exact .ok (showT_twin (hT h))
  | reshape h => exact reshape_twin (hT h) _
  | expandDims h => exact expandDims_twin (hT h) _
  | flatten h => exact flatten_twin (hT h)
  | squeeze h => exact squeeze_twin (hT h)
  | squeezeAxis h => exact squeezeAxis_twin (hT h) _
  | subslice h => exact subslice_twin (hT h) _ _
  | subsliceFlat h => exact subsliceFlat_twin (hT h) _ _ _
  | setShape h => exact .ok (showT_twin ((hT h).with_shape _))
  | split h => exact splitAxis_twin (hT h) _ _
  | splitAxis h => exact splitAxis_twin (hT h) _ _
  | vsplit h => exact splitAxis_twin (hT h) _ _
  | hsplit h => exact splitAxis_twin (hT h) _ _
  | dsplit h => exact splitAxis_twin (hT h) _ _
  | unstack h => exact unstack_twin (hT h) _
  | ofTensors h => exact .of_eq (ofTensors_twins (hL h))
  | fromMerge h => exact .of_eq (fromMerge_twins (hL h) _)
  | append h h' => exact .of_eq (append_twin (hT h) (hT h'))
  | concatenate h => exact .of_eq (concatAxis_twins (hL h) _)
  | concatenateAxis h => exact .of_eq (concatenateAxis_twins (hL h) _)
  | stackVec h => exact .of_eq (stackVec_twins (hL h) _)
  | stack h => exact .of_eq (stackVec_twins (hL h) _)
  | hstack h => exact .of_eq (hstack_twins (hL h))
  | dstack h => exact .of_eq (dstack_twins (hL h))
  | vstack h => exact .of_eq (vstack_twins (hL h))
  | meshgrid h => exact .of_eq (buildMeshgrid_twins (hL h) _)
  | meshgridIJ h => exact .of_eq (buildMeshgrid_twins (hL h) _)
  | map h => exact .of_eq (by simp only [Tensor.map, Tensor.mapShape, (hT h).shape, (hT h).size, (hT h).asSlice])
  | mapRow h => exact .of_eq (by rw [mapRow_twin (hT h)])
  | mapExpand h =>
    exact .of_eq (by simp only [Tensor.mapExpand, Tensor.mapExpandShape, (hT h).shape, (hT h).size, (hT h).asSlice])
  | map2 h h' => exact .of_eq (by simp only [Tensor.map2, Tensor.map2Shape, (hT h).shape, (hT h).size,
      (hT h).asWrapSlice, (hT h').shape, (hT h').size, (hT h').asWrapSlice])
  | map2Row h h' => exact .of_eq rfl
  | map2Expand h h' => exact .of_eq rfl
  | map3 h h' h'' => exact .of_eq (by simp only [Tensor.map3, Tensor.map3Shape, (hT h).shape, (hT h).size,
      (hT h).asWrapSlice, (hT h').shape, (hT h').size, (hT h').asWrapSlice, (hT h'').shape, (hT h'').size,
      (hT h'').asWrapSlice])
  | fold h => exact .of_eq (by simp only [Tensor.fold, (hT h).size, (hT h).asSlice])
  | foldAxis h => exact .of_eq (by simp only [Tensor.foldAxis, (hT h).shape, (hT h).asSlice])
  | foldRow h h0 h0' => exact .of_eq (by rw [foldRow_twin (hT h) h0 h0'])
  | reduce h => exact .of_eq (by simp only [Tensor.reduce, (hT h).size, (hT h).asSlice])
  | reduceAxis h => exact .of_eq (by simp only [Tensor.reduceAxis, (hT h).shape, (hT h).asSlice])
  | normalize h => exact .of_eq (by simp only [Tensor.normalize, (hT h).shape, (hT h).asSlice])
  | binary h h' => exact .of_eq (by simp only [Tensor.binary, Tensor.opTT, Tensor.map2, Tensor.map2Shape, (hT h).shape,
      (hT h).size, (hT h).asWrapSlice, (hT h').shape, (hT h').size, (hT h').asWrapSlice])
  | binaryScalar h => exact .of_eq (by simp only [Tensor.binaryScalar, Tensor.opTS, Tensor.map, Tensor.mapShape,
      (hT h).shape, (hT h).size, (hT h).asSlice])
  | scalarBinary h => exact .of_eq (by simp only [Tensor.scalarBinary, Tensor.opST, Tensor.map, Tensor.mapShape,
      (hT h).shape, (hT h).size, (hT h).asSlice])
  | unary h => exact .of_eq (by simp only [Tensor.unary, Tensor.map, Tensor.mapShape, (hT h).shape, (hT h).size,
      (hT h).asSlice])
  | square h => exact .of_eq (by simp only [Tensor.square, Tensor.unary, Tensor.map, Tensor.mapShape, (hT h).shape,
      (hT h).size, (hT h).asSlice])
  | min h h' => exact .of_eq (by simp only [Tensor.min, Tensor.opTT, Tensor.map2, Tensor.map2Shape, (hT h).shape,
      (hT h).size, (hT h).asWrapSlice, (hT h').shape, (hT h').size, (hT h').asWrapSlice])
  | max h h' => exact .of_eq (by simp only [Tensor.max, Tensor.opTT, Tensor.map2, Tensor.map2Shape, (hT h).shape,
      (hT h).size, (hT h).asWrapSlice, (hT h').shape, (hT h').size, (hT h').asWrapSlice])
  | absSub h h' => exact .of_eq (by simp only [Tensor.absSub, Tensor.opTT, Tensor.map2, Tensor.map2Shape, (hT h).shape,
      (hT h).size, (hT h).asWrapSlice, (hT h').shape, (hT h').size, (hT h').asWrapSlice])
  | transpose h => exact .of_eq (by simp only [Tensor.transpose, (hT h).shape, (hT h).asSlice])
  | tile h h' =>
    exact .of_eq (by simp only [Tensor.tile, (hT h).shape, (hT h).asSlice, (hT h').shape, (hT h').asSlice])
  | linspace h h' => exact .of_eq (by simp only [Init.linspace, Init.spaceFill, (hT h).shape, (hT h').shape,
      (hT h).size, (hT h).index1, (hT h').index1])
  | logspaceOpt h h' => exact .of_eq (by simp only [Init.logspaceOpt, Init.spaceFill, (hT h).shape, (hT h').shape,
      (hT h).size, (hT h).index1, (hT h').index1])
  | logspace h h' => exact .of_eq (by simp only [Init.logspace, Init.logspaceOpt, Init.spaceFill, (hT h).shape,
      (hT h').shape, (hT h).size, (hT h).index1, (hT h').index1])
  | geomspace h h' => exact .of_eq (by simp only [Init.geomspace, Init.spaceFill, (hT h).shape, (hT h').shape,
      (hT h).size, (hT h).index1, (hT h').index1])
  | diagflat h => exact .of_eq (by simp only [Init.diagflat, (hT h).shape, (hT h).size, (hT h).index1])
  | tril h => exact .of_eq (by simp only [Init.tril, Init.triFill, (hT h).shape, (hT h).asSlice])
  | triu h => exact .of_eq (by simp only [Init.triu, Init.triFill, (hT h).shape, (hT h).asSlice])
  | matmul h h' hw hw' hle =>
    obtain ⟨ds, xs, ha, ha'⟩ := (hT h).rep hw
    obtain ⟨es, ys, hb, hb'⟩ := (hT h').rep hw'
    exact .of_eq ((C40_safe_partial _ _ ha hb fun A B r c r' c' e e' =>
      hle A B r c r' c' (e ▸ ha.dims) (e' ▸ hb.dims)).2 _ _ ha' hb').symm
  | matvec h h' hw hw' =>
    obtain ⟨ds, xs, ha, ha'⟩ := (hT h).rep hw
    obtain ⟨es, ys, hb, hb'⟩ := (hT h').rep hw'
    exact .of_eq ((C41_safe _ _ ha hb).2 _ _ ha' hb').symm
  | reduceHypot h => exact .of_eq (by simp only [Stats.reduceHypot, Tensor.fold, (hT h).size, (hT h).asSlice])
  | reduceMin h => exact .of_eq (by simp only [Stats.reduceMin, Tensor.reduce, (hT h).size, (hT h).asSlice])
  | reduceMax h => exact .of_eq (by simp only [Stats.reduceMax, Tensor.reduce, (hT h).size, (hT h).asSlice])
  | reduceMean h => exact .of_eq (by simp only [Stats.reduceMean, Tensor.fold, (hT h).size, (hT h).asSlice])
  | reduceStd h => exact .of_eq (by simp only [Stats.reduceStd, Tensor.fold, (hT h).size, (hT h).asSlice])
  | reduceVariance h => exact .of_eq (by simp only [Stats.reduceVariance, Tensor.fold, (hT h).size, (hT h).asSlice])
  | reduceMinAxis h =>
    exact .of_eq (by simp only [Stats.reduceMinAxis, Tensor.reduceAxis, (hT h).shape, (hT h).asSlice])
  | reduceMaxAxis h =>
    exact .of_eq (by simp only [Stats.reduceMaxAxis, Tensor.reduceAxis, (hT h).shape, (hT h).asSlice])
  | reduceMeanAxis h =>
    exact .of_eq (by simp only [Stats.reduceMeanAxis, Tensor.foldAxis, (hT h).shape, (hT h).asSlice])
  | reduceStdAxis h =>
    exact .of_eq (by simp only [Stats.reduceStdAxis, Tensor.foldAxis, (hT h).shape, (hT h).asSlice])
  | reduceVarianceAxis h =>
    exact .of_eq (by simp only [Stats.reduceVarianceAxis, Tensor.foldAxis, (hT h).shape, (hT h).asSlice])
  | reduceOp h => exact .of_eq (by simp only [Stats.reduceOp, Tensor.reduce, (hT h).size, (hT h).asSlice])
  | reduceOpAxis h =>
    exact .of_eq (by simp only [Stats.reduceOpAxis, Tensor.reduceAxis, (hT h).shape, (hT h).asSlice])
  | normalizeUnit h =>
    exact .of_eq (by simp only [Stats.normalizeUnit, Tensor.normalize, (hT h).shape, (hT h).asSlice])
  | histogram h => exact .of_eq (by simp only [Stats.histogram, Stats.reduceMin, Stats.reduceMax, Tensor.reduce,
      (hT h).shape, (hT h).size, (hT h).asSlice])
  | histogram2d h => exact .of_eq (by simp only [Stats.histogram2d, Stats.hist2dRest, Stats.reduceMin, Stats.reduceMax, Tensor.reduce,
      Tensor.iterRow, (hT h).shape, (hT h).size, (hT h).asSlice])
  | decodeWav h => exact .of_eq (by simp only [Io.decodeWav, (hT h).asSlice])
  | readFile h => exact .of_eq (by simp only [Io.readFile, (hT h).index1])
  | rfftNorm h => exact .of_eq (by simp only [Signal.rfftNorm, (hT h).shape, (hT h).asWrapSlice])
  | frame h => exact .of_eq (by rw [C67_frame_violates, C67_frame_violates])
  | sliceUsize h => exact .of_eq (by simp only [Signal.sliceUsize, (hT h).shape])
  | slicePair h => exact .of_eq (by simp only [Signal.slicePair, (hT h).shape])

/-- C93: two runs of the same program, started from tensors that show the same, hold after every number of calls tensors
that show the same and equal values, and every next call ends the same way in both. Missing for the full property: the
functions that tell a view from a copy, see `C93_view_violates` and `C93_matmul_violates`, and matrix products with
tensors whose size is not the product of their dimensions. -/
theorem C93_program_partial {S : Seen → Seen → Prop} (hS : ∀ o o', S o o' → SameSeen o o') (n : Nat) :
    (∀ o o', PairAfter S n o o' → SameSeen o o') ∧
      ∀ (α : Type) (x x' : Res α) (shows : α → List Seen), PairCall (PairAfter S n) x x' shows → Alike x x' shows := by
  have key : ∀ o o', PairAfter S n o o' → SameSeen o o' := by
    induction n with
    | zero => exact hS
    | succ n ih =>
      rintro o o' (h | ⟨α, x, x', shows, r, r', i, hc, rfl, rfl, ho, ho'⟩)
      · exact ih o o' h
      · rcases C93_call_partial ih hc with ⟨e, h1, -⟩ | ⟨q, q', h1, h2, hq⟩
        · cases h1
        · cases h1
          cases h2
          exact forall2_getElem? hq ho ho'
  exact ⟨key, fun α x x' shows h => C93_call_partial key h⟩

/-- A matrix seen through a view that starts at position 2 of its buffer. -/
def twView : Tensor Nat := ⟨ofDims [2, 2], 2, 4, [0, 1, 2, 3, 4, 5]⟩
/-- A copy of it. -/
def twCopy : Tensor Nat := ⟨ofDims [2, 2], 0, 4, [2, 3, 4, 5]⟩

theorem tw_twin : Twin twView twCopy := .inr ⟨rfl, [2, 3, 4, 5], rfl, rfl⟩

/-- C93 is false for five functions: `get`, `{:?}`, `as_wrap_slice_n`, `fold_row` and the message of `t[(i, j)]` outside the
matrix tell a view from a copy of it. -/
theorem C93_view_violates :
    ∃ t u : Tensor Nat, Twin t u ∧ t.WF ∧ u.WF ∧
      t.get 0 = .ok (some 4) ∧ u.get 0 = .ok (some 2) ∧
      Fmt.debug toString "usize" t = .error .ub ∧ (∃ s, Fmt.debug toString "usize" u = .ok s) ∧
      t.asWrapSliceN 0 4 = .error .panic ∧ u.asWrapSliceN 0 4 = .ok [2, 3, 4, 5] ∧
      (∀ x, Tensor.runPure (t.foldRow none 1 0 (fun s r => (pure (s + r.sum) : Exec Unit Nat)) fun s => #v[s]) ≠ .ok x) ∧
      (∃ x, Tensor.runPure (u.foldRow none 1 0 (fun s r => (pure (s + r.sum) : Exec Unit Nat)) fun s => #v[s]) = .ok x) ∧
      t.index2 2 0 = .error .ub ∧ u.index2 2 0 = .error .panic := by
  refine ⟨twView, twCopy, tw_twin, ⟨wf_ofDims ⟨by simp, by simp⟩, rfl, by simp [twView]⟩,
    ⟨wf_ofDims ⟨by simp, by simp⟩, rfl, by simp [twCopy]⟩, rfl, rfl, rfl, ⟨_, rfl⟩, rfl, rfl, ?_, ⟨_, rfl⟩, rfl, rfl⟩
  intro x h
  have : Tensor.runPure (twView.foldRow none 1 0 (fun s r => (pure (s + r.sum) : Exec Unit Nat)) fun s => #v[s]) =
    .error .panic := rfl
  rw [this] at h
  cases h

/-- C93 is false for `matmul` with more matrices on the left: what lies behind the view in its buffer decides. -/
theorem C93_matmul_violates (bl : Linalg.Blas F) (x : F) :
    ∃ a b b' : Tensor F, Twin b b' ∧ Linalg.matmul bl a b = .error .panic ∧ Linalg.matmul bl a b' = .error .ub := by
  refine ⟨⟨ofDims [2, 1, 1], 0, 2, [x, x]⟩, ⟨ofDims [1, 1], 0, 1, [x, x]⟩, ⟨ofDims [1, 1], 0, 1, [x]⟩,
    .inr ⟨rfl, [x], rfl, rfl⟩, ?_, ?_⟩
  · cases bl <;> rfl
  · cases bl <;> rfl

/-! ### examples -/

/-- Rows added, cut and stacked: the view and its copy give the same. -/
example : ∀ o o', PairAfter (fun o o' => o = .tensor twView ∧ o' = .tensor twCopy) 3 o o' → SameSeen o o' :=
  (C93_program_partial (fun o o' h => by obtain ⟨rfl, rfl⟩ := h; exact .tensor tw_twin) 3).1

example : Alike (twView.subslice 1 1) (twCopy.subslice 1 1) fun t => [.tensor t] :=
  C93_call_partial (K := SameSeen) (fun _ _ h => h) (.subslice (.tensor tw_twin))

example : twView.subslice 1 1 ≠ twCopy.subslice 1 1 := by
  intro h
  have h' : (Except.ok ⟨ofDims [1, 2], 4, 2, [0, 1, 2, 3, 4, 5]⟩ : Res (Tensor Nat)) =
    .ok ⟨ofDims [1, 2], 2, 2, [2, 3, 4, 5]⟩ := h
  simp at h'

example : Alike (Tensor.hstack [twView, twCopy]) (Tensor.hstack [twCopy, twView]) fun t => [.tensor t] :=
  C93_call_partial (K := SameSeen) (fun _ _ h => h)
    (.hstack (.cons (.tensor tw_twin) (.cons (.tensor (.inr ⟨rfl, [2, 3, 4, 5], rfl, rfl⟩)) .nil)))

/-- The third pair of a program that cuts off a row and then doubles it. -/
example : PairAfter (fun o o' => o = .tensor twView ∧ o' = .tensor twCopy) 1
    (.tensor (⟨ofDims [1, 2], 4, 2, [0, 1, 2, 3, 4, 5]⟩ : Tensor Nat)) (.tensor ⟨ofDims [1, 2], 2, 2, [2, 3, 4, 5]⟩) :=
  .inr ⟨_, _, _, _, _, _, 0, .subslice (o := 1) (n := 1) ⟨rfl, rfl⟩, rfl, rfl, rfl, rfl⟩

end Essay
