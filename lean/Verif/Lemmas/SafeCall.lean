import Verif.Lemmas.SafeRest

/-! # Helper lemma: no call of a program keeping to the rules has undefined behaviour (no claims here) -/

namespace Essay

open Shape

theorem noUB_mgrid {F : Type} {fo : FOps F} (M N : Nat) : NoUB (Init.mgrid fo M N) := by
  unfold Init.mgrid
  refine noUB_bind (noUB_new _) fun z hz => noUB_bind (noUB_new _) fun m hm => noUB_bind (noUB_new _) fun n hn => ?_
  have hgz : Good Rules.all z := ofScalar_good z hz
  have hz := wf_of_post ofScalar_good hz
  have hm := wf_of_post ofScalar_good hm
  have hn := wf_of_post ofScalar_good hn
  refine noUB_bind (noUB_linspace hz hm _) fun a ha => noUB_bind (noUB_linspace hz hn _) fun b hb => ?_
  refine noUB_buildMeshgrid (fun t ht => ?_) _
  simp only [List.mem_cons, List.not_mem_nil, or_false] at ht
  rcases ht with rfl | rfl
  · exact wf_of_post (linspace_good hgz) ha
  · exact wf_of_post (linspace_good hgz) hb

theorem call_safe {R : Rules} (hR : R.Kept) {K : Obj → Prop}
    (hK : ∀ o, K o → o.Good R) {α : Type} {x : Res α} {outs : α → List Obj} (h : Call R K x outs) : NoUB x := by
  have ht : ∀ {α : Type} {t : Tensor α}, K (.tensor t) → t.LWF := fun h => Good.wf (hK _ h) hR.exactFlat hR.scalarCols
  have hl : ∀ {α : Type} {ts : List (Tensor α)}, (∀ u ∈ ts, K (.tensor u)) → ∀ u ∈ ts, u.LWF :=
    fun h u hu => ht (h u hu)
  cases h with
  | scalar => exact noUB_ok _
  | vector => exact noUB_vector _
  | ofUsize => exact noUB_ofUsize _
  | ofSlice => exact noUB_ofSlice _
  | ofVec => exact noUB_ofVec _
  | shapeOf => exact noUB_ok _
  | replace => exact noUB_replace _ _ _
  | rreplace => exact noUB_rreplace _ _ _
  | withDim => exact noUB_replace _ _ _
  | withCols => exact noUB_withCols _ _
  | withRows => exact noUB_withRows _ _
  | push => exact noUB_push _ _
  | appendShape => exact noUB_append _ _
  | expandDimsShape => exact noUB_expandDims _ _
  | squeezeShape => exact noUB_squeeze _ _
  | pop => exact noUB_pop _
  | remove => exact noUB_remove _ _
  | rremove => exact noUB_rremove _ _
  | reduceShape => exact noUB_reduceShape _
  | insert => exact noUB_insert _ _ _
  | rinsert => exact noUB_rinsert _ _ _
  | broadcastTo => exact noUB_broadcastTo _ _
  | axisReduce => exact noUB_axisReduce _ _
  | axisReduceRow => exact noUB_axisReduceRow _ _ _
  | sizeOf => exact noUB_size _
  | dim => exact noUB_dim _ _
  | rdim => exact noUB_rdim _ _
  | idim => exact noUB_idim _ _
  | len => exact noUB_len _
  | cols => exact noUB_cols _
  | rows => exact noUB_rows _
  | batchLen => exact noUB_batchLen _ _
  | asVec => exact noUB_asVec _
  | sublen => exact noUB_sublen _ _ _
  | rsublen => exact noUB_rsublen _ _ _
  | broadcast => exact noUB_broadcast _ _
  | checkBroadcast => exact noUB_checkBroadcast _ _
  | broadcastMin => exact noUB_broadcastMin _ _ _ _
  | axisFromRank => exact noUB_axisFromRank _ _
  | fromVec => exact noUB_new _
  | fromScalar => exact noUB_new _
  | ofScalar => exact noUB_new _
  | ofOption => exact noUB_ofOption _
  | ofVec1 => exact noUB_ofVec1 _
  | ofVecRows => exact noUB_ofVecRows _
  | ofRows => exact noUB_ofRows _
  | ofVec2 => exact noUB_ofVec2 _
  | ofVec2Rows => exact noUB_ofVec2Rows _
  | ofVec3 => exact noUB_ofVec3 _
  | ofVec4 => exact noUB_ofVec4 _
  | ofVec5 => exact noUB_ofVec5 _
  | ofArr2 => exact noUB_ofArr2 _
  | ofArr3 => exact noUB_ofArr3 _
  | ofArr4 => exact noUB_ofArr4 _
  | fromSlice => exact noUB_fromSlice _
  | joinVec => exact noUB_joinVec _
  | ofTensors h => exact noUB_ofTensors (hl h)
  | fromMerge h _ => exact noUB_fromMerge (hl h) _
  | append h h' => exact noUB_append_tensor (ht h) (ht h')
  | reshape => exact noUB_reshape _ _
  | expandDims => exact noUB_expandDims_tensor _ _
  | flatten => exact noUB_flatten _
  | squeeze => exact noUB_squeeze_tensor _
  | squeezeAxis => exact noUB_squeezeAxis _ _
  | subslice => exact noUB_subslice _ _
  | subsliceFlat => exact noUB_subsliceFlat _ _ _ _
  | setShape => exact noUB_ok _
  | setOffset => exact noUB_ok _
  | setSize => exact noUB_ok _
  | asSlice h => exact noUB_asSlice (ht h)
  | get h h' => exact noUB_get (ht h) (h' hR.view) _
  | asWrapSlice h => exact noUB_asWrapSlice (ht h) _
  | asWrapSliceN h => exact noUB_asWrapSliceN (ht h) _ _
  | iterRow h => exact noUB_iterRow (ht h)
  | index1 h => exact noUB_index1 (ht h) _
  | index2 h h' => exact noUB_index2 (ht h) (h' hR.view)
  | index3 h => exact noUB_index3 (ht h) _ _ _
  | index4 h => exact noUB_index4 (ht h) _ _ _ _
  | index5 h => exact noUB_index5 (ht h) _ _ _ _ _
  | debug h h' => exact noUB_debug (ht h) (h' hR.view)
  | eq h h' => exact noUB_eq (ht h) (ht h')
  | partialCmp h h' => exact noUB_partialCmp (ht h) (ht h')
  | init h hf => exact (init_safe _ hf _).1
  | initRindexed h hf => exact (initRindexed_safe _ hf _).1
  | map h hf => exact (map_safe (ht h) hf _).1
  | mapRow h hf => exact (mapRow_safe (ht h) hf _).1
  | mapExpand h hf => exact (mapExpand_safe (ht h) hf _).1
  | map2 h h' hf => exact (map2_safe (ht h) (ht h') hf _).1
  | map2Row => exact closure_lift noUB_panicked _
  | map2Expand => exact closure_lift noUB_panicked _
  | map3 h h' h'' hf => exact (map3_safe (ht h) (ht h') (ht h'') hf _).1
  | fold h hf => exact (fold_safe (ht h) hf _).1
  | foldAxis h hf => exact (foldAxis_safe (ht h) hf _).1
  | foldRow h hN hf => exact (foldRow_safe (ht h) (hN hR.foldRow) hf _).1
  | reduce h hf => exact (reduce_safe (ht h) hf _).1
  | reduceAxis h hf => exact (reduceAxis_safe (ht h) hf _).1
  | normalize h hf hc hg => exact (normalize_safe (ht h) hf hc hg _).1
  | binary h h' hf => exact noUB_opTT hf (ht h) (ht h')
  | binaryScalar h hf => exact noUB_opTS hf (ht h) _
  | scalarBinary h hf => exact noUB_opST hf (ht h) _
  | unary h hf => exact noUB_unary hf (ht h)
  | square h hf => exact noUB_unary (fun x => hf x x) (ht h)
  | min h h' => exact noUB_opTT (fun _ _ => noUB_ok _) (ht h) (ht h')
  | max h h' => exact noUB_opTT (fun _ _ => noUB_ok _) (ht h) (ht h')
  | absSub h h' hf => exact noUB_opTT hf (ht h) (ht h')
  | fill => exact noUB_fill _ _
  | zeros => exact noUB_fill _ _
  | ones => exact noUB_fill _ _
  | initDefault => exact noUB_fill _ _
  | transpose h => exact noUB_transpose (ht h)
  | split h => exact noUB_splitAxis (ht h) _ _
  | splitAxis h => exact noUB_splitAxis (ht h) _ _
  | vsplit h => exact noUB_splitAxis (ht h) _ _
  | hsplit h => exact noUB_splitAxis (ht h) _ _
  | dsplit h => exact noUB_splitAxis (ht h) _ _
  | unstack h => exact noUB_unstack (ht h) _
  | concatenate h => exact noUB_concatAxis (hl h) _
  | concatenateAxis h => exact noUB_concatenateAxis (hl h) _
  | stackVec h => exact noUB_stackVec (hl h) _
  | stack h => exact noUB_stackVec (hl h) _
  | hstack h => exact noUB_hstack (hl h)
  | dstack h => exact noUB_dstack (hl h)
  | vstack h => exact noUB_vstack (hl h)
  | tile h h' h'' => exact noUB_tile (ht h) (ht h') (h'' hR.tile)
  | arange h => exact noUB_arange h
  | linspace h h' => exact noUB_linspace (ht h) (ht h') _
  | logspaceOpt h h' => exact noUB_logspaceOpt (ht h) (ht h') _ _
  | logspace h h' => exact noUB_logspaceOpt (ht h) (ht h') _ _
  | geomspace h h' => exact noUB_geomspace (ht h) (ht h') _
  | oneHot => exact noUB_oneHot _ _
  | eye => exact noUB_eye _
  | identity => exact noUB_eye _
  | tri => exact noUB_tri _
  | diagflat h => exact noUB_diagflat (ht h)
  | tril h => exact noUB_triFill (ht h) _
  | triu h => exact noUB_triFill (ht h) _
  | meshgrid h => exact noUB_buildMeshgrid (hl h) _
  | meshgridIJ h => exact noUB_buildMeshgrid (hl h) _
  | mgrid => exact noUB_mgrid _ _
  | randomNormal => exact noUB_randomNormal _ _ _ _
  | randomUniform => exact noUB_randomUniform _ _ _ _
  | matmul h h' h'' =>
    refine (matmulT_canon (ht h) (ht h') _).noUB (C40_safe_partial _ _ (ht h).canon_rep (ht h').canon_rep
      fun A B r c r' c' h1 h2 => h'' hR.matmul A B r c r' c' ?_ ?_).1
    · rw [(ht h).shape.asVec_eq, h1]
    · rw [(ht h').shape.asVec_eq, h2]
  | matvec h h' => exact (matvecT_canon (ht h) (ht h') _).noUB (C41_safe _ _ (ht h).canon_rep (ht h').canon_rep).1
  | reduceHypot h => exact (fold_safe (ht h) fun _ _ st => closure_pure st).runPure.1
  | reduceMin h => exact (reduce_safe (ht h) fun _ _ st => closure_pure st).runPure.1
  | reduceMax h => exact (reduce_safe (ht h) fun _ _ st => closure_pure st).runPure.1
  | reduceMean h => exact (fold_safe (ht h) fun _ _ st => closure_pure st).runPure.1
  | reduceStd h => exact (fold_safe (ht h) fun _ _ st => closure_pure st).runPure.1
  | reduceVariance h => exact (fold_safe (ht h) fun _ _ st => closure_pure st).runPure.1
  | reduceMinAxis h => exact (reduceAxis_safe (ht h) fun _ _ st => closure_pure st).runPure.1
  | reduceMaxAxis h => exact (reduceAxis_safe (ht h) fun _ _ st => closure_pure st).runPure.1
  | reduceMeanAxis h => exact (foldAxis_safe (ht h) fun _ _ st => closure_pure st).runPure.1
  | reduceStdAxis h => exact (foldAxis_safe (ht h) fun _ _ st => closure_pure st).runPure.1
  | reduceVarianceAxis h => exact (foldAxis_safe (ht h) fun _ _ st => closure_pure st).runPure.1
  | reduceOp h hf => exact (reduce_safe (ht h) fun x y st => closure_lift (hf x y) st).runPure.1
  | reduceOpAxis h hf => exact (reduceAxis_safe (ht h) fun x y st => closure_lift (hf x y) st).runPure.1
  | normalizeUnit h =>
    exact (normalize_safe (ht h) (fun _ _ st => closure_pure st) (fun _ st => closure_pure st)
      fun _ _ st => closure_pure st).runPure.1
  | histogram h => exact noUB_histogram (ht h) _
  | histogram2d h => exact noUB_histogram2d (ht h) _
  | decodeWav h => exact noUB_decodeWav (ht h)
  | readFile h => exact noUB_readFile (ht h)
  | rfftNorm h h' => exact noUB_rfftNorm h' (ht h) _
  | frame => rw [C67_frame_violates]; exact noUB_panic
  | sliceUsize => rw [(C66_slice_violates _ _ 0).1]; exact noUB_panic
  | slicePair => rw [(C66_slice_violates _ _ _).2]; exact noUB_panic

end Essay
