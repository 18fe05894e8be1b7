import Verif.Lemmas.BuildModel
import Verif.Spec.Reach

/-!
# Calls carry over from the checked build to the release build
-/

namespace Essay

attribute [-instance] Build.checked

attribute [local instance] Build.release

theorem arange_release {F : Type} {fo : FOps F} {fuel : Nat} {a b c : F} {x : Res (Tensor F)}
    (h : @Init.arange .checked F fo fuel a b c = some x) :
    ∃ y, @Init.arange .release F fo fuel a b c = some y ∧ Refines x y := by
  unfold Init.arange at h ⊢
  by_cases h1 : fo.eq c fo.zero
  · rw [if_pos h1] at h ⊢; exact ⟨x, h, .refl _⟩
  rw [if_neg h1] at h ⊢
  by_cases h2 : fo.le a b && fo.lt fo.zero c
  · rw [if_pos h2] at h ⊢
    cases e : Init.arangeUp fo b c fuel a [] with
    | none => rw [e] at h; cases h
    | some v => rw [e] at h; cases h; exact ⟨_, rfl, Tensor.ofVec1_refines _⟩
  rw [if_neg h2] at h ⊢
  by_cases h3 : fo.le b a && fo.lt c fo.zero
  · rw [if_pos h3] at h ⊢
    cases e : Init.arangeDown fo b c fuel a [] with
    | none => rw [e] at h; cases h
    | some v => rw [e] at h; cases h; exact ⟨_, rfl, Tensor.ofVec1_refines _⟩
  · rw [if_neg h3] at h ⊢; exact ⟨x, h, .refl _⟩

theorem Call.release {R : Rules} (hM : ¬ R.matmul) {K K' : Obj → Prop} (hK : ∀ o, K o → K' o)
    (hS : ∀ (β : Type) (t : Tensor β), K (.tensor t) → t.size < 2 ^ 64) {α : Type} {x : Res α} {outs : α → List Obj}
    (h : @Call .checked R K α x outs) : ∃ y, @Call .release R K' α y outs ∧ Refines x y := by
  cases h with
  | scalar => exact ⟨_, .scalar, .refl _⟩
  | vector => exact ⟨_, .vector, .refl _⟩
  | ofUsize => exact ⟨_, .ofUsize, .refl _⟩
  | ofSlice => exact ⟨_, .ofSlice, .refl _⟩
  | ofVec => exact ⟨_, .ofVec, .refl _⟩
  | shapeOf h0 => exact ⟨_, .shapeOf (hK _ h0), .refl _⟩
  | replace h0 => exact ⟨_, .replace (hK _ h0), by carry [Shape.replace_refines]⟩
  | rreplace h0 => exact ⟨_, .rreplace (hK _ h0), .refl _⟩
  | withDim h0 => exact ⟨_, .withDim (hK _ h0), by carry [Shape.withDim_refines]⟩
  | withCols h0 h1 => exact ⟨_, .withCols (hK _ h0) h1, .refl _⟩
  | withRows h0 => exact ⟨_, .withRows (hK _ h0), .refl _⟩
  | push h0 => exact ⟨_, .push (hK _ h0), .refl _⟩
  | appendShape h0 => exact ⟨_, .appendShape (hK _ h0), .refl _⟩
  | expandDimsShape h0 => exact ⟨_, .expandDimsShape (hK _ h0), by carry [Shape.expandDims_refines]⟩
  | squeezeShape h0 => exact ⟨_, .squeezeShape (hK _ h0), by carry [Shape.squeeze_refines]⟩
  | pop h0 => exact ⟨_, .pop (hK _ h0), by carry [Shape.pop_refines]⟩
  | remove h0 => exact ⟨_, .remove (hK _ h0), by carry [Shape.remove_refines]⟩
  | rremove h0 => exact ⟨_, .rremove (hK _ h0), by carry [Shape.rremove_refines]⟩
  | reduceShape h0 h1 => exact ⟨_, .reduceShape (hK _ h0) h1, by carry [Shape.reduce_refines]⟩
  | insert h0 => exact ⟨_, .insert (hK _ h0), by carry [Shape.insert_refines]⟩
  | rinsert h0 => exact ⟨_, .rinsert (hK _ h0), .refl _⟩
  | broadcastTo h0 h1 => exact ⟨_, .broadcastTo (hK _ h0) (hK _ h1), .refl _⟩
  | axisReduce h0 => exact ⟨_, .axisReduce (hK _ h0), by carry [Axis.reduce_refines]⟩
  | axisReduceRow h0 => exact ⟨_, .axisReduceRow (hK _ h0), by carry [Axis.reduceRow_refines]⟩
  | sizeOf h0 => exact ⟨_, .sizeOf (hK _ h0), by carry [Shape.size_refines]⟩
  | dim h0 => exact ⟨_, .dim (hK _ h0), by carry [Shape.dim_refines]⟩
  | rdim h0 => exact ⟨_, .rdim (hK _ h0), .refl _⟩
  | idim h0 => exact ⟨_, .idim (hK _ h0), by carry [Shape.idim_refines]⟩
  | len h0 => exact ⟨_, .len (hK _ h0), by carry [Shape.len_refines]⟩
  | cols h0 => exact ⟨_, .cols (hK _ h0), .refl _⟩
  | rows h0 => exact ⟨_, .rows (hK _ h0), .refl _⟩
  | batchLen h0 => exact ⟨_, .batchLen (hK _ h0), by carry [Shape.batchLen_refines]⟩
  | asVec h0 => exact ⟨_, .asVec (hK _ h0), by carry [Shape.asVec_refines]⟩
  | sublen h0 => exact ⟨_, .sublen (hK _ h0), by carry [Shape.sublen_refines]⟩
  | rsublen h0 => exact ⟨_, .rsublen (hK _ h0), by carry [Shape.rsublen_refines]⟩
  | broadcast h0 h1 => exact ⟨_, .broadcast (hK _ h0) (hK _ h1), by carry [Shape.broadcast_refines]⟩
  | checkBroadcast h0 h1 => exact ⟨_, .checkBroadcast (hK _ h0) (hK _ h1), .refl _⟩
  | broadcastMin h0 h1 => exact ⟨_, .broadcastMin (hK _ h0) (hK _ h1), by carry [Shape.broadcastMin_refines]⟩
  | axisFromRank => exact ⟨_, .axisFromRank, by carry [Axis.axisFromRank_refines]⟩
  | fromVec h0 => exact ⟨_, .fromVec (hK _ h0), by carry [Tensor.fromVec_refines]⟩
  | fromScalar => exact ⟨_, .fromScalar, by carry [Tensor.fromScalar_refines]⟩
  | ofScalar => exact ⟨_, .ofScalar, by carry [Tensor.ofScalar_refines]⟩
  | ofOption => exact ⟨_, .ofOption, by carry [Tensor.ofOption_refines]⟩
  | ofVec1 => exact ⟨_, .ofVec1, by carry [Tensor.ofVec1_refines]⟩
  | ofVecRows => exact ⟨_, .ofVecRows, by carry [Tensor.ofVecRows_refines]⟩
  | ofRows => exact ⟨_, .ofRows, by carry [Tensor.ofRows_refines]⟩
  | ofVec2 => exact ⟨_, .ofVec2, by carry [Tensor.ofVec2_refines]⟩
  | ofVec2Rows => exact ⟨_, .ofVec2Rows, by carry [Tensor.ofVec2Rows_refines]⟩
  | ofVec3 => exact ⟨_, .ofVec3, by carry [Tensor.ofVec3_refines]⟩
  | ofVec4 => exact ⟨_, .ofVec4, by carry [Tensor.ofVec4_refines]⟩
  | ofVec5 => exact ⟨_, .ofVec5, by carry [Tensor.ofVec5_refines]⟩
  | ofArr2 => exact ⟨_, .ofArr2, by carry [Tensor.ofArr2_refines]⟩
  | ofArr3 => exact ⟨_, .ofArr3, by carry [Tensor.ofArr3_refines]⟩
  | ofArr4 => exact ⟨_, .ofArr4, by carry [Tensor.ofArr4_refines]⟩
  | fromSlice => exact ⟨_, .fromSlice, by carry [Tensor.fromSlice_refines]⟩
  | joinVec => exact ⟨_, .joinVec, by carry [Tensor.joinVec_refines]⟩
  | ofTensors h0 => exact ⟨_, .ofTensors (fun u hu => hK _ (h0 u hu)), by carry [Tensor.ofTensors_refines]⟩
  | fromMerge h0 h1 => exact ⟨_, .fromMerge (fun u hu => hK _ (h0 u hu)) (hK _ h1), by carry [Tensor.fromMerge_refines]⟩
  | append h0 h1 => exact ⟨_, .append (hK _ h0) (hK _ h1), by carry [Tensor.append_refines]⟩
  | reshape h0 h1 => exact ⟨_, .reshape (hK _ h0) (hK _ h1), by carry [Tensor.reshape_refines]⟩
  | expandDims h0 => exact ⟨_, .expandDims (hK _ h0), by carry [Tensor.expandDims_refines]⟩
  | flatten h0 => exact ⟨_, .flatten (hK _ h0), by carry [Tensor.flatten_refines]⟩
  | squeeze h0 => exact ⟨_, .squeeze (hK _ h0), by carry [Tensor.squeeze_refines]⟩
  | squeezeAxis h0 => exact ⟨_, .squeezeAxis (hK _ h0), by carry [Tensor.squeezeAxis_refines]⟩
  | subslice h0 => exact ⟨_, .subslice (hK _ h0), by carry [Tensor.subslice_refines, hS _ _ h0]⟩
  | subsliceFlat h0 h1 h2 => exact ⟨_, .subsliceFlat (hK _ h0) (hK _ h1) (fun hr => (Shape.size_refines _).apply _ (h2 hr)), by carry [Tensor.subsliceFlat_refines]⟩
  | setShape h0 h1 h2 => exact ⟨_, .setShape (hK _ h0) (hK _ h1) h2, .refl _⟩
  | setOffset h0 h1 => exact ⟨_, .setOffset (hK _ h0) h1, .refl _⟩
  | setSize h0 h1 => exact ⟨_, .setSize (hK _ h0) h1, .refl _⟩
  | asSlice h0 => exact ⟨_, .asSlice (hK _ h0), .refl _⟩
  | get h0 h1 => exact ⟨_, .get (hK _ h0) h1, .refl _⟩
  | asWrapSlice h0 => exact ⟨_, .asWrapSlice (hK _ h0), by carry [Tensor.asWrapSlice_refines]⟩
  | asWrapSliceN h0 => exact ⟨_, .asWrapSliceN (hK _ h0), by carry [Tensor.asWrapSliceN_refines]⟩
  | iterRow h0 => exact ⟨_, .iterRow (hK _ h0), .refl _⟩
  | index1 h0 => exact ⟨_, .index1 (hK _ h0), .refl _⟩
  | index2 h0 h1 => exact ⟨_, .index2 (hK _ h0) h1, by carry [Tensor.index2_refines]⟩
  | index3 h0 => exact ⟨_, .index3 (hK _ h0), by carry [Tensor.index3_refines]⟩
  | index4 h0 => exact ⟨_, .index4 (hK _ h0), by carry [Tensor.index4_refines]⟩
  | index5 h0 => exact ⟨_, .index5 (hK _ h0), .refl _⟩
  | debug h0 h1 => exact ⟨_, .debug (hK _ h0) h1, by carry [Fmt.debug_refines]⟩
  | eq h0 h1 => exact ⟨_, .eq (hK _ h0) (hK _ h1), .refl _⟩
  | partialCmp h0 h1 => exact ⟨_, .partialCmp (hK _ h0) (hK _ h1), .refl _⟩
  | init h0 h1 => exact ⟨_, .init (hK _ h0) h1, by carry [Tensor.init_refines]⟩
  | initRindexed h0 h1 => exact ⟨_, .initRindexed (hK _ h0) h1, by carry [Tensor.initRindexed_refines]⟩
  | map h0 h1 => exact ⟨_, .map (hK _ h0) h1, by carry [Tensor.map_refines]⟩
  | mapRow h0 h1 => exact ⟨_, .mapRow (hK _ h0) h1, by carry [Tensor.mapRow_refines]⟩
  | mapExpand h0 h1 => exact ⟨_, .mapExpand (hK _ h0) h1, by carry [Tensor.mapExpand_refines]⟩
  | map2 h0 h1 h2 => exact ⟨_, .map2 (hK _ h0) (hK _ h1) h2, by carry [Tensor.map2_refines]⟩
  | map2Row h0 h1 => exact ⟨_, .map2Row (hK _ h0) (hK _ h1), .refl _⟩
  | map2Expand h0 h1 => exact ⟨_, .map2Expand (hK _ h0) (hK _ h1), .refl _⟩
  | map3 h0 h1 h2 h3 => exact ⟨_, .map3 (hK _ h0) (hK _ h1) (hK _ h2) h3, by carry [Tensor.map3_refines]⟩
  | fold h0 h1 => exact ⟨_, .fold (hK _ h0) h1, by carry [Tensor.fold_refines]⟩
  | foldAxis h0 h1 => exact ⟨_, .foldAxis (hK _ h0) h1, by carry [Tensor.foldAxis_refines]⟩
  | foldRow h0 h1 h2 => exact ⟨_, .foldRow (hK _ h0) h1 h2, by carry [Tensor.foldRow_refines]⟩
  | reduce h0 h1 => exact ⟨_, .reduce (hK _ h0) h1, by carry [Tensor.reduce_refines]⟩
  | reduceAxis h0 h1 => exact ⟨_, .reduceAxis (hK _ h0) h1, by carry [Tensor.reduceAxis_refines]⟩
  | normalize h0 h1 h2 h3 => exact ⟨_, .normalize (hK _ h0) h1 h2 h3, by carry [Tensor.normalize_refines]⟩
  | binary h0 h1 h2 => exact ⟨_, .binary (hK _ h0) (hK _ h1) h2, by carry [Tensor.binary_refines]⟩
  | binaryScalar h0 h1 => exact ⟨_, .binaryScalar (hK _ h0) h1, by carry [Tensor.binaryScalar_refines]⟩
  | scalarBinary h0 h1 => exact ⟨_, .scalarBinary (hK _ h0) h1, by carry [Tensor.scalarBinary_refines]⟩
  | unary h0 h1 => exact ⟨_, .unary (hK _ h0) h1, by carry [Tensor.unary_refines]⟩
  | square h0 h1 => exact ⟨_, .square (hK _ h0) h1, by carry [Tensor.square_refines]⟩
  | min h0 h1 => exact ⟨_, .min (hK _ h0) (hK _ h1), by carry [Tensor.min_refines]⟩
  | max h0 h1 => exact ⟨_, .max (hK _ h0) (hK _ h1), by carry [Tensor.max_refines]⟩
  | absSub h0 h1 h2 => exact ⟨_, .absSub (hK _ h0) (hK _ h1) h2, by carry [Tensor.absSub_refines]⟩
  | fill h0 => exact ⟨_, .fill (hK _ h0), by carry [Tensor.fill_refines]⟩
  | zeros h0 => exact ⟨_, .zeros (hK _ h0), by carry [Tensor.zeros_refines]⟩
  | ones h0 => exact ⟨_, .ones (hK _ h0), by carry [Tensor.ones_refines]⟩
  | initDefault h0 => exact ⟨_, .initDefault (hK _ h0), by carry [Tensor.initDefault_refines]⟩
  | transpose h0 => exact ⟨_, .transpose (hK _ h0), by carry [Tensor.transpose_refines]⟩
  | split h0 => exact ⟨_, .split (hK _ h0), by carry [Tensor.split_refines, hS _ _ h0]⟩
  | splitAxis h0 => exact ⟨_, .splitAxis (hK _ h0), by carry [Tensor.splitAxis_refines, hS _ _ h0]⟩
  | vsplit h0 => exact ⟨_, .vsplit (hK _ h0), by carry [Tensor.vsplit_refines, hS _ _ h0]⟩
  | hsplit h0 => exact ⟨_, .hsplit (hK _ h0), by carry [Tensor.hsplit_refines, hS _ _ h0]⟩
  | dsplit h0 => exact ⟨_, .dsplit (hK _ h0), by carry [Tensor.dsplit_refines, hS _ _ h0]⟩
  | unstack h0 => exact ⟨_, .unstack (hK _ h0), by carry [Tensor.unstack_refines, hS _ _ h0]⟩
  | concatenate h0 => exact ⟨_, .concatenate (fun u hu => hK _ (h0 u hu)), by carry [Tensor.concatenate_refines]⟩
  | concatenateAxis h0 => exact ⟨_, .concatenateAxis (fun u hu => hK _ (h0 u hu)), by carry [Tensor.concatenateAxis_refines]⟩
  | stackVec h0 => exact ⟨_, .stackVec (fun u hu => hK _ (h0 u hu)), by carry [Tensor.stackVec_refines]⟩
  | stack h0 => exact ⟨_, .stack (fun u hu => hK _ (h0 u hu)), by carry [Tensor.stack_refines]⟩
  | hstack h0 => exact ⟨_, .hstack (fun u hu => hK _ (h0 u hu)), by carry [Tensor.hstack_refines]⟩
  | dstack h0 => exact ⟨_, .dstack (fun u hu => hK _ (h0 u hu)), by carry [Tensor.dstack_refines]⟩
  | vstack h0 => exact ⟨_, .vstack (fun u hu => hK _ (h0 u hu)), by carry [Tensor.vstack_refines]⟩
  | tile h0 h1 h2 => exact ⟨_, .tile (hK _ h0) (hK _ h1) h2, by carry [Tensor.tile_refines]⟩
  | arange h0 =>
    obtain ⟨y, hy, hr⟩ := arange_release h0
    exact ⟨y, .arange hy, hr⟩
  | linspace h0 h1 => exact ⟨_, .linspace (hK _ h0) (hK _ h1), by carry [Init.linspace_refines]⟩
  | logspaceOpt h0 h1 => exact ⟨_, .logspaceOpt (hK _ h0) (hK _ h1), by carry [Init.logspaceOpt_refines]⟩
  | logspace h0 h1 => exact ⟨_, .logspace (hK _ h0) (hK _ h1), by carry [Init.logspace_refines]⟩
  | geomspace h0 h1 => exact ⟨_, .geomspace (hK _ h0) (hK _ h1), by carry [Init.geomspace_refines]⟩
  | oneHot => exact ⟨_, .oneHot, by carry [Init.oneHot_refines]⟩
  | eye => exact ⟨_, .eye, by carry [Init.eye_refines]⟩
  | identity => exact ⟨_, .identity, by carry [Init.identity_refines]⟩
  | tri => exact ⟨_, .tri, by carry [Init.tri_refines]⟩
  | diagflat h0 => exact ⟨_, .diagflat (hK _ h0), by carry [Init.diagflat_refines]⟩
  | tril h0 => exact ⟨_, .tril (hK _ h0), by carry [Init.tril_refines]⟩
  | triu h0 => exact ⟨_, .triu (hK _ h0), by carry [Init.triu_refines]⟩
  | meshgrid h0 => exact ⟨_, .meshgrid (fun u hu => hK _ (h0 u hu)), by carry [Init.meshgrid_refines]⟩
  | meshgridIJ h0 => exact ⟨_, .meshgridIJ (fun u hu => hK _ (h0 u hu)), by carry [Init.meshgridIJ_refines]⟩
  | mgrid => exact ⟨_, .mgrid, by carry [Init.mgrid_refines]⟩
  | randomNormal h0 => exact ⟨_, .randomNormal (hK _ h0), by carry [Random.randomNormal_refines]⟩
  | randomUniform h0 => exact ⟨_, .randomUniform (hK _ h0), by carry [Random.randomUniform_refines]⟩
  | matmul h0 h1 h2 => exact ⟨_, .matmul (hK _ h0) (hK _ h1) (fun hr => absurd hr hM), by carry [Linalg.matmulT_refines]⟩
  | matvec h0 h1 => exact ⟨_, .matvec (hK _ h0) (hK _ h1), by carry [Linalg.matvecT_refines]⟩
  | reduceHypot h0 => exact ⟨_, .reduceHypot (hK _ h0), by carry [Stats.reduceHypot_refines]⟩
  | reduceMin h0 => exact ⟨_, .reduceMin (hK _ h0), by carry [Stats.reduceMin_refines]⟩
  | reduceMax h0 => exact ⟨_, .reduceMax (hK _ h0), by carry [Stats.reduceMax_refines]⟩
  | reduceMean h0 => exact ⟨_, .reduceMean (hK _ h0), by carry [Stats.reduceMean_refines]⟩
  | reduceStd h0 => exact ⟨_, .reduceStd (hK _ h0), by carry [Stats.reduceStd_refines]⟩
  | reduceVariance h0 => exact ⟨_, .reduceVariance (hK _ h0), by carry [Stats.reduceVariance_refines]⟩
  | reduceMinAxis h0 => exact ⟨_, .reduceMinAxis (hK _ h0), by carry [Stats.reduceMinAxis_refines]⟩
  | reduceMaxAxis h0 => exact ⟨_, .reduceMaxAxis (hK _ h0), by carry [Stats.reduceMaxAxis_refines]⟩
  | reduceMeanAxis h0 => exact ⟨_, .reduceMeanAxis (hK _ h0), by carry [Stats.reduceMeanAxis_refines]⟩
  | reduceStdAxis h0 => exact ⟨_, .reduceStdAxis (hK _ h0), by carry [Stats.reduceStdAxis_refines]⟩
  | reduceVarianceAxis h0 => exact ⟨_, .reduceVarianceAxis (hK _ h0), by carry [Stats.reduceVarianceAxis_refines]⟩
  | reduceOp h0 h1 => exact ⟨_, .reduceOp (hK _ h0) h1, by carry [Stats.reduceOp_refines]⟩
  | reduceOpAxis h0 h1 => exact ⟨_, .reduceOpAxis (hK _ h0) h1, by carry [Stats.reduceOpAxis_refines]⟩
  | normalizeUnit h0 => exact ⟨_, .normalizeUnit (hK _ h0), by carry [Stats.normalizeUnit_refines]⟩
  | histogram h0 => exact ⟨_, .histogram (hK _ h0), by carry [Stats.histogram_refines]⟩
  | histogram2d h0 => exact ⟨_, .histogram2d (hK _ h0), by carry [Stats.histogram2d_refines]⟩
  | decodeWav h0 => exact ⟨_, .decodeWav (hK _ h0), by carry [Io.decodeWav_refines]⟩
  | readFile h0 => exact ⟨_, .readFile (hK _ h0), by carry [Io.readFile_refines]⟩
  | rfftNorm h0 h1 => exact ⟨_, .rfftNorm (hK _ h0) h1, by carry [Signal.rfftNorm_refines]⟩
  | frame h0 => exact ⟨_, .frame (hK _ h0), by carry [Signal.frame_refines, hS _ _ h0]⟩
  | sliceUsize h0 => exact ⟨_, .sliceUsize (hK _ h0), by carry [Signal.sliceUsize_refines]⟩
  | slicePair h0 => exact ⟨_, .slicePair (hK _ h0), by carry [Signal.slicePair_refines]⟩

end Essay
