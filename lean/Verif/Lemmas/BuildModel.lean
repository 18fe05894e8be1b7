import Verif.Lemmas.Build
import Verif.Model.Signal
import Verif.Model.Io
import Verif.Model.Methods
import Verif.Model.Macro
import Verif.Model.Random
import Verif.Model.Linalg
import Verif.Model.Math
import Verif.Model.Fmt
import Verif.Model.Stats
import Verif.Model.Init
import Verif.Model.From

/-!
# Every operation carries over from the checked build to the release build
-/

namespace Essay

/-! Shape -/

theorem Shape.productTo_refines (dims : List Nat) (n : Nat) :
    Refines (@Shape.productTo .checked dims n) (@Shape.productTo .release dims n) := by
  unfold Shape.productTo; carry []

theorem Shape.size_refines (s : Shape) :
    Refines (@Shape.size .checked s) (@Shape.size .release s) := by
  unfold Shape.size; carry [Shape.productTo_refines]

theorem Shape.dim_refines (s : Shape) (i : Nat) :
    Refines (@Shape.dim .checked s i) (@Shape.dim .release s i) := by
  unfold Shape.dim; carry []

theorem Shape.replace_refines (s : Shape) (i : Nat) (value : Nat) :
    Refines (@Shape.replace .checked s i value) (@Shape.replace .release s i value) := by
  unfold Shape.replace; carry []

theorem Shape.withDim_refines (s : Shape) (i : Nat) (value : Nat) :
    Refines (@Shape.withDim .checked s i value) (@Shape.withDim .release s i value) := by
  unfold Shape.withDim; carry [Shape.replace_refines]

theorem Shape.idim_refines (s : Shape) (i : Int) :
    Refines (@Shape.idim .checked s i) (@Shape.idim .release s i) := by
  unfold Shape.idim; carry [Shape.dim_refines]

theorem Shape.len_refines (s : Shape) :
    Refines (@Shape.len .checked s) (@Shape.len .release s) := by
  unfold Shape.len; carry [Shape.dim_refines]

theorem Shape.batchLen_refines (s : Shape) (baseRank : Nat) :
    Refines (@Shape.batchLen .checked s baseRank) (@Shape.batchLen .release s baseRank) := by
  unfold Shape.batchLen; carry [Shape.productTo_refines]

theorem Shape.broadcast_refines (a : Shape) (b : Shape) :
    Refines (@Shape.broadcast .checked a b) (@Shape.broadcast .release a b) := by
  unfold Shape.broadcast; carry [Shape.size_refines]

theorem Shape.asVec_refines (s : Shape) :
    Refines (@Shape.asVec .checked s) (@Shape.asVec .release s) := by
  unfold Shape.asVec; carry [Shape.dim_refines]

theorem Shape.rsublen_refines (s : Shape) (start : Nat) (stop : Nat) :
    Refines (@Shape.rsublen .checked s start stop) (@Shape.rsublen .release s start stop) := by
  unfold Shape.rsublen; carry []

theorem Shape.sublen_refines (s : Shape) (start : Nat) (stop : Nat) :
    Refines (@Shape.sublen .checked s start stop) (@Shape.sublen .release s start stop) := by
  unfold Shape.sublen; carry [Shape.rsublen_refines]

theorem Shape.broadcastMin_refines (a : Shape) (aMin : Nat) (b : Shape) (bMin : Nat) :
    Refines (@Shape.broadcastMin .checked a aMin b bMin) (@Shape.broadcastMin .release a aMin b bMin) := by
  unfold Shape.broadcastMin; carry [Shape.sublen_refines]

theorem Shape.expandDims_refines (s : Shape) (axis : Int) :
    Refines (@Shape.expandDims .checked s axis) (@Shape.expandDims .release s axis) := by
  unfold Shape.expandDims; carry [Shape.asVec_refines]

theorem Shape.squeeze_refines (s : Shape) (axis : Option Int) :
    Refines (@Shape.squeeze .checked s axis) (@Shape.squeeze .release s axis) := by
  unfold Shape.squeeze; carry []

theorem Shape.pop_refines (s : Shape) :
    Refines (@Shape.pop .checked s) (@Shape.pop .release s) := by
  unfold Shape.pop; carry []

theorem Shape.rremove_refines (s : Shape) (axis : Nat) :
    Refines (@Shape.rremove .checked s axis) (@Shape.rremove .release s axis) := by
  unfold Shape.rremove; carry []

theorem Shape.remove_refines (s : Shape) (axis : Nat) :
    Refines (@Shape.remove .checked s axis) (@Shape.remove .release s axis) := by
  unfold Shape.remove; carry [Shape.rremove_refines]

theorem Shape.reduce_refines (s : Shape) :
    Refines (@Shape.reduce .checked s) (@Shape.reduce .release s) := by
  unfold Shape.reduce; carry [Shape.rremove_refines]

theorem Shape.insert_refines (s : Shape) (axis : Nat) (len : Nat) :
    Refines (@Shape.insert .checked s axis len) (@Shape.insert .release s axis len) := by
  unfold Shape.insert; carry []

/-! Axis -/

theorem Axis.axisFromRank_refines (axis : Axis) (rank : Nat) :
    Refines (@Axis.axisFromRank .checked axis rank) (@Axis.axisFromRank .release axis rank) := by
  unfold Axis.axisFromRank; carry []

theorem Axis.normAxis_refines (axis : Int) (rank : Nat) :
    Refines (@Axis.normAxis .checked axis rank) (@Axis.normAxis .release axis rank) := by
  unfold Axis.normAxis; carry []

theorem Axis.dimsLoop_refines (shape : Shape) (lo : Nat) (hi : Nat) (vec : List Nat) :
    Refines (@Axis.dimsLoop .checked shape lo hi vec) (@Axis.dimsLoop .release shape lo hi vec) := by
  unfold Axis.dimsLoop; carry [Shape.dim_refines]

theorem Axis.reduce_refines (axis : Axis) (shape : Shape) :
    Refines (@Axis.reduce .checked axis shape) (@Axis.reduce .release axis shape) := by
  unfold Axis.reduce; carry [Shape.size_refines, Axis.normAxis_refines, Axis.dimsLoop_refines, Shape.dim_refines]

theorem Axis.reduceRow_refines (axis : Axis) (shape : Shape) (cols : Nat) :
    Refines (@Axis.reduceRow .checked axis shape cols) (@Axis.reduceRow .release axis shape cols) := by
  unfold Axis.reduceRow; carry [Shape.size_refines, Axis.normAxis_refines, Axis.dimsLoop_refines, Shape.dim_refines]

/-! Tensor -/

theorem Tensor.new_refines {α : Type} (data : List α) (shape : Shape) :
    Refines (@Tensor.new .checked α data shape) (@Tensor.new .release α data shape) := by
  unfold Tensor.new; carry [Shape.size_refines]

theorem Tensor.fromVec_refines {α : Type} (vec : List α) (shape : Shape) :
    Refines (@Tensor.fromVec .checked α vec shape) (@Tensor.fromVec .release α vec shape) := by
  unfold Tensor.fromVec; carry [Tensor.new_refines]

theorem Tensor.fromScalar_refines {α : Type} (value : α) :
    Refines (@Tensor.fromScalar .checked α value) (@Tensor.fromScalar .release α value) := by
  unfold Tensor.fromScalar; carry [Tensor.new_refines]

theorem Tensor.finish_refines {α : Type} (b : Buf α) (shape : Shape) :
    Refines (@Tensor.finish .checked α b shape) (@Tensor.finish .release α b shape) := by
  unfold Tensor.finish; carry [Tensor.new_refines]

theorem Tensor.unsafeInit_refines {α : Type} {len : Nat} {shape : Shape} {f g : Buf α → Res (Buf α)}
    (h : ∀ o, Refines (f o) (g o)) :
    Refines (@Tensor.unsafeInit .checked α len shape f) (@Tensor.unsafeInit .release α len shape g) := by
  unfold Tensor.unsafeInit; carry [h, Tensor.finish_refines]

theorem Tensor.unsafeInitM_refines {σ α : Type} {len : Nat} {shape : Shape} {f g : Buf α → Exec σ (Buf α)}
    (h : ∀ o, RefinesM (f o) (g o)) :
    RefinesM (@Tensor.unsafeInitM .checked α σ len shape f) (@Tensor.unsafeInitM .release α σ len shape g) := by
  unfold Tensor.unsafeInitM; carry [h, Tensor.finish_refines]

theorem Tensor.asWrapSlice_refines {α : Type} (t : Tensor α) (offset : Nat) :
    Refines (@Tensor.asWrapSlice .checked α t offset) (@Tensor.asWrapSlice .release α t offset) := by
  unfold Tensor.asWrapSlice; carry []

theorem Tensor.asWrapSliceN_refines {α : Type} (t : Tensor α) (offset : Nat) (len : Nat) :
    Refines (@Tensor.asWrapSliceN .checked α t offset len) (@Tensor.asWrapSliceN .release α t offset len) := by
  unfold Tensor.asWrapSliceN; carry []

theorem Tensor.subsliceFlat_refines {α : Type} (t : Tensor α) (offset : Nat) (len : Nat) (shape : Shape) :
    Refines (@Tensor.subsliceFlat .checked α t offset len shape)
      (@Tensor.subsliceFlat .release α t offset len shape) := by
  unfold Tensor.subsliceFlat; carry [Shape.size_refines]

theorem foldl_wrap (l : List Nat) (a : Nat) :
    l.foldl (fun a d => Build.release.wrap (a * d)) (a % 2 ^ 64) = l.foldl (fun a d => a * d) a % 2 ^ 64 := by
  induction l generalizing a with
  | nil => rfl
  | cons d l ih =>
    rw [List.foldl_cons, List.foldl_cons, ← ih]
    congr 1
    exact Nat.mod_mul_mod a d (2 ^ 64)

theorem wrap_mul_foldl (n : Nat) (l : List Nat) (h : n * l.foldl (fun a d => a * d) 1 < 2 ^ 64) :
    Build.release.wrap (n * l.foldl (fun a d => Build.release.wrap (a * d)) 1) = n * l.foldl (fun a d => a * d) 1 := by
  have := foldl_wrap l 1
  rw [show 1 % 2 ^ 64 = 1 from rfl] at this
  rw [this]
  show n * (l.foldl (fun a d => a * d) 1 % 2 ^ 64) % 2 ^ 64 = _
  rw [Nat.mul_mod_mod, Nat.mod_eq_of_lt h]

theorem subsliceFlat_fits {α : Type} {t r : Tensor α} {offset len : Nat} {shape : Shape}
    (h : @Tensor.subsliceFlat .checked α t offset len shape = .ok r) : offset + len ≤ t.size := by
  unfold Tensor.subsliceFlat at h
  obtain ⟨_, _, h⟩ := bind_eq_ok.1 h
  obtain ⟨_, h2, _⟩ := bind_eq_ok.1 h
  by_contra hc
  rw [ensure_false (show ¬ Build.checked.wrap (offset + len) ≤ t.size from hc)] at h2
  cases h2

theorem Tensor.subslice_refines {α : Type} (t : Tensor α) (ht : t.size < 2 ^ 64) (offset : Nat) (len : Nat) :
    Refines (@Tensor.subslice .checked α t offset len) (@Tensor.subslice .release α t offset len) := by
  unfold Tensor.subslice
  carry [Shape.dim_refines, Shape.asVec_refines]
  rename_i vec _ _ _ _ _ s _
  refine ⟨fun r h => ?_⟩
  have hf := subsliceFlat_fits h
  have hl : offset * (vec.drop 1).foldl (fun a d => a * d) 1 + len * (vec.drop 1).foldl (fun a d => a * d) 1 < 2 ^ 64 :=
    Nat.lt_of_le_of_lt hf ht
  rw [wrap_mul_foldl offset _ (by omega), wrap_mul_foldl len _ (by omega)]
  exact (Tensor.subsliceFlat_refines ..).apply r h

theorem Tensor.fromSlice_refines {α : Type} (data : List α) :
    Refines (@Tensor.fromSlice .checked α data) (@Tensor.fromSlice .release α data) := by
  unfold Tensor.fromSlice; carry [Tensor.unsafeInit_refines]

theorem Tensor.fromMerge_refines {α : Type} (vec : List (Tensor α)) (shape : Shape) :
    Refines (@Tensor.fromMerge .checked α vec shape) (@Tensor.fromMerge .release α vec shape) := by
  unfold Tensor.fromMerge; carry [Shape.size_refines, Tensor.fromVec_refines]

theorem Tensor.append_refines {α : Type} (t : Tensor α) (u : Tensor α) :
    Refines (@Tensor.append .checked α t u) (@Tensor.append .release α t u) := by
  unfold Tensor.append; carry [Shape.sublen_refines, Shape.asVec_refines, Shape.dim_refines, Tensor.fromMerge_refines]

theorem Tensor.joinVec_refines {α : Type} (vec : List (List α)) :
    Refines (@Tensor.joinVec .checked α vec) (@Tensor.joinVec .release α vec) := by
  unfold Tensor.joinVec; carry [Tensor.fromVec_refines]

theorem Tensor.reshape_refines {α : Type} (t : Tensor α) (shape : Shape) :
    Refines (@Tensor.reshape .checked α t shape) (@Tensor.reshape .release α t shape) := by
  unfold Tensor.reshape; carry [Shape.size_refines]

theorem Tensor.expandDims_refines {α : Type} (t : Tensor α) (axis : Axis) :
    Refines (@Tensor.expandDims .checked α t axis) (@Tensor.expandDims .release α t axis) := by
  unfold Tensor.expandDims; carry [Shape.expandDims_refines, Tensor.reshape_refines]

theorem Tensor.flatten_refines {α : Type} (t : Tensor α) :
    Refines (@Tensor.flatten .checked α t) (@Tensor.flatten .release α t) := by
  unfold Tensor.flatten; carry [Tensor.reshape_refines]

theorem Tensor.squeeze_refines {α : Type} (t : Tensor α) :
    Refines (@Tensor.squeeze .checked α t) (@Tensor.squeeze .release α t) := by
  unfold Tensor.squeeze; carry [Shape.squeeze_refines, Tensor.reshape_refines]

theorem Tensor.squeezeAxis_refines {α : Type} (t : Tensor α) (axis : Axis) :
    Refines (@Tensor.squeezeAxis .checked α t axis) (@Tensor.squeezeAxis .release α t axis) := by
  unfold Tensor.squeezeAxis; carry [Shape.squeeze_refines, Tensor.reshape_refines]

theorem Tensor.index3_refines {α : Type} (t : Tensor α) (i0 : Nat) (i1 : Nat) (i2 : Nat) :
    Refines (@Tensor.index3 .checked α t i0 i1 i2) (@Tensor.index3 .release α t i0 i1 i2) := by
  unfold Tensor.index3; carry [Shape.size_refines]

theorem Tensor.index4_refines {α : Type} (t : Tensor α) (i0 : Nat) (i1 : Nat) (i2 : Nat) (i3 : Nat) :
    Refines (@Tensor.index4 .checked α t i0 i1 i2 i3) (@Tensor.index4 .release α t i0 i1 i2 i3) := by
  unfold Tensor.index4; carry [Shape.size_refines]

/-! Map -/

theorem Tensor.init_refines {σ : Type} {V : Type} (shape : Shape) {f f' : Exec σ V} (hf : RefinesM (f) (f')) :
    RefinesM (@Tensor.init .checked σ V shape f) (@Tensor.init .release σ V shape f') := by
  unfold Tensor.init; carry [hf, Shape.size_refines, Tensor.unsafeInitM_refines]

theorem Tensor.initRindexed_refines {σ : Type} {V : Type} (shape : Shape) {f f' : List Nat → Exec σ V} (hf : ∀ v0,
    RefinesM (f v0) (f' v0)) :
    RefinesM (@Tensor.initRindexed .checked σ V shape f) (@Tensor.initRindexed .release σ V shape f') := by
  unfold Tensor.initRindexed; carry [hf, Shape.size_refines, Tensor.unsafeInitM_refines]

theorem Tensor.mapShape_refines {σ : Type} {U : Type} {V : Type} (shape : Shape) (a : Tensor U) {f f' : U → Exec σ V}
    (hf : ∀ v0, RefinesM (f v0) (f' v0)) :
    RefinesM (@Tensor.mapShape .checked σ U V shape a f) (@Tensor.mapShape .release σ U V shape a f') := by
  unfold Tensor.mapShape; carry [hf, Tensor.unsafeInitM_refines]

theorem Tensor.map_refines {σ : Type} {U : Type} {V : Type} (a : Tensor U) {f f' : U → Exec σ V} (hf : ∀ v0, RefinesM
    (f v0) (f' v0)) :
    RefinesM (@Tensor.map .checked σ U V a f) (@Tensor.map .release σ U V a f') := by
  unfold Tensor.map; carry [hf, Tensor.mapShape_refines]

theorem Tensor.mapRowShape_refines {σ : Type} {U : Type} {V : Type} (shape : Shape) (a : Tensor U) (N : Nat) {f f' :
    List U → Exec σ (Vector V N)} (hf : ∀ v0, RefinesM (f v0) (f' v0)) :
    RefinesM (@Tensor.mapRowShape .checked σ U V shape a N f) (@Tensor.mapRowShape .release σ U V shape a N f') := by
  unfold Tensor.mapRowShape; carry [hf, Tensor.unsafeInitM_refines]

theorem Tensor.mapRow_refines {σ : Type} {U : Type} {V : Type} (a : Tensor U) (N : Nat) {f f' : List U → Exec σ
    (Vector V N)} (hf : ∀ v0, RefinesM (f v0) (f' v0)) :
    RefinesM (@Tensor.mapRow .checked σ U V a N f) (@Tensor.mapRow .release σ U V a N f') := by
  unfold Tensor.mapRow; carry [hf, Tensor.mapRowShape_refines, Shape.rremove_refines]

theorem Tensor.mapExpandShape_refines {σ : Type} {U : Type} {V : Type} (shape : Shape) (a : Tensor U) (N : Nat) {f f'
    : U → Exec σ (Vector V N)} (hf : ∀ v0, RefinesM (f v0) (f' v0)) :
    RefinesM (@Tensor.mapExpandShape .checked σ U V shape a N f)
      (@Tensor.mapExpandShape .release σ U V shape a N f') := by
  unfold Tensor.mapExpandShape; carry [hf, Tensor.unsafeInitM_refines]

theorem Tensor.mapExpand_refines {σ : Type} {U : Type} {V : Type} (a : Tensor U) (N : Nat) {f f' : U → Exec σ (Vector
    V N)} (hf : ∀ v0, RefinesM (f v0) (f' v0)) :
    RefinesM (@Tensor.mapExpand .checked σ U V a N f) (@Tensor.mapExpand .release σ U V a N f') := by
  unfold Tensor.mapExpand; carry [hf, Tensor.mapExpandShape_refines]

theorem Tensor.map2Shape_refines {σ : Type} {T : Type} {U : Type} {V : Type} (shape : Shape) (a : Tensor T) (b :
    Tensor U) {f f' : T → U → Exec σ V} (hf : ∀ v0 v1, RefinesM (f v0 v1) (f' v0 v1)) :
    RefinesM (@Tensor.map2Shape .checked σ T U V shape a b f) (@Tensor.map2Shape .release σ T U V shape a b f') := by
  unfold Tensor.map2Shape; carry [hf, Tensor.unsafeInitM_refines, Tensor.asWrapSlice_refines]

theorem Tensor.map2_refines {σ : Type} {T : Type} {U : Type} {V : Type} (a : Tensor T) (b : Tensor U) {f f' : T → U →
    Exec σ V} (hf : ∀ v0 v1, RefinesM (f v0 v1) (f' v0 v1)) :
    RefinesM (@Tensor.map2 .checked σ T U V a b f) (@Tensor.map2 .release σ T U V a b f') := by
  unfold Tensor.map2; carry [hf, Tensor.map2Shape_refines]

theorem Tensor.map3Shape_refines {σ : Type} {T : Type} {U : Type} {V : Type} {W : Type} (shape : Shape) (a : Tensor
    T) (b : Tensor U) (c : Tensor V) {f f' : T → U → V → Exec σ W} (hf : ∀ v0 v1 v2, RefinesM (f v0 v1 v2) (f' v0 v1
    v2)) :
    RefinesM (@Tensor.map3Shape .checked σ T U V W shape a b c f)
      (@Tensor.map3Shape .release σ T U V W shape a b c f') := by
  unfold Tensor.map3Shape; carry [hf, Tensor.unsafeInitM_refines, Tensor.asWrapSlice_refines]

theorem Tensor.map3_refines {σ : Type} {T : Type} {U : Type} {V : Type} {W : Type} (a : Tensor T) (b : Tensor U) (c :
    Tensor V) {f f' : T → U → V → Exec σ W} (hf : ∀ v0 v1 v2, RefinesM (f v0 v1 v2) (f' v0 v1 v2)) :
    RefinesM (@Tensor.map3 .checked σ T U V W a b c f) (@Tensor.map3 .release σ T U V W a b c f') := by
  unfold Tensor.map3; carry [hf, Tensor.map3Shape_refines]

theorem Tensor.fold_refines {σ : Type} {U : Type} {V : Type} {S : Type} (t : Tensor U) (init : S) {f f' : S → U →
    Exec σ S} (hf : ∀ v0 v1, RefinesM (f v0 v1) (f' v0 v1)) (intoResult : S → V) :
    RefinesM (@Tensor.fold .checked σ U V S t init f intoResult)
      (@Tensor.fold .release σ U V S t init f' intoResult) := by
  unfold Tensor.fold; carry [hf, Tensor.fromScalar_refines]

theorem Tensor.foldAxis_refines {σ : Type} {T : Type} {V : Type} {S : Type} (t : Tensor T) (axis : Axis) (init : S)
    {f f' : S → T → Exec σ S} (hf : ∀ v0 v1, RefinesM (f v0 v1) (f' v0 v1)) (intoResult : S → V) :
    RefinesM (@Tensor.foldAxis .checked σ T V S t axis init f intoResult)
      (@Tensor.foldAxis .release σ T V S t axis init f' intoResult) := by
  unfold Tensor.foldAxis; carry [hf, Axis.reduce_refines, Shape.size_refines, Tensor.unsafeInitM_refines]

theorem Tensor.foldRow_refines {σ : Type} {T : Type} {V : Type} {S : Type} (t : Tensor T) (axis : Axis) (N : Nat)
    (init : S) {f f' : S → List T → Exec σ S} (hf : ∀ v0 v1, RefinesM (f v0 v1) (f' v0 v1)) (intoResult : S → Vector
    V N) :
    RefinesM (@Tensor.foldRow .checked σ T V S t axis N init f intoResult)
      (@Tensor.foldRow .release σ T V S t axis N init f' intoResult) := by
  unfold Tensor.foldRow; carry [hf, Axis.reduceRow_refines, Shape.size_refines, Tensor.unsafeInitM_refines,
    Tensor.asWrapSliceN_refines]

theorem Tensor.reduce_refines {σ : Type} {T : Type} (t : Tensor T) {f f' : T → T → Exec σ T} (hf : ∀ v0 v1, RefinesM
    (f v0 v1) (f' v0 v1)) :
    RefinesM (@Tensor.reduce .checked σ T t f) (@Tensor.reduce .release σ T t f') := by
  unfold Tensor.reduce; carry [hf, Tensor.fromScalar_refines]

theorem Tensor.reduceAxis_refines {σ : Type} {T : Type} (t : Tensor T) (axis : Axis) {f f' : T → T → Exec σ T} (hf :
    ∀ v0 v1, RefinesM (f v0 v1) (f' v0 v1)) :
    RefinesM (@Tensor.reduceAxis .checked σ T t axis f) (@Tensor.reduceAxis .release σ T t axis f') := by
  unfold Tensor.reduceAxis; carry [hf, Axis.reduce_refines, Shape.size_refines, Tensor.unsafeInitM_refines]

theorem Tensor.normalize_refines {σ : Type} {T : Type} {V : Type} {S : Type} {S1 : Type} (t : Tensor T) (axis : Axis)
    (init : S) {accum accum' : S → T → Exec σ S} (haccum : ∀ v0 v1, RefinesM (accum v0 v1) (accum' v0 v1)) {complete
    complete' : S → Exec σ S1} (hcomplete : ∀ v0, RefinesM (complete v0) (complete' v0)) {norm norm' : S1 → T → Exec
    σ V} (hnorm : ∀ v0 v1, RefinesM (norm v0 v1) (norm' v0 v1)) :
    RefinesM (@Tensor.normalize .checked σ T V S S1 t axis init accum complete norm)
      (@Tensor.normalize .release σ T V S S1 t axis init accum' complete' norm') := by
  unfold Tensor.normalize; carry [haccum, hcomplete, hnorm, Axis.reduce_refines, Shape.size_refines,
    Tensor.unsafeInitM_refines]

/-! Array -/

theorem Tensor.transpose_refines {α : Type} (t : Tensor α) :
    Refines (@Tensor.transpose .checked α t) (@Tensor.transpose .release α t) := by
  unfold Tensor.transpose; carry [Shape.size_refines, Tensor.unsafeInit_refines]

theorem Tensor.splitOuter_refines {α : Type} (t : Tensor α) (ht : t.size < 2 ^ 64) (cuts : List Nat) (prev : Nat) :
    Refines (@Tensor.splitOuter .checked α t cuts prev) (@Tensor.splitOuter .release α t cuts prev) := by
  induction cuts generalizing prev with
  | nil => exact .refl _
  | cons i cuts ih => unfold Tensor.splitOuter; carry [ih, Tensor.subslice_refines t ht]

theorem Tensor.splitPiece_refines {α : Type} (t : Tensor α) (axis : Nat) (nOuter : Nat) (nInner : Nat) (axisLen :
    Nat) (x : List α) (prev : Nat) (cut : Nat) :
    Refines (@Tensor.splitPiece .checked α t axis nOuter nInner axisLen x prev cut)
      (@Tensor.splitPiece .release α t axis nOuter nInner axisLen x prev cut) := by
  unfold Tensor.splitPiece; carry [Shape.dim_refines, Tensor.unsafeInit_refines]

theorem Tensor.splitInner_refines {α : Type} (t : Tensor α) (axis nOuter nInner axisLen : Nat) (x : List α)
    (cuts : List Nat) (prev : Nat) :
    Refines (@Tensor.splitInner .checked α t axis nOuter nInner axisLen x cuts prev)
      (@Tensor.splitInner .release α t axis nOuter nInner axisLen x cuts prev) := by
  induction cuts generalizing prev with
  | nil => exact .refl _
  | cons i cuts ih => unfold Tensor.splitInner; carry [ih, Tensor.splitPiece_refines]

theorem Tensor.splitByAxis_refines {α : Type} (t : Tensor α) (axis : Nat) (cuts : List Nat) :
    Refines (@Tensor.splitByAxis .checked α t axis cuts) (@Tensor.splitByAxis .release α t axis cuts) := by
  unfold Tensor.splitByAxis; carry [Shape.sublen_refines, Shape.dim_refines, Tensor.splitInner_refines]

theorem Tensor.splitAxis_refines {α : Type} (t : Tensor α) (ht : t.size < 2 ^ 64) (axis : Axis) (sections :
    Tensor.Sections) :
    Refines (@Tensor.splitAxis .checked α t axis sections) (@Tensor.splitAxis .release α t axis sections) := by
  unfold Tensor.splitAxis; carry [Axis.axisFromRank_refines, Shape.dim_refines, Tensor.splitOuter_refines,
    Tensor.splitByAxis_refines]

theorem Tensor.split_refines {α : Type} (t : Tensor α) (ht : t.size < 2 ^ 64) (s : Tensor.Sections) :
    Refines (@Tensor.split .checked α t s) (@Tensor.split .release α t s) := by
  unfold Tensor.split; carry [Tensor.splitAxis_refines]

theorem Tensor.vsplit_refines {α : Type} (t : Tensor α) (ht : t.size < 2 ^ 64) (s : Tensor.Sections) :
    Refines (@Tensor.vsplit .checked α t s) (@Tensor.vsplit .release α t s) := by
  unfold Tensor.vsplit; carry [Tensor.splitAxis_refines]

theorem Tensor.hsplit_refines {α : Type} (t : Tensor α) (ht : t.size < 2 ^ 64) (s : Tensor.Sections) :
    Refines (@Tensor.hsplit .checked α t s) (@Tensor.hsplit .release α t s) := by
  unfold Tensor.hsplit; carry [Tensor.splitAxis_refines]

theorem Tensor.dsplit_refines {α : Type} (t : Tensor α) (ht : t.size < 2 ^ 64) (s : Tensor.Sections) :
    Refines (@Tensor.dsplit .checked α t s) (@Tensor.dsplit .release α t s) := by
  unfold Tensor.dsplit; carry [Tensor.splitAxis_refines]

theorem Tensor.validateConcat_refines {α : Type} (args : List (Tensor α)) (axis : Nat) :
    Refines (@Tensor.validateConcat .checked α args axis) (@Tensor.validateConcat .release α args axis) := by
  unfold Tensor.validateConcat; carry [Shape.dim_refines]

theorem Tensor.concatAxis_refines {α : Type} (axis : Nat) (args : List (Tensor α)) :
    Refines (@Tensor.concatAxis .checked α axis args) (@Tensor.concatAxis .release α axis args) := by
  unfold Tensor.concatAxis; carry [Tensor.validateConcat_refines, Shape.remove_refines, Shape.sublen_refines,
    Shape.insert_refines, Tensor.unsafeInit_refines, Shape.dim_refines]

theorem Tensor.concatenate_refines {α : Type} (args : List (Tensor α)) :
    Refines (@Tensor.concatenate .checked α args) (@Tensor.concatenate .release α args) := by
  unfold Tensor.concatenate; carry [Tensor.concatAxis_refines]

theorem Tensor.concatenateAxis_refines {α : Type} (axis : Axis) (args : List (Tensor α)) :
    Refines (@Tensor.concatenateAxis .checked α axis args) (@Tensor.concatenateAxis .release α axis args) := by
  unfold Tensor.concatenateAxis; carry [Tensor.concatAxis_refines, Axis.axisFromRank_refines]

theorem Tensor.stackVec_refines {α : Type} (axis : Axis) (xs : List (Tensor α)) :
    Refines (@Tensor.stackVec .checked α axis xs) (@Tensor.stackVec .release α axis xs) := by
  unfold Tensor.stackVec; carry [Axis.axisFromRank_refines, Shape.size_refines, Shape.sublen_refines,
    Shape.insert_refines, Tensor.unsafeInit_refines]

theorem Tensor.stack_refines {α : Type} (xs : List (Tensor α)) :
    Refines (@Tensor.stack .checked α xs) (@Tensor.stack .release α xs) := by
  unfold Tensor.stack; carry [Tensor.stackVec_refines]

theorem Tensor.hstack_refines {α : Type} (xs : List (Tensor α)) :
    Refines (@Tensor.hstack .checked α xs) (@Tensor.hstack .release α xs) := by
  unfold Tensor.hstack; carry [Tensor.concatenateAxis_refines]

theorem Tensor.dstackArg_refines {α : Type} (x : Tensor α) :
    Refines (@Tensor.dstackArg .checked α x) (@Tensor.dstackArg .release α x) := by
  unfold Tensor.dstackArg; carry [Tensor.reshape_refines]

theorem Tensor.dstackArgs_refines {α : Type} (shape : Shape) (xs : List (Tensor α)) :
    Refines (@Tensor.dstackArgs .checked α shape xs) (@Tensor.dstackArgs .release α shape xs) := by
  unfold Tensor.dstackArgs; carry [Tensor.dstackArg_refines]

theorem Tensor.dstack_refines {α : Type} (xs : List (Tensor α)) :
    Refines (@Tensor.dstack .checked α xs) (@Tensor.dstack .release α xs) := by
  unfold Tensor.dstack; carry [Tensor.dstackArgs_refines, Tensor.concatenateAxis_refines]

theorem Tensor.vstack_refines {α : Type} (xs : List (Tensor α)) :
    Refines (@Tensor.vstack .checked α xs) (@Tensor.vstack .release α xs) := by
  unfold Tensor.vstack; carry [Shape.insert_refines, Tensor.reshape_refines, Tensor.concatenateAxis_refines]

theorem Tensor.unstack_refines {α : Type} (t : Tensor α) (ht : t.size < 2 ^ 64) (axis : Axis) :
    Refines (@Tensor.unstack .checked α t axis) (@Tensor.unstack .release α t axis) := by
  unfold Tensor.unstack; carry [Axis.axisFromRank_refines, Tensor.splitOuter_refines, Tensor.splitAxis_refines]

theorem Tensor.tile_refines {α : Type} (t : Tensor α) (multiples : Tensor Nat) :
    Refines (@Tensor.tile .checked α t multiples) (@Tensor.tile .release α t multiples) := by
  unfold Tensor.tile; carry [Shape.asVec_refines, Shape.size_refines, Shape.len_refines, Tensor.unsafeInit_refines]

/-! Ops -/

theorem Tensor.runPure_refines {α : Type} {x y : Exec Unit α} (h : RefinesM x y) :
    Refines (Tensor.runPure x) (Tensor.runPure y) := .bind (h.apply ()) fun _ _ => .refl _

macro_rules | `(tactic| carry1) => `(tactic| with_reducible apply Tensor.runPure_refines)

theorem Tensor.opTT_refines {T U V : Type} {binop binop' : T → U → Res V}
    (hb : ∀ x y, Refines (binop x y) (binop' x y)) (self : Tensor T) (rhs : Tensor U) :
    Refines (@Tensor.opTT .checked T U V binop self rhs) (@Tensor.opTT .release T U V binop' self rhs) := by
  unfold Tensor.opTT; carry [hb, Tensor.map2_refines]

theorem Tensor.opTS_refines {T : Type} {U : Type} {V : Type} {binop binop' : T → U → Res V} (hbinop : ∀ v0 v1,
    Refines (binop v0 v1) (binop' v0 v1)) (self : Tensor T) (y : U) :
    Refines (@Tensor.opTS .checked T U V binop self y) (@Tensor.opTS .release T U V binop' self y) := by
  unfold Tensor.opTS; carry [hbinop, Tensor.map_refines]

theorem Tensor.opST_refines {T : Type} {U : Type} {V : Type} {binop binop' : T → U → Res V} (hbinop : ∀ v0 v1,
    Refines (binop v0 v1) (binop' v0 v1)) (self : T) (tensor : Tensor U) :
    Refines (@Tensor.opST .checked T U V binop self tensor) (@Tensor.opST .release T U V binop' self tensor) := by
  unfold Tensor.opST; carry [hbinop, Tensor.map_refines]

theorem Tensor.binary_refines {T U V : Type} {ar ar' : Arith T U V} (op : OpName)
    (har : ∀ x y, Refines (op.binop ar x y) (op.binop ar' x y)) (a : Tensor T) (b : Tensor U) :
    Refines (@Tensor.binary .checked T U V ar op a b) (@Tensor.binary .release T U V ar' op a b) := by
  unfold Tensor.binary; carry [har, Tensor.opTT_refines]

theorem Tensor.binaryScalar_refines {T U V : Type} {ar ar' : Arith T U V} (op : OpName)
    (har : ∀ x y, Refines (op.binop ar x y) (op.binop ar' x y)) (a : Tensor T) (b : U) :
    Refines (@Tensor.binaryScalar .checked T U V ar op a b) (@Tensor.binaryScalar .release T U V ar' op a b) := by
  unfold Tensor.binaryScalar; carry [har, Tensor.opTS_refines]

theorem Tensor.scalarBinary_refines {T U V : Type} {ar ar' : Arith T U V} (op : OpName)
    (har : ∀ x y, Refines (op.binop ar x y) (op.binop ar' x y)) (a : T) (b : Tensor U) :
    Refines (@Tensor.scalarBinary .checked T U V ar op a b) (@Tensor.scalarBinary .release T U V ar' op a b) := by
  unfold Tensor.scalarBinary; carry [har, Tensor.opST_refines]

theorem Tensor.unary_refines {T : Type} {V : Type} {f f' : T → Res V} (hf : ∀ v0, Refines (f v0) (f' v0)) (a : Tensor
    T) :
    Refines (@Tensor.unary .checked T V f a) (@Tensor.unary .release T V f' a) := by
  unfold Tensor.unary; carry [hf, Tensor.map_refines]

theorem Tensor.square_refines {T V : Type} {ar ar' : Arith T T V} (har : ∀ x, Refines (ar.mul x x) (ar'.mul x x))
    (a : Tensor T) : Refines (@Tensor.square .checked T V ar a) (@Tensor.square .release T V ar' a) := by
  unfold Tensor.square; carry [har, Tensor.unary_refines]

theorem Tensor.min_refines {T : Type} (le : T → T → Bool) (a : Tensor T) (rhs : Tensor T) :
    Refines (@Tensor.min .checked T le a rhs) (@Tensor.min .release T le a rhs) := by
  unfold Tensor.min; carry [Tensor.opTT_refines]

theorem Tensor.max_refines {T : Type} (le : T → T → Bool) (a : Tensor T) (rhs : Tensor T) :
    Refines (@Tensor.max .checked T le a rhs) (@Tensor.max .release T le a rhs) := by
  unfold Tensor.max; carry [Tensor.opTT_refines]

theorem Tensor.absSub_refines {T : Type} {f f' : T → T → Res T} (hf : ∀ v0 v1, Refines (f v0 v1) (f' v0 v1)) (a :
    Tensor T) (rhs : Tensor T) :
    Refines (@Tensor.absSub .checked T f a rhs) (@Tensor.absSub .release T f' a rhs) := by
  unfold Tensor.absSub; carry [hf, Tensor.opTT_refines]

theorem Tensor.fill_refines {V : Type} (shape : Shape) (value : V) :
    Refines (@Tensor.fill .checked V shape value) (@Tensor.fill .release V shape value) := by
  unfold Tensor.fill; carry [Tensor.init_refines]

theorem Tensor.zeros_refines {V : Type} [x1 : Zero V] (shape : Shape) :
    Refines (@Tensor.zeros .checked V x1 shape) (@Tensor.zeros .release V x1 shape) := by
  unfold Tensor.zeros; carry [Tensor.init_refines]

theorem Tensor.ones_refines {V : Type} [x1 : One V] (shape : Shape) :
    Refines (@Tensor.ones .checked V x1 shape) (@Tensor.ones .release V x1 shape) := by
  unfold Tensor.ones; carry [Tensor.init_refines]

theorem Tensor.initDefault_refines {V : Type} (default : V) (shape : Shape) :
    Refines (@Tensor.initDefault .checked V default shape) (@Tensor.initDefault .release V default shape) := by
  unfold Tensor.initDefault; carry [Tensor.init_refines]

/-! From -/

theorem Tensor.ofScalar_refines {α : Type} (value : α) :
    Refines (@Tensor.ofScalar .checked α value) (@Tensor.ofScalar .release α value) := by
  unfold Tensor.ofScalar; carry [Tensor.fromVec_refines]

theorem Tensor.ofOption_refines {α : Type} (value : Option α) :
    Refines (@Tensor.ofOption .checked α value) (@Tensor.ofOption .release α value) := by
  unfold Tensor.ofOption; carry [Tensor.fromVec_refines]

theorem Tensor.ofVec1_refines {α : Type} (value : List α) :
    Refines (@Tensor.ofVec1 .checked α value) (@Tensor.ofVec1 .release α value) := by
  unfold Tensor.ofVec1; carry [Tensor.fromVec_refines]

theorem Tensor.fromBoxedRows_refines {α : Type} {N : Nat} (slice : List (Vector α N)) (shape : Shape) :
    Refines (@Tensor.fromBoxedRows .checked α N slice shape) (@Tensor.fromBoxedRows .release α N slice shape) := by
  unfold Tensor.fromBoxedRows; carry [Shape.size_refines]

theorem Tensor.ofVecRows_refines {α : Type} {N : Nat} (value : List (Vector α N)) :
    Refines (@Tensor.ofVecRows .checked α N value) (@Tensor.ofVecRows .release α N value) := by
  unfold Tensor.ofVecRows; carry [Tensor.fromBoxedRows_refines]

theorem Tensor.ofRows_refines {α : Type} {N : Nat} (value : List (Vector α N)) :
    Refines (@Tensor.ofRows .checked α N value) (@Tensor.ofRows .release α N value) := by
  unfold Tensor.ofRows; carry [Tensor.fromVec_refines]

theorem Tensor.ofVec2_refines {α : Type} (value : List (List α)) :
    Refines (@Tensor.ofVec2 .checked α value) (@Tensor.ofVec2 .release α value) := by
  unfold Tensor.ofVec2; carry [Tensor.fromVec_refines]

theorem Tensor.ofVec2Rows_refines {α : Type} {N : Nat} (value : List (List (Vector α N))) :
    Refines (@Tensor.ofVec2Rows .checked α N value) (@Tensor.ofVec2Rows .release α N value) := by
  unfold Tensor.ofVec2Rows; carry [Tensor.fromVec_refines]

theorem Tensor.ofVec3_refines {α : Type} (value : List (List (List α))) :
    Refines (@Tensor.ofVec3 .checked α value) (@Tensor.ofVec3 .release α value) := by
  unfold Tensor.ofVec3; carry [Tensor.fromVec_refines]

theorem Tensor.ofVec4_refines {α : Type} (value : List (List (List (List α)))) :
    Refines (@Tensor.ofVec4 .checked α value) (@Tensor.ofVec4 .release α value) := by
  unfold Tensor.ofVec4; carry [Tensor.fromVec_refines]

theorem Tensor.ofVec5_refines {α : Type} (value : List (List (List (List (List α))))) :
    Refines (@Tensor.ofVec5 .checked α value) (@Tensor.ofVec5 .release α value) := by
  unfold Tensor.ofVec5; carry [Tensor.fromVec_refines]

theorem Tensor.ofArr2_refines {α : Type} {M : Nat} {N : Nat} (value : Vector (Vector α N) M) :
    Refines (@Tensor.ofArr2 .checked α M N value) (@Tensor.ofArr2 .release α M N value) := by
  unfold Tensor.ofArr2; carry [Tensor.fromVec_refines]

theorem Tensor.ofArr3_refines {α : Type} {L : Nat} {M : Nat} {N : Nat} (value : Vector (Vector (Vector α N) M) L) :
    Refines (@Tensor.ofArr3 .checked α L M N value) (@Tensor.ofArr3 .release α L M N value) := by
  unfold Tensor.ofArr3; carry [Tensor.fromVec_refines]

theorem Tensor.ofArr4_refines {α : Type} {K : Nat} {L : Nat} {M : Nat} {N : Nat} (value : Vector (Vector (Vector
    (Vector α N) M) L) K) :
    Refines (@Tensor.ofArr4 .checked α K L M N value) (@Tensor.ofArr4 .release α K L M N value) := by
  unfold Tensor.ofArr4; carry [Tensor.fromVec_refines]

theorem Tensor.ofTensors_refines {α : Type} (values : List (Tensor α)) :
    Refines (@Tensor.ofTensors .checked α values) (@Tensor.ofTensors .release α values) := by
  unfold Tensor.ofTensors; carry [Tensor.fromVec_refines]

/-! Init -/

theorem Init.arange_refines {F : Type} (fo : FOps F) (fuel : Nat) (start : F) (stop : F) (step : F) :
    RefinesO (@Init.arange .checked F fo fuel start stop step) (@Init.arange .release F fo fuel start stop step) := by
  unfold Init.arange; carry [Tensor.ofVec1_refines]

theorem Init.linspace_refines {F : Type} (fo : FOps F) (start : Tensor F) (stop : Tensor F) (len : Nat) :
    Refines (@Init.linspace .checked F fo start stop len) (@Init.linspace .release F fo start stop len) := by
  unfold Init.linspace; carry [Shape.insert_refines, Tensor.unsafeInit_refines]

theorem Init.logspaceOpt_refines {F : Type} (fo : FOps F) (start : Tensor F) (stop : Tensor F) (len : Nat) (opt :
    Option F) :
    Refines (@Init.logspaceOpt .checked F fo start stop len opt)
      (@Init.logspaceOpt .release F fo start stop len opt) := by
  unfold Init.logspaceOpt; carry [Shape.insert_refines, Tensor.unsafeInit_refines]

theorem Init.logspace_refines {F : Type} (fo : FOps F) (start : Tensor F) (stop : Tensor F) (len : Nat) :
    Refines (@Init.logspace .checked F fo start stop len) (@Init.logspace .release F fo start stop len) := by
  unfold Init.logspace; carry [Init.logspaceOpt_refines]

theorem Init.geomspace_refines {F : Type} (fo : FOps F) (start : Tensor F) (stop : Tensor F) (len : Nat) :
    Refines (@Init.geomspace .checked F fo start stop len) (@Init.geomspace .release F fo start stop len) := by
  unfold Init.geomspace; carry [Tensor.unsafeInit_refines, Shape.insert_refines]

theorem Init.oneHot_refines {F : Type} (fo : FOps F) (indices : List Nat) (depth : Nat) :
    Refines (@Init.oneHot .checked F fo indices depth) (@Init.oneHot .release F fo indices depth) := by
  unfold Init.oneHot; carry [Tensor.ofVec1_refines]

theorem Init.eye_refines {α : Type} [x1 : Zero α] [x2 : One α] (n : Nat) :
    Refines (@Init.eye .checked α x1 x2 n) (@Init.eye .release α x1 x2 n) := by
  unfold Init.eye; carry [Tensor.ofScalar_refines, Tensor.initRindexed_refines]

theorem Init.identity_refines {α : Type} [x1 : Zero α] [x2 : One α] (n : Nat) :
    Refines (@Init.identity .checked α x1 x2 n) (@Init.identity .release α x1 x2 n) := by
  unfold Init.identity; carry [Init.eye_refines]

theorem Init.diagflat_refines {α : Type} [x1 : Zero α] (diag : Tensor α) :
    Refines (@Init.diagflat .checked α x1 diag) (@Init.diagflat .release α x1 diag) := by
  unfold Init.diagflat; carry [Tensor.initRindexed_refines]

theorem Init.tri_refines {α : Type} [x1 : Zero α] [x2 : One α] (n : Nat) :
    Refines (@Init.tri .checked α x1 x2 n) (@Init.tri .release α x1 x2 n) := by
  unfold Init.tri; carry [Tensor.initRindexed_refines]

theorem Init.triFill_refines {α : Type} [x1 : Zero α] (keep : Nat → Nat → Bool) (tensor : Tensor α) :
    Refines (@Init.triFill .checked α x1 keep tensor) (@Init.triFill .release α x1 keep tensor) := by
  unfold Init.triFill; carry [Shape.size_refines, Tensor.unsafeInit_refines]

theorem Init.tril_refines {α : Type} [x1 : Zero α] (tensor : Tensor α) :
    Refines (@Init.tril .checked α x1 tensor) (@Init.tril .release α x1 tensor) := by
  unfold Init.tril; carry [Init.triFill_refines]

theorem Init.triu_refines {α : Type} [x1 : Zero α] (tensor : Tensor α) :
    Refines (@Init.triu .checked α x1 tensor) (@Init.triu .release α x1 tensor) := by
  unfold Init.triu; carry [Init.triFill_refines]

theorem Init.buildMeshgridAxis_refines {α : Type} (x : Tensor α) (shape : Shape) (kS : Nat) :
    Refines (@Init.buildMeshgridAxis .checked α x shape kS) (@Init.buildMeshgridAxis .release α x shape kS) := by
  unfold Init.buildMeshgridAxis; carry [Shape.size_refines, Tensor.unsafeInit_refines]

theorem Init.buildMeshgrid_refines {α : Type} (axes : List (Tensor α)) (order : Init.Order) :
    Refines (@Init.buildMeshgrid .checked α axes order) (@Init.buildMeshgrid .release α axes order) := by
  unfold Init.buildMeshgrid; carry [Init.buildMeshgridAxis_refines]

theorem Init.meshgrid_refines {α : Type} (axes : List (Tensor α)) :
    Refines (@Init.meshgrid .checked α axes) (@Init.meshgrid .release α axes) := by
  unfold Init.meshgrid; carry [Init.buildMeshgrid_refines]

theorem Init.meshgridIJ_refines {α : Type} (axes : List (Tensor α)) :
    Refines (@Init.meshgridIJ .checked α axes) (@Init.meshgridIJ .release α axes) := by
  unfold Init.meshgridIJ; carry [Init.buildMeshgrid_refines]

theorem Init.mgrid_refines {F : Type} (fo : FOps F) (M : Nat) (N : Nat) :
    Refines (@Init.mgrid .checked F fo M N) (@Init.mgrid .release F fo M N) := by
  unfold Init.mgrid; carry [Tensor.ofScalar_refines, Init.linspace_refines, Init.meshgrid_refines]

/-! Stats -/

theorem Stats.reduceHypot_refines {F : Type} (fo : FOps F) (t : Tensor F) :
    Refines (@Stats.reduceHypot .checked F fo t) (@Stats.reduceHypot .release F fo t) := by
  unfold Stats.reduceHypot; carry [Tensor.fold_refines]

theorem Stats.reduceMin_refines {F : Type} (fo : FOps F) (t : Tensor F) :
    Refines (@Stats.reduceMin .checked F fo t) (@Stats.reduceMin .release F fo t) := by
  unfold Stats.reduceMin; carry [Tensor.reduce_refines]

theorem Stats.reduceMinAxis_refines {F : Type} (fo : FOps F) (t : Tensor F) (axis : Axis) :
    Refines (@Stats.reduceMinAxis .checked F fo t axis) (@Stats.reduceMinAxis .release F fo t axis) := by
  unfold Stats.reduceMinAxis; carry [Tensor.reduceAxis_refines]

theorem Stats.reduceMax_refines {F : Type} (fo : FOps F) (t : Tensor F) :
    Refines (@Stats.reduceMax .checked F fo t) (@Stats.reduceMax .release F fo t) := by
  unfold Stats.reduceMax; carry [Tensor.reduce_refines]

theorem Stats.reduceMaxAxis_refines {F : Type} (fo : FOps F) (t : Tensor F) (axis : Axis) :
    Refines (@Stats.reduceMaxAxis .checked F fo t axis) (@Stats.reduceMaxAxis .release F fo t axis) := by
  unfold Stats.reduceMaxAxis; carry [Tensor.reduceAxis_refines]

theorem Stats.reduceMean_refines {F : Type} (fo : FOps F) (t : Tensor F) :
    Refines (@Stats.reduceMean .checked F fo t) (@Stats.reduceMean .release F fo t) := by
  unfold Stats.reduceMean; carry [Tensor.fold_refines]

theorem Stats.reduceMeanAxis_refines {F : Type} (fo : FOps F) (t : Tensor F) (axis : Axis) :
    Refines (@Stats.reduceMeanAxis .checked F fo t axis) (@Stats.reduceMeanAxis .release F fo t axis) := by
  unfold Stats.reduceMeanAxis; carry [Tensor.foldAxis_refines]

theorem Stats.reduceStd_refines {F : Type} (fo : FOps F) (t : Tensor F) :
    Refines (@Stats.reduceStd .checked F fo t) (@Stats.reduceStd .release F fo t) := by
  unfold Stats.reduceStd; carry [Tensor.fold_refines]

theorem Stats.reduceStdAxis_refines {F : Type} (fo : FOps F) (t : Tensor F) (axis : Axis) :
    Refines (@Stats.reduceStdAxis .checked F fo t axis) (@Stats.reduceStdAxis .release F fo t axis) := by
  unfold Stats.reduceStdAxis; carry [Tensor.foldAxis_refines]

theorem Stats.reduceVariance_refines {F : Type} (fo : FOps F) (t : Tensor F) :
    Refines (@Stats.reduceVariance .checked F fo t) (@Stats.reduceVariance .release F fo t) := by
  unfold Stats.reduceVariance; carry [Tensor.fold_refines]

theorem Stats.reduceVarianceAxis_refines {F : Type} (fo : FOps F) (t : Tensor F) (axis : Axis) :
    Refines (@Stats.reduceVarianceAxis .checked F fo t axis) (@Stats.reduceVarianceAxis .release F fo t axis) := by
  unfold Stats.reduceVarianceAxis; carry [Tensor.foldAxis_refines]

theorem Stats.reduceOp_refines {T : Type} {op op' : T → T → Res T} (hop : ∀ v0 v1, Refines (op v0 v1) (op' v0 v1)) (t
    : Tensor T) :
    Refines (@Stats.reduceOp .checked T op t) (@Stats.reduceOp .release T op' t) := by
  unfold Stats.reduceOp; carry [hop, Tensor.reduce_refines]

theorem Stats.reduceOpAxis_refines {T : Type} {op op' : T → T → Res T} (hop : ∀ v0 v1, Refines (op v0 v1) (op' v0
    v1)) (t : Tensor T) (axis : Axis) :
    Refines (@Stats.reduceOpAxis .checked T op t axis) (@Stats.reduceOpAxis .release T op' t axis) := by
  unfold Stats.reduceOpAxis; carry [hop, Tensor.reduceAxis_refines]

theorem Stats.normalizeUnit_refines {F : Type} (fs : FStat F) (t : Tensor F) :
    Refines (@Stats.normalizeUnit .checked F fs t) (@Stats.normalizeUnit .release F fs t) := by
  unfold Stats.normalizeUnit; carry [Tensor.normalize_refines]

theorem Stats.histStep_refines {F : Type} (fs : FStat F) (min : F) (delta : F) (nBins : Nat) (item : F) (values :
    List F) :
    Refines (@Stats.histStep .checked F fs min delta nBins item values)
      (@Stats.histStep .release F fs min delta nBins item values) := by
  unfold Stats.histStep; carry []

theorem Stats.histogram_refines {F : Type} (fs : FStat F) (data : Tensor F) (nBins : Nat) :
    Refines (@Stats.histogram .checked F fs data nBins) (@Stats.histogram .release F fs data nBins) := by
  unfold Stats.histogram; carry [Stats.reduceMin_refines, Stats.reduceMax_refines, Tensor.fromScalar_refines,
    Init.linspace_refines, Stats.histStep_refines, Tensor.ofVec1_refines]

theorem Stats.hist2dStep_refines {F : Type} (fs : FStat F) (minX : F) (minY : F) (deltaX : F) (deltaY : F) (nBins :
    Nat) (item : List F) (values : List F) :
    Refines (@Stats.hist2dStep .checked F fs minX minY deltaX deltaY nBins item values)
      (@Stats.hist2dStep .release F fs minX minY deltaX deltaY nBins item values) := by
  unfold Stats.hist2dStep; carry []

theorem Stats.histogram2d_refines {F : Type} (fs : FStat F) (data : Tensor F) (nBins : Nat) :
    Refines (@Stats.histogram2d .checked F fs data nBins) (@Stats.histogram2d .release F fs data nBins) := by
  unfold Stats.histogram2d Stats.hist2dRest; carry [Stats.reduceMin_refines, Stats.reduceMax_refines, Tensor.fromScalar_refines,
    Init.linspace_refines, Stats.hist2dStep_refines, Tensor.ofVec1_refines, Tensor.reshape_refines]

/-! Linalg -/

theorem Linalg.matmulT_refines {F : Type} (bl : Linalg.Blas F) (a : Tensor F) (b : Tensor F) (t : Linalg.Transpose) :
    Refines (@Linalg.matmulT .checked F bl a b t) (@Linalg.matmulT .release F bl a b t) := by
  unfold Linalg.matmulT; carry [Shape.sublen_refines, Tensor.unsafeInit_refines]

theorem Linalg.matmul_refines {F : Type} (bl : Linalg.Blas F) (a : Tensor F) (b : Tensor F) :
    Refines (@Linalg.matmul .checked F bl a b) (@Linalg.matmul .release F bl a b) := by
  unfold Linalg.matmul; carry [Linalg.matmulT_refines]

theorem Linalg.matvecT_refines {F : Type} (bl : Linalg.Blas F) (a : Tensor F) (x : Tensor F) (t : Linalg.Transpose) :
    Refines (@Linalg.matvecT .checked F bl a x t) (@Linalg.matvecT .release F bl a x t) := by
  unfold Linalg.matvecT; carry [Shape.broadcastMin_refines, Tensor.unsafeInit_refines]

theorem Linalg.matvec_refines {F : Type} (bl : Linalg.Blas F) (a : Tensor F) (x : Tensor F) :
    Refines (@Linalg.matvec .checked F bl a x) (@Linalg.matvec .release F bl a x) := by
  unfold Linalg.matvec; carry [Linalg.matvecT_refines]

/-! Random -/

theorem Random.randomNormal_refines {F : Type} (fr : FRand F) (shape : Shape) (opt : Random.Normal F) (tid : Nat) (p
    : Random.Process) :
    Refines (@Random.randomNormal .checked F fr shape opt tid p)
      (@Random.randomNormal .release F fr shape opt tid p) := by
  unfold Random.randomNormal; carry [Tensor.init_refines]

theorem Random.randomUniform_refines {F : Type} (fr : FRand F) (shape : Shape) (opt : Random.Uniform F) (tid : Nat)
    (p : Random.Process) :
    Refines (@Random.randomUniform .checked F fr shape opt tid p)
      (@Random.randomUniform .release F fr shape opt tid p) := by
  unfold Random.randomUniform; carry [Tensor.init_refines]

/-! Io -/

theorem Io.parseWav_refines {F : Type} (fo : FOps F) (ofInt : Int → F) (slice : List (BitVec 8)) :
    RefinesM (@Io.parseWav .checked F fo ofInt slice) (@Io.parseWav .release F fo ofInt slice) := by
  unfold Io.parseWav; carry []

theorem Io.decodeWav_refines {F : Type} (fo : FOps F) (ofInt : Int → F) (contents : Tensor (BitVec 8)) :
    Refines (@Io.decodeWav .checked F fo ofInt contents) (@Io.decodeWav .release F fo ofInt contents) := by
  unfold Io.decodeWav; carry [Io.parseWav_refines, Tensor.fromVec_refines, Tensor.ofScalar_refines]

theorem Io.readFile_refines (fs : String → Except Unit Io.OpenFile) (filename : Tensor String) :
    Refines (@Io.readFile .checked fs filename) (@Io.readFile .release fs filename) := by
  unfold Io.readFile; carry [Tensor.ofVec1_refines]

/-! Signal -/

theorem Signal.hannWindow_refines {F : Type} (fo : FFft F) (len : Nat) :
    Refines (@Signal.hannWindow .checked F fo len) (@Signal.hannWindow .release F fo len) := by
  unfold Signal.hannWindow; carry [Tensor.initRindexed_refines]

theorem Signal.rfftNorm_refines {F : Type} (fo : FFft F) (tensor : Tensor F) (fftLength : Option Nat) :
    Refines (@Signal.rfftNorm .checked F fo tensor fftLength) (@Signal.rfftNorm .release F fo tensor fftLength) := by
  unfold Signal.rfftNorm; carry [Shape.len_refines, Signal.hannWindow_refines, Tensor.unsafeInit_refines,
    Tensor.asWrapSlice_refines]

theorem Signal.frame_refines {α : Type} (x : Tensor α) (ht : x.size < 2 ^ 64) (len : Nat) (step : Nat) :
    Refines (@Signal.frame .checked α x len step) (@Signal.frame .release α x len step) := by
  unfold Signal.frame; carry [Shape.dim_refines, Tensor.subslice_refines]

theorem Signal.sliceUsize_refines {α : Type} (i : Nat) (tensor : Tensor α) :
    Refines (@Signal.sliceUsize .checked α i tensor) (@Signal.sliceUsize .release α i tensor) := by
  unfold Signal.sliceUsize; carry [Shape.dim_refines]

theorem Signal.slicePair_refines {α : Type} (i : Nat) (j : Nat) (tensor : Tensor α) :
    Refines (@Signal.slicePair .checked α i j tensor) (@Signal.slicePair .release α i j tensor) := by
  unfold Signal.slicePair; carry [Shape.dim_refines]

/-! Fmt -/

theorem Fmt.fmtRec_refines {α : Type} (fmt : α → String) (tensor : Tensor α) (n offset : Nat) :
    Refines (@Fmt.fmtRec .checked α fmt tensor n offset) (@Fmt.fmtRec .release α fmt tensor n offset) := by
  induction n using Nat.strongRecOn generalizing offset with
  | ind n ih =>
    match n, ih with
    | 0, _ => unfold Fmt.fmtRec; carry []
    | 1, ih => unfold Fmt.fmtRec; carry [ih 0 (by omega)]
    | 2, ih => unfold Fmt.fmtRec; carry [ih 1 (by omega)]
    | n + 3, ih => unfold Fmt.fmtRec; carry [ih (n + 2) (by omega), Shape.rsublen_refines]

theorem Fmt.debugShape_refines (s : Shape) :
    Refines (@Fmt.debugShape .checked s) (@Fmt.debugShape .release s) := by
  unfold Fmt.debugShape; carry [Shape.asVec_refines]

theorem Fmt.debug_refines {α : Type} (fmt : α → String) (name : String) (tensor : Tensor α) :
    Refines (@Fmt.debug .checked α fmt name tensor) (@Fmt.debug .release α fmt name tensor) := by
  unfold Fmt.debug; carry [Fmt.fmtRec_refines, Shape.asVec_refines]

theorem Fmt.ensureShown_refines {α : Type} (tensor : Tensor α) (c : Prop) [x3 : Decidable c] :
    Refines (@Fmt.ensureShown .checked α tensor c x3) (@Fmt.ensureShown .release α tensor c x3) := by
  unfold Fmt.ensureShown; carry [Fmt.debug_refines]

theorem Tensor.index2_refines {α : Type} (t : Tensor α) (i0 : Nat) (i1 : Nat) :
    Refines (@Tensor.index2 .checked α t i0 i1) (@Tensor.index2 .release α t i0 i1) := by
  unfold Tensor.index2; carry [Fmt.ensureShown_refines]

/-! Methods -/

theorem Tensor.intoListWith_refines {α β : Type} {conv conv' : β → Res (Tensor α)}
    (hconv : ∀ v, Refines (conv v) (conv' v)) (l : List β) (acc : List (Tensor α)) :
    Refines (Tensor.intoListWith conv l acc) (Tensor.intoListWith conv' l acc) := by
  unfold Tensor.intoListWith; carry [hconv]

macro_rules | `(tactic| carry1) => `(tactic| with_reducible apply Tensor.intoListWith_refines)

theorem Tensor.concatenateM_refines {α : Type} {β : Type} {conv conv' : β → Res (Tensor α)} (hconv : ∀ v0, Refines
    (conv v0) (conv' v0)) (self : Tensor α) (others : List β) :
    Refines (@Tensor.concatenateM .checked α β conv self others)
      (@Tensor.concatenateM .release α β conv' self others) := by
  unfold Tensor.concatenateM; carry [hconv, Tensor.concatenate_refines]

theorem Tensor.concatenateAxisM_refines {α : Type} {β : Type} {conv conv' : β → Res (Tensor α)} (hconv : ∀ v0,
    Refines (conv v0) (conv' v0)) (self : Tensor α) (axis : Axis) (others : List β) :
    Refines (@Tensor.concatenateAxisM .checked α β conv self axis others)
      (@Tensor.concatenateAxisM .release α β conv' self axis others) := by
  unfold Tensor.concatenateAxisM; carry [hconv, Tensor.concatenateAxis_refines]

theorem Tensor.stackM_refines {α : Type} {β : Type} {conv conv' : β → Res (Tensor α)} (hconv : ∀ v0, Refines (conv
    v0) (conv' v0)) (self : Tensor α) (others : List β) (axis : Axis) :
    Refines (@Tensor.stackM .checked α β conv self others axis)
      (@Tensor.stackM .release α β conv' self others axis) := by
  unfold Tensor.stackM; carry [hconv, Tensor.stackVec_refines]

theorem Tensor.dstackM_refines {α : Type} {β : Type} {conv conv' : β → Res (Tensor α)} (hconv : ∀ v0, Refines (conv
    v0) (conv' v0)) (self : Tensor α) (others : List β) :
    Refines (@Tensor.dstackM .checked α β conv self others) (@Tensor.dstackM .release α β conv' self others) := by
  unfold Tensor.dstackM; carry [hconv, Tensor.dstack_refines]

theorem Tensor.vstackM_refines {α : Type} {β : Type} {conv conv' : β → Res (Tensor α)} (hconv : ∀ v0, Refines (conv
    v0) (conv' v0)) (self : Tensor α) (others : List β) :
    Refines (@Tensor.vstackM .checked α β conv self others) (@Tensor.vstackM .release α β conv' self others) := by
  unfold Tensor.vstackM; carry [hconv, Tensor.vstack_refines]

theorem Tensor.stackAxisF_refines {α : Type} {β : Type} {conv conv' : β → Res (Tensor α)} (hconv : ∀ v0, Refines
    (conv v0) (conv' v0)) (axis : Axis) (x : List β) :
    Refines (@Tensor.stackAxisF .checked α β conv axis x) (@Tensor.stackAxisF .release α β conv' axis x) := by
  unfold Tensor.stackAxisF; carry [hconv, Tensor.stackVec_refines]

theorem Tensor.dstackF_refines {α : Type} {β : Type} {conv conv' : β → Res (Tensor α)} (hconv : ∀ v0, Refines (conv
    v0) (conv' v0)) (x : List β) :
    Refines (@Tensor.dstackF .checked α β conv x) (@Tensor.dstackF .release α β conv' x) := by
  unfold Tensor.dstackF; carry [hconv, Tensor.dstack_refines]

theorem Tensor.vstackF_refines {α : Type} {β : Type} {conv conv' : β → Res (Tensor α)} (hconv : ∀ v0, Refines (conv
    v0) (conv' v0)) (x : List β) :
    Refines (@Tensor.vstackF .checked α β conv x) (@Tensor.vstackF .release α β conv' x) := by
  unfold Tensor.vstackF; carry [hconv, Tensor.vstack_refines]

theorem Tensor.meshgridM_refines {α : Type} (self : Tensor α) (other : Tensor α) :
    Refines (@Tensor.meshgridM .checked α self other) (@Tensor.meshgridM .release α self other) := by
  unfold Tensor.meshgridM; carry [Init.meshgrid_refines]

theorem Tensor.meshgridIJM_refines {α : Type} (self : Tensor α) (other : Tensor α) :
    Refines (@Tensor.meshgridIJM .checked α self other) (@Tensor.meshgridIJM .release α self other) := by
  unfold Tensor.meshgridIJM; carry [Init.meshgridIJ_refines]

theorem Tensor.linspaceM_refines {F : Type} (fo : FOps F) (self : Tensor F) (stop : Tensor F) (len : Nat) :
    Refines (@Tensor.linspaceM .checked F fo self stop len) (@Tensor.linspaceM .release F fo self stop len) := by
  unfold Tensor.linspaceM; carry [Init.linspace_refines]

theorem Tensor.logspaceM_refines {F : Type} (fo : FOps F) (self : Tensor F) (stop : Tensor F) (len : Nat) :
    Refines (@Tensor.logspaceM .checked F fo self stop len) (@Tensor.logspaceM .release F fo self stop len) := by
  unfold Tensor.logspaceM; carry [Init.logspace_refines]

theorem Tensor.geomspaceM_refines {F : Type} (fo : FOps F) (self : Tensor F) (stop : Tensor F) (len : Nat) :
    Refines (@Tensor.geomspaceM .checked F fo self stop len) (@Tensor.geomspaceM .release F fo self stop len) := by
  unfold Tensor.geomspaceM; carry [Init.geomspace_refines]

theorem Init.logspaceWith_refines {F : Type} (fo : FOps F) (start : Tensor F) (stop : Tensor F) (len : Nat) (opt :
    Init.Logspace F) :
    Refines (@Init.logspaceWith .checked F fo start stop len opt)
      (@Init.logspaceWith .release F fo start stop len opt) := by
  unfold Init.logspaceWith; carry [Init.logspaceOpt_refines]

theorem Stats.histogramWith_refines {F : Type} (fs : FStat F) (data : Tensor F) (args : Stats.HistArgs) :
    Refines (@Stats.histogramWith .checked F fs data args) (@Stats.histogramWith .release F fs data args) := by
  unfold Stats.histogramWith; carry [Stats.histogram_refines]

theorem Stats.histogramUsize_refines {F : Type} (fs : FStat F) (data : Tensor F) (n : Nat) :
    Refines (@Stats.histogramUsize .checked F fs data n) (@Stats.histogramUsize .release F fs data n) := by
  unfold Stats.histogramUsize; carry [Stats.histogramWith_refines]

/-! Math -/

theorem Tensor.mapMethod_refines {T : Type} {V : Type} (f : T → V) (t : Tensor T) :
    Refines (@Tensor.mapMethod .checked T V f t) (@Tensor.mapMethod .release T V f t) := by
  unfold Tensor.mapMethod; carry [Tensor.unary_refines]

theorem Tensor.map2Method_refines {T : Type} {U : Type} {V : Type} (f : T → U → V) (t : Tensor T) (b : Tensor U) :
    Refines (@Tensor.map2Method .checked T U V f t b) (@Tensor.map2Method .release T U V f t b) := by
  unfold Tensor.map2Method; carry [Tensor.opTT_refines]

theorem Tensor.floor_refines {F : Type} (m : FloatLib F) (t : Tensor F) :
    Refines (@Tensor.floor .checked F m t) (@Tensor.floor .release F m t) := by
  unfold Tensor.floor; carry [Tensor.mapMethod_refines]

theorem Tensor.ceil_refines {F : Type} (m : FloatLib F) (t : Tensor F) :
    Refines (@Tensor.ceil .checked F m t) (@Tensor.ceil .release F m t) := by
  unfold Tensor.ceil; carry [Tensor.mapMethod_refines]

theorem Tensor.round_refines {F : Type} (m : FloatLib F) (t : Tensor F) :
    Refines (@Tensor.round .checked F m t) (@Tensor.round .release F m t) := by
  unfold Tensor.round; carry [Tensor.mapMethod_refines]

theorem Tensor.trunc_refines {F : Type} (m : FloatLib F) (t : Tensor F) :
    Refines (@Tensor.trunc .checked F m t) (@Tensor.trunc .release F m t) := by
  unfold Tensor.trunc; carry [Tensor.mapMethod_refines]

theorem Tensor.fract_refines {F : Type} (m : FloatLib F) (t : Tensor F) :
    Refines (@Tensor.fract .checked F m t) (@Tensor.fract .release F m t) := by
  unfold Tensor.fract; carry [Tensor.mapMethod_refines]

theorem Tensor.signum_refines {F : Type} (m : FloatLib F) (t : Tensor F) :
    Refines (@Tensor.signum .checked F m t) (@Tensor.signum .release F m t) := by
  unfold Tensor.signum; carry [Tensor.mapMethod_refines]

theorem Tensor.recip_refines {F : Type} (m : FloatLib F) (t : Tensor F) :
    Refines (@Tensor.recip .checked F m t) (@Tensor.recip .release F m t) := by
  unfold Tensor.recip; carry [Tensor.mapMethod_refines]

theorem Tensor.sqrt_refines {F : Type} (m : FloatLib F) (t : Tensor F) :
    Refines (@Tensor.sqrt .checked F m t) (@Tensor.sqrt .release F m t) := by
  unfold Tensor.sqrt; carry [Tensor.mapMethod_refines]

theorem Tensor.exp_refines {F : Type} (m : FloatLib F) (t : Tensor F) :
    Refines (@Tensor.exp .checked F m t) (@Tensor.exp .release F m t) := by
  unfold Tensor.exp; carry [Tensor.mapMethod_refines]

theorem Tensor.exp2_refines {F : Type} (m : FloatLib F) (t : Tensor F) :
    Refines (@Tensor.exp2 .checked F m t) (@Tensor.exp2 .release F m t) := by
  unfold Tensor.exp2; carry [Tensor.mapMethod_refines]

theorem Tensor.ln_refines {F : Type} (m : FloatLib F) (t : Tensor F) :
    Refines (@Tensor.ln .checked F m t) (@Tensor.ln .release F m t) := by
  unfold Tensor.ln; carry [Tensor.mapMethod_refines]

theorem Tensor.log2_refines {F : Type} (m : FloatLib F) (t : Tensor F) :
    Refines (@Tensor.log2 .checked F m t) (@Tensor.log2 .release F m t) := by
  unfold Tensor.log2; carry [Tensor.mapMethod_refines]

theorem Tensor.log10_refines {F : Type} (m : FloatLib F) (t : Tensor F) :
    Refines (@Tensor.log10 .checked F m t) (@Tensor.log10 .release F m t) := by
  unfold Tensor.log10; carry [Tensor.mapMethod_refines]

theorem Tensor.toDegrees_refines {F : Type} (m : FloatLib F) (t : Tensor F) :
    Refines (@Tensor.toDegrees .checked F m t) (@Tensor.toDegrees .release F m t) := by
  unfold Tensor.toDegrees; carry [Tensor.mapMethod_refines]

theorem Tensor.toRadians_refines {F : Type} (m : FloatLib F) (t : Tensor F) :
    Refines (@Tensor.toRadians .checked F m t) (@Tensor.toRadians .release F m t) := by
  unfold Tensor.toRadians; carry [Tensor.mapMethod_refines]

theorem Tensor.cbrt_refines {F : Type} (m : FloatLib F) (t : Tensor F) :
    Refines (@Tensor.cbrt .checked F m t) (@Tensor.cbrt .release F m t) := by
  unfold Tensor.cbrt; carry [Tensor.mapMethod_refines]

theorem Tensor.sin_refines {F : Type} (m : FloatLib F) (t : Tensor F) :
    Refines (@Tensor.sin .checked F m t) (@Tensor.sin .release F m t) := by
  unfold Tensor.sin; carry [Tensor.mapMethod_refines]

theorem Tensor.asin_refines {F : Type} (m : FloatLib F) (t : Tensor F) :
    Refines (@Tensor.asin .checked F m t) (@Tensor.asin .release F m t) := by
  unfold Tensor.asin; carry [Tensor.mapMethod_refines]

theorem Tensor.sinh_refines {F : Type} (m : FloatLib F) (t : Tensor F) :
    Refines (@Tensor.sinh .checked F m t) (@Tensor.sinh .release F m t) := by
  unfold Tensor.sinh; carry [Tensor.mapMethod_refines]

theorem Tensor.asinh_refines {F : Type} (m : FloatLib F) (t : Tensor F) :
    Refines (@Tensor.asinh .checked F m t) (@Tensor.asinh .release F m t) := by
  unfold Tensor.asinh; carry [Tensor.mapMethod_refines]

theorem Tensor.cos_refines {F : Type} (m : FloatLib F) (t : Tensor F) :
    Refines (@Tensor.cos .checked F m t) (@Tensor.cos .release F m t) := by
  unfold Tensor.cos; carry [Tensor.mapMethod_refines]

theorem Tensor.acos_refines {F : Type} (m : FloatLib F) (t : Tensor F) :
    Refines (@Tensor.acos .checked F m t) (@Tensor.acos .release F m t) := by
  unfold Tensor.acos; carry [Tensor.mapMethod_refines]

theorem Tensor.cosh_refines {F : Type} (m : FloatLib F) (t : Tensor F) :
    Refines (@Tensor.cosh .checked F m t) (@Tensor.cosh .release F m t) := by
  unfold Tensor.cosh; carry [Tensor.mapMethod_refines]

theorem Tensor.acosh_refines {F : Type} (m : FloatLib F) (t : Tensor F) :
    Refines (@Tensor.acosh .checked F m t) (@Tensor.acosh .release F m t) := by
  unfold Tensor.acosh; carry [Tensor.mapMethod_refines]

theorem Tensor.tan_refines {F : Type} (m : FloatLib F) (t : Tensor F) :
    Refines (@Tensor.tan .checked F m t) (@Tensor.tan .release F m t) := by
  unfold Tensor.tan; carry [Tensor.mapMethod_refines]

theorem Tensor.atan_refines {F : Type} (m : FloatLib F) (t : Tensor F) :
    Refines (@Tensor.atan .checked F m t) (@Tensor.atan .release F m t) := by
  unfold Tensor.atan; carry [Tensor.mapMethod_refines]

theorem Tensor.tanh_refines {F : Type} (m : FloatLib F) (t : Tensor F) :
    Refines (@Tensor.tanh .checked F m t) (@Tensor.tanh .release F m t) := by
  unfold Tensor.tanh; carry [Tensor.mapMethod_refines]

theorem Tensor.atanh_refines {F : Type} (m : FloatLib F) (t : Tensor F) :
    Refines (@Tensor.atanh .checked F m t) (@Tensor.atanh .release F m t) := by
  unfold Tensor.atanh; carry [Tensor.mapMethod_refines]

theorem Tensor.expM1_refines {F : Type} (m : FloatLib F) (t : Tensor F) :
    Refines (@Tensor.expM1 .checked F m t) (@Tensor.expM1 .release F m t) := by
  unfold Tensor.expM1; carry [Tensor.mapMethod_refines]

theorem Tensor.ln1p_refines {F : Type} (m : FloatLib F) (t : Tensor F) :
    Refines (@Tensor.ln1p .checked F m t) (@Tensor.ln1p .release F m t) := by
  unfold Tensor.ln1p; carry [Tensor.mapMethod_refines]

theorem Tensor.powf_refines {F : Type} (m : FloatLib F) (t : Tensor F) (b : Tensor F) :
    Refines (@Tensor.powf .checked F m t b) (@Tensor.powf .release F m t b) := by
  unfold Tensor.powf; carry [Tensor.map2Method_refines]

theorem Tensor.log_refines {F : Type} (m : FloatLib F) (t : Tensor F) (b : Tensor F) :
    Refines (@Tensor.log .checked F m t b) (@Tensor.log .release F m t b) := by
  unfold Tensor.log; carry [Tensor.map2Method_refines]

theorem Tensor.hypot_refines {F : Type} (m : FloatLib F) (t : Tensor F) (b : Tensor F) :
    Refines (@Tensor.hypot .checked F m t b) (@Tensor.hypot .release F m t b) := by
  unfold Tensor.hypot; carry [Tensor.map2Method_refines]

theorem Tensor.atan2_refines {F : Type} (m : FloatLib F) (t : Tensor F) (b : Tensor F) :
    Refines (@Tensor.atan2 .checked F m t b) (@Tensor.atan2 .release F m t b) := by
  unfold Tensor.atan2; carry [Tensor.map2Method_refines]

theorem Tensor.copysign_refines {F : Type} (m : FloatLib F) (t : Tensor F) (b : Tensor F) :
    Refines (@Tensor.copysign .checked F m t b) (@Tensor.copysign .release F m t b) := by
  unfold Tensor.copysign; carry [Tensor.map2Method_refines]

theorem Tensor.powi_refines {F : Type} (m : FloatLib F) (t : Tensor F) (rhs : Tensor Int) :
    Refines (@Tensor.powi .checked F m t rhs) (@Tensor.powi .release F m t rhs) := by
  unfold Tensor.powi; carry [Tensor.map2Method_refines]

theorem Tensor.sinCos_refines {F : Type} (m : FloatLib F) (t : Tensor F) :
    Refines (@Tensor.sinCos .checked F m t) (@Tensor.sinCos .release F m t) := by
  unfold Tensor.sinCos; carry [Tensor.mapMethod_refines]

theorem Tensor.mulAdd_refines {T : Type} (f : T → T → T → T) (t : Tensor T) (b : Tensor T) (c : Tensor T) :
    Refines (@Tensor.mulAdd .checked T f t b c) (@Tensor.mulAdd .release T f t b c) := by
  unfold Tensor.mulAdd; carry [Tensor.map3_refines]

theorem Tensor.Float1.call_refines {F : Type} (m : FloatLib F) (x2 : Tensor.Float1) (x3 : Tensor F) :
    Refines (@Tensor.Float1.call .checked F m x2 x3) (@Tensor.Float1.call .release F m x2 x3) := by
  unfold Tensor.Float1.call; carry [Tensor.floor_refines, Tensor.ceil_refines, Tensor.round_refines,
    Tensor.trunc_refines, Tensor.fract_refines, Tensor.signum_refines, Tensor.recip_refines, Tensor.sqrt_refines,
    Tensor.exp_refines, Tensor.exp2_refines, Tensor.ln_refines, Tensor.log2_refines, Tensor.log10_refines,
    Tensor.toDegrees_refines, Tensor.toRadians_refines, Tensor.cbrt_refines, Tensor.sin_refines, Tensor.asin_refines,
    Tensor.sinh_refines, Tensor.asinh_refines, Tensor.cos_refines, Tensor.acos_refines, Tensor.cosh_refines,
    Tensor.acosh_refines, Tensor.tan_refines, Tensor.atan_refines, Tensor.tanh_refines, Tensor.atanh_refines,
    Tensor.expM1_refines, Tensor.ln1p_refines]

theorem Tensor.Float2.call_refines {F : Type} (m : FloatLib F) (x2 : Tensor.Float2) (x3 : Tensor F) (x4 : Tensor F) :
    Refines (@Tensor.Float2.call .checked F m x2 x3 x4) (@Tensor.Float2.call .release F m x2 x3 x4) := by
  unfold Tensor.Float2.call; carry [Tensor.powf_refines, Tensor.log_refines, Tensor.hypot_refines,
    Tensor.atan2_refines, Tensor.copysign_refines]

theorem Tensor.countOnes_refines {w : Nat} (t : Tensor (BitVec w)) :
    Refines (@Tensor.countOnes .checked w t) (@Tensor.countOnes .release w t) := by
  unfold Tensor.countOnes; carry [Tensor.mapMethod_refines]

theorem Tensor.countZeros_refines {w : Nat} (t : Tensor (BitVec w)) :
    Refines (@Tensor.countZeros .checked w t) (@Tensor.countZeros .release w t) := by
  unfold Tensor.countZeros; carry [Tensor.mapMethod_refines]

theorem Tensor.leadingOnes_refines {w : Nat} (t : Tensor (BitVec w)) :
    Refines (@Tensor.leadingOnes .checked w t) (@Tensor.leadingOnes .release w t) := by
  unfold Tensor.leadingOnes; carry [Tensor.mapMethod_refines]

theorem Tensor.leadingZeros_refines {w : Nat} (t : Tensor (BitVec w)) :
    Refines (@Tensor.leadingZeros .checked w t) (@Tensor.leadingZeros .release w t) := by
  unfold Tensor.leadingZeros; carry [Tensor.mapMethod_refines]

theorem Tensor.trailingOnes_refines {w : Nat} (t : Tensor (BitVec w)) :
    Refines (@Tensor.trailingOnes .checked w t) (@Tensor.trailingOnes .release w t) := by
  unfold Tensor.trailingOnes; carry [Tensor.mapMethod_refines]

theorem Tensor.trailingZeros_refines {w : Nat} (t : Tensor (BitVec w)) :
    Refines (@Tensor.trailingZeros .checked w t) (@Tensor.trailingZeros .release w t) := by
  unfold Tensor.trailingZeros; carry [Tensor.mapMethod_refines]

theorem Tensor.rotateLeft_refines {w : Nat} (t : Tensor (BitVec w)) (b : Tensor Nat) :
    Refines (@Tensor.rotateLeft .checked w t b) (@Tensor.rotateLeft .release w t b) := by
  unfold Tensor.rotateLeft; carry [Tensor.map2Method_refines]

theorem Tensor.rotateRight_refines {w : Nat} (t : Tensor (BitVec w)) (b : Tensor Nat) :
    Refines (@Tensor.rotateRight .checked w t b) (@Tensor.rotateRight .release w t b) := by
  unfold Tensor.rotateRight; carry [Tensor.map2Method_refines]

theorem Tensor.swapBytes_refines {n : Nat} (t : Tensor (BitVec (8 * n))) :
    Refines (@Tensor.swapBytes .checked n t) (@Tensor.swapBytes .release n t) := by
  unfold Tensor.swapBytes; carry [Tensor.mapMethod_refines]

theorem Tensor.reverseBits_refines {w : Nat} (t : Tensor (BitVec w)) :
    Refines (@Tensor.reverseBits .checked w t) (@Tensor.reverseBits .release w t) := by
  unfold Tensor.reverseBits; carry [Tensor.mapMethod_refines]

theorem Tensor.toBe_refines {n : Nat} (bigEndian : Bool) (t : Tensor (BitVec (8 * n))) :
    Refines (@Tensor.toBe .checked n bigEndian t) (@Tensor.toBe .release n bigEndian t) := by
  unfold Tensor.toBe; carry [Tensor.mapMethod_refines]

theorem Tensor.toLe_refines {n : Nat} (bigEndian : Bool) (t : Tensor (BitVec (8 * n))) :
    Refines (@Tensor.toLe .checked n bigEndian t) (@Tensor.toLe .release n bigEndian t) := by
  unfold Tensor.toLe; carry [Tensor.mapMethod_refines]

theorem Tensor.re_refines {F : Type} (t : Tensor (Cx F)) :
    Refines (@Tensor.re .checked F t) (@Tensor.re .release F t) := by
  unfold Tensor.re; carry [Tensor.mapMethod_refines]

theorem Tensor.im_refines {F : Type} (t : Tensor (Cx F)) :
    Refines (@Tensor.im .checked F t) (@Tensor.im .release F t) := by
  unfold Tensor.im; carry [Tensor.mapMethod_refines]

theorem Tensor.normSqr_refines {F : Type} (m : CxLib F) (t : Tensor (Cx F)) :
    Refines (@Tensor.normSqr .checked F m t) (@Tensor.normSqr .release F m t) := by
  unfold Tensor.normSqr; carry [Tensor.mapMethod_refines]

theorem Tensor.scale_refines {F : Type} (m : CxLib F) (t : Tensor (Cx F)) (b : Tensor F) :
    Refines (@Tensor.scale .checked F m t b) (@Tensor.scale .release F m t b) := by
  unfold Tensor.scale; carry [Tensor.map2Method_refines]

theorem Tensor.unscale_refines {F : Type} (m : CxLib F) (t : Tensor (Cx F)) (b : Tensor F) :
    Refines (@Tensor.unscale .checked F m t b) (@Tensor.unscale .release F m t b) := by
  unfold Tensor.unscale; carry [Tensor.map2Method_refines]

theorem Tensor.powu_refines {F : Type} (m : CxLib F) (t : Tensor (Cx F)) (b : Tensor Nat) :
    Refines (@Tensor.powu .checked F m t b) (@Tensor.powu .release F m t b) := by
  unfold Tensor.powu; carry [Tensor.map2Method_refines]

theorem Tensor.conj_refines {F : Type} (m : CxLib F) (t : Tensor (Cx F)) :
    Refines (@Tensor.conj .checked F m t) (@Tensor.conj .release F m t) := by
  unfold Tensor.conj; carry [Tensor.mapMethod_refines]

theorem Tensor.inv_refines {F : Type} (m : CxLib F) (t : Tensor (Cx F)) :
    Refines (@Tensor.inv .checked F m t) (@Tensor.inv .release F m t) := by
  unfold Tensor.inv; carry [Tensor.mapMethod_refines]

theorem Tensor.l1Norm_refines {F : Type} (m : CxLib F) (t : Tensor (Cx F)) :
    Refines (@Tensor.l1Norm .checked F m t) (@Tensor.l1Norm .release F m t) := by
  unfold Tensor.l1Norm; carry [Tensor.mapMethod_refines]

theorem Tensor.norm_refines {F : Type} (m : CxLib F) (t : Tensor (Cx F)) :
    Refines (@Tensor.norm .checked F m t) (@Tensor.norm .release F m t) := by
  unfold Tensor.norm; carry [Tensor.mapMethod_refines]

theorem Tensor.arg_refines {F : Type} (m : CxLib F) (t : Tensor (Cx F)) :
    Refines (@Tensor.arg .checked F m t) (@Tensor.arg .release F m t) := by
  unfold Tensor.arg; carry [Tensor.mapMethod_refines]

theorem Tensor.toPolar_refines {F : Type} (m : CxLib F) (t : Tensor (Cx F)) :
    Refines (@Tensor.toPolar .checked F m t) (@Tensor.toPolar .release F m t) := by
  unfold Tensor.toPolar; carry [Tensor.mapMethod_refines]

theorem Tensor.fromPolar_refines {F : Type} (m : CxLib F) (polar : Tensor (F × F)) :
    Refines (@Tensor.fromPolar .checked F m polar) (@Tensor.fromPolar .release F m polar) := by
  unfold Tensor.fromPolar; carry [Tensor.mapMethod_refines]

theorem Tensor.powc_refines {F : Type} (m : CxLib F) (isZero : Cx F → Bool) (t : Tensor (Cx F)) (b : Tensor (Cx F)) :
    Refines (@Tensor.powc .checked F m isZero t b) (@Tensor.powc .release F m isZero t b) := by
  unfold Tensor.powc; carry [Tensor.map2Method_refines]

theorem Tensor.expf_refines {F : Type} (m : CxLib F) (t : Tensor (Cx F)) (b : Tensor F) :
    Refines (@Tensor.expf .checked F m t b) (@Tensor.expf .release F m t b) := by
  unfold Tensor.expf; carry [Tensor.map2Method_refines]

theorem Tensor.finv_refines {F : Type} (m : CxLib F) (t : Tensor (Cx F)) :
    Refines (@Tensor.finv .checked F m t) (@Tensor.finv .release F m t) := by
  unfold Tensor.finv; carry [Tensor.mapMethod_refines]

theorem Tensor.fdiv_refines {F : Type} (m : CxLib F) (t : Tensor (Cx F)) (b : Tensor (Cx F)) :
    Refines (@Tensor.fdiv .checked F m t b) (@Tensor.fdiv .release F m t b) := by
  unfold Tensor.fdiv; carry [Tensor.map2Method_refines]

/-! Macro -/

theorem Macro.tensorFrom_refines {α : Type} (lit : Macro.Tree α) :
    RefinesO (@Macro.tensorFrom .checked α lit) (@Macro.tensorFrom .release α lit) := by
  unfold Macro.tensorFrom; carry [Tensor.ofVec1_refines, Tensor.ofArr2_refines, Tensor.ofArr3_refines,
    Tensor.ofArr4_refines]

theorem Macro.ten_refines {α : Type} (items : List (Macro.Tree α)) :
    RefinesO (@Macro.ten .checked α items) (@Macro.ten .release α items) := by
  unfold Macro.ten; carry [Macro.tensorFrom_refines]

end Essay
