import Verif.Spec.Reach
import Verif.Spec.Tensor
import Mathlib.Data.List.Forall2

/-!
# Views and copies

Two tensors show the same when they have the same shape and the same elements, wherever these lie in their buffers.
`PairCall` lists the public functions that take tensors, each called on both sides with arguments showing the same;
`PairAfter n` are the pairs that two runs of the same program hold after at most `n` calls.
-/

namespace Essay

/-- `t` and `u` are the same tensor, or have the same shape and show the same elements. -/
def Twin {α : Type} (t u : Tensor α) : Prop :=
  t = u ∨ t.shape = u.shape ∧ ∃ xs, t.asSlice = .ok xs ∧ u.asSlice = .ok xs

/-- What a call gives back: tensors, and values of any other kind (numbers, lists of elements, texts, the state of the
closures). -/
inductive Seen where
  | tensor {α : Type} (t : Tensor α)
  | value {β : Type} (b : β)

/-- Tensors show the same, everything else is equal. -/
inductive SameSeen : Seen → Seen → Prop
  | tensor {α : Type} {t u : Tensor α} : Twin t u → SameSeen (.tensor t) (.tensor u)
  | value {β : Type} {b : β} : SameSeen (.value b) (.value b)

/-- Both outcomes are the same error, or both are results that show the same. -/
def Alike {α : Type} (x x' : Res α) (shows : α → List Seen) : Prop :=
  (∃ e, x = .error e ∧ x' = .error e) ∨
    ∃ r r', x = .ok r ∧ x' = .ok r' ∧ List.Forall₂ SameSeen (shows r) (shows r')

/-- `PairCall K x x' shows`: the same function is called on both sides with tensors that form pairs of `K` and with equal
other arguments; the outcomes are `x` and `x'`. `get`, `Debug`, `as_wrap_slice_n` and `fold_row` are only listed for
tensors with offset 0, `t[(i, j)]` for these and for elements of the matrix, and `matmul_t` for at least as many matrices
on the right as on the left. -/
inductive PairCall (K : Seen → Seen → Prop) : {α : Type} → Res α → Res α → (α → List Seen) → Prop
  -- calls without tensors
  | other {α : Type} {x : Res α} {shows} : PairCall K x x shows
  -- reading
  | shapeOf {α : Type} {t t' : Tensor α} : K (.tensor t) (.tensor t') →
      PairCall K (Except.ok t.shape : Res Shape) (Except.ok t'.shape) (fun s => [.value s])
  | sizeOf {α : Type} {t t' : Tensor α} : K (.tensor t) (.tensor t') →
      PairCall K (Except.ok t.size : Res Nat) (Except.ok t'.size) (fun s => [.value s])
  | asSlice {α : Type} {t t' : Tensor α} : K (.tensor t) (.tensor t') →
      PairCall K t.asSlice t'.asSlice (fun v => [.value v])
  | asWrapSlice {α : Type} {t t' : Tensor α} {i} : K (.tensor t) (.tensor t') →
      PairCall K (t.asWrapSlice i) (t'.asWrapSlice i) (fun v => [.value v])
  | asWrapSliceN {α : Type} {t t' : Tensor α} {i n} : K (.tensor t) (.tensor t') → t.offset = 0 → t'.offset = 0 →
      PairCall K (t.asWrapSliceN i n) (t'.asWrapSliceN i n) (fun v => [.value v])
  | get {α : Type} {t t' : Tensor α} {i} : K (.tensor t) (.tensor t') → t.offset = 0 → t'.offset = 0 →
      PairCall K (t.get i) (t'.get i) (fun v => [.value v])
  | iterRow {α : Type} {t t' : Tensor α} : K (.tensor t) (.tensor t') →
      PairCall K t.iterRow t'.iterRow (fun v => [.value v])
  | index1 {α : Type} {t t' : Tensor α} {i} : K (.tensor t) (.tensor t') →
      PairCall K (t.index1 i) (t'.index1 i) (fun v => [.value v])
  | index2 {α : Type} {t t' : Tensor α} {i j r c} : K (.tensor t) (.tensor t') → t.shape.rdim 1 = .ok r →
      t.shape.rdim 0 = .ok c → i < r → j < c →
      PairCall K (t.index2 i j) (t'.index2 i j) (fun v => [.value v])
  | index2Start {α : Type} {t t' : Tensor α} {i j} : K (.tensor t) (.tensor t') → t.offset = 0 → t'.offset = 0 →
      PairCall K (t.index2 i j) (t'.index2 i j) (fun v => [.value v])
  | debug {α : Type} {t t' : Tensor α} {fmt name} : K (.tensor t) (.tensor t') → t.offset = 0 → t'.offset = 0 →
      PairCall K (Fmt.debug fmt name t) (Fmt.debug fmt name t') (fun v => [.value v])
  | index3 {α : Type} {t t' : Tensor α} {i j k} : K (.tensor t) (.tensor t') →
      PairCall K (t.index3 i j k) (t'.index3 i j k) (fun v => [.value v])
  | index4 {α : Type} {t t' : Tensor α} {i j k l} : K (.tensor t) (.tensor t') →
      PairCall K (t.index4 i j k l) (t'.index4 i j k l) (fun v => [.value v])
  | index5 {α : Type} {t t' : Tensor α} {i j k l m} : K (.tensor t) (.tensor t') →
      PairCall K (t.index5 i j k l m) (t'.index5 i j k l m) (fun v => [.value v])
  | eq {α : Type} [BEq α] {t t' u u' : Tensor α} : K (.tensor t) (.tensor t') → K (.tensor u) (.tensor u') →
      PairCall K (t.eq u) (t'.eq u') (fun v => [.value v])
  | partialCmp {α : Type} {cmp : α → α → Option Ordering} {t t' u u' : Tensor α} : K (.tensor t) (.tensor t') →
      K (.tensor u) (.tensor u') → PairCall K (t.partialCmp cmp u) (t'.partialCmp cmp u') (fun v => [.value v])
  -- views
  | clone {α : Type} {t t' : Tensor α} : K (.tensor t) (.tensor t') →
      PairCall K (Except.ok t : Res (Tensor α)) (Except.ok t') (fun t => [.tensor t])
  | reshape {α : Type} {t t' : Tensor α} {s} : K (.tensor t) (.tensor t') →
      PairCall K (t.reshape s) (t'.reshape s) (fun t => [.tensor t])
  | expandDims {α : Type} {t t' : Tensor α} {a} : K (.tensor t) (.tensor t') →
      PairCall K (t.expandDims a) (t'.expandDims a) (fun t => [.tensor t])
  | flatten {α : Type} {t t' : Tensor α} : K (.tensor t) (.tensor t') →
      PairCall K t.flatten t'.flatten (fun t => [.tensor t])
  | squeeze {α : Type} {t t' : Tensor α} : K (.tensor t) (.tensor t') →
      PairCall K t.squeeze t'.squeeze (fun t => [.tensor t])
  | squeezeAxis {α : Type} {t t' : Tensor α} {a} : K (.tensor t) (.tensor t') →
      PairCall K (t.squeezeAxis a) (t'.squeezeAxis a) (fun t => [.tensor t])
  | subslice {α : Type} {t t' : Tensor α} {o n} : K (.tensor t) (.tensor t') →
      PairCall K (t.subslice o n) (t'.subslice o n) (fun t => [.tensor t])
  | subsliceFlat {α : Type} {t t' : Tensor α} {o n s} : K (.tensor t) (.tensor t') →
      PairCall K (t.subsliceFlat o n s) (t'.subsliceFlat o n s) (fun t => [.tensor t])
  | setShape {α : Type} {t t' : Tensor α} {s} : K (.tensor t) (.tensor t') →
      PairCall K (Except.ok { t with shape := s } : Res (Tensor α)) (Except.ok { t' with shape := s })
        (fun t => [.tensor t])
  | split {α : Type} {t t' : Tensor α} {sec} : K (.tensor t) (.tensor t') →
      PairCall K (t.split sec) (t'.split sec) (fun us => us.map .tensor)
  | splitAxis {α : Type} {t t' : Tensor α} {axis sec} : K (.tensor t) (.tensor t') →
      PairCall K (t.splitAxis axis sec) (t'.splitAxis axis sec) (fun us => us.map .tensor)
  | vsplit {α : Type} {t t' : Tensor α} {sec} : K (.tensor t) (.tensor t') →
      PairCall K (t.vsplit sec) (t'.vsplit sec) (fun us => us.map .tensor)
  | hsplit {α : Type} {t t' : Tensor α} {sec} : K (.tensor t) (.tensor t') →
      PairCall K (t.hsplit sec) (t'.hsplit sec) (fun us => us.map .tensor)
  | dsplit {α : Type} {t t' : Tensor α} {sec} : K (.tensor t) (.tensor t') →
      PairCall K (t.dsplit sec) (t'.dsplit sec) (fun us => us.map .tensor)
  | unstack {α : Type} {t t' : Tensor α} {axis} : K (.tensor t) (.tensor t') →
      PairCall K (t.unstack axis) (t'.unstack axis) (fun us => us.map .tensor)
  -- lists of tensors
  | ofTensors {α : Type} {ts ts' : List (Tensor α)} : List.Forall₂ (fun t t' => K (.tensor t) (.tensor t')) ts ts' →
      PairCall K (Tensor.ofTensors ts) (Tensor.ofTensors ts') (fun t => [.tensor t])
  | fromMerge {α : Type} {ts ts' : List (Tensor α)} {s} :
      List.Forall₂ (fun t t' => K (.tensor t) (.tensor t')) ts ts' →
      PairCall K (Tensor.fromMerge ts s) (Tensor.fromMerge ts' s) (fun t => [.tensor t])
  | append {α : Type} {t t' u u' : Tensor α} : K (.tensor t) (.tensor t') → K (.tensor u) (.tensor u') →
      PairCall K (t.append u) (t'.append u') (fun t => [.tensor t])
  | concatenate {α : Type} {ts ts' : List (Tensor α)} :
      List.Forall₂ (fun t t' => K (.tensor t) (.tensor t')) ts ts' →
      PairCall K (Tensor.concatenate ts) (Tensor.concatenate ts') (fun t => [.tensor t])
  | concatenateAxis {α : Type} {ts ts' : List (Tensor α)} {axis} :
      List.Forall₂ (fun t t' => K (.tensor t) (.tensor t')) ts ts' →
      PairCall K (Tensor.concatenateAxis axis ts) (Tensor.concatenateAxis axis ts') (fun t => [.tensor t])
  | stackVec {α : Type} {ts ts' : List (Tensor α)} {axis} :
      List.Forall₂ (fun t t' => K (.tensor t) (.tensor t')) ts ts' →
      PairCall K (Tensor.stackVec axis ts) (Tensor.stackVec axis ts') (fun t => [.tensor t])
  | stack {α : Type} {ts ts' : List (Tensor α)} : List.Forall₂ (fun t t' => K (.tensor t) (.tensor t')) ts ts' →
      PairCall K (Tensor.stack ts) (Tensor.stack ts') (fun t => [.tensor t])
  | hstack {α : Type} {ts ts' : List (Tensor α)} : List.Forall₂ (fun t t' => K (.tensor t) (.tensor t')) ts ts' →
      PairCall K (Tensor.hstack ts) (Tensor.hstack ts') (fun t => [.tensor t])
  | dstack {α : Type} {ts ts' : List (Tensor α)} : List.Forall₂ (fun t t' => K (.tensor t) (.tensor t')) ts ts' →
      PairCall K (Tensor.dstack ts) (Tensor.dstack ts') (fun t => [.tensor t])
  | vstack {α : Type} {ts ts' : List (Tensor α)} : List.Forall₂ (fun t t' => K (.tensor t) (.tensor t')) ts ts' →
      PairCall K (Tensor.vstack ts) (Tensor.vstack ts') (fun t => [.tensor t])
  | meshgrid {α : Type} {ts ts' : List (Tensor α)} : List.Forall₂ (fun t t' => K (.tensor t) (.tensor t')) ts ts' →
      PairCall K (Init.meshgrid ts) (Init.meshgrid ts') (fun us => us.map .tensor)
  | meshgridIJ {α : Type} {ts ts' : List (Tensor α)} : List.Forall₂ (fun t t' => K (.tensor t) (.tensor t')) ts ts' →
      PairCall K (Init.meshgridIJ ts) (Init.meshgridIJ ts') (fun us => us.map .tensor)
  -- closures
  | map {σ U V : Type} {a a' : Tensor U} {f : U → Exec σ V} {st} : K (.tensor a) (.tensor a') →
      PairCall K ((a.map f).run st) ((a'.map f).run st) (fun r => [.tensor r.1, .value r.2])
  | mapRow {σ U V : Type} {a a' : Tensor U} {N : Nat} {f : List U → Exec σ (Vector V N)} {st} :
      K (.tensor a) (.tensor a') →
      PairCall K ((a.mapRow N f).run st) ((a'.mapRow N f).run st) (fun r => [.tensor r.1, .value r.2])
  | mapExpand {σ U V : Type} {a a' : Tensor U} {N : Nat} {f : U → Exec σ (Vector V N)} {st} :
      K (.tensor a) (.tensor a') →
      PairCall K ((a.mapExpand N f).run st) ((a'.mapExpand N f).run st) (fun r => [.tensor r.1, .value r.2])
  | map2 {σ T U V : Type} {a a' : Tensor T} {b b' : Tensor U} {f : T → U → Exec σ V} {st} :
      K (.tensor a) (.tensor a') → K (.tensor b) (.tensor b') →
      PairCall K ((a.map2 b f).run st) ((a'.map2 b' f).run st) (fun r => [.tensor r.1, .value r.2])
  | map2Row {σ T U V : Type} {a a' : Tensor T} {b b' : Tensor U} {N : Nat}
      {f : List T → List U → Exec σ (Vector V N)} {st} : K (.tensor a) (.tensor a') → K (.tensor b) (.tensor b') →
      PairCall K ((a.map2Row b N f).run st) ((a'.map2Row b' N f).run st) (fun r => [.tensor r.1, .value r.2])
  | map2Expand {σ T U V : Type} {a a' : Tensor T} {b b' : Tensor U} {N : Nat} {f : T → U → Exec σ (Vector V N)} {st} :
      K (.tensor a) (.tensor a') → K (.tensor b) (.tensor b') →
      PairCall K ((a.map2Expand b N f).run st) ((a'.map2Expand b' N f).run st) (fun r => [.tensor r.1, .value r.2])
  | map3 {σ T U V W : Type} {a a' : Tensor T} {b b' : Tensor U} {c c' : Tensor V} {f : T → U → V → Exec σ W} {st} :
      K (.tensor a) (.tensor a') → K (.tensor b) (.tensor b') → K (.tensor c) (.tensor c') →
      PairCall K ((a.map3 b c f).run st) ((a'.map3 b' c' f).run st) (fun r => [.tensor r.1, .value r.2])
  | fold {σ U S V : Type} {a a' : Tensor U} {i : S} {f : S → U → Exec σ S} {g : S → V} {st} :
      K (.tensor a) (.tensor a') →
      PairCall K ((a.fold i f g).run st) ((a'.fold i f g).run st) (fun r => [.tensor r.1, .value r.2])
  | foldAxis {σ U S V : Type} {a a' : Tensor U} {axis} {i : S} {f : S → U → Exec σ S} {g : S → V} {st} :
      K (.tensor a) (.tensor a') →
      PairCall K ((a.foldAxis axis i f g).run st) ((a'.foldAxis axis i f g).run st)
        (fun r => [.tensor r.1, .value r.2])
  | foldRow {σ U S V : Type} {a a' : Tensor U} {axis} {N : Nat} {i : S} {f : S → List U → Exec σ S}
      {g : S → Vector V N} {st} : K (.tensor a) (.tensor a') → a.offset = 0 → a'.offset = 0 →
      PairCall K ((a.foldRow axis N i f g).run st) ((a'.foldRow axis N i f g).run st)
        (fun r => [.tensor r.1, .value r.2])
  | reduce {σ T : Type} {a a' : Tensor T} {f : T → T → Exec σ T} {st} : K (.tensor a) (.tensor a') →
      PairCall K ((a.reduce f).run st) ((a'.reduce f).run st) (fun r => [.tensor r.1, .value r.2])
  | reduceAxis {σ T : Type} {a a' : Tensor T} {axis} {f : T → T → Exec σ T} {st} : K (.tensor a) (.tensor a') →
      PairCall K ((a.reduceAxis axis f).run st) ((a'.reduceAxis axis f).run st) (fun r => [.tensor r.1, .value r.2])
  | normalize {σ T S S1 V : Type} {a a' : Tensor T} {axis} {i : S} {f : S → T → Exec σ S} {c : S → Exec σ S1}
      {g : S1 → T → Exec σ V} {st} : K (.tensor a) (.tensor a') →
      PairCall K ((a.normalize axis i f c g).run st) ((a'.normalize axis i f c g).run st)
        (fun r => [.tensor r.1, .value r.2])
  -- operators
  | binary {T U V : Type} {ar : Arith T U V} {op} {a a' : Tensor T} {b b' : Tensor U} :
      K (.tensor a) (.tensor a') → K (.tensor b) (.tensor b') →
      PairCall K (Tensor.binary ar op a b) (Tensor.binary ar op a' b') (fun t => [.tensor t])
  | binaryScalar {T U V : Type} {ar : Arith T U V} {op} {a a' : Tensor T} {y : U} : K (.tensor a) (.tensor a') →
      PairCall K (Tensor.binaryScalar ar op a y) (Tensor.binaryScalar ar op a' y) (fun t => [.tensor t])
  | scalarBinary {T U V : Type} {ar : Arith T U V} {op} {x : T} {b b' : Tensor U} : K (.tensor b) (.tensor b') →
      PairCall K (Tensor.scalarBinary ar op x b) (Tensor.scalarBinary ar op x b') (fun t => [.tensor t])
  | unary {T V : Type} {f : T → Res V} {a a' : Tensor T} : K (.tensor a) (.tensor a') →
      PairCall K (Tensor.unary f a) (Tensor.unary f a') (fun t => [.tensor t])
  | square {T V : Type} {ar : Arith T T V} {a a' : Tensor T} : K (.tensor a) (.tensor a') →
      PairCall K (Tensor.square ar a) (Tensor.square ar a') (fun t => [.tensor t])
  | min {T : Type} {le : T → T → Bool} {a a' b b' : Tensor T} : K (.tensor a) (.tensor a') →
      K (.tensor b) (.tensor b') → PairCall K (Tensor.min le a b) (Tensor.min le a' b') (fun t => [.tensor t])
  | max {T : Type} {le : T → T → Bool} {a a' b b' : Tensor T} : K (.tensor a) (.tensor a') →
      K (.tensor b) (.tensor b') → PairCall K (Tensor.max le a b) (Tensor.max le a' b') (fun t => [.tensor t])
  | absSub {T : Type} {f : T → T → Res T} {a a' b b' : Tensor T} : K (.tensor a) (.tensor a') →
      K (.tensor b) (.tensor b') → PairCall K (Tensor.absSub f a b) (Tensor.absSub f a' b') (fun t => [.tensor t])
  -- array operations and initialisers
  | transpose {α : Type} {t t' : Tensor α} : K (.tensor t) (.tensor t') →
      PairCall K t.transpose t'.transpose (fun t => [.tensor t])
  | tile {α : Type} {t t' : Tensor α} {m m' : Tensor Nat} : K (.tensor t) (.tensor t') → K (.tensor m) (.tensor m') →
      PairCall K (t.tile m) (t'.tile m') (fun t => [.tensor t])
  | linspace {F : Type} {fo : FOps F} {a a' b b' : Tensor F} {n} : K (.tensor a) (.tensor a') →
      K (.tensor b) (.tensor b') → PairCall K (Init.linspace fo a b n) (Init.linspace fo a' b' n) (fun t => [.tensor t])
  | logspaceOpt {F : Type} {fo : FOps F} {a a' b b' : Tensor F} {n o} : K (.tensor a) (.tensor a') →
      K (.tensor b) (.tensor b') →
      PairCall K (Init.logspaceOpt fo a b n o) (Init.logspaceOpt fo a' b' n o) (fun t => [.tensor t])
  | logspace {F : Type} {fo : FOps F} {a a' b b' : Tensor F} {n} : K (.tensor a) (.tensor a') →
      K (.tensor b) (.tensor b') → PairCall K (Init.logspace fo a b n) (Init.logspace fo a' b' n) (fun t => [.tensor t])
  | geomspace {F : Type} {fo : FOps F} {a a' b b' : Tensor F} {n} : K (.tensor a) (.tensor a') →
      K (.tensor b) (.tensor b') →
      PairCall K (Init.geomspace fo a b n) (Init.geomspace fo a' b' n) (fun t => [.tensor t])
  | diagflat {α : Type} [Zero α] {t t' : Tensor α} : K (.tensor t) (.tensor t') →
      PairCall K (Init.diagflat t) (Init.diagflat t') (fun t => [.tensor t])
  | tril {α : Type} [Zero α] {t t' : Tensor α} : K (.tensor t) (.tensor t') →
      PairCall K (Init.tril t) (Init.tril t') (fun t => [.tensor t])
  | triu {α : Type} [Zero α] {t t' : Tensor α} : K (.tensor t) (.tensor t') →
      PairCall K (Init.triu t) (Init.triu t') (fun t => [.tensor t])
  -- linear algebra
  | matmul {F : Type} {bl : Linalg.Blas F} {a a' b b' : Tensor F} {tr} : K (.tensor a) (.tensor a') →
      K (.tensor b) (.tensor b') → a.WF → b.WF →
      (∀ A B r c r' c', a.shape.asVec = .ok (A ++ [r, c]) → b.shape.asVec = .ok (B ++ [r', c']) → A.prod ≤ B.prod) →
      PairCall K (Linalg.matmulT bl a b tr) (Linalg.matmulT bl a' b' tr) (fun t => [.tensor t])
  | matvec {F : Type} {bl : Linalg.Blas F} {a a' x x' : Tensor F} {tr} : K (.tensor a) (.tensor a') →
      K (.tensor x) (.tensor x') → a.WF → x.WF →
      PairCall K (Linalg.matvecT bl a x tr) (Linalg.matvecT bl a' x' tr) (fun t => [.tensor t])
  -- statistics, input and signals
  | reduceHypot {F : Type} {fo : FOps F} {a a' : Tensor F} : K (.tensor a) (.tensor a') →
      PairCall K (Stats.reduceHypot fo a) (Stats.reduceHypot fo a') (fun t => [.tensor t])
  | reduceMin {F : Type} {fo : FOps F} {a a' : Tensor F} : K (.tensor a) (.tensor a') →
      PairCall K (Stats.reduceMin fo a) (Stats.reduceMin fo a') (fun t => [.tensor t])
  | reduceMax {F : Type} {fo : FOps F} {a a' : Tensor F} : K (.tensor a) (.tensor a') →
      PairCall K (Stats.reduceMax fo a) (Stats.reduceMax fo a') (fun t => [.tensor t])
  | reduceMean {F : Type} {fo : FOps F} {a a' : Tensor F} : K (.tensor a) (.tensor a') →
      PairCall K (Stats.reduceMean fo a) (Stats.reduceMean fo a') (fun t => [.tensor t])
  | reduceStd {F : Type} {fo : FOps F} {a a' : Tensor F} : K (.tensor a) (.tensor a') →
      PairCall K (Stats.reduceStd fo a) (Stats.reduceStd fo a') (fun t => [.tensor t])
  | reduceVariance {F : Type} {fo : FOps F} {a a' : Tensor F} : K (.tensor a) (.tensor a') →
      PairCall K (Stats.reduceVariance fo a) (Stats.reduceVariance fo a') (fun t => [.tensor t])
  | reduceMinAxis {F : Type} {fo : FOps F} {a a' : Tensor F} {axis} : K (.tensor a) (.tensor a') →
      PairCall K (Stats.reduceMinAxis fo a axis) (Stats.reduceMinAxis fo a' axis) (fun t => [.tensor t])
  | reduceMaxAxis {F : Type} {fo : FOps F} {a a' : Tensor F} {axis} : K (.tensor a) (.tensor a') →
      PairCall K (Stats.reduceMaxAxis fo a axis) (Stats.reduceMaxAxis fo a' axis) (fun t => [.tensor t])
  | reduceMeanAxis {F : Type} {fo : FOps F} {a a' : Tensor F} {axis} : K (.tensor a) (.tensor a') →
      PairCall K (Stats.reduceMeanAxis fo a axis) (Stats.reduceMeanAxis fo a' axis) (fun t => [.tensor t])
  | reduceStdAxis {F : Type} {fo : FOps F} {a a' : Tensor F} {axis} : K (.tensor a) (.tensor a') →
      PairCall K (Stats.reduceStdAxis fo a axis) (Stats.reduceStdAxis fo a' axis) (fun t => [.tensor t])
  | reduceVarianceAxis {F : Type} {fo : FOps F} {a a' : Tensor F} {axis} : K (.tensor a) (.tensor a') →
      PairCall K (Stats.reduceVarianceAxis fo a axis) (Stats.reduceVarianceAxis fo a' axis) (fun t => [.tensor t])
  | reduceOp {T : Type} {op : T → T → Res T} {a a' : Tensor T} : K (.tensor a) (.tensor a') →
      PairCall K (Stats.reduceOp op a) (Stats.reduceOp op a') (fun t => [.tensor t])
  | reduceOpAxis {T : Type} {op : T → T → Res T} {a a' : Tensor T} {axis} : K (.tensor a) (.tensor a') →
      PairCall K (Stats.reduceOpAxis op a axis) (Stats.reduceOpAxis op a' axis) (fun t => [.tensor t])
  | normalizeUnit {F : Type} {fs : FStat F} {a a' : Tensor F} : K (.tensor a) (.tensor a') →
      PairCall K (Stats.normalizeUnit fs a) (Stats.normalizeUnit fs a') (fun t => [.tensor t])
  | histogram {F : Type} {fs : FStat F} {a a' : Tensor F} {n} : K (.tensor a) (.tensor a') →
      PairCall K (Stats.histogram fs a n) (Stats.histogram fs a' n) (fun r => [.tensor r.1, .tensor r.2])
  | histogram2d {F : Type} {fs : FStat F} {a a' : Tensor F} {n} : K (.tensor a) (.tensor a') →
      PairCall K (Stats.histogram2d fs a n) (Stats.histogram2d fs a' n)
        (fun r => [.tensor r.1, .tensor r.2.1, .tensor r.2.2])
  | decodeWav {F : Type} {fo : FOps F} {ofInt} {c c' : Tensor (BitVec 8)} : K (.tensor c) (.tensor c') →
      PairCall K (Io.decodeWav fo ofInt c) (Io.decodeWav fo ofInt c') (fun r => [.tensor r.1, .tensor r.2])
  | readFile {fs} {name name' : Tensor String} : K (.tensor name) (.tensor name') →
      PairCall K (Io.readFile fs name) (Io.readFile fs name')
        (fun r => match r with | .ok t => [.tensor t] | .error e => [.value e])
  | rfftNorm {F : Type} {fo : FFft F} {a a' : Tensor F} {l} : K (.tensor a) (.tensor a') →
      PairCall K (Signal.rfftNorm fo a l) (Signal.rfftNorm fo a' l) (fun t => [.tensor t])
  | frame {α : Type} {a a' : Tensor α} {l s} : K (.tensor a) (.tensor a') →
      PairCall K (Signal.frame a l s) (Signal.frame a' l s) (fun t => [.tensor t])
  | sliceUsize {α : Type} {a a' : Tensor α} {i} : K (.tensor a) (.tensor a') →
      PairCall K (Signal.sliceUsize i a) (Signal.sliceUsize i a') (fun t => [.tensor t])
  | slicePair {α : Type} {a a' : Tensor α} {i j} : K (.tensor a) (.tensor a') →
      PairCall K (Signal.slicePair i j a) (Signal.slicePair i j a') (fun t => [.tensor t])

/-- The pairs two runs of the same program hold after at most `n` calls that returned, starting from the pairs `S`. -/
def PairAfter (S : Seen → Seen → Prop) : Nat → Seen → Seen → Prop
  | 0 => S
  | n + 1 => fun o o' => PairAfter S n o o' ∨
      ∃ (α : Type) (x x' : Res α) (shows : α → List Seen) (r r' : α) (i : Nat),
        PairCall (PairAfter S n) x x' shows ∧ x = .ok r ∧ x' = .ok r' ∧
          (shows r)[i]? = some o ∧ (shows r')[i]? = some o'

end Essay
