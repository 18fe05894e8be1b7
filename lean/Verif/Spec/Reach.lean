import Verif.Model.Array
import Verif.Model.Map
import Verif.Model.Ops
import Verif.Model.From
import Verif.Model.Init
import Verif.Model.Stats
import Verif.Model.Linalg
import Verif.Model.Random
import Verif.Model.Io
import Verif.Model.Signal
import Verif.Model.Fmt
import Verif.Lemmas.Base

/-!
# Histories of API calls

`Call` lists the calls a program can make with the objects it holds, one rule for each public function that is not
`unsafe` and for the assignment of each public field. `After n` are the objects a program can hold after at most `n` calls.
-/

namespace Essay

variable [Build]

/-- What a program holds. -/
inductive Obj where
  | shape (s : Shape)
  | tensor {α : Type} (t : Tensor α)

/-- Restrictions on the calls a program makes (`False`: not restricted). -/
structure Rules where
  /-- `subslice_flat` is given a shape of the size of the slice (it also accepts a shape of size 0 with length 1). -/
  exactFlat : Prop
  /-- `with_cols` and `reduce` are not called on a shape of rank 0. -/
  scalarCols : Prop
  /-- `get`, `Debug` and accesses `t[(i, j)]` outside the matrix are only used on tensors with offset 0. -/
  view : Prop
  /-- `tile` gets a vector of multiples. -/
  tile : Prop
  /-- `matmul` gets at least as many matrices on the right as on the left. -/
  matmul : Prop
  /-- `fold_row` returns fewer than 2^32 results per row. -/
  foldRow : Prop
  /-- The public fields `shape`, `offset` and `size` of a tensor (tensor.rs:11-13) are not assigned. -/
  fields : Prop

/-- All rules are kept. -/
structure Rules.Kept (R : Rules) : Prop where
  exactFlat : R.exactFlat
  scalarCols : R.scalarCols
  view : R.view
  tile : R.tile
  matmul : R.matmul
  foldRow : R.foldRow
  fields : R.fields

/-- Every call is allowed. -/
def Rules.none : Rules := ⟨False, False, False, False, False, False, False⟩

/-- `Call R K x outs`: with the objects `K` a program keeping to the rules `R` can make a call with outcome `x`; if it
returns `r`, the program then also holds the objects `outs r`. Closures and element operations passed in are free of
undefined behaviour. -/
inductive Call (R : Rules) (K : Obj → Prop) : {α : Type} → Res α → (α → List Obj) → Prop
  -- shapes
  | scalar  : Call R K ((Except.ok Shape.scalar : Res Shape)) (fun s => [.shape s])
  | vector {n} : Call R K (Shape.vector n) (fun s => [.shape s])
  | ofUsize {n} : Call R K (Shape.ofUsize n) (fun s => [.shape s])
  | ofSlice {l} : Call R K (Shape.ofSlice l) (fun s => [.shape s])
  | ofVec {l} : Call R K (Shape.ofVec l) (fun s => [.shape s])
  | shapeOf {α : Type} {t : Tensor α} : K (.tensor t) → Call R K ((Except.ok t.shape : Res Shape)) (fun s => [.shape s])
  | replace {s i v} : K (.shape s) → Call R K (Shape.replace s i v) (fun s => [.shape s])
  | rreplace {s i v} : K (.shape s) → Call R K (Shape.rreplace s i v) (fun s => [.shape s])
  | withDim {s i v} : K (.shape s) → Call R K (Shape.withDim s i v) (fun s => [.shape s])
  | withCols {s v} : K (.shape s) → (R.scalarCols → s.rank ≠ 0) → Call R K (Shape.withCols s v) (fun s => [.shape s])
  | withRows {s v} : K (.shape s) → Call R K (Shape.withRows s v) (fun s => [.shape s])
  | push {s v} : K (.shape s) → Call R K (Shape.push s v) (fun s => [.shape s])
  | appendShape {s l} : K (.shape s) → Call R K (Shape.append s l) (fun s => [.shape s])
  | expandDimsShape {s a} : K (.shape s) → Call R K (Shape.expandDims s a) (fun s => [.shape s])
  | squeezeShape {s a} : K (.shape s) → Call R K (Shape.squeeze s a) (fun s => [.shape s])
  | pop {s} : K (.shape s) → Call R K (Shape.pop s) (fun s => [.shape s])
  | remove {s a} : K (.shape s) → Call R K (Shape.remove s a) (fun s => [.shape s])
  | rremove {s a} : K (.shape s) → Call R K (Shape.rremove s a) (fun s => [.shape s])
  | reduceShape {s} : K (.shape s) → (R.scalarCols → s.rank ≠ 0) → Call R K (Shape.reduce s) (fun s => [.shape s])
  | insert {s a n} : K (.shape s) → Call R K (Shape.insert s a n) (fun s => [.shape s])
  | rinsert {s a n} : K (.shape s) → Call R K (Shape.rinsert s a n) (fun s => [.shape s])
  | broadcastTo {s u} : K (.shape s) → K (.shape u) → Call R K (Shape.broadcastTo s u) (fun s => [.shape s])
  | axisReduce {s} {axis : Axis} : K (.shape s) → Call R K (axis.reduce s) (fun r => [.shape r.1])
  | axisReduceRow {s c} {axis : Axis} : K (.shape s) → Call R K (axis.reduceRow s c) (fun r => [.shape r.1])
  -- queries of shapes
  | sizeOf {s} : K (.shape s) → Call R K (Shape.size s) (fun _ => [])
  | dim {s i} : K (.shape s) → Call R K (Shape.dim s i) (fun _ => [])
  | rdim {s i} : K (.shape s) → Call R K (Shape.rdim s i) (fun _ => [])
  | idim {s i} : K (.shape s) → Call R K (Shape.idim s i) (fun _ => [])
  | len {s} : K (.shape s) → Call R K (Shape.len s) (fun _ => [])
  | cols {s} : K (.shape s) → Call R K (Shape.cols s) (fun _ => [])
  | rows {s} : K (.shape s) → Call R K (Shape.rows s) (fun _ => [])
  | batchLen {s n} : K (.shape s) → Call R K (Shape.batchLen s n) (fun _ => [])
  | asVec {s} : K (.shape s) → Call R K (Shape.asVec s) (fun _ => [])
  | sublen {s i j} : K (.shape s) → Call R K (Shape.sublen s i j) (fun _ => [])
  | rsublen {s i j} : K (.shape s) → Call R K (Shape.rsublen s i j) (fun _ => [])
  | broadcast {s u} : K (.shape s) → K (.shape u) → Call R K (Shape.broadcast s u) (fun _ => [])
  | checkBroadcast {s u} : K (.shape s) → K (.shape u) → Call R K (Shape.checkBroadcast s u) (fun _ => [])
  | broadcastMin {s u i j} : K (.shape s) → K (.shape u) → Call R K (Shape.broadcastMin s i u j) (fun _ => [])
  | axisFromRank {n} {axis : Axis} : Call R K (axis.axisFromRank n) (fun _ => [])
  -- constructors and conversions
  | fromVec {α : Type} {xs : List α} {s} :
      K (.shape s) → Call R K (Tensor.fromVec xs s) (fun t => [.tensor t])
  | fromScalar {α : Type} {x : α} :
      Call R K (Tensor.fromScalar x) (fun t => [.tensor t])
  | ofScalar {α : Type} {x : α} :
      Call R K (Tensor.ofScalar x) (fun t => [.tensor t])
  | ofOption {α : Type} {x : Option α} :
      Call R K (Tensor.ofOption x) (fun t => [.tensor t])
  | ofVec1 {α : Type} {xs : List α} :
      Call R K (Tensor.ofVec1 xs) (fun t => [.tensor t])
  | ofVecRows {α : Type} {N : Nat} {xs : List (Vector α N)} :
      Call R K (Tensor.ofVecRows xs) (fun t => [.tensor t])
  | ofRows {α : Type} {N : Nat} {xs : List (Vector α N)} :
      Call R K (Tensor.ofRows xs) (fun t => [.tensor t])
  | ofVec2 {α : Type} {xs : List (List α)} :
      Call R K (Tensor.ofVec2 xs) (fun t => [.tensor t])
  | ofVec2Rows {α : Type} {N : Nat} {xs : List (List (Vector α N))} :
      Call R K (Tensor.ofVec2Rows xs) (fun t => [.tensor t])
  | ofVec3 {α : Type} {xs : List (List (List α))} :
      Call R K (Tensor.ofVec3 xs) (fun t => [.tensor t])
  | ofVec4 {α : Type} {xs : List (List (List (List α)))} :
      Call R K (Tensor.ofVec4 xs) (fun t => [.tensor t])
  | ofVec5 {α : Type} {xs : List (List (List (List (List α))))} :
      Call R K (Tensor.ofVec5 xs) (fun t => [.tensor t])
  | ofArr2 {α : Type} {M N : Nat} {xs : Vector (Vector α N) M} :
      Call R K (Tensor.ofArr2 xs) (fun t => [.tensor t])
  | ofArr3 {α : Type} {L M N : Nat} {xs : Vector (Vector (Vector α N) M) L} :
      Call R K (Tensor.ofArr3 xs) (fun t => [.tensor t])
  | ofArr4 {α : Type} {J L M N : Nat} {xs : Vector (Vector (Vector (Vector α N) M) L) J} :
      Call R K (Tensor.ofArr4 xs) (fun t => [.tensor t])
  | fromSlice {α : Type} {xs : List α} :
      Call R K (Tensor.fromSlice xs) (fun t => [.tensor t])
  | joinVec {α : Type} {xs : List (List α)} :
      Call R K (Tensor.joinVec xs) (fun t => [.tensor t])
  | ofTensors {α : Type} {ts : List (Tensor α)} :
      (∀ u ∈ ts, K (.tensor u)) → Call R K (Tensor.ofTensors ts) (fun t => [.tensor t])
  | fromMerge {α : Type} {ts : List (Tensor α)} {s} :
      (∀ u ∈ ts, K (.tensor u)) → K (.shape s) → Call R K (Tensor.fromMerge ts s) (fun t => [.tensor t])
  | append {α : Type} {t u : Tensor α} :
      K (.tensor t) → K (.tensor u) → Call R K (Tensor.append t u) (fun t => [.tensor t])
  -- views
  | reshape {α : Type} {t : Tensor α} {s} :
      K (.tensor t) → K (.shape s) → Call R K (Tensor.reshape t s) (fun t => [.tensor t])
  | expandDims {α : Type} {t : Tensor α} {a} :
      K (.tensor t) → Call R K (Tensor.expandDims t a) (fun t => [.tensor t])
  | flatten {α : Type} {t : Tensor α}  :
      K (.tensor t) → Call R K (Tensor.flatten t) (fun t => [.tensor t])
  | squeeze {α : Type} {t : Tensor α}  :
      K (.tensor t) → Call R K (Tensor.squeeze t) (fun t => [.tensor t])
  | squeezeAxis {α : Type} {t : Tensor α} {a} :
      K (.tensor t) → Call R K (Tensor.squeezeAxis t a) (fun t => [.tensor t])
  | subslice {α : Type} {t : Tensor α} {o n} :
      K (.tensor t) → Call R K (Tensor.subslice t o n) (fun t => [.tensor t])
  | subsliceFlat {α : Type} {t : Tensor α} {o n s} :
      K (.tensor t) → K (.shape s) →
      (R.exactFlat → s.size = .ok n) → Call R K (Tensor.subsliceFlat t o n s) (fun t => [.tensor t])
  -- assignments to the public fields
  | setShape {α : Type} {t : Tensor α} {s} :
      K (.tensor t) → K (.shape s) → ¬ R.fields →
      Call R K (Except.ok { t with shape := s } : Res (Tensor α)) (fun t => [.tensor t])
  | setOffset {α : Type} {t : Tensor α} {n : Nat} :
      K (.tensor t) → ¬ R.fields → Call R K (Except.ok { t with offset := n } : Res (Tensor α)) (fun t => [.tensor t])
  | setSize {α : Type} {t : Tensor α} {n : Nat} :
      K (.tensor t) → ¬ R.fields → Call R K (Except.ok { t with size := n } : Res (Tensor α)) (fun t => [.tensor t])
  -- reading
  | asSlice {α : Type} {t : Tensor α}  : K (.tensor t) → Call R K (Tensor.asSlice t) (fun _ => [])
  | get {α : Type} {t : Tensor α} {i} : K (.tensor t) → (R.view → t.offset = 0) → Call R K (Tensor.get t i) (fun _ => [])
  | asWrapSlice {α : Type} {t : Tensor α} {i} : K (.tensor t) → Call R K (Tensor.asWrapSlice t i) (fun _ => [])
  | asWrapSliceN {α : Type} {t : Tensor α} {i n} : K (.tensor t) → Call R K (Tensor.asWrapSliceN t i n) (fun _ => [])
  | iterRow {α : Type} {t : Tensor α}  : K (.tensor t) → Call R K (Tensor.iterRow t) (fun _ => [])
  | index1 {α : Type} {t : Tensor α} {i} : K (.tensor t) → Call R K (Tensor.index1 t i) (fun _ => [])
  | index2 {α : Type} {t : Tensor α} {i j} : K (.tensor t) →
      (R.view → t.offset = 0 ∨ ∃ r c, t.shape.rdim 1 = .ok r ∧ t.shape.rdim 0 = .ok c ∧ i < r ∧ j < c) →
      Call R K (Tensor.index2 t i j) (fun _ => [])
  | index3 {α : Type} {t : Tensor α} {i j k} : K (.tensor t) → Call R K (Tensor.index3 t i j k) (fun _ => [])
  | index4 {α : Type} {t : Tensor α} {i j k l} : K (.tensor t) → Call R K (Tensor.index4 t i j k l) (fun _ => [])
  | index5 {α : Type} {t : Tensor α} {i j k l m} : K (.tensor t) → Call R K (Tensor.index5 t i j k l m) (fun _ => [])
  | debug {α : Type} {t : Tensor α} {fmt name} : K (.tensor t) → (R.view → t.offset = 0) → Call R K (Fmt.debug fmt name t) (fun _ => [])
  | eq {α : Type} [BEq α] {t u : Tensor α} : K (.tensor t) → K (.tensor u) → Call R K (Tensor.eq t u) (fun _ => [])
  | partialCmp {α : Type} {cmp : α → α → Option Ordering} {t u : Tensor α} : K (.tensor t) → K (.tensor u) →
      Call R K (Tensor.partialCmp cmp t u) (fun _ => [])
  -- closures
  | init {σ V : Type} {s} {f : Exec σ V} {st} :
      K (.shape s) → (∀ st, NoUB (f.run st)) →
      Call R K ((Tensor.init s f).run st) (fun r => [.tensor r.1])
  | initRindexed {σ V : Type} {s} {f : List Nat → Exec σ V} {st} :
      K (.shape s) → (∀ i st, NoUB ((f i).run st)) →
      Call R K ((Tensor.initRindexed s f).run st) (fun r => [.tensor r.1])
  | map {σ U V : Type} {a : Tensor U} {f : U → Exec σ V} {st} :
      K (.tensor a) → (∀ x st, NoUB ((f x).run st)) →
      Call R K ((a.map f).run st) (fun r => [.tensor r.1])
  | mapRow {σ U V : Type} {a : Tensor U} {N : Nat} {f : List U → Exec σ (Vector V N)} {st} :
      K (.tensor a) → (∀ x st, NoUB ((f x).run st)) →
      Call R K ((a.mapRow N f).run st) (fun r => [.tensor r.1])
  | mapExpand {σ U V : Type} {a : Tensor U} {N : Nat} {f : U → Exec σ (Vector V N)} {st} :
      K (.tensor a) → (∀ x st, NoUB ((f x).run st)) →
      Call R K ((a.mapExpand N f).run st) (fun r => [.tensor r.1])
  | map2 {σ T U V : Type} {a : Tensor T} {b : Tensor U} {f : T → U → Exec σ V} {st} :
      K (.tensor a) → K (.tensor b) → (∀ x y st, NoUB ((f x y).run st)) →
      Call R K ((a.map2 b f).run st) (fun r => [.tensor r.1])
  | map2Row {σ T U V : Type} {a : Tensor T} {b : Tensor U} {N : Nat} {f : List T → List U → Exec σ (Vector V N)} {st} :
      K (.tensor a) → K (.tensor b) →
      Call R K ((a.map2Row b N f).run st) (fun r => [.tensor r.1])
  | map2Expand {σ T U V : Type} {a : Tensor T} {b : Tensor U} {N : Nat} {f : T → U → Exec σ (Vector V N)} {st} :
      K (.tensor a) → K (.tensor b) →
      Call R K ((a.map2Expand b N f).run st) (fun r => [.tensor r.1])
  | map3 {σ T U V W : Type} {a : Tensor T} {b : Tensor U} {c : Tensor V} {f : T → U → V → Exec σ W} {st} :
      K (.tensor a) → K (.tensor b) → K (.tensor c) → (∀ x y z st, NoUB ((f x y z).run st)) →
      Call R K ((a.map3 b c f).run st) (fun r => [.tensor r.1])
  | fold {σ U S V : Type} {a : Tensor U} {i : S} {f : S → U → Exec σ S} {g : S → V} {st} :
      K (.tensor a) → (∀ x y st, NoUB ((f x y).run st)) →
      Call R K ((a.fold i f g).run st) (fun r => [.tensor r.1])
  | foldAxis {σ U S V : Type} {a : Tensor U} {axis} {i : S} {f : S → U → Exec σ S} {g : S → V} {st} :
      K (.tensor a) → (∀ x y st, NoUB ((f x y).run st)) →
      Call R K ((a.foldAxis axis i f g).run st) (fun r => [.tensor r.1])
  | foldRow {σ U S V : Type} {a : Tensor U} {axis} {N : Nat} {i : S} {f : S → List U → Exec σ S} {g : S → Vector V N} {st} :
      K (.tensor a) → (R.foldRow → N < 4294967296) → (∀ x y st, NoUB ((f x y).run st)) →
      Call R K ((a.foldRow axis N i f g).run st) (fun r => [.tensor r.1])
  | reduce {σ T : Type} {a : Tensor T} {f : T → T → Exec σ T} {st} :
      K (.tensor a) → (∀ x y st, NoUB ((f x y).run st)) →
      Call R K ((a.reduce f).run st) (fun r => [.tensor r.1])
  | reduceAxis {σ T : Type} {a : Tensor T} {axis} {f : T → T → Exec σ T} {st} :
      K (.tensor a) → (∀ x y st, NoUB ((f x y).run st)) →
      Call R K ((a.reduceAxis axis f).run st) (fun r => [.tensor r.1])
  | normalize {σ T S S1 V : Type} {a : Tensor T} {axis} {i : S} {f : S → T → Exec σ S} {c : S → Exec σ S1}
      {g : S1 → T → Exec σ V} {st} :
      K (.tensor a) → (∀ x y st, NoUB ((f x y).run st)) → (∀ x st, NoUB ((c x).run st)) →
      (∀ x y st, NoUB ((g x y).run st)) →
      Call R K ((a.normalize axis i f c g).run st) (fun r => [.tensor r.1])
  -- operators
  | binary {T U V : Type} {ar : Arith T U V} {op} {a : Tensor T} {b : Tensor U} :
      K (.tensor a) → K (.tensor b) → (∀ x y, NoUB (op.binop ar x y)) →
      Call R K (Tensor.binary ar op a b) (fun t => [.tensor t])
  | binaryScalar {T U V : Type} {ar : Arith T U V} {op} {a : Tensor T} {y : U} :
      K (.tensor a) → (∀ x y, NoUB (op.binop ar x y)) → Call R K (Tensor.binaryScalar ar op a y) (fun t => [.tensor t])
  | scalarBinary {T U V : Type} {ar : Arith T U V} {op} {x : T} {b : Tensor U} :
      K (.tensor b) → (∀ x y, NoUB (op.binop ar x y)) → Call R K (Tensor.scalarBinary ar op x b) (fun t => [.tensor t])
  | unary {T V : Type} {f : T → Res V} {a : Tensor T} :
      K (.tensor a) → (∀ x, NoUB (f x)) → Call R K (Tensor.unary f a) (fun t => [.tensor t])
  | square {T V : Type} {ar : Arith T T V} {a : Tensor T} :
      K (.tensor a) → (∀ x y, NoUB (ar.mul x y)) → Call R K (Tensor.square ar a) (fun t => [.tensor t])
  | min {T : Type} {le : T → T → Bool} {a b : Tensor T} :
      K (.tensor a) → K (.tensor b) → Call R K (Tensor.min le a b) (fun t => [.tensor t])
  | max {T : Type} {le : T → T → Bool} {a b : Tensor T} :
      K (.tensor a) → K (.tensor b) → Call R K (Tensor.max le a b) (fun t => [.tensor t])
  | absSub {T : Type} {f : T → T → Res T} {a b : Tensor T} :
      K (.tensor a) → K (.tensor b) → (∀ x y, NoUB (f x y)) → Call R K (Tensor.absSub f a b) (fun t => [.tensor t])
  | fill {V : Type} {s} {v : V} :
      K (.shape s) → Call R K (Tensor.fill s v) (fun t => [.tensor t])
  | zeros {V : Type} [Zero V] {s} :
      K (.shape s) → Call R K ((Tensor.zeros s : Res (Tensor V))) (fun t => [.tensor t])
  | ones {V : Type} [One V] {s} :
      K (.shape s) → Call R K ((Tensor.ones s : Res (Tensor V))) (fun t => [.tensor t])
  | initDefault {V : Type} {v : V} {s} :
      K (.shape s) → Call R K (Tensor.initDefault v s) (fun t => [.tensor t])
  -- array operations
  | transpose {α : Type} {t : Tensor α} :
      K (.tensor t) → Call R K (Tensor.transpose t) (fun t => [.tensor t])
  | split {α : Type} {t : Tensor α} {sec} : K (.tensor t) → Call R K (Tensor.split t sec) (fun us => us.map .tensor)
  | splitAxis {α : Type} {t : Tensor α} {axis sec} : K (.tensor t) → Call R K (Tensor.splitAxis t axis sec) (fun us => us.map .tensor)
  | vsplit {α : Type} {t : Tensor α} {sec} : K (.tensor t) → Call R K (Tensor.vsplit t sec) (fun us => us.map .tensor)
  | hsplit {α : Type} {t : Tensor α} {sec} : K (.tensor t) → Call R K (Tensor.hsplit t sec) (fun us => us.map .tensor)
  | dsplit {α : Type} {t : Tensor α} {sec} : K (.tensor t) → Call R K (Tensor.dsplit t sec) (fun us => us.map .tensor)
  | unstack {α : Type} {t : Tensor α} {axis} : K (.tensor t) → Call R K (Tensor.unstack t axis) (fun us => us.map .tensor)
  | concatenate {α : Type} {ts : List (Tensor α)}  :
      (∀ u ∈ ts, K (.tensor u)) → Call R K (Tensor.concatenate ts) (fun t => [.tensor t])
  | concatenateAxis {α : Type} {ts : List (Tensor α)} {axis} :
      (∀ u ∈ ts, K (.tensor u)) → Call R K (Tensor.concatenateAxis axis ts) (fun t => [.tensor t])
  | stackVec {α : Type} {ts : List (Tensor α)} {axis} :
      (∀ u ∈ ts, K (.tensor u)) → Call R K (Tensor.stackVec axis ts) (fun t => [.tensor t])
  | stack {α : Type} {ts : List (Tensor α)}  :
      (∀ u ∈ ts, K (.tensor u)) → Call R K (Tensor.stack ts) (fun t => [.tensor t])
  | hstack {α : Type} {ts : List (Tensor α)}  :
      (∀ u ∈ ts, K (.tensor u)) → Call R K (Tensor.hstack ts) (fun t => [.tensor t])
  | dstack {α : Type} {ts : List (Tensor α)}  :
      (∀ u ∈ ts, K (.tensor u)) → Call R K (Tensor.dstack ts) (fun t => [.tensor t])
  | vstack {α : Type} {ts : List (Tensor α)}  :
      (∀ u ∈ ts, K (.tensor u)) → Call R K (Tensor.vstack ts) (fun t => [.tensor t])
  | tile {α : Type} {t : Tensor α} {m : Tensor Nat} :
      K (.tensor t) → K (.tensor m) → (R.tile → m.shape.rank = 1) → Call R K (Tensor.tile t m) (fun t => [.tensor t])
  -- initialisers
  | arange {F : Type} {fo : FOps F} {fuel a b c x} :
      Init.arange fo fuel a b c = some x → Call R K (x) (fun t => [.tensor t])
  | linspace {F : Type} {fo : FOps F} {a b : Tensor F} {n} :
      K (.tensor a) → K (.tensor b) → Call R K (Init.linspace fo a b n) (fun t => [.tensor t])
  | logspaceOpt {F : Type} {fo : FOps F} {a b : Tensor F} {n o} :
      K (.tensor a) → K (.tensor b) → Call R K (Init.logspaceOpt fo a b n o) (fun t => [.tensor t])
  | logspace {F : Type} {fo : FOps F} {a b : Tensor F} {n} :
      K (.tensor a) → K (.tensor b) → Call R K (Init.logspace fo a b n) (fun t => [.tensor t])
  | geomspace {F : Type} {fo : FOps F} {a b : Tensor F} {n} :
      K (.tensor a) → K (.tensor b) → Call R K (Init.geomspace fo a b n) (fun t => [.tensor t])
  | oneHot {F : Type} {fo : FOps F} {l n} :
      Call R K (Init.oneHot fo l n) (fun t => [.tensor t])
  | eye {α : Type} [Zero α] [One α] {n} :
      Call R K ((Init.eye n : Res (Tensor α))) (fun t => [.tensor t])
  | identity {α : Type} [Zero α] [One α] {n} :
      Call R K ((Init.identity n : Res (Tensor α))) (fun t => [.tensor t])
  | tri {α : Type} [Zero α] [One α] {n} :
      Call R K ((Init.tri n : Res (Tensor α))) (fun t => [.tensor t])
  | diagflat {α : Type} [Zero α] {t : Tensor α} :
      K (.tensor t) → Call R K (Init.diagflat t) (fun t => [.tensor t])
  | tril {α : Type} [Zero α] {t : Tensor α} :
      K (.tensor t) → Call R K (Init.tril t) (fun t => [.tensor t])
  | triu {α : Type} [Zero α] {t : Tensor α} :
      K (.tensor t) → Call R K (Init.triu t) (fun t => [.tensor t])
  | meshgrid {α : Type} {ts : List (Tensor α)} : (∀ u ∈ ts, K (.tensor u)) → Call R K (Init.meshgrid ts) (fun us => us.map .tensor)
  | meshgridIJ {α : Type} {ts : List (Tensor α)} : (∀ u ∈ ts, K (.tensor u)) → Call R K (Init.meshgridIJ ts) (fun us => us.map .tensor)
  | mgrid {F : Type} {fo : FOps F} {M N} : Call R K (Init.mgrid fo M N) (fun us => us.map .tensor)
  | randomNormal {F : Type} {fr : FRand F} {s opt tid p} : K (.shape s) → Call R K (Random.randomNormal fr s opt tid p) (fun r => [.tensor r.1])
  | randomUniform {F : Type} {fr : FRand F} {s opt tid p} : K (.shape s) → Call R K (Random.randomUniform fr s opt tid p) (fun r => [.tensor r.1])
  -- linear algebra
  | matmul {F : Type} {bl : Linalg.Blas F} {a b : Tensor F} {tr} :
      K (.tensor a) → K (.tensor b) →
      (R.matmul → ∀ A B r c r' c', a.shape.asVec = .ok (A ++ [r, c]) → b.shape.asVec = .ok (B ++ [r', c']) → A.prod ≤ B.prod) →
      Call R K (Linalg.matmulT bl a b tr) (fun t => [.tensor t])
  | matvec {F : Type} {bl : Linalg.Blas F} {a b : Tensor F} {tr} :
      K (.tensor a) → K (.tensor b) → Call R K (Linalg.matvecT bl a b tr) (fun t => [.tensor t])
  -- statistics
  | reduceHypot {F : Type} {fo : FOps F} {a : Tensor F} :
      K (.tensor a) → Call R K (Stats.reduceHypot fo a) (fun t => [.tensor t])
  | reduceMin {F : Type} {fo : FOps F} {a : Tensor F} :
      K (.tensor a) → Call R K (Stats.reduceMin fo a) (fun t => [.tensor t])
  | reduceMax {F : Type} {fo : FOps F} {a : Tensor F} :
      K (.tensor a) → Call R K (Stats.reduceMax fo a) (fun t => [.tensor t])
  | reduceMean {F : Type} {fo : FOps F} {a : Tensor F} :
      K (.tensor a) → Call R K (Stats.reduceMean fo a) (fun t => [.tensor t])
  | reduceStd {F : Type} {fo : FOps F} {a : Tensor F} :
      K (.tensor a) → Call R K (Stats.reduceStd fo a) (fun t => [.tensor t])
  | reduceVariance {F : Type} {fo : FOps F} {a : Tensor F} :
      K (.tensor a) → Call R K (Stats.reduceVariance fo a) (fun t => [.tensor t])
  | reduceMinAxis {F : Type} {fo : FOps F} {a : Tensor F} {axis} :
      K (.tensor a) → Call R K (Stats.reduceMinAxis fo a axis) (fun t => [.tensor t])
  | reduceMaxAxis {F : Type} {fo : FOps F} {a : Tensor F} {axis} :
      K (.tensor a) → Call R K (Stats.reduceMaxAxis fo a axis) (fun t => [.tensor t])
  | reduceMeanAxis {F : Type} {fo : FOps F} {a : Tensor F} {axis} :
      K (.tensor a) → Call R K (Stats.reduceMeanAxis fo a axis) (fun t => [.tensor t])
  | reduceStdAxis {F : Type} {fo : FOps F} {a : Tensor F} {axis} :
      K (.tensor a) → Call R K (Stats.reduceStdAxis fo a axis) (fun t => [.tensor t])
  | reduceVarianceAxis {F : Type} {fo : FOps F} {a : Tensor F} {axis} :
      K (.tensor a) → Call R K (Stats.reduceVarianceAxis fo a axis) (fun t => [.tensor t])
  | reduceOp {T : Type} {op : T → T → Res T} {a : Tensor T} :
      K (.tensor a) → (∀ x y, NoUB (op x y)) → Call R K (Stats.reduceOp op a) (fun t => [.tensor t])
  | reduceOpAxis {T : Type} {op : T → T → Res T} {a : Tensor T} {axis} :
      K (.tensor a) → (∀ x y, NoUB (op x y)) → Call R K (Stats.reduceOpAxis op a axis) (fun t => [.tensor t])
  | normalizeUnit {F : Type} {fs : FStat F} {a : Tensor F} :
      K (.tensor a) → Call R K (Stats.normalizeUnit fs a) (fun t => [.tensor t])
  | histogram {F : Type} {fs : FStat F} {a : Tensor F} {n} : K (.tensor a) →
      Call R K (Stats.histogram fs a n) (fun r => [.tensor r.1, .tensor r.2])
  | histogram2d {F : Type} {fs : FStat F} {a : Tensor F} {n} : K (.tensor a) →
      Call R K (Stats.histogram2d fs a n) (fun r => [.tensor r.1, .tensor r.2.1, .tensor r.2.2])
  -- input and signals
  | decodeWav {F : Type} {fo : FOps F} {ofInt} {c : Tensor (BitVec 8)} : K (.tensor c) →
      Call R K (Io.decodeWav fo ofInt c) (fun r => [.tensor r.1, .tensor r.2])
  | readFile {fs} {name : Tensor String} : K (.tensor name) →
      Call R K (Io.readFile fs name) (fun r => match r with | .ok t => [.tensor t] | .error _ => [])
  | rfftNorm {F : Type} {fo : FFft F} {a : Tensor F} {l} :
      K (.tensor a) → (∀ l, (fo.fft l).length = l.length) → Call R K (Signal.rfftNorm fo a l) (fun t => [.tensor t])
  | frame {α : Type} {a : Tensor α} {l s} :
      K (.tensor a) → Call R K (Signal.frame a l s) (fun t => [.tensor t])
  | sliceUsize {α : Type} {a : Tensor α} {i} :
      K (.tensor a) → Call R K (Signal.sliceUsize i a) (fun t => [.tensor t])
  | slicePair {α : Type} {a : Tensor α} {i j} :
      K (.tensor a) → Call R K (Signal.slicePair i j a) (fun t => [.tensor t])

/-- The objects a program keeping to the rules `R` can hold after at most `n` calls that returned. -/
def After (R : Rules) : Nat → Obj → Prop
  | 0, _ => False
  | n + 1, o => After R n o ∨
      ∃ (α : Type) (x : Res α) (outs : α → List Obj) (r : α), Call R (After R n) x outs ∧ x = .ok r ∧ o ∈ outs r

end Essay
