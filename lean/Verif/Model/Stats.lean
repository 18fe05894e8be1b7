import Verif.Model.Map
import Verif.Model.Ops
import Verif.Model.From
import Verif.Model.Init

/-!
# Model of `src/math/reduce.rs`, `src/math/normalize.rs` and `src/stats/{histogram,histogram2d}.rs`
-/

namespace Essay

variable [Build]

/-- Further float operations: `T::max_value()`, `T::min_value()`, `f32::EPSILON` and `x.floor() as usize` (the cast sends
NaN and negative values to 0 and saturates). Not from /repo. -/
structure FStat (F : Type) extends FOps F where
  maxValue : F
  minValue : F
  epsilon : F
  floorUsize : F → Nat

namespace Stats

open Tensor

variable {F T : Type}

/-- `Float::is_nan`: a value that is not equal to itself. Not from /repo. -/
def isNan (fo : FOps F) (x : F) : Bool := !fo.eq x x

/-- `Float::min` of the standard library: the other argument if one is NaN, else the smaller. Simplification: of two
equal arguments (such as the two zeros, where the documentation leaves the choice open) it returns the second. Not from
/repo. -/
def fmin (fo : FOps F) (a b : F) : F :=
  if isNan fo a then b else if isNan fo b then a else if fo.lt a b then a else b

/-- `Float::max` of the standard library, see `fmin`. Not from /repo. -/
def fmax (fo : FOps F) (a b : F) : F :=
  if isNan fo a then b else if isNan fo b then a else if fo.lt b a then a else b

/-- `Tensor::reduce_hypot`, reduce.rs:8-10 with `Hypot`, 76-99. -/
def reduceHypot (fo : FOps F) (t : Tensor F) : Res (Tensor F) :=
  runPure (t.fold fo.zero (fun s v => (pure (fo.add s (fo.mul v v)) : Exec Unit F)) fo.sqrt)

/-- `Tensor::reduce_min`, reduce.rs:14-16. -/
def reduceMin (fo : FOps F) (t : Tensor F) : Res (Tensor F) :=
  runPure (t.reduce fun s v => (pure (fmin fo s v) : Exec Unit F))

/-- `Tensor::reduce_min_axis`, reduce.rs:18-20. -/
def reduceMinAxis (fo : FOps F) (t : Tensor F) (axis : Axis) : Res (Tensor F) :=
  runPure (t.reduceAxis axis fun s v => (pure (fmin fo s v) : Exec Unit F))

/-- `Tensor::reduce_max`, reduce.rs:22-24. -/
def reduceMax (fo : FOps F) (t : Tensor F) : Res (Tensor F) :=
  runPure (t.reduce fun s v => (pure (fmax fo s v) : Exec Unit F))

/-- `Tensor::reduce_max_axis`, reduce.rs:26-28. -/
def reduceMaxAxis (fo : FOps F) (t : Tensor F) (axis : Axis) : Res (Tensor F) :=
  runPure (t.reduceAxis axis fun s v => (pure (fmax fo s v) : Exec Unit F))

/-- `Mean`, reduce.rs:101-105. -/
structure Mean (F : Type) where
  n : Nat
  sum : F

/-- `Mean::default` (derived). -/
def Mean.default (fo : FOps F) : Mean F := ⟨0, fo.zero⟩

/-- `Mean::update`, reduce.rs:107-114. -/
def Mean.update (fo : FOps F) (s : Mean F) (value : F) : Mean F := ⟨s.n + 1, fo.add s.sum value⟩

/-- `Mean::into_result`, reduce.rs:116-122. -/
def Mean.intoResult (fo : FOps F) (s : Mean F) : F := fo.div s.sum (fo.ofNat (max s.n 1))

/-- `Std` and `Var`, reduce.rs:124-129, 174-179 (the same fields). -/
structure Var (F : Type) where
  k : Nat
  m : F
  s : F

/-- `Std::default` and `Var::default`, reduce.rs:153-161, 174 (derived). -/
def Var.default (fo : FOps F) : Var F := ⟨0, fo.zero, fo.zero⟩

/-- `Std::update` and `Var::update`, reduce.rs:131-151, 181-203 (the same code). -/
def Var.update (fo : FOps F) (v : Var F) (x : F) : Var F :=
  if v.k = 0 then ⟨1, x, fo.zero⟩
  else
    let k := v.k + 1
    let m := fo.add v.m (fo.div (fo.sub x v.m) (fo.ofNat k))
    ⟨k, m, fo.add v.s (fo.mul (fo.sub x v.m) (fo.sub x m))⟩

/-- `Std::into_result`, reduce.rs:163-172. -/
def Var.intoStd (fo : FOps F) (v : Var F) : F := if v.k > 1 then fo.sqrt (fo.div v.s (fo.ofNat v.k)) else fo.zero

/-- `Var::into_result`, reduce.rs:205-213. -/
def Var.intoVar (fo : FOps F) (v : Var F) : F := if v.k > 1 then fo.div v.s (fo.ofNat v.k) else fo.zero

/-- `Tensor::reduce_mean`, reduce.rs:32-34. -/
def reduceMean (fo : FOps F) (t : Tensor F) : Res (Tensor F) :=
  runPure (t.fold (Mean.default fo) (fun s v => (pure (s.update fo v) : Exec Unit (Mean F))) (Mean.intoResult fo))

/-- `Tensor::reduce_mean_axis`, reduce.rs:36-38. -/
def reduceMeanAxis (fo : FOps F) (t : Tensor F) (axis : Axis) : Res (Tensor F) :=
  runPure (t.foldAxis axis (Mean.default fo) (fun s v => (pure (s.update fo v) : Exec Unit (Mean F)))
    (Mean.intoResult fo))

/-- `Tensor::reduce_std`, reduce.rs:40-42. -/
def reduceStd (fo : FOps F) (t : Tensor F) : Res (Tensor F) :=
  runPure (t.fold (Var.default fo) (fun s v => (pure (s.update fo v) : Exec Unit (Var F))) (Var.intoStd fo))

/-- `Tensor::reduce_std_axis`, reduce.rs:44-46. -/
def reduceStdAxis (fo : FOps F) (t : Tensor F) (axis : Axis) : Res (Tensor F) :=
  runPure (t.foldAxis axis (Var.default fo) (fun s v => (pure (s.update fo v) : Exec Unit (Var F))) (Var.intoStd fo))

/-- `Tensor::reduce_variance`, reduce.rs:48-50. -/
def reduceVariance (fo : FOps F) (t : Tensor F) : Res (Tensor F) :=
  runPure (t.fold (Var.default fo) (fun s v => (pure (s.update fo v) : Exec Unit (Var F))) (Var.intoVar fo))

/-- `Tensor::reduce_variance_axis`, reduce.rs:52-54. -/
def reduceVarianceAxis (fo : FOps F) (t : Tensor F) (axis : Axis) : Res (Tensor F) :=
  runPure (t.foldAxis axis (Var.default fo) (fun s v => (pure (s.update fo v) : Exec Unit (Var F))) (Var.intoVar fo))

/-- `Tensor::reduce_sum` and `Tensor::reduce_product`, reduce.rs:58-60, 67-69; `op` is the `+` or `*` of the element
type (which may panic on overflow). -/
def reduceOp (op : T → T → Res T) (t : Tensor T) : Res (Tensor T) :=
  runPure (t.reduce fun s v => (liftM (op s v) : Exec Unit T))

/-- `Tensor::reduce_sum_axis` and `Tensor::reduce_product_axis`, reduce.rs:61-63, 71-73. -/
def reduceOpAxis (op : T → T → Res T) (t : Tensor T) (axis : Axis) : Res (Tensor T) :=
  runPure (t.reduceAxis axis fun s v => (liftM (op s v) : Exec Unit T))

/-- `NormalizeUnit`, normalize.rs:17-21. -/
structure NormalizeUnit (F : Type) where
  min : F
  max : F

/-- `NormalizeUnit::default`, normalize.rs:36-42. -/
def NormalizeUnit.default (fs : FStat F) : NormalizeUnit F := ⟨fs.maxValue, fs.minValue⟩

/-- `NormalizeUnit::update`, normalize.rs:24-29. -/
def NormalizeUnit.update (fo : FOps F) (s : NormalizeUnit F) (v : F) : NormalizeUnit F :=
  ⟨fmin fo s.min v, fmax fo s.max v⟩

/-- `NormalizeUnit::norm`, normalize.rs:31-33. -/
def NormalizeUnit.norm (fo : FOps F) (s : NormalizeUnit F) (v : F) : F :=
  fo.div (fo.sub v s.min) (fo.sub s.max s.min)

/-- `Tensor::normalize_unit`, normalize.rs:5-15. -/
def normalizeUnit (fs : FStat F) (t : Tensor F) : Res (Tensor F) :=
  runPure (t.normalize none (NormalizeUnit.default fs)
    (fun s v => (pure (s.update fs.toFOps v) : Exec Unit (NormalizeUnit F))) (fun s => pure s)
    (fun s v => pure (s.norm fs.toFOps v)))

/-- The bin width, histogram.rs:10-14, histogram2d.rs:15-25. -/
def binWidth (fs : FStat F) (min max : F) (nBins : Nat) : F :=
  if fs.eq min max then fs.epsilon else fs.div (fs.sub max min) (fs.ofNat nBins)

/-- The loop body of `histogram`, histogram.rs:22-28. -/
def histStep (fs : FStat F) (min delta : F) (nBins : Nat) (item : F) (values : List F) : Res (List F) := do
  let bin := fs.floorUsize (fs.div (fs.sub item min) delta)
  let bin ← if bin < nBins then pure bin else usub nBins 1
  let v ← idx values bin
  setIdx values bin (fs.add v fs.one)

/-- `histogram`, histogram.rs:3-32, with the number of bins from `HistArgs` (34-72: at least 1, default 10). -/
def histogram (fs : FStat F) (data : Tensor F) (nBins : Nat) : Res (Tensor F × Tensor F) := do
  ensure (nBins > 0)
  ensure (data.shape.rank = 1)
  let min ← reduceMin fs.toFOps data
  let min ← min.index1 0
  let max ← reduceMax fs.toFOps data
  let max ← max.index1 0
  let delta := binWidth fs min max nBins
  let start ← Tensor.fromScalar min
  let stop ← Tensor.fromScalar max
  let bins ← Init.linspace fs.toFOps start stop (nBins + 1)
  let items ← data.asSlice
  let values ← forL items (List.replicate nBins fs.zero) fun item values => histStep fs min delta nBins item values
  let values ← Tensor.ofVec1 values
  return (values, bins)

/-- The loop body of `histogram2d`, histogram2d.rs:33-38. -/
def hist2dStep (fs : FStat F) (minX minY deltaX deltaY : F) (nBins : Nat) (item values : List F) : Res (List F) := do
  let x ← idx item 0
  let y ← idx item 1
  let last ← usub nBins 1
  let binX := min (fs.floorUsize (fs.div (fs.sub x minX) deltaX)) last
  let binY := min (fs.floorUsize (fs.div (fs.sub y minY) deltaY)) last
  let v ← idx values (binY * nBins + binX)
  setIdx values (binY * nBins + binX) (fs.add v fs.one)

/-- The part of `histogram2d` after the minima and maxima are read, histogram2d.rs:15-45. -/
def hist2dRest (fs : FStat F) (data : Tensor F) (minX minY maxX maxY : F) (nBins : Nat) :
    Res (Tensor F × Tensor F × Tensor F) := do
  let deltaX := binWidth fs minX maxX nBins
  let deltaY := binWidth fs minY maxY nBins
  let startX ← Tensor.fromScalar minX
  let stopX ← Tensor.fromScalar maxX
  let binsX ← Init.linspace fs.toFOps startX stopX (nBins + 1)
  let startY ← Tensor.fromScalar minY
  let stopY ← Tensor.fromScalar maxY
  let binsY ← Init.linspace fs.toFOps startY stopY (nBins + 1)
  let rows ← data.iterRow
  let values ← forL rows (List.replicate (nBins * nBins) fs.zero) fun item values =>
    hist2dStep fs minX minY deltaX deltaY nBins item values
  let values ← Tensor.ofVec1 values
  let shape ← Shape.ofSlice [nBins, nBins]
  let values ← values.reshape shape
  return (values, binsX, binsY)

/-- `histogram2d`, histogram2d.rs:3-46, with the number of bins from `Hist2Args` (48-86: at least 1, default 10). -/
def histogram2d (fs : FStat F) (data : Tensor F) (nBins : Nat) : Res (Tensor F × Tensor F × Tensor F) := do
  ensure (nBins > 0)
  ensure (data.shape.rank = 2)
  let cols ← data.shape.cols
  ensure (cols = 2)
  let min ← reduceMin fs.toFOps data
  let max ← reduceMax fs.toFOps data
  let minX ← min.index1 0
  let minY ← min.index1 1
  let maxX ← max.index1 0
  let maxY ← max.index1 1
  hist2dRest fs data minX minY maxX maxY nBins

end Stats

end Essay
