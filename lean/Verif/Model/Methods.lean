import Verif.Model.Array
import Verif.Model.From
import Verif.Model.Init
import Verif.Model.Stats
import Verif.Model.Random

/-!
# Model of method forms, argument conversions and option structs

The methods that gather their operands and call a free function (`stack.rs`, `init/matrix.rs`, `init/vector.rs`), the
conversions of arguments (`split.rs`, `axis.rs`, `vector.rs`) and the option structs of the histograms. An argument of
type `impl IntoTensorList<T>` is a list of items with the conversion `conv` of one item to a tensor (`Model/From`).
-/

namespace Essay

variable [Build]

variable {α β F : Type}

namespace Tensor

/-- `Tensor::concatenate`, stack.rs:101-108. -/
def concatenateM (conv : β → Res (Tensor α)) (self : Tensor α) (others : List β) : Res (Tensor α) := do
  let vec ← intoListWith conv others [self]
  concatenate vec

/-- `Tensor::concatenate_axis`, stack.rs:110-120. -/
def concatenateAxisM (conv : β → Res (Tensor α)) (self : Tensor α) (axis : Axis) (others : List β) :
    Res (Tensor α) := do
  let vec ← intoListWith conv others [self]
  concatenateAxis axis vec

/-- `Tensor::stack`, stack.rs:122-129. -/
def stackM (conv : β → Res (Tensor α)) (self : Tensor α) (others : List β) (axis : Axis) : Res (Tensor α) := do
  let vec ← intoListWith conv others [self]
  stackVec axis vec

/-- `Tensor::dstack`, stack.rs:131-138. -/
def dstackM (conv : β → Res (Tensor α)) (self : Tensor α) (others : List β) : Res (Tensor α) := do
  let vec ← intoListWith conv others [self]
  dstack vec

/-- `Tensor::vstack`, stack.rs:140-149. -/
def vstackM (conv : β → Res (Tensor α)) (self : Tensor α) (others : List β) : Res (Tensor α) := do
  let vec ← intoListWith conv others [self]
  vstack vec

/-- The free function `stack_axis`, stack.rs:47-56. -/
def stackAxisF (conv : β → Res (Tensor α)) (axis : Axis) (x : List β) : Res (Tensor α) := do
  let vec ← intoListWith conv x []
  stackVec axis vec

/-- The free function `dstack`, stack.rs:58-67. -/
def dstackF (conv : β → Res (Tensor α)) (x : List β) : Res (Tensor α) := do
  let vec ← intoListWith conv x []
  dstack vec

/-- The free function `vstack`, stack.rs:86-95. -/
def vstackF (conv : β → Res (Tensor α)) (x : List β) : Res (Tensor α) := do
  let vec ← intoListWith conv x []
  vstack vec

/-- `impl IntoSections for usize`, split.rs:139-143. -/
def sectionsOfUsize (n : Nat) : Sections := .splitEqual n

/-- `impl IntoSections` for `[usize; N]`, `&[usize]`, `Vec<usize>`, `&Vec<usize>`, split.rs:145-167. -/
def sectionsOfCuts (cuts : List Nat) : Sections := .splitCuts cuts

/-- `Tensor::meshgrid`, init/matrix.rs:43-45. -/
def meshgridM (self other : Tensor α) : Res (List (Tensor α)) := Init.meshgrid [self, other]

/-- `Tensor::meshgrid_ij`, init/matrix.rs:48-50. -/
def meshgridIJM (self other : Tensor α) : Res (List (Tensor α)) := Init.meshgridIJ [self, other]

/-- `Tensor::linspace`, init/vector.rs:223-225. -/
def linspaceM (fo : FOps F) (self stop : Tensor F) (len : Nat) : Res (Tensor F) := Init.linspace fo self stop len

/-- `Tensor::logspace`, init/vector.rs:175-177. -/
def logspaceM (fo : FOps F) (self stop : Tensor F) (len : Nat) : Res (Tensor F) := Init.logspace fo self stop len

/-- `Tensor::geomspace`, init/vector.rs:227-229. -/
def geomspaceM (fo : FOps F) (self stop : Tensor F) (len : Nat) : Res (Tensor F) := Init.geomspace fo self stop len

end Tensor

namespace Init

/-- `Logspace { base: Option<f32> }`, init/vector.rs:180-183; `#[derive(Default)]` gives `None`. -/
structure Logspace (F : Type) where
  base : Option F

/-- `Logspace::default`, init/vector.rs:180. -/
def Logspace.default : Logspace F := ⟨none⟩
/-- `Logspace::base`, init/vector.rs:186-190, and `From<f32>`, init/vector.rs:201-205. -/
def Logspace.ofBase (base : F) : Logspace F := ⟨some base⟩
/-- `From<Option<f32>>`, init/vector.rs:193-199. -/
def Logspace.ofOption (base : Option F) : Logspace F := ⟨base⟩

/-- `logspace_opt` on the option struct, init/vector.rs:138-172. -/
def logspaceWith (fo : FOps F) (start stop : Tensor F) (len : Nat) (opt : Logspace F) : Res (Tensor F) :=
  logspaceOpt fo start stop len opt.base

end Init

namespace Stats

/-- `HistArgs`, histogram.rs:34-36, and `Hist2Args`, histogram2d.rs:48-50 (the same field and functions). -/
structure HistArgs where
  nBins : Nat
  deriving DecidableEq

/-- `HistArgs::default`, histogram.rs:53-57, histogram2d.rs:67-71; `HistArgs::new`, histogram.rs:39-41, histogram2d.rs:53-55;
`From<()>`, histogram.rs:61-63, histogram2d.rs:75-77. -/
def HistArgs.default : HistArgs := ⟨10⟩

/-- `HistArgs::n_bins`, histogram.rs:43-49, histogram2d.rs:57-63. -/
def HistArgs.withBins (self : HistArgs) (nBins : Nat) : Res HistArgs := do
  ensure (nBins > 0)
  return { self with nBins }

/-- `From<usize>`, histogram.rs:67-71, histogram2d.rs:81-85. -/
def HistArgs.ofUsize (nBins : Nat) : Res HistArgs := do
  ensure (nBins > 0)
  HistArgs.default.withBins nBins

/-- A chain of calls of `n_bins` on a struct. Not from /repo: user code. -/
def HistArgs.chain (self : HistArgs) (calls : List Nat) : Res HistArgs :=
  forL calls self fun n a => a.withBins n

/-- `histogram` with its option struct, histogram.rs:3-32. -/
def histogramWith (fs : FStat F) (data : Tensor F) (args : HistArgs) : Res (Tensor F × Tensor F) :=
  histogram fs data args.nBins

/-- `histogram(data, n)`, histogram.rs:3, 67-71. -/
def histogramUsize (fs : FStat F) (data : Tensor F) (n : Nat) : Res (Tensor F × Tensor F) := do
  let args ← HistArgs.ofUsize n
  histogramWith fs data args

end Stats

end Essay
