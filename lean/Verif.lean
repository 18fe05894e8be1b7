import Verif.Base.Res
import Verif.Model.Shape
import Verif.Model.Axis
import Verif.Model.Tensor
import Verif.Model.Map
import Verif.Model.Array
import Verif.Spec.Shape
import Verif.Spec.Tensor
import Verif.Spec.Map
import Verif.Spec.Array
import Verif.Lemmas.Base
import Verif.Lemmas.Exec
import Verif.Lemmas.Shape
import Verif.Lemmas.Tensor
import Verif.Lemmas.Map
import Verif.Lemmas.Fold
import Verif.Lemmas.Perm
import Verif.Lemmas.Array
import Verif.Lemmas.Split
import Verif.Lemmas.Tile
import Verif.Props.Shape
import Verif.Props.Tensor
import Verif.Props.Map
import Verif.Props.Fold
import Verif.Props.Rejects
import Verif.Props.ShapeQuery
import Verif.Props.Threads
import Verif.Props.Wrappers
import Verif.Props.Array
import Verif.Model.Ops
import Verif.Model.From
import Verif.Spec.Ops
import Verif.Lemmas.From
import Verif.Props.Ops
import Verif.Props.From
import Verif.Model.Float
import Verif.Model.Init
import Verif.Spec.Float
import Verif.Lemmas.Init
import Verif.Props.Init
import Verif.Props.Space
import Verif.Model.Linalg
import Verif.Spec.Linalg
import Verif.Lemmas.Linalg
import Verif.Lemmas.Loose
import Verif.Lemmas.Matvec
import Verif.Props.Linalg
import Verif.Props.Matvec
import Verif.Model.Stats
import Verif.Spec.Stats
import Verif.Lemmas.Stats
import Verif.Props.Stats
import Verif.Model.Random
import Verif.Spec.Random
import Verif.Lemmas.Random
import Verif.Props.Random
import Verif.Props.RandomMore
import Verif.Model.Io
import Verif.Spec.Io
import Verif.Lemmas.Io
import Verif.Props.Io
import Verif.Model.Sharing
import Verif.Model.Signal
import Verif.Spec.Signal
import Verif.Lemmas.Signal
import Verif.Props.Sharing
import Verif.Props.Signal
import Verif.Model.Heap
import Verif.Spec.Heap
import Verif.Lemmas.Heap
import Verif.Props.Heap
import Verif.Model.Fmt
import Verif.Spec.Fmt
import Verif.Props.Fmt
import Verif.Model.Opt
import Verif.Spec.Opt
import Verif.Props.Opt
import Verif.Model.Release
import Verif.Props.Release
import Verif.Spec.Reach
import Verif.Lemmas.Reach
import Verif.Lemmas.Safe
import Verif.Lemmas.SafeOps
import Verif.Lemmas.SafeMap
import Verif.Lemmas.SafeArray
import Verif.Lemmas.SafeRest
import Verif.Lemmas.SafeCall
import Verif.Props.Reach
import Verif.Model.Math
import Verif.Spec.Math
import Verif.Spec.Sums
import Verif.Props.Math
import Verif.Props.Sums
import Verif.Spec.Ieee
import Verif.Lemmas.Ieee
import Verif.Props.Rounding
import Verif.Model.Methods
import Verif.Spec.Methods
import Verif.Props.Methods
import Verif.Model.Macro
import Verif.Props.Macro
import Verif.Spec.Fp
import Verif.Lemmas.Fp
import Verif.Props.Special
import Verif.Spec.Library
import Verif.Props.Library
import Verif.Props.Bounds
import Verif.Spec.Laws
import Verif.Lemmas.Laws
import Verif.Props.Laws
import Verif.Props.Structure
import Verif.Props.Algebra
import Verif.Lemmas.Rearrange
import Verif.Props.Consistency
import Verif.Tests.Basic
import Verif.Tests.Shape
import Verif.Tests.Tensor
import Verif.Props.Axes
import Verif.Props.Edges
import Verif.Props.Limits
import Verif.Model.Alloc
import Verif.Props.Alloc
import Verif.Spec.Fourier
import Verif.Lemmas.Fourier
import Verif.Props.Fourier
import Verif.Props.Twin
import Verif.Props.Readable
import Verif.Model.Clones
import Verif.Spec.Clones
import Verif.Lemmas.Clones
import Verif.Props.Clones
import Verif.Spec.Whole
import Verif.Props.Whole
import Verif.Props.Draws
import Verif.Spec.Build
import Verif.Lemmas.Build
import Verif.Lemmas.BuildModel
import Verif.Lemmas.BuildCalls
import Verif.Props.Build
import Verif.Model.CloneFold
import Verif.Spec.CloneFold
import Verif.Lemmas.CloneFold
import Verif.Props.CloneFold
import Verif.Props.FoldRow
import Verif.Model.Unwind
import Verif.Spec.Unwind
import Verif.Lemmas.Unwind
import Verif.Lemmas.UnwindCopy
import Verif.Props.Unwind
import Verif.Props.Hist2d
import Verif.Props.Tile
import Verif.Props.Split
import Verif.Props.Histogram
import Verif.Props.Batch
import Verif.Props.Grids
import Verif.Tests.Map
import Verif.Tests.Array
import Verif.Tests.Numeric
import Verif.Tests.Random
import Verif.Tests.Heap
import Verif.Props.TileActual
import Verif.Model.Map2Row
import Verif.Props.Map2Row
import Verif.Props.Diagonal
import Verif.Props.Spaces
