import Verif.Model.Tensor
import Verif.Model.Float

/-!
# Model of `src/linalg/{blas,blas_naive,matmul,matvec}.rs`

A raw pointer is a buffer together with a position in it; reads and writes outside the buffer are `ub`, and so is making
a pointer past its end (`rawAdd`). The pointers made inside `sgemm` are all read or written.
-/

namespace Essay

variable [Build]

namespace Linalg

variable {F : Type}

/-- `sgemm_naive`, blas_naive.rs:2-36 (with `beta == 0`). `(a, pa)`, `(b, pb)` are the operand pointers, `(c, pc)` the
result. -/
def sgemmNaive (fo : FOps F) (m k n : Nat) (alpha : F) (a : List F) (pa rsa csa : Nat) (b : List F) (pb rsb csb : Nat)
    (c : Buf F) (pc rsc csc : Nat) : Res (Buf F) :=
  forR 0 m c fun i c =>
    forR 0 n c fun j c => do
      let v ← forR 0 k fo.zero fun l v => do
        let x ← rawRead a (pa + (rsa * i + csa * l))
        let y ← rawRead b (pb + (rsb * l + csb * j))
        return fo.add v (fo.mul x y)
      c.write (pc + (rsc * i + csc * j)) (fo.mul alpha v)

/-- How a matrix library computes one entry: from the sizes `m`, `k`, `n`, the position `i`, `j` (blocking and edge
handling may depend on them), the factor `alpha` and the list of factors. -/
abbrev Kernel (F : Type) := (m k n i j : Nat) → F → List (F × F) → F

/-- The contract of `matrixmultiply::sgemm` (with `beta == 0`), an external crate whose source is not modelled: it reads
the elements of the operands and nothing else, writes every entry of the result and nothing else, and each entry depends
only on its row and its column. The order in which it adds is left open: any `ke`. -/
def sgemmLibrary (ke : Kernel F) (m k n : Nat) (alpha : F) (a : List F) (pa rsa csa : Nat) (b : List F)
    (pb rsb csb : Nat) (c : Buf F) (pc rsc csc : Nat) : Res (Buf F) :=
  forR 0 m c fun i c =>
    forR 0 n c fun j c => do
      let ps ← forR 0 k [] fun l ps => do
        let x ← rawRead a (pa + (rsa * i + csa * l))
        let y ← rawRead b (pb + (rsb * l + csb * j))
        return ps ++ [(x, y)]
      c.write (pc + (rsc * i + csc * j)) (ke m k n i j alpha ps)

/-- The two implementations between which the feature `naive` selects, blas.rs:16-36; `one` is the literal `1.` of the
element type. The default build uses the library. -/
inductive Blas (F : Type) where
  | naive (fo : FOps F)
  | library (one : F) (ke : Kernel F)

instance : Coe (FOps F) (Blas F) := ⟨.naive⟩

/-- The literal `1.`. -/
def Blas.one : Blas F → F
  | .naive fo => fo.one
  | .library one _ => one

/-- `sgemm`, blas.rs:8-37. -/
def sgemm (bl : Blas F) (m k n : Nat) (alpha : F) (a : List F) (pa rsa csa : Nat) (b : List F) (pb rsb csb : Nat)
    (c : Buf F) (pc rsc csc : Nat) : Res (Buf F) :=
  match bl with
  | .naive fo => sgemmNaive fo m k n alpha a pa rsa csa b pb rsb csb c pc rsc csc
  | .library _ ke => sgemmLibrary ke m k n alpha a pa rsa csa b pb rsb csb c pc rsc csc

/-- `Transpose`, matmul.rs:3-9. -/
inductive Transpose where
  | none | transposeA | transposeB | transposeAB
  deriving DecidableEq, Repr

/-- `TransposeMatmul::mkn` for `Transpose`, matmul.rs:73-105. -/
def mkn (t : Transpose) (a b : Tensor F) : Res (Nat × Nat × Nat) := do
  let ar ← a.shape.rows
  let ac ← a.shape.cols
  let br ← b.shape.rows
  let bc ← b.shape.cols
  match t with
  | .none => do
    ensure (ac = br)
    return (ar, ac, bc)
  | .transposeA => do
    ensure (ar = br)
    return (ac, ar, bc)
  | .transposeB => do
    ensure (ac = bc)
    return (ar, ar, br)
  | .transposeAB => do
    ensure (ar = bc)
    return (ac, ar, br)

/-- `TransposeMatmul::sgemm` for `Transpose`, matmul.rs:107-158. -/
def matmulSgemm (bl : Blas F) (t : Transpose) (a b : Tensor F) (pa pb : Nat) (o : Buf F) (po : Nat) : Res (Buf F) := do
  let ar ← a.shape.rows
  let ac ← a.shape.cols
  let br ← b.shape.rows
  let bc ← b.shape.cols
  match t with
  | .none => sgemm bl ar ac bc bl.one a.data pa ac 1 b.data pb bc 1 o po bc 1
  | .transposeA => sgemm bl ac ar bc bl.one a.data pa 1 ac b.data pb bc 1 o po bc 1
  | .transposeB => sgemm bl ar ac br bl.one a.data pa ac 1 b.data pb 1 bc o po br 1
  | .transposeAB => sgemm bl ac ar br bl.one a.data pa 1 ac b.data pb 1 bc o po br 1

/-- `matmul_t`, matmul.rs:44-70 (also `Tensor::matmul_t`, 35-37). -/
def matmulT (bl : Blas F) (a b : Tensor F) (t : Transpose) : Res (Tensor F) := do
  ensure (a.shape.rank > 1)
  let (m, _, n) ← mkn t a b
  let outer ← usub a.shape.rank 2
  let batchLen ← a.shape.sublen 0 outer
  let ar ← a.shape.rows
  let ac ← a.shape.cols
  let br ← b.shape.rows
  let bc ← b.shape.cols
  let aSize := ar * ac
  let bSize := br * bc
  let oSize := m * n
  let shape ← b.shape.withCols m
  let shape ← shape.withRows n
  Tensor.unsafeInit (oSize * batchLen) shape fun o =>
    forR 0 batchLen o fun batch o => do
      let aPtr ← rawAdd a.data (a.offset + aSize * batch)
      let bPtr ← rawAdd b.data (b.offset + bSize * batch)
      let cPtr ← rawAdd o (oSize * batch)
      matmulSgemm bl t a b aPtr bPtr o cPtr

/-- `matmul`, matmul.rs:31-33, 40-42. -/
def matmul (bl : Blas F) (a b : Tensor F) : Res (Tensor F) := matmulT bl a b .none

/-- `TransposeMatvec::o_size` for `Transpose`, matvec.rs:67-86. -/
def oSize (t : Transpose) (a x : Tensor F) : Res (Nat × Nat) := do
  let ar ← a.shape.rows
  let ac ← a.shape.cols
  let xr ← x.shape.rows
  let xc ← x.shape.cols
  match t with
  | .none => do
    ensure (ac = xc)
    return (ar, max 1 xr)
  | .transposeA => do
    ensure (ar = xc)
    return (ac, max 1 xr)
  | .transposeB => panicked
  | .transposeAB => panicked

/-- `TransposeMatvec::sgemm` for `Transpose`, matvec.rs:88-132. -/
def matvecSgemm (bl : Blas F) (t : Transpose) (a x : Tensor F) (oCols oRows pa px : Nat) (o : Buf F) (po : Nat) :
    Res (Buf F) := do
  let ac ← a.shape.cols
  let xc ← x.shape.cols
  match t with
  | .none => sgemm bl oRows xc oCols bl.one x.data px xc 1 a.data pa 1 ac o po oCols 1
  | .transposeA => sgemm bl oRows xc oCols bl.one x.data px xc 1 a.data pa ac 1 o po oCols 1
  | .transposeB => panicked
  | .transposeAB => panicked

/-- `matvec_t_f32`, matvec.rs:19-49 (also `Tensor::matvec_t`, 14-16). -/
def matvecT (bl : Blas F) (a x : Tensor F) (t : Transpose) : Res (Tensor F) := do
  ensure (a.shape.rank ≥ 2)
  let batch ← a.shape.broadcastMin 2 x.shape (min 2 x.shape.rank)
  let ac ← a.shape.cols
  let ar ← a.shape.rows
  let aSize := ac * ar
  let xr ← x.shape.rows
  let xc ← x.shape.cols
  let xSize := xc * max 1 xr
  let (oCols, oRows) ← oSize t a x
  let oSize := oCols * oRows
  let shape ← x.shape.withCols oCols
  Tensor.unsafeInit (oSize * batch) shape fun o =>
    forR 0 batch o fun n o => do
      let pa ← a.asWrapPtr (n * aSize)
      let px ← x.asWrapPtr (n * xSize)
      matvecSgemm bl t a x oCols oRows pa px o (n * oSize)

/-- `Tensor::matvec`, matvec.rs:10-12. -/
def matvec (bl : Blas F) (a x : Tensor F) : Res (Tensor F) := matvecT bl a x .none

end Linalg

end Essay
