import Verif.Spec.Map

/-!
# Specification vocabulary for array operations
-/

namespace Essay

variable {α : Type}

/-- `ys` is the part of the array `(pre ++ d :: post, xs)` whose coordinate along the axis of length `d` lies in
`lo .. lo + n`, at every index of the other axes. -/
def IsSlice (pre : List Nat) (d : Nat) (post : List Nat) (xs : List α) (lo n : Nat) (ys : List α) : Prop :=
  ys.length = (pre ++ n :: post).prod ∧ lo + n ≤ d ∧
  ∀ i a j, i.length = pre.length → a < n →
    at? (pre ++ n :: post) ys (i ++ a :: j) = at? (pre ++ d :: post) xs (i ++ (lo + a) :: j)

/-- The non-empty ranges between consecutive cut positions, starting from `prev`. -/
def ranges : Nat → List Nat → List (Nat × Nat)
  | _, [] => []
  | prev, c :: cs => if prev < c then (prev, c) :: ranges c cs else ranges c cs

/-- `a[i] * b[i]` for lists of equal length. -/
def mulDims (a b : List Nat) : List Nat := List.zipWith (· * ·) a b

/-- `l` with `1`s in front, up to length `n`. -/
def padLeft (n : Nat) (l : List Nat) : List Nat := List.replicate (n - l.length) 1 ++ l

/-- `IsPieces pre d post xs ts rs`: the tensors `ts` are, one by one, the parts of the array `(pre ++ d :: post, xs)` with
coordinates `lo .. hi` along the axis, for the ranges `(lo, hi)` in `rs`. -/
inductive IsPieces (pre : List Nat) (d : Nat) (post : List Nat) (xs : List α) :
    List (Tensor α) → List (Nat × Nat) → Prop
  | nil : IsPieces pre d post xs [] []
  | cons {t ys lo hi ts rs} : Rep t (pre ++ (hi - lo) :: post) ys → IsSlice pre d post xs lo (hi - lo) ys →
      IsPieces pre d post xs ts rs → IsPieces pre d post xs (t :: ts) ((lo, hi) :: rs)

/-- `cs` is a non-decreasing list of cut positions starting at or after `prev`. -/
def Ascending : Nat → List Nat → Prop
  | _, [] => True
  | prev, c :: cs => prev ≤ c ∧ Ascending c cs

/-- `IsConcat pre post ps out`: the array `out` is the concatenation, along the axis after `pre`, of the parts `ps`
(length along the axis, elements): each part is the slice of `out` that starts where the earlier parts end. -/
def IsConcat (pre post : List Nat) (ps : List (Nat × List α)) (out : List α) : Prop :=
  ∀ A p B, ps = A ++ p :: B → IsSlice pre ((ps.map (·.1)).sum) post out ((A.map (·.1)).sum) p.1 p.2

/-- `IsStack pre post ps out`: the array `out` (dimensions `pre ++ ps.length :: post`) has the arrays `ps` (dimensions
`pre ++ post`) as its slices along the axis after `pre`. -/
def IsStack (pre post : List Nat) (ps : List (List α)) (out : List α) : Prop :=
  ∀ (k : Nat) (x : List α), ps[k]? = some x → ∀ i j : List Nat, i.length = pre.length →
    at? (pre ++ ps.length :: post) out (i ++ k :: j) = at? (pre ++ post) x (i ++ j)

end Essay
