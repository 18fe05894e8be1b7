import Verif.Spec.Tensor

/-!
# Specification vocabulary for broadcasting and folding
-/

namespace Essay

variable {α σ S V : Type}

/-- `zs` is the array `(ds, xs)` broadcast to the dimensions `es`: the element at each multi-index is the element of
`(ds, xs)` at the trailing coordinates. -/
def Bcast (ds : List Nat) (xs : List α) (es : List Nat) (zs : List α) : Prop :=
  zs.length = es.prod ∧ ∀ idx p, ravel es idx = some p →
    ∃ x, zs[p]? = some x ∧ at? ds xs (idx.drop (es.length - ds.length)) = some x

/-- `lanes` lists, in row-major order of the remaining indices, the lanes of the array `(pre ++ d :: post, xs)` along
the axis of length `d`: at the remaining index `i ++ j` stands the list of elements `i ++ k :: j`, `k = 0, 1, ..`. -/
def IsLanes (pre : List Nat) (d : Nat) (post : List Nat) (xs : List α) (lanes : List (List α)) : Prop :=
  lanes.length = (pre ++ post).prod ∧
  ∀ i j p, i.length = pre.length → ravel (pre ++ post) (i ++ j) = some p →
    ∃ lane, lanes[p]? = some lane ∧ lane.length = d ∧
      ∀ k, k < d → ∃ x, lane[k]? = some x ∧ at? (pre ++ d :: post) xs (i ++ k :: j) = some x

/-- The axis a user means by a signed number: `0 ≤ a < rank` from the front, `-rank ≤ a < 0` from the back. -/
def axisIndex (rank : Nat) (a : Int) : Option Nat :=
  if 0 ≤ a ∧ a < rank then some a.toNat
  else if -(rank : Int) ≤ a ∧ a < 0 then some (a + rank).toNat
  else none

/-- Left fold starting from the first element (`reduce`); an empty list panics. -/
def reduceLane (f : α → α → Exec σ α) : List α → Exec σ α
  | [] => (panicked : Res α)
  | x :: xs => xs.foldlM f x

end Essay
