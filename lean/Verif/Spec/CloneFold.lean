import Verif.Spec.Map

/-!
# What folding and reducing with visible copies should do
-/

namespace Essay

variable {σ α V S : Type}

/-- The fold of one lane: one copy of the start value, the closure on each element in order, one conversion at the end. -/
def foldCloned (cloneInit : Exec σ S) (f : S → α → Exec σ S) (intoResult : S → Exec σ V) (lane : List α) : Exec σ V := do
  let s ← cloneInit
  let s ← lane.foldlM f s
  intoResult s

/-- The reduction of one lane: each element is copied just before it is used, the first one as the start value. -/
def reduceCloned (clone : α → Exec σ α) (f : α → α → Exec σ α) : List α → Exec σ α
  | [] => (panicked : Res α)
  | x :: xs => do
    let s ← clone x
    xs.foldlM (fun s y => do
      let v ← clone y
      f s v) s

/-- One slot of a matrix that is built from elements and zeros. -/
def copyOrZero (clone : α → Exec σ α) (zero : Exec σ α) : Option α → Exec σ α
  | some x => clone x
  | none => zero

end Essay
