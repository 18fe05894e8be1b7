import Verif.Spec.Tensor

/-!
# What copying elements should do
-/

namespace Essay

/-- `CopiesOnce clone x ds ys`: the operation `x` calls `clone` exactly once for each of the elements `ys`, in some order
that is the same in every run, and does nothing else that can be seen; if a call of `clone` fails, `x` fails
with it; otherwise `x` returns a tensor with dimensions `ds` that has at each position the clone of the element of `ys` at
this position. -/
def CopiesOnce {σ α : Type} (clone : α → Exec σ α) (x : Exec σ (Tensor α)) (ds : List Nat) (ys : List α) : Prop :=
  ∃ ps : List (Nat × α), ps.Perm (ys.zipIdx.map Prod.swap) ∧
    ∀ s, match (ps.mapM fun p => clone p.2).run s with
      | .error e => x.run s = .error e
      | .ok (vs, s') => ∃ t zs, x.run s = .ok (t, s') ∧ Rep t ds zs ∧ zs.length = ys.length ∧
          ∀ p ∈ (ps.map Prod.fst).zip vs, zs[p.1]? = some p.2

/-- `CopiesEach clone x rs`: the operation `x` builds the tensors with the dimensions and elements `rs`, one after the
other, each with one clone per element. -/
inductive CopiesEach {σ α : Type} (clone : α → Exec σ α) : Exec σ (List (Tensor α)) → List (List Nat × List α) → Prop
  | nil : CopiesEach clone (pure []) []
  | cons {x xs ds ys rs} : CopiesOnce clone x ds ys → CopiesEach clone xs rs →
      CopiesEach clone (do let t ← x; let ts ← xs; return t :: ts) ((ds, ys) :: rs)

end Essay
