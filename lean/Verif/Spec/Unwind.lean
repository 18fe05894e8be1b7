import Verif.Spec.Tensor
import Verif.Model.Unwind

/-!
# What a panic should do to the values made before it
-/

namespace Essay

variable {α β σ : Type}

/-- `Settled k own x toks post`: the call `x` is given the values `own` and owns what it makes. If it returns, every value
given or made is in the result (`toks`) or was dropped, none twice, and the result satisfies `post`. If it panics, at most
`k` values are lost and all others given or made were dropped, none twice. -/
def Settled (k : Nat) (own : List α) (x : Own α σ β) (toks : β → List α) (post : β → Prop := fun _ => True) : Prop :=
  ∀ l, match x.go l with
    | (.ok b, l') => post b ∧ ∃ vs ds, l'.made = l.made ++ vs ∧ l'.dropped = l.dropped ++ ds ∧
        (toks b ++ ds).Perm (own ++ vs)
    | (.error .panic, l') => ∃ vs ds lost, l'.made = l.made ++ vs ∧ l'.dropped = l.dropped ++ ds ∧
        (lost ++ ds).Perm (own ++ vs) ∧ lost.length ≤ k
    | (.error .ub, _) => True

/-- Copies of the listed values made one after the other, from the state `e`: the copies made, the state behind, and the
error that ended it. -/
def copyRun (c : α → σ → Except Err α × σ) : List α → σ → List α × σ × Option Err
  | [], e => ([], e, none)
  | y :: ys, e =>
    match c y e with
    | (.error er, e') => ([], e', some er)
    | (.ok v, e') => let r := copyRun c ys e'; (v :: r.1, r.2)

/-- `CopiesIn c x ds ys fail`: the operation `x` copies each of `ys` once, in an order that is the same in every run. If all
copies succeed, nothing is dropped and the result has dimensions `ds`, exactly these copies, each in its place, and nothing
else in its block. If one panics, the copies made so far are lost (`fail := fun _ => []`) or dropped (`fail := id`). -/
def CopiesIn (c : α → σ → Except Err α × σ) (x : Own α σ (Tensor α)) (ds : List Nat) (ys : List α)
    (fail : List α → List α) : Prop :=
  ∃ ps : List (Nat × α), ps.Perm (ys.zipIdx.map Prod.swap) ∧ ∀ l,
    match copyRun c (ps.map Prod.snd) l.env with
    | (vs, e, some .panic) => x.go l = (.error .panic, ⟨l.made ++ vs, l.dropped ++ fail vs, e⟩)
    | (_, _, some .ub) => (x.go l).1 = .error .ub
    | (vs, e, none) => ∃ t zs, x.go l = (.ok t, ⟨l.made ++ vs, l.dropped, e⟩) ∧ Rep t ds zs ∧ t.data = zs ∧
        zs.length = ys.length ∧ vs.length = ys.length ∧ ∀ p ∈ (ps.map Prod.fst).zip vs, zs[p.1]? = some p.2

end Essay
