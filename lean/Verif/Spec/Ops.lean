import Mathlib.Data.List.Forall2
import Verif.Model.Ops
import Verif.Spec.Map

/-!
# Specification vocabulary for operators and comparison
-/

namespace Essay

variable {T U V : Type}

/-- The element operator a user expects behind each operator symbol, left operand first. -/
def meaning (ar : Arith T U V) (op : Tensor.OpName) (x : T) (y : U) : Res V :=
  match op with
  | .add => ar.add x y | .sub => ar.sub x y | .mul => ar.mul x y | .div => ar.div x y | .rem => ar.rem x y
  | .bitand => ar.bitand x y | .bitor => ar.bitor x y | .bitxor => ar.bitxor x y
  | .shl => ar.shl x y | .shr => ar.shr x y

/-- `Results x y ds`: the call `x` fails exactly as the list computation `y`, and when `y` returns `zs`, `x` returns a
tensor with dimensions `ds` and elements `zs`. -/
def Results (x : Res (Tensor V)) (y : Res (List V)) (ds : List Nat) : Prop :=
  match y with
  | .error e => x = .error e
  | .ok zs => ∃ t, x = .ok t ∧ Rep t ds zs

/-- Lexicographic comparison, in words: the first position where the elements are not `Equal` decides; if there is none,
the shorter list is `Less`. -/
inductive LexCmp (cmp : T → T → Option Ordering) : List T → List T → Option Ordering → Prop
  | decided (l l' : List T) (x y : T) (a b : List T) (r : Option Ordering) :
      List.Forall₂ (fun u v => cmp u v = some .eq) l l' → cmp x y = r → r ≠ some .eq →
      LexCmp cmp (l ++ x :: a) (l' ++ y :: b) r
  | same (l l' : List T) : List.Forall₂ (fun u v => cmp u v = some .eq) l l' → LexCmp cmp l l' (some .eq)
  | shorter (l l' : List T) (y : T) (b : List T) :
      List.Forall₂ (fun u v => cmp u v = some .eq) l l' → LexCmp cmp l (l' ++ y :: b) (some .lt)
  | longer (l l' : List T) (x : T) (a : List T) :
      List.Forall₂ (fun u v => cmp u v = some .eq) l l' → LexCmp cmp (l ++ x :: a) l' (some .gt)

end Essay
