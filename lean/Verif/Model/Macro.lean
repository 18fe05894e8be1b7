import Verif.Model.From

/-!
# Model of the macro `ten!` (`src/macros/mod.rs`)

The input of the macro is a list of comma-separated items (a trailing comma is allowed and dropped). An item is an
expression; an expression that is an array literal is a bracket group of items. The result of the expansion is an array
literal, which the compiler must give a type before `Tensor::from` can be chosen.
-/

namespace Essay

variable [Build]

namespace Macro

variable {α β : Type}

/-- An item in the input of `ten!`, and an array literal in its output. `expr e` is an expression that is not an array
literal, whose value is `e`. Not from /repo: Rust's token trees. -/
inductive Tree (α : Type) where
  | expr (e : α)
  | group (items : List (Tree α))

/-- Matching an item with a pattern in brackets: its contents. Not from /repo: `macro_rules`. -/
def Tree.asGroup : Tree α → Option (List (Tree α))
  | .expr _ => none
  | .group items => some items

/-- The first arm of `ten!`, macros/mod.rs:3-5: every item is a group of groups of expressions. -/
def arm1 (items : List (Tree α)) : Option (Tree α) := do
  let xs ← items.mapM fun a => do
    let bs ← a.asGroup
    bs.mapM Tree.asGroup
  return .group (xs.map fun ys => .group (ys.map fun zs => .group zs))

/-- The second arm of `ten!`, macros/mod.rs:6-8: every item is a group of expressions. -/
def arm2 (items : List (Tree α)) : Option (Tree α) := do
  let xs ← items.mapM Tree.asGroup
  return .group (xs.map fun ys => .group ys)

/-- The third arm of `ten!`, macros/mod.rs:9-11: every item is an expression. -/
def arm3 (items : List (Tree α)) : Option (Tree α) := some (.group items)

/-- The expansion of `ten!`, macros/mod.rs:2-12: the first arm that matches. -/
def expand (items : List (Tree α)) : Option (Tree α) := (arm1 items).or ((arm2 items).or (arm3 items))

/-- The lengths in the type of an array literal, read off its first elements; `none` if it is nested deeper than `fuel`
or has no element (then the compiler cannot infer the type). Not from /repo: Rust's type inference. -/
def dims : Nat → Tree α → Option (List Nat)
  | _, .expr _ => some []
  | fuel + 1, .group (x :: l) => (dims fuel x).map fun ds => (l.length + 1) :: ds
  | _, _ => none

/-- The value of an expression that is not an array literal. -/
def value : Tree α → Option α
  | .expr e => some e
  | .group _ => none

/-- The value of an array literal of type `[T; n]`, if every element has type `T`. Not from /repo. -/
def array (elem : Tree α → Option β) (n : Nat) (t : Tree α) : Option (Vector β n) := do
  let items ← t.asGroup
  let ys ← items.mapM elem
  if h : ys.length = n then some ⟨ys.toArray, by simpa using h⟩ else none

/-- `Tensor::from` of an array literal: the conversion for its type (from.rs:193-200, 239-281). `none`: there is none, or
the literal has no type, so the program is rejected by the compiler. -/
def tensorFrom (lit : Tree α) : Option (Res (Tensor α)) :=
  match dims 4 lit with
  | some [n] => do
    let v ← array value n lit
    return Tensor.ofVec1 v.toList
  | some [m, n] => do
    let v ← array (array value n) m lit
    return Tensor.ofArr2 v
  | some [l, m, n] => do
    let v ← array (array (array value n) m) l lit
    return Tensor.ofArr3 v
  | some [k, l, m, n] => do
    let v ← array (array (array (array value n) m) l) k lit
    return Tensor.ofArr4 v
  | _ => none

/-- `ten![items]`, macros/mod.rs:1-13. -/
def ten (items : List (Tree α)) : Option (Res (Tensor α)) := do
  let lit ← expand items
  tensorFrom lit

end Macro

end Essay
