import Verif.Model.Opt

/-!
# What option builders should do
-/

namespace Essay

namespace Opt

variable {V : Type}

/-- A struct value has the declared fields (declaration order, no name twice). -/
def Typed (fields : List Field) (a : Arg V) : Prop := a.map Prod.fst = fields.map Field.name

/-- The value of a field. -/
def Arg.get (a : Arg V) (name : String) : Option V := (a.find? (·.1 = name)).map Prod.snd

/-- What a setter argument `v` means for a field of declared type `ty`: for `Option<usize>` the value `Some(v)`, for any
other `Option<T>` the value `Some(v.into())`, otherwise `v` itself. -/
inductive Means (vs : Values V) : Ty → V → V → Prop
  | optUsize (v : V) (rest : List Ty) (a : Option (List Ty)) :
      Means vs (.path ["Option"] (some (.path ["usize"] a :: rest))) v (vs.some v)
  | optInto (ty : Ty) (v : V) (rest : List Ty) (h : ∀ a, ty ≠ .path ["usize"] a) :
      Means vs (.path ["Option"] (some (ty :: rest))) v (vs.some (vs.into ty v))
  | plain (ty : Ty) (v : V) (h : ∀ t rest, ty ≠ .path ["Option"] (some (t :: rest))) : Means vs ty v v

/-- The last value given to `name` in a list of settings. -/
def lastSet (name : String) : List (String × V) → Option V
  | [] => none
  | c :: cs => (lastSet name cs).or (if c.1 = name then some c.2 else none)

end Opt

end Essay
