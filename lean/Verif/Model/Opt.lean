/-!
# Model of the `derive_opt` macro, crates/essay-opt/src/options.rs, and of the code it generates

The macro is a function from a struct declaration to the signatures and bodies it generates; `Value` and below give the
generated Rust its meaning. Parsing (`syn`), token printing (`quote!`), visibility, attributes and generics (the generated
`impl` has none) are not modelled.
-/

namespace Essay

namespace Opt

/-- `syn::Type` as far as options.rs looks at it: a path without `qself`, with the identifiers of its segments and the
type arguments of the last one (`none`: no angle brackets), or any other type. Lifetime and const arguments are left
out. Not from /repo. -/
inductive Ty
  | path (idents : List String) (args : Option (List Ty))
  | other (tokens : String)

/-- `path_to_string`, options.rs:249-256 (joins with a single colon). -/
def pathToString : List String → String
  | [] => ""
  | [a] => a
  | a :: b :: l => a ++ ":" ++ pathToString (b :: l)

/-- `option_type`, options.rs:227-247. -/
def optionType : Ty → Option Ty
  | .path idents args =>
    if pathToString idents = "Option" then
      match args with
      | some (ty :: _) => some ty
      | _ => none
    else none
  | .other _ => none

/-- `is_into_type`, options.rs:176-186. -/
def isIntoType : Ty → Bool
  | .path idents _ => ¬ pathToString idents = "usize"
  | .other _ => true

/-- The declared type of a generated parameter: `impl Into<T>` or `T`. -/
inductive Param
  | into (ty : Ty)
  | plain (ty : Ty)

/-- The expression a generated setter of the struct stores: `Some(x.into())`, `Some(x)` or `x`. -/
inductive Stored
  | someInto (ty : Ty)
  | some
  | same

/-- `field`: name and type, of a struct with named fields. -/
structure Field where
  name : String
  ty : Ty

/-- The body of a generated method: `Self { name: stored, ..self }` or `Arg::default().name(x)`. -/
inductive Body
  | update (field : String) (stored : Stored)
  | defaultThen (method : String)

/-- A generated method. -/
structure Method where
  name : String
  param : Param
  body : Body

/-- `trait_methods`, options.rs:100-133: the signatures in the trait. -/
def traitMethods (fields : List Field) : List (String × Param) :=
  fields.map fun field =>
    match optionType field.ty with
    | some ty => if isIntoType ty then (field.name, .into ty) else (field.name, .plain ty)
    | none => (field.name, .plain field.ty)

/-- The closure of `arg_methods`, options.rs:138-168. -/
def argMethod (field : Field) : Method :=
  match optionType field.ty with
  | some ty =>
    if isIntoType ty then ⟨field.name, .into ty, .update field.name (.someInto ty)⟩
    else ⟨field.name, .plain ty, .update field.name .some⟩
  | none => ⟨field.name, .plain field.ty, .update field.name .same⟩

/-- `arg_methods`, options.rs:135-174: `impl Opt for Arg`. -/
def argMethods (fields : List Field) : List Method := fields.map argMethod

/-- The closure of `nil_methods`, options.rs:191-219. -/
def nilMethod (field : Field) : Method :=
  match optionType field.ty with
  | some ty =>
    if isIntoType ty then ⟨field.name, .into ty, .defaultThen field.name⟩
    else ⟨field.name, .plain ty, .defaultThen field.name⟩
  | none => ⟨field.name, .plain field.ty, .defaultThen field.name⟩

/-- `nil_methods`, options.rs:188-225: `impl Opt for ()`. -/
def nilMethods (fields : List Field) : List Method := fields.map nilMethod

/-! ## Meaning of the generated code -/

/-- The values of the fields and arguments, with `Some` and the `Into` conversions. Not from /repo. -/
structure Values (V : Type) where
  some : V → V
  into : Ty → V → V

variable {V : Type}

/-- A value of the struct: its fields in declaration order. -/
abbrev Arg (V : Type) := List (String × V)

/-- The stored expression. -/
def Stored.eval (vs : Values V) : Stored → V → V
  | .someInto ty, v => vs.some (vs.into ty v)
  | .some, v => vs.some v
  | .same, v => v

/-- `Self { name: value, ..self }`: every other field is taken from `self`. -/
def update (name : String) (value : V) (self : Arg V) : Arg V :=
  self.map fun f => if f.1 = name then (f.1, value) else f

/-- A receiver of a setter: the unit value or a struct value. -/
inductive Recv (V : Type)
  | nil
  | arg (a : Arg V)

/-- Calling a method of the struct; `none`: there is no such method, the program does not compile. -/
def callArg (vs : Values V) (fields : List Field) (a : Arg V) (name : String) (v : V) : Option (Arg V) :=
  match (argMethods fields).find? (·.name = name) with
  | some { body := .update field stored, .. } => some (update field (stored.eval vs v) a)
  | _ => none

/-- Calling a setter on either receiver; `dflt` is `Arg::default()`. -/
def call (vs : Values V) (fields : List Field) (dflt : Arg V) (self : Recv V) (name : String) (v : V) :
    Option (Recv V) :=
  match self with
  | .arg a => (callArg vs fields a name v).map .arg
  | .nil =>
    match (nilMethods fields).find? (·.name = name) with
    | some { body := .defaultThen method, .. } => (callArg vs fields dflt method v).map .arg
    | _ => none

/-- `into_arg`, options.rs:83-85 and 90-93. -/
def intoArg (dflt : Arg V) : Recv V → Arg V
  | .arg a => a
  | .nil => dflt

/-- A chain of setters ending with `into_arg()`. -/
def chain (vs : Values V) (fields : List Field) (dflt : Arg V) (self : Recv V) (calls : List (String × V)) :
    Option (Arg V) :=
  (calls.foldlM (fun r c => call vs fields dflt r c.1 c.2) self).map (intoArg dflt)

end Opt

end Essay
