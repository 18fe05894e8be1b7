import Verif.Model.Tensor

/-!
# Model of `src/tensor/from.rs`

`Vec<T>`, `&[T]` are lists, `[T; N]` is `Vector T N`. Cloning an element is the identity.
-/

namespace Essay

variable [Build]

namespace Tensor

variable {α : Type}

/-- `From<T> for Tensor<T>`, from.rs:10-14, and `From<&str>`, from.rs:214-218. -/
def ofScalar (value : α) : Res (Tensor α) := fromVec [value] Shape.scalar

/-- `From<Option<T>>`, from.rs:16-26. -/
def ofOption (value : Option α) : Res (Tensor α) :=
  match value with
  | some value => fromVec [value] Shape.scalar
  | none => do
    let shape ← Shape.ofSlice [0]
    fromVec [] shape

/-- `From<Vec<T>>`, `From<&Vec<T>>`, from.rs:30-45; `From<&[T]>`, from.rs:183-191; `From<[T; N]>`, from.rs:193-200;
`From<Vec<&str>>`, `From<[&str; N]>`, from.rs:220-237; `FromIterator`, from.rs:283-299. All compute the length and call
`from_vec` with a one-dimensional shape (`Shape::from(len)` or `[len]`, which agree). -/
def ofVec1 (value : List α) : Res (Tensor α) := do
  let len := value.length
  let shape ← Shape.ofUsize len
  fromVec value shape

/-- `TensorData::from_boxed_rows`, data.rs:35-50: the block of rows is reinterpreted as a block of elements. -/
def fromBoxedRows {N : Nat} (slice : List (Vector α N)) (shape : Shape) : Res (Tensor α) := do
  let len := slice.length * N
  let n ← shape.size
  ensure (n = len)
  return { shape, offset := 0, size := len, data := (slice.map (·.toList)).flatten }

/-- `From<Vec<[T; N]>>`, from.rs:47-55. -/
def ofVecRows {N : Nat} (value : List (Vector α N)) : Res (Tensor α) := do
  let shape ← Shape.ofSlice [value.length, N]
  fromBoxedRows value shape

/-- `From<&Vec<[T; N]>>`, from.rs:57-67, and `From<&[[T; N]]>`, from.rs:202-212. -/
def ofRows {N : Nat} (value : List (Vector α N)) : Res (Tensor α) := do
  let data := value.flatMap fun row => row.toList
  let shape ← Shape.ofSlice [value.length, N]
  fromVec data shape

/-- `From<&Vec<Vec<T>>>`, from.rs:69-81. -/
def ofVec2 (value : List (List α)) : Res (Tensor α) := do
  let r0 ← idx value 0
  let len1 := r0.length
  let data ← forL value [] fun v1 data => do
    ensure (len1 = v1.length)
    return data ++ v1
  let shape ← Shape.ofSlice [value.length, len1]
  fromVec data shape

/-- `From<&Vec<Vec<[T; N]>>>`, from.rs:83-97. -/
def ofVec2Rows {N : Nat} (value : List (List (Vector α N))) : Res (Tensor α) := do
  let r0 ← idx value 0
  let len1 := r0.length
  let data ← forL value [] fun v1 data => do
    ensure (len1 = v1.length)
    return data ++ v1.flatMap fun v2 => v2.toList
  let shape ← Shape.ofSlice [value.length, len1, N]
  fromVec data shape

/-- `From<&Vec<Vec<Vec<T>>>>`, from.rs:99-120. -/
def ofVec3 (value : List (List (List α))) : Res (Tensor α) := do
  let r0 ← idx value 0
  let len1 := r0.length
  let r1 ← idx r0 0
  let len2 := r1.length
  let data ← forL value [] fun v1 data => do
    ensure (len1 = v1.length)
    forL v1 data fun v2 data => do
      ensure (len2 = v2.length)
      return data ++ v2
  let shape ← Shape.ofSlice [value.length, len1, len2]
  fromVec data shape

/-- `From<&Vec<Vec<Vec<Vec<T>>>>>`, from.rs:122-148. -/
def ofVec4 (value : List (List (List (List α)))) : Res (Tensor α) := do
  let r0 ← idx value 0
  let len1 := r0.length
  let r1 ← idx r0 0
  let len2 := r1.length
  let r2 ← idx r1 0
  let len3 := r2.length
  let data ← forL value [] fun v1 data => do
    ensure (len1 = v1.length)
    forL v1 data fun v2 data => do
      ensure (len2 = v2.length)
      forL v2 data fun v3 data => do
        ensure (len3 = v3.length)
        return data ++ v3
  let shape ← Shape.ofSlice [value.length, len1, len2, len3]
  fromVec data shape

/-- `From<&Vec<Vec<Vec<Vec<Vec<T>>>>>>`, from.rs:150-177. -/
def ofVec5 (value : List (List (List (List (List α))))) : Res (Tensor α) := do
  let r0 ← idx value 0
  let len1 := r0.length
  let r1 ← idx r0 0
  let len2 := r1.length
  let r2 ← idx r1 0
  let len3 := r2.length
  let r3 ← idx r2 0
  let len4 := r3.length
  let data ← forL value [] fun v1 data => do
    ensure (len1 = v1.length)
    forL v1 data fun v2 data => do
      ensure (len2 = v2.length)
      forL v2 data fun v3 data => do
        ensure (len3 = v3.length)
        forL v3 data fun v4 data => do
          ensure (len4 = v4.length)
          return data ++ v4
  let shape ← Shape.ofSlice [value.length, len1, len2, len3, len4]
  fromVec data shape

/-- `From<[[T; N]; M]>`, from.rs:239-250. -/
def ofArr2 {M N : Nat} (value : Vector (Vector α N) M) : Res (Tensor α) := do
  let data := (value.toList.map (·.toList)).flatten
  let shape ← Shape.ofSlice [M, N]
  fromVec data shape

/-- `From<[[[T; N]; M]; L]>`, from.rs:252-265. -/
def ofArr3 {L M N : Nat} (value : Vector (Vector (Vector α N) M) L) : Res (Tensor α) := do
  let data := (((value.toList.map (·.toList)).flatten).map (·.toList)).flatten
  let shape ← Shape.ofSlice [L, M, N]
  fromVec data shape

/-- `From<[[[[T; N]; M]; L]; K]>`, from.rs:267-281. -/
def ofArr4 {K L M N : Nat} (value : Vector (Vector (Vector (Vector α N) M) L) K) : Res (Tensor α) := do
  let data := (((((value.toList.map (·.toList)).flatten).map (·.toList)).flatten).map (·.toList)).flatten
  let shape ← Shape.ofSlice [K, L, M, N]
  fromVec data shape

/-- `From<&[Tensor<T>]>`, from.rs:307-327; `From<&Vec<Tensor<T>>>`, `From<[Tensor<T>; N]>` (from.rs:301-305, 329-335)
delegate to it. -/
def ofTensors (values : List (Tensor α)) : Res (Tensor α) := do
  let n := values.length
  ensure (n > 0)
  let v0 ← idx values 0
  let sublen := v0.size
  let shape := v0.shape
  forL values () fun value _ => do
    ensure (sublen = value.size)
    ensure (shape = value.shape)
  let data ← concatSlices values
  let shape ← shape.push n
  fromVec data shape

/-- `IntoTensorList` for lists, slices and arrays of tensors (owned or by reference), from.rs:337-387: appends the
handles to `vec`. -/
def intoListTensors (self vec : List (Tensor α)) : Res (List (Tensor α)) :=
  forL self vec fun tensor vec => return vec ++ [tensor]

/-- `IntoTensorList` for lists, slices and arrays of vectors, from.rs:389-435, and for tuples of things convertible to
tensors, from.rs:437-465 (`conv` is the conversion of each component). -/
def intoListWith {β : Type} (conv : β → Res (Tensor α)) (self : List β) (vec : List (Tensor α)) :
    Res (List (Tensor α)) :=
  forL self vec fun item vec => do
    let t ← conv item
    return vec ++ [t]

end Tensor

end Essay
