import Verif.Lemmas.From
import Verif.Props.Array

/-!
# Properties C12, C13, C69: conversions from nested vectors, arrays and lists of tensors
-/

namespace Essay

open Shape

variable {α β : Type}

/-! ## C12 -/

/-- C12: a plain vector (slice, array, iterator) becomes a one-dimensional tensor of its elements. -/
theorem C12_vec1 (v : List α) (h : v.length < 2 ^ 32) : ∃ t, Tensor.ofVec1 v = .ok t ∧ Rep t [v.length] v := by
  unfold Tensor.ofVec1
  simp only
  rw [ofUsize_eq, asU32_of_lt h, ok_bind]
  have ha : Adm [v.length] := ⟨by simp, by simpa using h⟩
  exact ⟨_, new_ok ha (fits_one h) (by simp), rep_fresh ha (fits_one h) (by simp)⟩

/-- C12: a scalar becomes a tensor without dimensions; `None` becomes an empty vector. -/
theorem C12_scalar (x : α) : (∃ t, Tensor.ofScalar x = .ok t ∧ Rep t [] [x]) ∧
    (∃ t, Tensor.ofOption (some x) = .ok t ∧ Rep t [] [x]) ∧
    (∃ t, Tensor.ofOption (none : Option α) = .ok t ∧ Rep t [0] []) := by
  refine ⟨C06_from_scalar x, C06_from_scalar x, ?_⟩
  have ha : Adm [0] := ⟨by simp, by simp⟩
  exact (fromVec_ofSlice ha ([] : List α) rfl).1 (fits_one (by simp))

example : ∃ t, Tensor.ofOption (some "a") = .ok t ∧ Rep t [] ["a"] := (C12_scalar "a").2.1

theorem ofVec2_eq (v : List (List α)) (r0 : List α) (h0 : v[0]? = some r0) :
    Tensor.ofVec2 v = if ∀ r ∈ v, r0.length = r.length then (do
      let shape ← Shape.ofSlice [v.length, r0.length]
      Tensor.fromVec (v.flatMap id) shape) else .error .panic := by
  unfold Tensor.ofVec2
  rw [idx_ok h0, ok_bind]
  dsimp only
  rw [forL_emit (P := fun r => r0.length = r.length) (g := id)]
  · split <;> simp
  · intro b acc
    by_cases hb : r0.length = b.length
    · rw [ensure_true hb, ok_bind, if_pos hb]; rfl
    · rw [ensure_false hb, if_neg hb]; rfl

/-- C12, two levels: equal row lengths give the dimensions (rows, row length) and the element at (i, j) is `v[i][j]`
(beyond 2^32 elements the conversion panics). -/
theorem C12_vec2 {v : List (List α)} {n m : Nat} (hn : v.length = n) (h0 : 0 < n) (hm : ∀ r ∈ v, r.length = m)
    (hlt : n < 2 ^ 32 ∧ m < 2 ^ 32) :
    (Fits [n, m] → ∃ t xs, Tensor.ofVec2 v = .ok t ∧ Rep t [n, m] xs ∧
      ∀ i j, at? [n, m] xs [i, j] = v[i]?.bind fun r => r[j]?) ∧
    (¬ Fits [n, m] → Tensor.ofVec2 v = .error .panic) := by
  obtain ⟨r0, l, rfl⟩ : ∃ r0 l, v = r0 :: l := by cases v; simp at hn; omega; exact ⟨_, _, rfl⟩
  have hr0 : r0.length = m := hm r0 (by simp)
  rw [ofVec2_eq _ r0 rfl, if_pos (by intro r hr; rw [hr0, hm r hr]), hr0, hn]
  have ha : Adm [n, m] := ⟨by simp, by simpa using hlt⟩
  have hl : ∀ r ∈ r0 :: l, (id r : List α).length = [m].prod := by simpa using hm
  have key := fromVec_ofSlice ha ((r0 :: l).flatMap id) (by rw [length_flatMap_const hl, hn]; simp)
  refine ⟨fun hf => ?_, key.2⟩
  obtain ⟨t, e, hr⟩ := key.1 hf
  refine ⟨t, _, e, hr, fun i j => ?_⟩
  rw [at_flatMap hn hl]
  cases hi : (r0 :: l)[i]? with
  | none => rfl
  | some r => exact at_vec (hm r (List.mem_of_getElem? hi)) j

/-- C12, two levels: an empty or ragged nesting panics. -/
theorem C12_vec2_rejects {v : List (List α)} (h : v = [] ∨ ¬ ∃ m, ∀ r ∈ v, r.length = m) :
    Tensor.ofVec2 v = .error .panic := by
  cases v with
  | nil => rfl
  | cons r0 l =>
    rw [ofVec2_eq _ r0 rfl, if_neg]
    intro hc
    rcases h with h | h
    · cases h
    · exact h ⟨r0.length, fun r hr => (hc r hr).symm⟩

example : ∃ t xs, Tensor.ofVec2 [[1, 2, 3], [4, 5, 6]] = .ok t ∧ Rep t [2, 3] xs ∧
    ∀ i j, at? [2, 3] xs [i, j] = [[1, 2, 3], [4, 5, 6]][i]?.bind fun r => r[j]? :=
  (C12_vec2 (v := [[1, 2, 3], [4, 5, 6]]) (m := 3) rfl (by simp) (by simp) (by simp)).1 (fits_of_pos (by simp) (by simp))

example : Tensor.ofVec2 [[1, 2, 3], [4, 5]] = .error .panic :=
  C12_vec2_rejects (Or.inr (by rintro ⟨m, h⟩; simp at h; omega))

/-- C12: vectors of fixed-size rows, by value (`Vec<[T; N]>`, reinterpreting the block) and by reference. -/
theorem C12_rows {N : Nat} (v : List (Vector α N)) (hlt : v.length < 2 ^ 32 ∧ N < 2 ^ 32) :
    (Fits [v.length, N] → ∃ t xs, Tensor.ofRows v = .ok t ∧ Tensor.ofVecRows v = .ok t ∧ Rep t [v.length, N] xs ∧
      ∀ i j, at? [v.length, N] xs [i, j] = v[i]?.bind fun r => r[j]?) ∧
    (¬ Fits [v.length, N] → Tensor.ofRows v = .error .panic ∧ Tensor.ofVecRows v = .error .panic) := by
  have ha : Adm [v.length, N] := ⟨by simp, by simpa using hlt⟩
  have hl : ∀ r ∈ v, (Vector.toList r).length = [N].prod := by simp
  have hlen : (v.flatMap Vector.toList).length = v.length * N := by rw [length_flatMap_const hl]; simp
  have key := fromVec_ofSlice ha (v.flatMap Vector.toList) (by rw [hlen]; simp)
  have e2 : Tensor.ofVecRows v = Tensor.ofRows v := by
    unfold Tensor.ofVecRows Tensor.ofRows Tensor.fromBoxedRows Tensor.fromVec Tensor.new
    refine bind_congr fun s => ?_
    simp only [hlen, ← List.flatMap_def]
  rw [e2]
  refine ⟨fun hf => ?_, fun hf => ⟨key.2 hf, key.2 hf⟩⟩
  obtain ⟨t, e, hr⟩ := key.1 hf
  refine ⟨t, _, e, e, hr, fun i j => ?_⟩
  rw [at_flatMap rfl hl]
  cases hi : v[i]? with
  | none => rfl
  | some r => simp only [Option.bind_some]; rw [at_vec (by simp)]; simp

example : ∃ t xs, Tensor.ofRows [#v[1, 2], #v[3, 4], #v[5, 6]] = .ok t ∧ Tensor.ofVecRows [#v[1, 2], #v[3, 4], #v[5, 6]] = .ok t ∧
    Rep t [3, 2] xs ∧ ∀ i j, at? [3, 2] xs [i, j] = [#v[1, 2], #v[3, 4], #v[5, 6]][i]?.bind fun r => r[j]? :=
  (C12_rows [#v[1, 2], #v[3, 4], #v[5, 6]] (by simp)).1 (fits_of_pos (by simp) (by simp))

theorem ofVec2Rows_eq {N : Nat} (v : List (List (Vector α N))) (r0 : List (Vector α N)) (h0 : v[0]? = some r0) :
    Tensor.ofVec2Rows v = if ∀ r ∈ v, r0.length = r.length then (do
      let shape ← Shape.ofSlice [v.length, r0.length, N]
      Tensor.fromVec (v.flatMap fun r => r.flatMap Vector.toList) shape) else .error .panic := by
  unfold Tensor.ofVec2Rows
  rw [idx_ok h0, ok_bind]
  dsimp only
  rw [forL_emit (P := fun r => r0.length = r.length) (g := fun r => r.flatMap Vector.toList)]
  · split <;> simp
  · intro b acc
    by_cases hb : r0.length = b.length
    · rw [ensure_true hb, ok_bind, if_pos hb]; rfl
    · rw [ensure_false hb, if_neg hb]; rfl

/-- C12: two levels of vectors of fixed-size rows. -/
theorem C12_vec2_rows {N n m : Nat} {v : List (List (Vector α N))} (hn : v.length = n) (h0 : 0 < n)
    (hm : ∀ r ∈ v, r.length = m) (hlt : n < 2 ^ 32 ∧ m < 2 ^ 32 ∧ N < 2 ^ 32) :
    (Fits [n, m, N] → ∃ t xs, Tensor.ofVec2Rows v = .ok t ∧ Rep t [n, m, N] xs ∧
      ∀ i j k, at? [n, m, N] xs [i, j, k] = v[i]?.bind fun r => r[j]?.bind fun q => q[k]?) ∧
    (¬ Fits [n, m, N] → Tensor.ofVec2Rows v = .error .panic) := by
  obtain ⟨r0, l, rfl⟩ : ∃ r0 l, v = r0 :: l := by cases v; simp at hn; omega; exact ⟨_, _, rfl⟩
  have hr0 : r0.length = m := hm r0 (by simp)
  rw [ofVec2Rows_eq _ r0 rfl, if_pos (by intro r hr; rw [hr0, hm r hr]), hr0, hn]
  have ha : Adm [n, m, N] := ⟨by simp, by simpa using hlt⟩
  have h1 : ∀ r : Vector α N, r.toList.length = [N].prod := by simp
  have h2 : ∀ r ∈ r0 :: l, (r.flatMap Vector.toList).length = [m, N].prod := by
    intro r hr
    rw [length_flatMap_const (fun b _ => h1 b), hm r hr]; simp
  have key := fromVec_ofSlice ha ((r0 :: l).flatMap fun r => r.flatMap Vector.toList)
    (by rw [length_flatMap_const h2, hn]; simp)
  refine ⟨fun hf => ?_, key.2⟩
  obtain ⟨t, e, hr⟩ := key.1 hf
  refine ⟨t, _, e, hr, fun i j k => ?_⟩
  rw [at_flatMap hn h2]
  refine Option.bind_congr fun r hr => ?_
  rw [at_flatMap (hm r (List.mem_of_getElem? hr)) (fun b _ => h1 b)]
  refine Option.bind_congr fun q hq => ?_
  rw [at_vec (by simp)]; simp

example : ∃ t xs, Tensor.ofVec2Rows [[#v[1, 2]], [#v[3, 4]], [#v[5, 6]]] = .ok t ∧ Rep t [3, 1, 2] xs ∧
    ∀ i j k, at? [3, 1, 2] xs [i, j, k] =
      [[#v[1, 2]], [#v[3, 4]], [#v[5, 6]]][i]?.bind fun r => r[j]?.bind fun q => q[k]? :=
  (C12_vec2_rows (v := [[#v[1, 2]], [#v[3, 4]], [#v[5, 6]]]) (m := 1) rfl (by simp) (by simp) (by simp)).1
    (fits_of_pos (by simp) (by simp))

/-- C12: an empty or ragged nesting of fixed-size rows panics. -/
theorem C12_vec2_rows_rejects {N : Nat} {v : List (List (Vector α N))}
    (h : v = [] ∨ ¬ ∃ m, ∀ r ∈ v, r.length = m) : Tensor.ofVec2Rows v = .error .panic := by
  cases v with
  | nil => rfl
  | cons r0 l =>
    rw [ofVec2Rows_eq _ r0 rfl, if_neg]
    intro hc
    rcases h with h | h
    · cases h
    · exact h ⟨r0.length, fun r hr => (hc r hr).symm⟩

example : Tensor.ofVec2Rows [[#v[1, 2]], []] = .error .panic :=
  C12_vec2_rows_rejects (Or.inr (by rintro ⟨m, h⟩; simp at h; omega))

/-- All rows have length `m` and all their rows length `k`. -/
def Uniform3 (m k : Nat) (v : List (List (List α))) : Prop := ∀ r ∈ v, r.length = m ∧ ∀ q ∈ r, q.length = k

/-- The same for one more level. -/
def Uniform4 (m k l : Nat) (v : List (List (List (List α)))) : Prop := ∀ r ∈ v, r.length = m ∧ Uniform3 k l r

/-- The same for one more level. -/
def Uniform5 (m k l o : Nat) (v : List (List (List (List (List α))))) : Prop :=
  ∀ r ∈ v, r.length = m ∧ Uniform4 k l o r

instance (m k : Nat) (v : List (List (List α))) : Decidable (Uniform3 m k v) := by unfold Uniform3; infer_instance
instance (m k l : Nat) (v : List (List (List (List α)))) : Decidable (Uniform4 m k l v) := by
  unfold Uniform4; infer_instance
instance (m k l o : Nat) (v : List (List (List (List (List α))))) : Decidable (Uniform5 m k l o v) := by
  unfold Uniform5; infer_instance

theorem emit1 (m : Nat) (b acc : List α) :
    (do ensure (m = b.length); return acc ++ b : Res (List α)) =
      if b.length = m then .ok (acc ++ id b) else .error .panic := by
  by_cases hb : m = b.length
  · rw [ensure_true hb, ok_bind, if_pos hb.symm]; rfl
  · rw [ensure_false hb, if_neg (fun h => hb h.symm)]; rfl

theorem emit2 (m k : Nat) (b : List (List α)) (acc : List α) :
    (do
      ensure (m = b.length)
      forL b acc fun v2 data => do
        ensure (k = v2.length)
        return data ++ v2 : Res (List α)) =
      if b.length = m ∧ (∀ q ∈ b, q.length = k) then .ok (acc ++ b.flatMap id) else .error .panic := by
  rw [ensure_emit (forL_emit (emit1 k) b acc)]
  simp only [eq_comm (a := m)]

theorem emit3 (m k l : Nat) (b : List (List (List α))) (acc : List α) :
    (do
      ensure (m = b.length)
      forL b acc fun v2 data => do
        ensure (k = v2.length)
        forL v2 data fun v3 data => do
          ensure (l = v3.length)
          return data ++ v3 : Res (List α)) =
      if b.length = m ∧ Uniform3 k l b then .ok (acc ++ b.flatMap fun r => r.flatMap id) else .error .panic := by
  rw [ensure_emit (forL_emit (emit2 k l) b acc)]
  simp only [eq_comm (a := m), Uniform3]
  rfl

theorem emit4 (m k l o : Nat) (b : List (List (List (List α)))) (acc : List α) :
    (do
      ensure (m = b.length)
      forL b acc fun v2 data => do
        ensure (k = v2.length)
        forL v2 data fun v3 data => do
          ensure (l = v3.length)
          forL v3 data fun v4 data => do
            ensure (o = v4.length)
            return data ++ v4 : Res (List α)) =
      if b.length = m ∧ Uniform4 k l o b then .ok (acc ++ b.flatMap fun r => r.flatMap fun q => q.flatMap id)
      else .error .panic := by
  rw [ensure_emit (forL_emit (emit3 k l o) b acc)]
  simp only [eq_comm (a := m), Uniform4]
  rfl

theorem ofVec3_eq (v : List (List (List α))) (r0 : List (List α)) (r1 : List α) (h0 : v[0]? = some r0)
    (h1 : r0[0]? = some r1) :
    Tensor.ofVec3 v = if Uniform3 r0.length r1.length v then (do
      let shape ← Shape.ofSlice [v.length, r0.length, r1.length]
      Tensor.fromVec (v.flatMap fun r => r.flatMap id) shape) else .error .panic := by
  unfold Tensor.ofVec3
  rw [idx_ok h0, ok_bind]
  dsimp only
  rw [idx_ok h1, ok_bind, forL_emit (emit2 r0.length r1.length)]
  by_cases h : Uniform3 r0.length r1.length v
  · have h' := h; unfold Uniform3 at h'
    rw [if_pos h', if_pos h, ok_bind]; rfl
  · have h' := h; unfold Uniform3 at h'
    rw [if_neg h', if_neg h]; rfl

theorem ofVec4_eq (v : List (List (List (List α)))) (r0 : List (List (List α))) (r1 : List (List α)) (r2 : List α)
    (h0 : v[0]? = some r0) (h1 : r0[0]? = some r1) (h2 : r1[0]? = some r2) :
    Tensor.ofVec4 v = if Uniform4 r0.length r1.length r2.length v then (do
      let shape ← Shape.ofSlice [v.length, r0.length, r1.length, r2.length]
      Tensor.fromVec (v.flatMap fun r => r.flatMap fun q => q.flatMap id) shape) else .error .panic := by
  unfold Tensor.ofVec4
  rw [idx_ok h0, ok_bind]
  dsimp only
  rw [idx_ok h1, ok_bind]
  rw [idx_ok h2, ok_bind, forL_emit (emit3 r0.length r1.length r2.length)]
  by_cases h : Uniform4 r0.length r1.length r2.length v
  · have h' := h; unfold Uniform4 at h'
    rw [if_pos h', if_pos h, ok_bind]; rfl
  · have h' := h; unfold Uniform4 at h'
    rw [if_neg h', if_neg h]; rfl

theorem ofVec5_eq (v : List (List (List (List (List α))))) (r0 : List (List (List (List α)))) (r1 : List (List (List α)))
    (r2 : List (List α)) (r3 : List α)
    (h0 : v[0]? = some r0) (h1 : r0[0]? = some r1) (h2 : r1[0]? = some r2) (h3 : r2[0]? = some r3) :
    Tensor.ofVec5 v = if Uniform5 r0.length r1.length r2.length r3.length v then (do
      let shape ← Shape.ofSlice [v.length, r0.length, r1.length, r2.length, r3.length]
      Tensor.fromVec (v.flatMap fun r => r.flatMap fun q => q.flatMap fun p => p.flatMap id) shape)
      else .error .panic := by
  unfold Tensor.ofVec5
  rw [idx_ok h0, ok_bind]
  dsimp only
  rw [idx_ok h1, ok_bind]
  rw [idx_ok h2, ok_bind]
  rw [idx_ok h3, ok_bind, forL_emit (emit4 r0.length r1.length r2.length r3.length)]
  by_cases h : Uniform5 r0.length r1.length r2.length r3.length v
  · have h' := h; unfold Uniform5 at h'
    rw [if_pos h', if_pos h, ok_bind]; rfl
  · have h' := h; unfold Uniform5 at h'
    rw [if_neg h', if_neg h]; rfl

theorem head_of_length {l : List β} {n : Nat} (h : l.length = n) (h0 : 0 < n) : ∃ b, l[0]? = some b ∧ b ∈ l := by
  cases l with
  | nil => simp at h; omega
  | cons b l => exact ⟨b, rfl, by simp⟩

/-- C12, three levels: uniform lengths `n > 0`, `m > 0`, `k`. -/
theorem C12_vec3 {v : List (List (List α))} {n m k : Nat} (hn : v.length = n) (hu : Uniform3 m k v) (h0 : 0 < n)
    (h1 : 0 < m) (hlt : n < 2 ^ 32 ∧ m < 2 ^ 32 ∧ k < 2 ^ 32) :
    (Fits [n, m, k] → ∃ t xs, Tensor.ofVec3 v = .ok t ∧ Rep t [n, m, k] xs ∧
      ∀ a b c, at? [n, m, k] xs [a, b, c] = v[a]?.bind fun r => r[b]?.bind fun q => q[c]?) ∧
    (¬ Fits [n, m, k] → Tensor.ofVec3 v = .error .panic) := by
  obtain ⟨r0, e0, m0⟩ := head_of_length hn h0
  obtain ⟨r1, e1, m1⟩ := head_of_length (hu r0 m0).1 h1
  have l0 := (hu r0 m0).1
  have l1 := (hu r0 m0).2 r1 m1
  rw [ofVec3_eq v r0 r1 e0 e1, l0, l1, if_pos hu, hn]
  have ha : Adm [n, m, k] := ⟨by simp, by simpa using hlt⟩
  have g1 : ∀ r ∈ v, ∀ q ∈ r, (id q : List α).length = [k].prod := by
    intro r hr q hq; simpa using (hu r hr).2 q hq
  have g2 : ∀ r ∈ v, (r.flatMap id).length = [m, k].prod := by
    intro r hr; rw [length_flatMap_const (g1 r hr), (hu r hr).1]; simp
  have key := fromVec_ofSlice ha (v.flatMap fun r => r.flatMap id) (by rw [length_flatMap_const g2, hn]; simp)
  refine ⟨fun hf => ?_, key.2⟩
  obtain ⟨t, e, hr⟩ := key.1 hf
  refine ⟨t, _, e, hr, fun a b c => ?_⟩
  rw [at_flatMap hn g2]
  refine Option.bind_congr fun r hr => ?_
  have hr := List.mem_of_getElem? hr
  rw [at_flatMap (hu r hr).1 (g1 r hr)]
  refine Option.bind_congr fun q hq => ?_
  exact at_vec ((hu r hr).2 q (List.mem_of_getElem? hq)) c

/-- C12, four levels. -/
theorem C12_vec4 {v : List (List (List (List α)))} {n m k l : Nat} (hn : v.length = n) (hu : Uniform4 m k l v)
    (h0 : 0 < n) (h1 : 0 < m) (h2 : 0 < k) (hlt : n < 2 ^ 32 ∧ m < 2 ^ 32 ∧ k < 2 ^ 32 ∧ l < 2 ^ 32) :
    (Fits [n, m, k, l] → ∃ t xs, Tensor.ofVec4 v = .ok t ∧ Rep t [n, m, k, l] xs ∧ ∀ a b c d,
      at? [n, m, k, l] xs [a, b, c, d] = v[a]?.bind fun r => r[b]?.bind fun q => q[c]?.bind fun p => p[d]?) ∧
    (¬ Fits [n, m, k, l] → Tensor.ofVec4 v = .error .panic) := by
  obtain ⟨r0, e0, m0⟩ := head_of_length hn h0
  obtain ⟨r1, e1, m1⟩ := head_of_length (hu r0 m0).1 h1
  obtain ⟨r2, e2, m2⟩ := head_of_length ((hu r0 m0).2 r1 m1).1 h2
  have l0 := (hu r0 m0).1
  have l1 := ((hu r0 m0).2 r1 m1).1
  have l2 := ((hu r0 m0).2 r1 m1).2 r2 m2
  rw [ofVec4_eq v r0 r1 r2 e0 e1 e2, l0, l1, l2, if_pos hu, hn]
  have ha : Adm [n, m, k, l] := ⟨by simp, by simpa using hlt⟩
  have g1 : ∀ r ∈ v, ∀ q ∈ r, ∀ p ∈ q, (id p : List α).length = [l].prod := by
    intro r hr q hq p hp; simpa using ((hu r hr).2 q hq).2 p hp
  have g2 : ∀ r ∈ v, ∀ q ∈ r, (q.flatMap id).length = [k, l].prod := by
    intro r hr q hq; rw [length_flatMap_const (g1 r hr q hq), ((hu r hr).2 q hq).1]; simp
  have g3 : ∀ r ∈ v, (r.flatMap fun q => q.flatMap id).length = [m, k, l].prod := by
    intro r hr; rw [length_flatMap_const (g2 r hr), (hu r hr).1]; simp
  have key := fromVec_ofSlice ha (v.flatMap fun r => r.flatMap fun q => q.flatMap id)
    (by rw [length_flatMap_const g3, hn]; simp)
  refine ⟨fun hf => ?_, key.2⟩
  obtain ⟨t, e, hr⟩ := key.1 hf
  refine ⟨t, _, e, hr, fun a b c d => ?_⟩
  rw [at_flatMap hn g3]
  refine Option.bind_congr fun r hr => ?_
  have hr := List.mem_of_getElem? hr
  rw [at_flatMap (hu r hr).1 (g2 r hr)]
  refine Option.bind_congr fun q hq => ?_
  have hq := List.mem_of_getElem? hq
  rw [at_flatMap ((hu r hr).2 q hq).1 (g1 r hr q hq)]
  refine Option.bind_congr fun p hp => ?_
  exact at_vec (((hu r hr).2 q hq).2 p (List.mem_of_getElem? hp)) d

example : ∃ t xs, Tensor.ofVec4 [[[[1, 2], [3, 4]]], [[[5, 6], [7, 8]]]] = .ok t ∧ Rep t [2, 1, 2, 2] xs ∧ ∀ a b c d,
    at? [2, 1, 2, 2] xs [a, b, c, d] = [[[[1, 2], [3, 4]]], [[[5, 6], [7, 8]]]][a]?.bind
      fun r => r[b]?.bind fun q => q[c]?.bind fun p => p[d]? :=
  (C12_vec4 (v := [[[[1, 2], [3, 4]]], [[[5, 6], [7, 8]]]]) (m := 1) (k := 2) (l := 2) rfl (by simp [Uniform4, Uniform3])
    (by simp) (by simp) (by simp) (by simp)).1 (fits_of_pos (by simp) (by simp))

/-- C12, five levels. -/
theorem C12_vec5 {v : List (List (List (List (List α))))} {n m k l o : Nat} (hn : v.length = n) (hu : Uniform5 m k l o v)
    (h0 : 0 < n) (h1 : 0 < m) (h2 : 0 < k) (h3 : 0 < l)
    (hlt : n < 2 ^ 32 ∧ m < 2 ^ 32 ∧ k < 2 ^ 32 ∧ l < 2 ^ 32 ∧ o < 2 ^ 32) :
    (Fits [n, m, k, l, o] → ∃ t xs, Tensor.ofVec5 v = .ok t ∧ Rep t [n, m, k, l, o] xs ∧ ∀ a b c d e,
      at? [n, m, k, l, o] xs [a, b, c, d, e] =
        v[a]?.bind fun r => r[b]?.bind fun q => q[c]?.bind fun p => p[d]?.bind fun s => s[e]?) ∧
    (¬ Fits [n, m, k, l, o] → Tensor.ofVec5 v = .error .panic) := by
  obtain ⟨r0, e0, m0⟩ := head_of_length hn h0
  obtain ⟨r1, e1, m1⟩ := head_of_length (hu r0 m0).1 h1
  obtain ⟨r2, e2, m2⟩ := head_of_length ((hu r0 m0).2 r1 m1).1 h2
  obtain ⟨r3, e3, m3⟩ := head_of_length (((hu r0 m0).2 r1 m1).2 r2 m2).1 h3
  have l0 := (hu r0 m0).1
  have l1 := ((hu r0 m0).2 r1 m1).1
  have l2 := (((hu r0 m0).2 r1 m1).2 r2 m2).1
  have l3 := (((hu r0 m0).2 r1 m1).2 r2 m2).2 r3 m3
  rw [ofVec5_eq v r0 r1 r2 r3 e0 e1 e2 e3, l0, l1, l2, l3, if_pos hu, hn]
  have ha : Adm [n, m, k, l, o] := ⟨by simp, by simpa using hlt⟩
  have g1 : ∀ r ∈ v, ∀ q ∈ r, ∀ p ∈ q, ∀ s ∈ p, (id s : List α).length = [o].prod := by
    intro r hr q hq p hp s hs; simpa using (((hu r hr).2 q hq).2 p hp).2 s hs
  have g2 : ∀ r ∈ v, ∀ q ∈ r, ∀ p ∈ q, (p.flatMap id).length = [l, o].prod := by
    intro r hr q hq p hp
    rw [length_flatMap_const (g1 r hr q hq p hp), (((hu r hr).2 q hq).2 p hp).1]; simp
  have g3 : ∀ r ∈ v, ∀ q ∈ r, (q.flatMap fun p => p.flatMap id).length = [k, l, o].prod := by
    intro r hr q hq; rw [length_flatMap_const (g2 r hr q hq), ((hu r hr).2 q hq).1]; simp
  have g4 : ∀ r ∈ v, (r.flatMap fun q => q.flatMap fun p => p.flatMap id).length = [m, k, l, o].prod := by
    intro r hr; rw [length_flatMap_const (g3 r hr), (hu r hr).1]; simp
  have key := fromVec_ofSlice ha (v.flatMap fun r => r.flatMap fun q => q.flatMap fun p => p.flatMap id)
    (by rw [length_flatMap_const g4, hn]; simp)
  refine ⟨fun hf => ?_, key.2⟩
  obtain ⟨t, e, hr⟩ := key.1 hf
  refine ⟨t, _, e, hr, fun a b c d e => ?_⟩
  rw [at_flatMap hn g4]
  refine Option.bind_congr fun r hr => ?_
  have hr := List.mem_of_getElem? hr
  rw [at_flatMap (hu r hr).1 (g3 r hr)]
  refine Option.bind_congr fun q hq => ?_
  have hq := List.mem_of_getElem? hq
  rw [at_flatMap ((hu r hr).2 q hq).1 (g2 r hr q hq)]
  refine Option.bind_congr fun p hp => ?_
  have hp := List.mem_of_getElem? hp
  rw [at_flatMap (((hu r hr).2 q hq).2 p hp).1 (g1 r hr q hq p hp)]
  refine Option.bind_congr fun s hs => ?_
  exact at_vec ((((hu r hr).2 q hq).2 p hp).2 s (List.mem_of_getElem? hs)) e

example : ∃ t xs, Tensor.ofVec5 [[[[[1], [2]], [[3], [4]]]], [[[[5], [6]], [[7], [8]]]]] = .ok t ∧ Rep t [2, 1, 2, 2, 1] xs ∧
    ∀ a b c d e, at? [2, 1, 2, 2, 1] xs [a, b, c, d, e] = [[[[[1], [2]], [[3], [4]]]], [[[[5], [6]], [[7], [8]]]]][a]?.bind
      fun r => r[b]?.bind fun q => q[c]?.bind fun p => p[d]?.bind fun s => s[e]? :=
  (C12_vec5 (v := [[[[[1], [2]], [[3], [4]]]], [[[[5], [6]], [[7], [8]]]]]) (m := 1) (k := 2) (l := 2) (o := 1) rfl
    (by simp [Uniform5, Uniform4, Uniform3]) (by simp) (by simp) (by simp) (by simp) (by simp)).1
    (fits_of_pos (by simp) (by simp))

/-- C12, three levels: no first row, an empty first row, or lengths that differ: panic. -/
theorem C12_vec3_rejects {v : List (List (List α))} (h : ¬ ∃ m k, v ≠ [] ∧ 0 < m ∧ Uniform3 m k v) :
    Tensor.ofVec3 v = .error .panic := by
  match v, h with
  | [], _ => rfl
  | [] :: _, _ => rfl
  | (r1 :: r0) :: l, h =>
    rw [ofVec3_eq _ (r1 :: r0) r1 rfl rfl, if_neg]
    intro hc
    exact h ⟨_, _, by simp, by simp, hc⟩

/-- C12, four levels: rejected nestings. -/
theorem C12_vec4_rejects {v : List (List (List (List α)))} (h : ¬ ∃ m k l, v ≠ [] ∧ 0 < m ∧ 0 < k ∧ Uniform4 m k l v) :
    Tensor.ofVec4 v = .error .panic := by
  match v, h with
  | [], _ => rfl
  | [] :: _, _ => rfl
  | ([] :: _) :: _, _ => rfl
  | ((r2 :: r1) :: r0) :: l, h =>
    rw [ofVec4_eq _ ((r2 :: r1) :: r0) (r2 :: r1) r2 rfl rfl rfl, if_neg]
    intro hc
    exact h ⟨_, _, _, by simp, by simp, by simp, hc⟩

example : Tensor.ofVec4 [[[[1, 2]]], [[[3]]]] = .error .panic :=
  C12_vec4_rejects (by rintro ⟨m, k, l, _, _, _, h⟩; simp [Uniform4, Uniform3] at h; omega)

/-- C12, five levels: rejected nestings. -/
theorem C12_vec5_rejects {v : List (List (List (List (List α))))}
    (h : ¬ ∃ m k l o, v ≠ [] ∧ 0 < m ∧ 0 < k ∧ 0 < l ∧ Uniform5 m k l o v) : Tensor.ofVec5 v = .error .panic := by
  match v, h with
  | [], _ => rfl
  | [] :: _, _ => rfl
  | ([] :: _) :: _, _ => rfl
  | (([] :: _) :: _) :: _, _ => rfl
  | (((r3 :: r2) :: r1) :: r0) :: l, h =>
    rw [ofVec5_eq _ (((r3 :: r2) :: r1) :: r0) ((r3 :: r2) :: r1) (r3 :: r2) r3 rfl rfl rfl rfl, if_neg]
    intro hc
    exact h ⟨_, _, _, _, by simp, by simp, by simp, by simp, hc⟩

example : Tensor.ofVec5 [[[[[1, 2]]]], [[[[3], [4]]]]] = .error .panic :=
  C12_vec5_rejects (by rintro ⟨m, k, l, o, _, _, _, _, h⟩; simp [Uniform5, Uniform4, Uniform3] at h; omega)

example : ∃ t xs, Tensor.ofVec3 [[[1, 2], [3, 4], [5, 6]], [[7, 8], [9, 10], [11, 12]]] = .ok t ∧ Rep t [2, 3, 2] xs ∧
    ∀ a b c, at? [2, 3, 2] xs [a, b, c] = [[[1, 2], [3, 4], [5, 6]], [[7, 8], [9, 10], [11, 12]]][a]?.bind
      fun r => r[b]?.bind fun q => q[c]? :=
  (C12_vec3 (v := [[[1, 2], [3, 4], [5, 6]], [[7, 8], [9, 10], [11, 12]]]) (m := 3) (k := 2) rfl (by simp [Uniform3])
    (by simp) (by simp) (by simp)).1 (fits_of_pos (by simp) (by simp))

/-- Raggedness in a later block is noticed. -/
example : Tensor.ofVec3 [[[1, 2], [3, 4]], [[7, 8], [9]]] = .error .panic :=
  C12_vec3_rejects (by
    rintro ⟨m, k, _, _, h⟩
    have h1 := (h [[7, 8], [9]] (by simp)).2 [7, 8] (by simp)
    have h2 := (h [[7, 8], [9]] (by simp)).2 [9] (by simp)
    simp at h1 h2; omega)

/-- C12: nested fixed-size arrays (lengths 0 allowed). -/
theorem C12_arr2 {M N : Nat} (v : Vector (Vector α N) M) (hlt : M < 2 ^ 32 ∧ N < 2 ^ 32) :
    (Fits [M, N] → ∃ t xs, Tensor.ofArr2 v = .ok t ∧ Rep t [M, N] xs ∧
      ∀ i j, at? [M, N] xs [i, j] = v[i]?.bind fun r => r[j]?) ∧
    (¬ Fits [M, N] → Tensor.ofArr2 v = .error .panic) := by
  have ha : Adm [M, N] := ⟨by simp, by simpa using hlt⟩
  have hl : ∀ r ∈ v.toList, (Vector.toList r).length = [N].prod := by simp
  unfold Tensor.ofArr2
  rw [← List.flatMap_def]
  have key := fromVec_ofSlice ha (v.toList.flatMap Vector.toList) (by rw [length_flatMap_const hl]; simp)
  refine ⟨fun hf => ?_, key.2⟩
  obtain ⟨t, e, hr⟩ := key.1 hf
  refine ⟨t, _, e, hr, fun i j => ?_⟩
  rw [at_flatMap (by simp) hl, Vector.getElem?_toList]
  refine Option.bind_congr fun r _ => ?_
  rw [at_vec (by simp)]; simp

example : ∃ t xs, Tensor.ofArr2 #v[#v[1, 2, 3], #v[4, 5, 6]] = .ok t ∧ Rep t [2, 3] xs ∧
    ∀ i j, at? [2, 3] xs [i, j] = #v[#v[1, 2, 3], #v[4, 5, 6]][i]?.bind fun r => r[j]? :=
  (C12_arr2 #v[#v[1, 2, 3], #v[4, 5, 6]] (by simp)).1 (fits_of_pos (by simp) (by simp))

/-- C12: three levels of arrays. -/
theorem C12_arr3 {L M N : Nat} (v : Vector (Vector (Vector α N) M) L) (hlt : L < 2 ^ 32 ∧ M < 2 ^ 32 ∧ N < 2 ^ 32) :
    (Fits [L, M, N] → ∃ t xs, Tensor.ofArr3 v = .ok t ∧ Rep t [L, M, N] xs ∧
      ∀ i j k, at? [L, M, N] xs [i, j, k] = v[i]?.bind fun r => r[j]?.bind fun q => q[k]?) ∧
    (¬ Fits [L, M, N] → Tensor.ofArr3 v = .error .panic) := by
  have ha : Adm [L, M, N] := ⟨by simp, by simpa using hlt⟩
  have h1 : ∀ q : Vector α N, (Vector.toList q).length = [N].prod := by simp
  have h2 : ∀ r : Vector (Vector α N) M, (r.toList.flatMap Vector.toList).length = [M, N].prod := by
    intro r; rw [length_flatMap_const (fun q _ => h1 q)]; simp
  unfold Tensor.ofArr3
  have ed : (((v.toList.map (·.toList)).flatten).map (·.toList)).flatten =
      v.toList.flatMap fun r => r.toList.flatMap Vector.toList := by
    simp only [← List.flatMap_def, List.flatMap_assoc]
  rw [ed]
  have key := fromVec_ofSlice ha (v.toList.flatMap fun r => r.toList.flatMap Vector.toList)
    (by rw [length_flatMap_const (fun r _ => h2 r)]; simp)
  refine ⟨fun hf => ?_, key.2⟩
  obtain ⟨t, e, hr⟩ := key.1 hf
  refine ⟨t, _, e, hr, fun i j k => ?_⟩
  rw [at_flatMap (by simp) (fun r _ => h2 r), Vector.getElem?_toList]
  refine Option.bind_congr fun r _ => ?_
  rw [at_flatMap (by simp) (fun q _ => h1 q), Vector.getElem?_toList]
  refine Option.bind_congr fun q _ => ?_
  rw [at_vec (by simp)]; simp

example : ∃ t xs, Tensor.ofArr3 #v[#v[#v[1, 2, 3], #v[4, 5, 6]]] = .ok t ∧ Rep t [1, 2, 3] xs ∧
    ∀ i j k, at? [1, 2, 3] xs [i, j, k] = #v[#v[#v[1, 2, 3], #v[4, 5, 6]]][i]?.bind fun r => r[j]?.bind fun q => q[k]? :=
  (C12_arr3 #v[#v[#v[1, 2, 3], #v[4, 5, 6]]] (by simp)).1 (fits_of_pos (by simp) (by simp))

/-- C12: four levels of arrays. -/
theorem C12_arr4 {K L M N : Nat} (v : Vector (Vector (Vector (Vector α N) M) L) K)
    (hlt : K < 2 ^ 32 ∧ L < 2 ^ 32 ∧ M < 2 ^ 32 ∧ N < 2 ^ 32) :
    (Fits [K, L, M, N] → ∃ t xs, Tensor.ofArr4 v = .ok t ∧ Rep t [K, L, M, N] xs ∧ ∀ i j k l,
      at? [K, L, M, N] xs [i, j, k, l] = v[i]?.bind fun r => r[j]?.bind fun q => q[k]?.bind fun p => p[l]?) ∧
    (¬ Fits [K, L, M, N] → Tensor.ofArr4 v = .error .panic) := by
  have ha : Adm [K, L, M, N] := ⟨by simp, by simpa using hlt⟩
  have h1 : ∀ q : Vector α N, (Vector.toList q).length = [N].prod := by simp
  have h2 : ∀ r : Vector (Vector α N) M, (r.toList.flatMap Vector.toList).length = [M, N].prod := by
    intro r; rw [length_flatMap_const (fun q _ => h1 q)]; simp
  have h3 : ∀ r : Vector (Vector (Vector α N) M) L,
      (r.toList.flatMap fun q => q.toList.flatMap Vector.toList).length = [L, M, N].prod := by
    intro r; rw [length_flatMap_const (fun q _ => h2 q)]; simp
  unfold Tensor.ofArr4
  have ed : (((((v.toList.map (·.toList)).flatten).map (·.toList)).flatten).map (·.toList)).flatten =
      v.toList.flatMap fun r => r.toList.flatMap fun q => q.toList.flatMap Vector.toList := by
    simp only [← List.flatMap_def, List.flatMap_assoc]
  rw [ed]
  have key := fromVec_ofSlice ha (v.toList.flatMap fun r => r.toList.flatMap fun q => q.toList.flatMap Vector.toList)
    (by rw [length_flatMap_const (fun r _ => h3 r)]; simp)
  refine ⟨fun hf => ?_, key.2⟩
  obtain ⟨t, e, hr⟩ := key.1 hf
  refine ⟨t, _, e, hr, fun i j k l => ?_⟩
  rw [at_flatMap (by simp) (fun r _ => h3 r), Vector.getElem?_toList]
  refine Option.bind_congr fun r _ => ?_
  rw [at_flatMap (by simp) (fun q _ => h2 q), Vector.getElem?_toList]
  refine Option.bind_congr fun q _ => ?_
  rw [at_flatMap (by simp) (fun q _ => h1 q), Vector.getElem?_toList]
  refine Option.bind_congr fun p _ => ?_
  rw [at_vec (by simp)]; simp

example : ∃ t xs, Tensor.ofArr4 #v[#v[#v[#v[1], #v[2]], #v[#v[3], #v[4]]]] = .ok t ∧ Rep t [1, 2, 2, 1] xs ∧
    ∀ i j k l, at? [1, 2, 2, 1] xs [i, j, k, l] = #v[#v[#v[#v[1], #v[2]], #v[#v[3], #v[4]]]][i]?.bind
      fun r => r[j]?.bind fun q => q[k]?.bind fun p => p[l]? :=
  (C12_arr4 #v[#v[#v[#v[1], #v[2]], #v[#v[3], #v[4]]]] (by simp)).1 (fits_of_pos (by simp) (by simp))

/-! ## C13 -/

theorem forL_unit_ok {ts : List β} {body : β → Unit → Res Unit} (h : ∀ t ∈ ts, body t () = .ok ()) :
    forL ts () body = .ok () := by
  unfold forL
  induction ts with
  | nil => rfl
  | cons t ts ih =>
    rw [List.foldlM_cons, h t (by simp), ok_bind]
    exact ih fun u hu => h u (by simp [hu])

theorem RepAll.get' {ts : List (Tensor α)} {ds : List Nat} {ps : List (List α)}
    (h : RepAll ts (ps.map fun x => (ds, x))) {k : Nat} {t : Tensor α} (hk : ts[k]? = some t) :
    ∃ x, ps[k]? = some x ∧ Rep t ds x := by
  have hlt : k < ps.length := by
    have := h.length_eq
    have h2 := (List.getElem?_eq_some_iff.1 hk).1
    simp at this; omega
  obtain ⟨t', ht', hR⟩ := h.get (k := k) (p := (ds, ps[k])) (by simp [List.getElem?_eq_getElem hlt])
  rw [hk] at ht'; cases ht'
  exact ⟨_, List.getElem?_eq_getElem hlt, hR⟩

/-- C13: a non-empty list of tensors of the same dimensions (at most five of them) becomes a tensor with a new outermost
dimension, whose `k`-th outer row is the `k`-th tensor (beyond 2^32 elements: panic). -/
theorem C13_tensors {ts : List (Tensor α)} {ds : List Nat} {ps : List (List α)}
    (hrep : RepAll ts (ps.map fun x => (ds, x))) (hne : ps ≠ []) (hr : ds.length < 6) (hn : ps.length < 2 ^ 32) :
    (Fits (ps.length :: ds) →
      ∃ t out, Tensor.ofTensors ts = .ok t ∧ Rep t (ps.length :: ds) out ∧ IsStack [] ds ps out) ∧
    (¬ Fits (ps.length :: ds) → Tensor.ofTensors ts = .error .panic) := by
  have hlen : ts.length = ps.length := by rw [hrep.length_eq]; simp
  have hmem : ∀ t ∈ ts, t.shape = ofDims ds ∧ t.size = ds.prod := by
    intro t ht
    obtain ⟨k, hk⟩ := List.getElem?_of_mem ht
    obtain ⟨x, hx, hR⟩ := hrep.get' hk
    exact ⟨hR.shape, by rw [hR.size, hR.length]⟩
  have hps : ∀ x ∈ ps, x.length = ds.prod := fun x hx => hrep.mem_length (ds, x) (List.mem_map.2 ⟨x, hx, rfl⟩)
  obtain ⟨t0, l, rfl⟩ : ∃ t0 l, ts = t0 :: l := by
    cases ts with
    | nil => exact absurd (List.length_eq_zero_iff.1 hlen.symm) hne
    | cons t l => exact ⟨t, l, rfl⟩
  have h0 := hmem t0 (by simp)
  have hadm : Adm ds := by
    obtain ⟨x, hx, hR⟩ := hrep.get' (k := 0) rfl
    exact hR.adm
  have ha : Adm (ps.length :: ds) := ⟨by simp; omega, by
    intro d hd
    rcases List.mem_cons.1 hd with rfl | hd
    · exact hn
    · exact hadm.lt d hd⟩
  have key : Tensor.ofTensors (t0 :: l) = Tensor.fromVec ps.flatten (ofDims (ps.length :: ds)) := by
    unfold Tensor.ofTensors
    dsimp only
    rw [ensure_true (by simp), ok_bind, idx_ok (x := t0) rfl, ok_bind, forL_unit_ok, ok_bind, concatSlices_eq hrep, ok_bind,
      h0.1, push_ofDims hr, hlen, asU32_of_lt hn, ok_bind, List.map_map]
    · congr 2
      exact List.map_id _
    · intro t ht
      rw [ensure_true (by rw [h0.2, (hmem t ht).2]), ok_bind, ensure_true (by rw [h0.1, (hmem t ht).1])]
  have hfl : ps.flatten.length = (ps.length :: ds).prod := by
    rw [flatten_length_const (N := ds.prod) hps, List.prod_cons]
  rw [key]
  have hc := C06_from_vec (wf_ofDims ha) (asVec_ofDims ha) ps.flatten
  refine ⟨fun hf => ?_, fun hf => hc.2 fun h => hf h.1⟩
  obtain ⟨t, e, hR⟩ := hc.1 ⟨hf, hfl⟩
  refine ⟨t, _, e, hR, fun k x hx i j hi => ?_⟩
  obtain rfl : i = [] := List.length_eq_zero_iff.1 hi
  have := at_flatMap (g := id) (ds := ds) (v := ps) rfl hps k j
  rw [List.flatMap_id] at this
  simp only [List.nil_append]
  rw [this, hx]; rfl

/-- C13: the empty list, or tensors of differing dimensions, or tensors of the maximal rank 6, are rejected. -/
theorem C13_rejects {ts : List (Tensor α)} {ps : List (List Nat × List α)} (hrep : RepAll ts ps)
    (h : ts = [] ∨ (∃ p ∈ ps, ∃ q ∈ ps, p.1 ≠ q.1) ∨ (∃ p ∈ ps, p.1.length = 6)) :
    Tensor.ofTensors ts = .error .panic := by
  cases hrep with
  | nil => rfl
  | @cons t0 ds0 xs0 l ps0 hR hrest =>
    have hrep : RepAll (t0 :: l) ((ds0, xs0) :: ps0) := .cons hR hrest
    unfold Tensor.ofTensors
    dsimp only
    rw [ensure_true (by simp), ok_bind, idx_ok (x := t0) rfl, ok_bind]
    have hno : NoUB (forL (t0 :: l) () fun value _ => (do
      ensure (t0.size = value.size)
      ensure (t0.shape = value.shape) : Res Unit)) :=
      forL_noUB fun t _ _ => noUB_bind (by simp) fun _ _ => by simp
    cases hc : (forL (t0 :: l) () fun value _ => (do
      ensure (t0.size = value.size)
      ensure (t0.shape = value.shape) : Res Unit)) with
    | error e =>
      rw [hc] at hno
      cases e
      · rfl
      · exact absurd rfl hno
    | ok u =>
      have hall : ∀ t ∈ t0 :: l, t.shape = ofDims ds0 := by
        intro t ht
        obtain ⟨a, b, hb⟩ := forL_ok_all hc t ht
        obtain ⟨_, _, hb⟩ := bind_eq_ok.1 hb
        rw [← ensure_eq_ok.1 hb, hR.shape]
      have hsame : ∀ p ∈ (ds0, xs0) :: ps0, p.1 = ds0 := by
        intro p hp
        obtain ⟨k, hk⟩ := List.getElem?_of_mem hp
        obtain ⟨t, ht, hRt⟩ := hrep.get hk
        have := hall t (List.mem_of_getElem? ht)
        rw [hRt.shape] at this
        rw [← toDims_ofDims p.1, this, toDims_ofDims]
      rcases h with h | ⟨p, hp, q, hq, hpq⟩ | ⟨p, hp, h6⟩
      · cases h
      · exact absurd (by rw [hsame p hp, hsame q hq]) hpq
      · rw [hsame p hp] at h6
        rw [ok_bind, concatSlices_eq hrep, ok_bind, hR.shape]
        unfold Shape.push
        simp [setIdx, ofDims, ofRev, h6]

example : ∃ t out, Tensor.ofTensors [exView, exView] = .ok t ∧ Rep t [2, 3, 2] out ∧
    IsStack [] [3, 2] [[2, 3, 4, 5, 6, 7], [2, 3, 4, 5, 6, 7]] out :=
  (C13_tensors (ds := [3, 2]) (ps := [[2, 3, 4, 5, 6, 7], [2, 3, 4, 5, 6, 7]])
    (.cons exView_rep (.cons exView_rep .nil)) (by simp) (by simp) (by simp)).1 (fits_of_pos (by simp) (by simp))

example : Tensor.ofTensors [exView, exCube] = .error .panic :=
  C13_rejects (.cons exView_rep (.cons exCube_rep .nil)) (Or.inr (Or.inl ⟨([3, 2], _), List.mem_cons_self, ([2, 2, 2], _), List.mem_cons_of_mem _ List.mem_cons_self, by decide⟩))

/-! ## C69 -/

/-- C69: passing tensors as a list, slice or array of handles hands over exactly these tensors in order (after whatever was
in the list before). -/
theorem C69_tensors (ts vec : List (Tensor α)) : Tensor.intoListTensors ts vec = .ok (vec ++ ts) := by
  unfold Tensor.intoListTensors forL
  induction ts generalizing vec with
  | nil => simp
  | cons t ts ih =>
    rw [List.foldlM_cons]
    simp only [pure_eq_ok, ok_bind] at ih ⊢
    rw [ih]; simp

example : Tensor.intoListTensors [exView, exCube] [exCube] = .ok [exCube, exView, exCube] := C69_tensors _ _

/-- C69: passing vectors or a tuple converts each component and keeps the order; a conversion that panics makes the call
panic. -/
theorem C69_converted (conv : β → Res (Tensor α)) (xs : List β) (vec : List (Tensor α)) :
    Tensor.intoListWith conv xs vec = (xs.mapM conv).map fun ts => vec ++ ts := by
  unfold Tensor.intoListWith forL
  induction xs generalizing vec with
  | nil => simp [Except.map]
  | cons x xs ih =>
    rw [List.foldlM_cons, List.mapM_cons]
    cases hx : conv x with
    | error e => simp only [hx]; rfl
    | ok t =>
      simp only [hx, pure_eq_ok, ok_bind] at ih ⊢
      rw [ih]
      cases hm : xs.mapM conv with
      | error e => rfl
      | ok ts => simp [Except.map]

example : ∃ a b, Tensor.intoListWith Tensor.ofVec1 [[1, 2], [3]] [] = .ok [a, b] ∧ Rep a [2] [1, 2] ∧ Rep b [1] [3] := by
  obtain ⟨a, ea, ha⟩ := C12_vec1 [1, 2] (by simp)
  obtain ⟨b, eb, hb⟩ := C12_vec1 [3] (by simp)
  refine ⟨a, b, ?_, ha, hb⟩
  rw [C69_converted]
  simp [List.mapM_cons, ea, eb, ok_bind, Except.map]

end Essay
