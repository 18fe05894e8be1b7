import Verif.Model.From
import Verif.Lemmas.Array

/-!
# Lemmas for the conversions of `from.rs`
-/

namespace Essay

open Shape

variable {α β : Type}

theorem at_vec {xs : List α} {n : Nat} (h : xs.length = n) (j : Nat) : at? [n] xs [j] = xs[j]? := by
  unfold at?
  by_cases hj : j < n
  · simp [ravel, hj]
  · simp [ravel, hj, List.getElem?_eq_none (show xs.length ≤ j by omega)]

theorem length_flatMap_const {g : β → List α} {N : Nat} {v : List β} (h : ∀ b ∈ v, (g b).length = N) :
    (v.flatMap g).length = v.length * N := by
  induction v with
  | nil => simp
  | cons b v ih =>
    rw [List.flatMap_cons, List.length_append, ih (fun c hc => h c (by simp [hc])), h b (by simp), List.length_cons,
      Nat.succ_mul, Nat.add_comm]

theorem at_flatMap {g : β → List α} {ds : List Nat} {v : List β} {n : Nat} (hn : v.length = n)
    (h : ∀ b ∈ v, (g b).length = ds.prod) (i : Nat) (is : List Nat) :
    at? (n :: ds) (v.flatMap g) (i :: is) = v[i]?.bind fun b => at? ds (g b) is := by
  subst hn
  unfold at?
  by_cases hi : i < v.length
  · rw [List.getElem?_eq_getElem hi, Option.bind_some]
    cases hr : ravel ds is with
    | none => simp [ravel, hi, hr]
    | some q =>
      have hq := ravel_lt hr
      simp only [ravel, hi, if_true, hr, Option.map_some, Option.bind_some]
      rw [List.flatMap_def]
      have hpos : 0 < ds.prod := by omega
      rw [flatten_get (N := ds.prod) (by
        intro l hl
        obtain ⟨b, hb, rfl⟩ := List.mem_map.1 hl
        exact h b hb) _ (by
          rw [List.length_map]
          exact lt_mul_add hi hq)]
      rw [mul_add_div' hq, mul_add_mod' hq]
      simp [List.getElem?_eq_getElem hi]
  · rw [List.getElem?_eq_none (by omega)]
    simp [ravel, hi]

/-- A loop whose body appends `g b` or panics. -/
theorem forL_emit {P : β → Prop} [DecidablePred P] {g : β → List α} {body : β → List α → Res (List α)}
    (h : ∀ b acc, body b acc = if P b then .ok (acc ++ g b) else .error .panic) (v : List β) (acc : List α) :
    forL v acc body = if ∀ b ∈ v, P b then .ok (acc ++ v.flatMap g) else .error .panic := by
  unfold forL
  induction v generalizing acc with
  | nil => simp
  | cons b v ih =>
    rw [List.foldlM_cons, h]
    by_cases hb : P b
    · rw [if_pos hb, ok_bind, ih]
      simp [hb]
    · rw [if_neg hb, error_bind]
      simp [hb]

theorem ensure_emit {c : Prop} [Decidable c] {P : Prop} [Decidable P] {x : Res β} {r : β}
    (h : x = if P then .ok r else .error .panic) :
    (do ensure c; x) = if c ∧ P then .ok r else .error .panic := by
  by_cases hc : c
  · rw [ensure_true hc, ok_bind, h]; simp [hc]
  · rw [ensure_false hc, error_bind]; simp [hc]

theorem fromVec_ofSlice {ds : List Nat} (ha : Adm ds) (xs : List α) (hl : xs.length = ds.prod) :
    (Fits ds → ∃ t, (do
      let shape ← Shape.ofSlice ds
      Tensor.fromVec xs shape : Res (Tensor α)) = .ok t ∧ Rep t ds xs) ∧
    (¬ Fits ds → (do
      let shape ← Shape.ofSlice ds
      Tensor.fromVec xs shape : Res (Tensor α)) = .error .panic) := by
  rw [ofSlice_adm ha, ok_bind]
  unfold Tensor.fromVec
  constructor
  · intro h; exact ⟨_, new_ok ha h hl, rep_fresh ha h hl⟩
  · intro h
    apply new_panic
    rw [ne_eq, size_ofDims_iff ha]
    exact fun hc => h hc.1

end Essay
