import Verif.Spec.Methods
import Verif.Props.Array
import Verif.Props.From
import Verif.Props.Init
import Verif.Props.Space
import Verif.Props.Stats
import Verif.Props.RandomMore

/-!
# C79 Method forms, C80 options
-/

namespace Essay

open Tensor Shape

variable {α β F : Type}

/-! ## C79 -/

/-- The operands a method hands over: the receiver, then the converted items in order. -/
theorem intoListWith_ok {conv : β → Res (Tensor α)} {xs : List β} {us : List (Tensor α)}
    (h : List.Forall₂ (fun x u => conv x = .ok u) xs us) (vec : List (Tensor α)) :
    intoListWith conv xs vec = .ok (vec ++ us) := by
  rw [C69_converted]
  suffices hm : xs.mapM conv = .ok us by rw [hm]; rfl
  induction h with
  | nil => rfl
  | cons h1 _ ih => rw [List.mapM_cons, h1, ok_bind, ih]; rfl

theorem intoListWith_panic {conv : β → Res (Tensor α)} {xs : List β} (hp : ∀ x ∈ xs, conv x ≠ .error .ub)
    (h : ∃ x ∈ xs, conv x = .error .panic) (vec : List (Tensor α)) : intoListWith conv xs vec = .error .panic := by
  rw [C69_converted]
  suffices hm : xs.mapM conv = .error .panic by rw [hm]; rfl
  induction xs with
  | nil => obtain ⟨x, hx, _⟩ := h; cases hx
  | cons x xs ih =>
    rw [List.mapM_cons]
    cases hx : conv x with
    | error e =>
      cases e with
      | panic => rfl
      | ub => exact absurd hx (hp x (by simp))
    | ok t =>
      rw [ok_bind, ih (fun y hy => hp y (List.mem_cons_of_mem _ hy))]
      · rfl
      · obtain ⟨y, hy, e⟩ := h
        rcases List.mem_cons.1 hy with rfl | hy
        · rw [hx] at e; cases e
        · exact ⟨y, hy, e⟩

/-- C79: `a.concatenate_axis(axis, others)` is the concatenation of `a` followed by the others in order, whatever
collection the others come in. -/
theorem C79_concatenate_axis_partial {conv : β → Res (Tensor α)} {self : Tensor α} {others : List β} {us : List (Tensor α)}
    (hc : List.Forall₂ (fun x u => conv x = .ok u) others us)
    {pre post : List Nat} {ps : List (Nat × List α)} {n : Nat} {xs : List α} (hs : Rep self (pre ++ n :: post) xs)
    (hrep : RepAll us (ps.map fun p => (pre ++ p.1 :: post, p.2))) {D : Nat} (hD : n + (ps.map (·.1)).sum = D)
    (hD32 : D < 2 ^ 32) (hfit : Fits (pre ++ D :: post)) (hpre : Fits pre) (hr : post.length < 5)
    {a : Int} (ha : axisIndex (pre.length + 1 + post.length) a = some pre.length) :
    ∃ t out, concatenateAxisM conv self (some a) others = .ok t ∧ Rep t (pre ++ D :: post) out ∧
      IsConcat pre post ((n, xs) :: ps) out := by
  obtain ⟨t, out, e, ht, hc'⟩ := C27_concatenate_partial (ps := (n, xs) :: ps) (ts := self :: us)
    (by rw [List.map_cons]; exact .cons hs hrep) (by simp) (by simpa using hD) hD32 hfit hpre hr ha
  refine ⟨t, out, ?_, ht, hc'⟩
  unfold concatenateAxisM
  rw [intoListWith_ok hc, ok_bind]
  exact e

example : ∃ t out, concatenateAxisM (fun t => .ok t) exView (some (-1)) [exView] = .ok t ∧ Rep t [3, 4] out ∧
    IsConcat [3] [] [(2, [2, 3, 4, 5, 6, 7]), (2, [2, 3, 4, 5, 6, 7])] out :=
  C79_concatenate_axis_partial (.cons rfl .nil) (pre := [3]) (post := []) (ps := [(2, [2, 3, 4, 5, 6, 7])]) exView_rep
    (.cons exView_rep .nil) (by simp) (by simp) (fits_of_pos (by simp) (by simp)) (fits_one (by simp)) (by simp) (by decide)

/-- C79: `a.concatenate(others)` joins along the first axis, `a` first. -/
theorem C79_concatenate_partial {conv : β → Res (Tensor α)} {self : Tensor α} {others : List β} {us : List (Tensor α)}
    (hc : List.Forall₂ (fun x u => conv x = .ok u) others us)
    {post : List Nat} {ps : List (Nat × List α)} {n : Nat} {xs : List α} (hs : Rep self (n :: post) xs)
    (hrep : RepAll us (ps.map fun p => (p.1 :: post, p.2))) {D : Nat} (hD : n + (ps.map (·.1)).sum = D)
    (hD32 : D < 2 ^ 32) (hfit : Fits (D :: post)) (hr : post.length < 5) :
    ∃ t out, concatenateM conv self others = .ok t ∧ Rep t (D :: post) out ∧ IsConcat [] post ((n, xs) :: ps) out := by
  obtain ⟨t, out, e, -, ht, hc'⟩ := C27_concatenate_outer_partial (ps := (n, xs) :: ps) (ts := self :: us)
    (by rw [List.map_cons]; exact .cons hs hrep) (by simp) (by simpa using hD) hD32 hfit hr
  refine ⟨t, out, ?_, ht, hc'⟩
  unfold concatenateM
  rw [intoListWith_ok hc, ok_bind]
  exact e

/-- C79: `a.stack(others, axis)` has `a` as slice 0 and the others as slices 1, 2, ... along the new axis;
`stack_axis(axis, all)` gives the same for `all = a :: others`. -/
theorem C79_stack_partial {conv : β → Res (Tensor α)} {self : Tensor α} {others : List β} {us : List (Tensor α)}
    (hc : List.Forall₂ (fun x u => conv x = .ok u) others us)
    {pre post : List Nat} {ps : List (List α)} {xs : List α} (hs : Rep self (pre ++ post) xs)
    (hrep : RepAll us (ps.map fun x => (pre ++ post, x))) (h32 : ps.length + 1 < 2 ^ 32)
    (hpos : 0 < post.prod) (hfit : Fits (pre ++ (ps.length + 1) :: post)) (hr : post.length < 5) (hr6 : pre.length + post.length < 6)
    {a : Int} (ha : axisIndex (pre.length + post.length + 1) a = some pre.length) :
    ∃ t out, stackM conv self others (some a) = .ok t ∧ Rep t (pre ++ (ps.length + 1) :: post) out ∧
      IsStack pre post (xs :: ps) out ∧
      ∀ x0, conv x0 = .ok self → stackAxisF conv (some a) (x0 :: others) = .ok t := by
  obtain ⟨t, out, e, ht, hc'⟩ := C28_stack_partial (ps := xs :: ps) (ts := self :: us)
    (by rw [List.map_cons]; exact .cons hs hrep) (by simp) h32 hpos hfit hr hr6 ha
  refine ⟨t, out, ?_, ht, hc', fun x0 hx0 => ?_⟩
  · unfold stackM
    rw [intoListWith_ok hc, ok_bind]
    exact e
  · unfold stackAxisF
    rw [intoListWith_ok (.cons hx0 hc), ok_bind]
    exact e

example : ∃ t out, stackM (fun t => .ok t) exView [exView] (some 1) = .ok t ∧ Rep t [3, 2, 2] out ∧
    IsStack [3] [2] [[2, 3, 4, 5, 6, 7], [2, 3, 4, 5, 6, 7]] out ∧
    ∀ x0, (.ok x0 : Res (Tensor Nat)) = .ok exView → stackAxisF (fun t => .ok t) (some 1) [x0, exView] = .ok t :=
  C79_stack_partial (.cons rfl .nil) (pre := [3]) (post := [2]) (ps := [[2, 3, 4, 5, 6, 7]]) exView_rep
    (.cons exView_rep .nil) (by simp) (by simp) (fits_of_pos (by simp) (by simp)) (by simp) (by simp) (by decide)

/-- C79: `a.vstack(others)` and the function `vstack` on all operands stack them along a new first axis, `a` first. -/
theorem C79_vstack_partial {conv : β → Res (Tensor α)} {self : Tensor α} {others : List β} {us : List (Tensor α)}
    (hc : List.Forall₂ (fun x u => conv x = .ok u) others us)
    {ds : List Nat} {ps : List (List α)} {xs : List α} (hs : Rep self ds xs)
    (hrep : RepAll us (ps.map fun x => (ds, x))) (h32 : ps.length + 1 < 2 ^ 32)
    (hfit : Fits ((ps.length + 1) :: ds)) (hr : ds.length < 5) :
    ∃ t out, vstackM conv self others = .ok t ∧ Rep t ((ps.length + 1) :: ds) out ∧ IsStack [] ds (xs :: ps) out ∧
      ∀ x0, conv x0 = .ok self → vstackF conv (x0 :: others) = .ok t := by
  obtain ⟨t, out, e, ht, hc', -⟩ := C29_vstack_partial (ps := xs :: ps) (ts := self :: us)
    (by rw [List.map_cons]; exact .cons hs hrep) (by simp) h32 hfit hr
  refine ⟨t, out, ?_, ht, hc', fun x0 hx0 => ?_⟩
  · unfold vstackM
    rw [intoListWith_ok hc, ok_bind]
    exact e
  · unfold vstackF
    rw [intoListWith_ok (.cons hx0 hc), ok_bind]
    exact e

example : ∃ t out, vstackM (fun t => .ok t) exView [exView] = .ok t ∧ Rep t [2, 3, 2] out ∧
    IsStack [] [3, 2] [[2, 3, 4, 5, 6, 7], [2, 3, 4, 5, 6, 7]] out ∧
    ∀ x0, (.ok x0 : Res (Tensor Nat)) = .ok exView → vstackF (fun t => .ok t) [x0, exView] = .ok t :=
  C79_vstack_partial (.cons rfl .nil) (ps := [[2, 3, 4, 5, 6, 7]]) exView_rep
    (.cons exView_rep .nil) (by simp) (fits_of_pos (by simp) (by simp)) (by simp)

/-- C79: `a.dstack(others)` on matrices, and the function `dstack` on all operands: element `[i, j, k]` of the result is
element `[i, j]` of operand `k`, where `a` is operand 0. -/
theorem C79_dstack_matrices {conv : β → Res (Tensor α)} {self : Tensor α} {others : List β} {us : List (Tensor α)}
    (hc : List.Forall₂ (fun x u => conv x = .ok u) others us)
    {r c : Nat} {ps : List (List α)} {xs : List α} (hs : Rep self [r, c] xs)
    (hrep : RepAll us (ps.map fun x => ([r, c], x))) (h32 : ps.length + 1 < 2 ^ 32)
    (hfit : Fits [r, c, ps.length + 1]) :
    ∃ t out, dstackM conv self others = .ok t ∧ Rep t [r, c, ps.length + 1] out ∧ IsStack [r, c] [] (xs :: ps) out ∧
      ∀ x0, conv x0 = .ok self → dstackF conv (x0 :: others) = .ok t := by
  obtain ⟨t, out, e, ht, hc'⟩ := C29_dstack_matrices (ps := xs :: ps) (ts := self :: us)
    (by rw [List.map_cons]; exact .cons hs hrep) (by simp) h32 hfit
  refine ⟨t, out, ?_, ht, hc', fun x0 hx0 => ?_⟩
  · unfold dstackM
    rw [intoListWith_ok hc, ok_bind]
    exact e
  · unfold dstackF
    rw [intoListWith_ok (.cons hx0 hc), ok_bind]
    exact e

example : ∃ t out, dstackM (fun t => .ok t) exView [exView] = .ok t ∧ Rep t [3, 2, 2] out ∧
    IsStack [3, 2] [] [[2, 3, 4, 5, 6, 7], [2, 3, 4, 5, 6, 7]] out ∧
    ∀ x0, (.ok x0 : Res (Tensor Nat)) = .ok exView → dstackF (fun t => .ok t) [x0, exView] = .ok t :=
  C79_dstack_matrices (.cons rfl .nil) (ps := [[2, 3, 4, 5, 6, 7]]) exView_rep
    (.cons exView_rep .nil) (by simp) (fits_of_pos (by simp) (by simp))

/-- C79: the same on vectors. -/
theorem C79_dstack_vectors {conv : β → Res (Tensor α)} {self : Tensor α} {others : List β} {us : List (Tensor α)}
    (hc : List.Forall₂ (fun x u => conv x = .ok u) others us)
    {n : Nat} {ps : List (List α)} {xs : List α} (hs : Rep self [n] xs)
    (hrep : RepAll us (ps.map fun x => ([n], x))) (h32 : ps.length + 1 < 2 ^ 32)
    (hfit : n * (ps.length + 1) < 2 ^ 32) :
    ∃ t out, dstackM conv self others = .ok t ∧ Rep t [1, n, ps.length + 1] out ∧ IsStack [1, n] [] (xs :: ps) out ∧
      ∀ x0, conv x0 = .ok self → dstackF conv (x0 :: others) = .ok t := by
  obtain ⟨t, out, e, ht, hc'⟩ := C29_dstack_vectors (ps := xs :: ps) (ts := self :: us)
    (by rw [List.map_cons]; exact .cons hs hrep) (by simp) h32 hfit
  refine ⟨t, out, ?_, ht, hc', fun x0 hx0 => ?_⟩
  · unfold dstackM
    rw [intoListWith_ok hc, ok_bind]
    exact e
  · unfold dstackF
    rw [intoListWith_ok (.cons hx0 hc), ok_bind]
    exact e

example : ∃ t out, dstackM ofVec1 (⟨ofDims [2], 0, 2, [1, 2]⟩ : Tensor Nat) [[3, 4]] = .ok t ∧ Rep t [1, 2, 2] out ∧
    IsStack [1, 2] [] [[1, 2], [3, 4]] out := by
  obtain ⟨a, ea, ha⟩ := C12_vec1 [3, 4] (by simp)
  obtain ⟨t, out, h1, h2, h3, -⟩ := C79_dstack_vectors (us := [a]) (.cons ea .nil) (ps := [[3, 4]])
    (rep_fresh (ds := [2]) (xs := [1, 2]) ⟨by simp, by simp⟩ (fits_of_pos (by simp) (by simp)) rfl)
    (.cons ha .nil) (by simp) (by simp)
  exact ⟨t, out, h1, h2, h3⟩

/-- C79: an operand whose conversion panics makes every method panic. -/
theorem C79_conversion_panics {conv : β → Res (Tensor α)} {others : List β} (hp : ∀ x ∈ others, conv x ≠ .error .ub)
    (h : ∃ x ∈ others, conv x = .error .panic) (self : Tensor α) (axis : Axis) :
    concatenateM conv self others = .error .panic ∧ concatenateAxisM conv self axis others = .error .panic ∧
    stackM conv self others axis = .error .panic ∧ dstackM conv self others = .error .panic ∧
    vstackM conv self others = .error .panic := by
  unfold concatenateM concatenateAxisM stackM dstackM vstackM
  simp only [intoListWith_panic hp h]
  exact ⟨rfl, rfl, rfl, rfl, rfl⟩

/-- Nested lists of unequal lengths as the second operand. -/
example : stackM ofVec2 exView [[[1, 2], [3, 4], [5, 6]], [[1, 2], [3], [4, 5]]] (some 1) = .error .panic := by
  have h : ofVec2 [[1, 2], [3], [4, 5]] = .error .panic := C12_vec2_rejects (Or.inr (by rintro ⟨m, h⟩; simp at h; omega))
  refine (C79_conversion_panics (fun x hx => ?_) ⟨_, by simp, h⟩ exView (some 1)).2.2.1
  simp only [List.mem_cons, List.not_mem_nil, or_false] at hx
  rcases hx with rfl | rfl
  · obtain ⟨t, _, e, _⟩ := (C12_vec2 (v := [[1, 2], [3, 4], [5, 6]]) (m := 2) rfl (by simp) (by simp) (by simp)).1
      (fits_of_pos (by simp) (by simp))
    simp [e]
  · simp [h]

/-- C79: `a.meshgrid(b)` for vectors gives `[x, y]`, both with `b.len()` rows and `a.len()` columns, where
`x[i, j] = a[j]` and `y[i, j] = b[i]`; `a.meshgrid_ij(b)` has `a.len()` rows and `x[i, j] = a[i]`, `y[i, j] = b[j]`. -/
theorem C79_meshgrid {a b : Tensor α} {xs ys : List α} (ha : Rep a [xs.length] xs) (hb : Rep b [ys.length] ys)
    (hx : xs ≠ []) (hy : ys ≠ []) (hf : xs.length * ys.length < 2 ^ 32) :
    (∃ x y us vs, meshgridM a b = .ok [x, y] ∧ Rep x [ys.length, xs.length] us ∧ Rep y [ys.length, xs.length] vs ∧
      ∀ i j, i < ys.length → j < xs.length → at? [ys.length, xs.length] us [i, j] = xs[j]? ∧
        at? [ys.length, xs.length] vs [i, j] = ys[i]?) ∧
    (∃ x y us vs, meshgridIJM a b = .ok [x, y] ∧ Rep x [xs.length, ys.length] us ∧ Rep y [xs.length, ys.length] vs ∧
      ∀ i j, i < xs.length → j < ys.length → at? [xs.length, ys.length] us [i, j] = xs[i]? ∧
        at? [xs.length, ys.length] vs [i, j] = ys[j]?) := by
  have hrep : RepAll [a, b] ([xs, ys].map fun xs => ([xs.length], xs)) := .cons ha (.cons hb .nil)
  have hne : ∀ zs ∈ [xs, ys], zs ≠ [] := by simpa using ⟨hx, hy⟩
  have hf' : ([xs, ys].map List.length).prod < 2 ^ 32 := by simpa using hf
  constructor
  · obtain ⟨os, e, hl, h⟩ := C34_meshgrid hrep (by simp) hne hf'
    obtain ⟨x, us, e0, h0, k0⟩ := h 0 xs rfl
    obtain ⟨y, vs, e1, h1, k1⟩ := h 1 ys rfl
    obtain ⟨x', y', rfl⟩ : ∃ x y, os = [x, y] := by
      match os, hl with
      | [x, y], _ => exact ⟨x, y, rfl⟩
    simp only [List.getElem?_cons_zero, Option.some.injEq] at e0
    simp only [List.getElem?_cons_succ, List.getElem?_cons_zero, Option.some.injEq] at e1
    subst e0; subst e1
    refine ⟨x', y', us, vs, e, by simpa using h0, by simpa using h1, fun i j hi hj => ?_⟩
    have hrv : (ravel ([xs, ys].map List.length).reverse [i, j]).isSome := by
      simp [ravel, hi, hj]
    exact ⟨by simpa using k0 [i, j] j hrv rfl, by simpa using k1 [i, j] i hrv rfl⟩
  · obtain ⟨os, e, hl, h⟩ := C34_meshgrid_ij hrep (by simp) hne hf'
    obtain ⟨x, us, e0, h0, k0⟩ := h 0 xs rfl
    obtain ⟨y, vs, e1, h1, k1⟩ := h 1 ys rfl
    obtain ⟨x', y', rfl⟩ : ∃ x y, os = [x, y] := by
      match os, hl with
      | [x, y], _ => exact ⟨x, y, rfl⟩
    simp only [List.getElem?_cons_zero, Option.some.injEq] at e0
    simp only [List.getElem?_cons_succ, List.getElem?_cons_zero, Option.some.injEq] at e1
    subst e0; subst e1
    refine ⟨x', y', us, vs, e, by simpa using h0, by simpa using h1, fun i j hi hj => ?_⟩
    have hrv : (ravel ([xs, ys].map List.length) [i, j]).isSome := by
      simp [ravel, hi, hj]
    exact ⟨by simpa using k0 [i, j] i hrv rfl, by simpa using k1 [i, j] j hrv rfl⟩

example : ∃ x y us vs, meshgridM (⟨ofDims [2], 0, 2, [1, 2]⟩ : Tensor Nat) ⟨ofDims [3], 0, 3, [7, 8, 9]⟩ = .ok [x, y] ∧
    Rep x [3, 2] us ∧ Rep y [3, 2] vs ∧
    ∀ i j, i < 3 → j < 2 → at? [3, 2] us [i, j] = [1, 2][j]? ∧ at? [3, 2] vs [i, j] = [7, 8, 9][i]? :=
  (C79_meshgrid (xs := [1, 2]) (ys := [7, 8, 9])
    (rep_fresh (ds := [2]) (xs := [1, 2]) ⟨by simp, by simp⟩ (fits_of_pos (by simp) (by simp)) rfl)
    (rep_fresh (ds := [3]) (xs := [7, 8, 9]) ⟨by simp, by simp⟩ (fits_of_pos (by simp) (by simp)) rfl)
    (by simp) (by simp) (by simp)).1

/-- C79: in `a.linspace(b, len)`, `a.logspace(b, len)` and `a.geomspace(b, len)` the receiver gives the start of each lane
and the argument its end: in exact arithmetic row 0 is `a` (or `10 ^ a`) and the last row is `b` (or `10 ^ b`). -/
theorem C79_spaces {a b : Tensor ℝ} {ds : List Nat} {xs ys : List ℝ} {len : Nat}
    (ha : Rep a ds xs) (hb : Rep b ds ys) (hr : ds.length < 5) (hne : 0 < ds.prod) (h2 : 2 ≤ len)
    (hle : ∀ (i : Nat) x y, xs[i]? = some x → ys[i]? = some y → x ≤ y) (hfit : Fits (len :: ds)) :
    (∃ t zs, linspaceM .real a b len = .ok t ∧ Rep t (len :: ds) zs ∧ ∀ is x y, at? ds xs is = some x →
      at? ds ys is = some y → at? (len :: ds) zs (0 :: is) = some x ∧ at? (len :: ds) zs ((len - 1) :: is) = some y) ∧
    (∃ t zs, logspaceM .real a b len = .ok t ∧ Rep t (len :: ds) zs ∧ ∀ is x y, at? ds xs is = some x →
      at? ds ys is = some y → at? (len :: ds) zs (0 :: is) = some ((10 : ℝ) ^ x) ∧
        at? (len :: ds) zs ((len - 1) :: is) = some ((10 : ℝ) ^ y)) ∧
    ((∀ x ∈ xs, 0 < x) → ∃ t zs, geomspaceM .real a b len = .ok t ∧ Rep t (geomDims len ds) zs ∧
      ∀ is x y, at? ds xs is = some x → at? ds ys is = some y →
        at? (len :: ds) zs (0 :: is) = some x ∧ at? (len :: ds) zs ((len - 1) :: is) = some y) := by
  have hl : ((len : ℝ) - 1) ≠ 0 := by
    have : (2 : ℝ) ≤ len := by exact_mod_cast h2
    linarith
  have hc : (((len - 1 : Nat) : ℝ)) = (len : ℝ) - 1 := by push_cast [show 1 ≤ len by omega]; ring
  refine ⟨?_, ?_, fun hpos => ?_⟩
  · obtain ⟨t, zs, e, ht, h⟩ := C35_exact_partial Real.log Real.exp Real.sqrt (fun x y => x ^ y) ha hb hr hne hle hfit
    exact ⟨t, zs, e, ht, fun is x y hx hy => ⟨(h is x y hx hy).1 (by omega), (h is x y hx hy).2.1 h2⟩⟩
  · obtain ⟨h1, h3⟩ := C36_logspace_real_partial ha hb hr hne h2 hle hfit
    obtain ⟨t, zs, e, ht, h⟩ := h1 10
    refine ⟨t, zs, h3.trans e, ht, fun is x y hx hy => ⟨?_, ?_⟩⟩
    · rw [h 0 is x y (by omega) hx hy]; simp
    · rw [h (len - 1) is x y (by omega) hx hy, hc]
      congr 2; field_simp; ring
  · obtain ⟨t, zs, e, ht, h⟩ := C36_geomspace_real_partial ha hb (Or.inl hr) hne h2 hpos hle hfit
    refine ⟨t, zs, e, ht, fun is x y hx hy => ?_⟩
    have hx0 : 0 < x := by
      unfold at? at hx
      obtain ⟨p, -, hp⟩ := Option.bind_eq_some_iff.1 hx
      exact hpos x (List.mem_of_getElem? hp)
    refine ⟨?_, ?_⟩
    · rw [h 0 is x y (by omega) hx hy]; simp
    · rw [h (len - 1) is x y (by omega) hx hy, hc, div_self hl, Real.rpow_one]
      congr 1; field_simp

example : ∃ t zs, linspaceM .real (⟨ofDims [2], 0, 2, [1, 2]⟩ : Tensor ℝ) ⟨ofDims [2], 0, 2, [4, 2]⟩ 7 = .ok t ∧
    Rep t [7, 2] zs ∧ ∀ is x y, at? [2] [1, 2] is = some x → at? [2] [4, 2] is = some y →
      at? [7, 2] zs (0 :: is) = some x ∧ at? [7, 2] zs (6 :: is) = some y := by
  refine (C79_spaces (ds := [2]) (xs := [1, 2]) (ys := [4, 2]) (len := 7)
    (rep_fresh (ds := [2]) (xs := [1, 2]) ⟨by simp, by simp⟩ (fits_of_pos (by simp) (by simp)) rfl)
    (rep_fresh (ds := [2]) (xs := [4, 2]) ⟨by simp, by simp⟩ (fits_of_pos (by simp) (by simp)) rfl)
    (by simp) (by simp) (by simp) ?_ (fits_of_pos (by simp) (by simp))).1
  intro i x y hx hy
  match i with
  | 0 => simp at hx hy; subst hx hy; norm_num
  | 1 => simp at hx hy; subst hx hy; norm_num
  | _ + 2 => simp at hx

example : ∃ t out, concatenateM ofVec1 (⟨ofDims [2], 0, 2, [1, 2]⟩ : Tensor Nat) [[3], [4, 5]] = .ok t ∧ Rep t [5] out ∧
    IsConcat [] [] [(2, [1, 2]), (1, [3]), (2, [4, 5])] out := by
  obtain ⟨a, ea, ha⟩ := C12_vec1 [3] (by simp)
  obtain ⟨b, eb, hb⟩ := C12_vec1 [4, 5] (by simp)
  exact C79_concatenate_partial (us := [a, b]) (.cons ea (.cons eb .nil)) (ps := [(1, [3]), (2, [4, 5])])
    (rep_fresh (ds := [2]) ⟨by simp, by simp⟩ (fits_of_pos (by simp) (by simp)) rfl)
    (.cons ha (.cons hb .nil)) (by simp) (by simp) (fits_of_pos (by simp) (by simp)) (by simp)

/-! ## C80 -/

namespace Random

theorem lastOf_append {W V : Type} (f : W → Option V) (ws : List W) (w : W) :
    lastOf f (ws ++ [w]) = (f w).or (lastOf f ws) := by
  unfold lastOf
  rw [List.filterMap_append]
  cases h : f w <;> simp [h]

/-- The fields of an option struct after any chain of calls. -/
theorem normal_fields (fo : FOps F) (start : NormalStart F) (calls : List (NormalWrite F)) :
    calls.foldl NormalWrite.run (start.run fo) =
      ⟨(lastOf NormalWrite.mean? (start.writes ++ calls)).getD fo.zero,
       (lastOf NormalWrite.std? (start.writes ++ calls)).getD fo.one, lastOf NormalWrite.seed? (start.writes ++ calls)⟩ := by
  induction calls using List.reverseRecOn with
  | nil =>
    rw [List.append_nil]
    cases start with
    | option s => cases s <;> rfl
    | _ => rfl
  | append_singleton calls c ih =>
    rw [List.foldl_append, List.foldl_cons, List.foldl_nil, ih, ← List.append_assoc]
    simp only [lastOf_append]
    cases c <;> rfl

theorem uniform_fields (fo : FOps F) (start : UniformStart F) (calls : List (UniformWrite F)) :
    calls.foldl UniformWrite.run (start.run fo) =
      ⟨(lastOf UniformWrite.min? (start.writes ++ calls)).getD fo.zero,
       (lastOf UniformWrite.max? (start.writes ++ calls)).getD fo.one, lastOf UniformWrite.seed? (start.writes ++ calls)⟩ := by
  induction calls using List.reverseRecOn with
  | nil =>
    rw [List.append_nil]
    cases start with
    | option s => cases s <;> rfl
    | _ => rfl
  | append_singleton calls c ih =>
    rw [List.foldl_append, List.foldl_cons, List.foldl_nil, ih, ← List.append_assoc]
    simp only [lastOf_append]
    cases c <;> rfl

/-- C80: however the options of `random_normal` were written (any constructor, any chain of setters in any order), the
tensor is made of the draws of the generator started at the last seed written, scaled by the last `std` written (1 if
none) and shifted by the last `mean` written (0 if none); without a seed the generator starts at the next default seed of
the thread. -/
theorem C80_normal (fr : FRand F) {s : Shape} {ds : List Nat} (hs : s.WF) (hds : s.asVec = .ok ds) (hf : Fits ds)
    (start : NormalStart F) (calls : List (NormalWrite F)) (tid : Nat) (p : Process) :
    ∃ t p' seed, randomNormal fr s (calls.foldl NormalWrite.run (start.run fr.toFOps)) tid p = .ok (t, p') ∧
      Rep t ds ((List.range ds.prod).map fun i =>
        fr.add ((lastOf NormalWrite.mean? (start.writes ++ calls)).getD fr.zero)
          (fr.mul (nextNormal32 fr ((fun s => (nextNormal32 fr s).2)^[i] seed)).1
            ((lastOf NormalWrite.std? (start.writes ++ calls)).getD fr.one))) ∧
      (∀ v, lastOf NormalWrite.seed? (start.writes ++ calls) = some v → seed = v ∧ p' = p) ∧
      (lastOf NormalWrite.seed? (start.writes ++ calls) = none → (seed, p') = newRand32 tid p) := by
  rw [normal_fields]
  generalize (lastOf NormalWrite.mean? (start.writes ++ calls)).getD fr.zero = m
  generalize (lastOf NormalWrite.std? (start.writes ++ calls)).getD fr.one = d
  cases hsd : lastOf NormalWrite.seed? (start.writes ++ calls) with
  | some v =>
    obtain ⟨t, e, ht⟩ := C49_normal fr hs hds hf m d v
    exact ⟨t, p, v, e tid p, ht, fun w hw => ⟨by simpa using hw, rfl⟩, fun h => by cases h⟩
  | none =>
    obtain ⟨t, e, ht⟩ := C49_normal fr hs hds hf m d (newRand32 tid p).1
    refine ⟨t, (newRand32 tid p).2, (newRand32 tid p).1, ?_, ht, fun w hw => (by cases hw), fun _ => rfl⟩
    have := e tid p
    unfold randomNormal initRand at this ⊢
    dsimp only at this ⊢
    cases hx : StateT.run (Tensor.init s (drawNormal fr ⟨m, d, none⟩)) (newRand32 tid p).1 with
    | error er =>
      rw [show drawNormal fr ⟨m, d, some (newRand32 tid p).1⟩ = drawNormal fr ⟨m, d, none⟩ from rfl, hx] at this
      cases this
    | ok r =>
      rw [show drawNormal fr ⟨m, d, some (newRand32 tid p).1⟩ = drawNormal fr ⟨m, d, none⟩ from rfl, hx] at this
      have h1 : r.1 = t := by
        have := Except.ok.inj this
        exact congrArg Prod.fst this
      rw [ok_bind, h1]
      rfl

/-- Two elements, mean set twice, seed 3: the last mean counts, and the seed of the process is left alone. -/
example (fr : FRand F) (a b : F) (tid : Nat) (p : Process) :
    ∃ t p' seed, randomNormal fr (ofDims [2]) ([NormalWrite.mean a, .mean b].foldl NormalWrite.run
        ((NormalStart.seed 3).run fr.toFOps)) tid p = .ok (t, p') ∧
      Rep t [2] ((List.range [2].prod).map fun i => fr.add b
        (fr.mul (nextNormal32 fr ((fun s => (nextNormal32 fr s).2)^[i] seed)).1 fr.one)) ∧ seed = 3 ∧ p' = p := by
  obtain ⟨t, p', seed, h1, h2, h3, -⟩ := C80_normal fr (ds := [2]) (wf_ofDims (l := [2]) ⟨by simp, by simp⟩) rfl
    (fits_one (by simp)) (.seed 3) [.mean a, .mean b] tid p
  exact ⟨t, p', seed, h1, h2, h3 3 rfl⟩

/-- C80 for `random_uniform` (whose draws the code takes from the normal distribution, see C50). -/
theorem C80_uniform (fr : FRand F) {s : Shape} {ds : List Nat} (hs : s.WF) (hds : s.asVec = .ok ds) (hf : Fits ds)
    (start : UniformStart F) (calls : List (UniformWrite F)) (tid : Nat) (p : Process) :
    ∃ t p' seed, randomUniform fr s (calls.foldl UniformWrite.run (start.run fr.toFOps)) tid p = .ok (t, p') ∧
      Rep t ds ((List.range ds.prod).map fun i =>
        fr.add ((lastOf UniformWrite.min? (start.writes ++ calls)).getD fr.zero)
          (fr.mul (nextNormal32 fr ((fun s => (nextNormal32 fr s).2)^[i] seed)).1
            (fr.max (fr.sub ((lastOf UniformWrite.max? (start.writes ++ calls)).getD fr.one)
              ((lastOf UniformWrite.min? (start.writes ++ calls)).getD fr.zero)) fr.zero))) ∧
      (∀ v, lastOf UniformWrite.seed? (start.writes ++ calls) = some v → seed = v ∧ p' = p) ∧
      (lastOf UniformWrite.seed? (start.writes ++ calls) = none → (seed, p') = newRand32 tid p) := by
  rw [uniform_fields]
  generalize (lastOf UniformWrite.min? (start.writes ++ calls)).getD fr.zero = m
  generalize (lastOf UniformWrite.max? (start.writes ++ calls)).getD fr.one = d
  cases hsd : lastOf UniformWrite.seed? (start.writes ++ calls) with
  | some v =>
    obtain ⟨t, e, ht⟩ := C49_uniform fr hs hds hf m d v
    exact ⟨t, p, v, e tid p, ht, fun w hw => ⟨by simpa using hw, rfl⟩, fun h => by cases h⟩
  | none =>
    obtain ⟨t, e, ht⟩ := C49_uniform fr hs hds hf m d (newRand32 tid p).1
    refine ⟨t, (newRand32 tid p).2, (newRand32 tid p).1, ?_, ht, fun w hw => (by cases hw), fun _ => rfl⟩
    have := e tid p
    unfold randomUniform initRand at this ⊢
    dsimp only at this ⊢
    cases hx : StateT.run (Tensor.init s (drawUniform fr ⟨m, d, none⟩)) (newRand32 tid p).1 with
    | error er =>
      rw [show drawUniform fr ⟨m, d, some (newRand32 tid p).1⟩ = drawUniform fr ⟨m, d, none⟩ from rfl, hx] at this
      cases this
    | ok r =>
      rw [show drawUniform fr ⟨m, d, some (newRand32 tid p).1⟩ = drawUniform fr ⟨m, d, none⟩ from rfl, hx] at this
      have h1 : r.1 = t := by
        have := Except.ok.inj this
        exact congrArg Prod.fst this
      rw [ok_bind, h1]
      rfl

example (fr : FRand F) (a b : F) (tid : Nat) (p : Process) :
    ∃ t p' seed, randomUniform fr (ofDims [2]) ([UniformWrite.max a, .seed 5].foldl UniformWrite.run
        ((UniformStart.min b).run fr.toFOps)) tid p = .ok (t, p') ∧
      Rep t [2] ((List.range [2].prod).map fun i => fr.add b
        (fr.mul (nextNormal32 fr ((fun s => (nextNormal32 fr s).2)^[i] seed)).1 (fr.max (fr.sub a b) fr.zero))) ∧
      seed = 5 ∧ p' = p := by
  obtain ⟨t, p', seed, h1, h2, h3, -⟩ := C80_uniform fr (ds := [2]) (wf_ofDims (l := [2]) ⟨by simp, by simp⟩) rfl
    (fits_one (by simp)) (.min b) [.max a, .seed 5] tid p
  exact ⟨t, p', seed, h1, h2, h3 5 rfl⟩

/-- `Normal::seed(3).with_mean(1).with_mean(5)` and `Normal::mean(5).with_seed(3)` write the same options. -/
example (fo : FOps F) (a b : F) :
    [NormalWrite.mean a, .mean b].foldl NormalWrite.run ((NormalStart.seed 3).run fo) =
      [NormalWrite.seed 3].foldl NormalWrite.run ((NormalStart.mean b).run fo) := by
  rw [normal_fields, normal_fields]; rfl

end Random

/-- C80: whatever the operands and the arithmetic (rejected operands included), `logspace_opt` gives the same for
`Logspace::base(b)`, `b` and `Some(b)`; the default options, `None` and `logspace` itself mean the base 10. -/
theorem C80_logspace_forms {F : Type} (fo : FOps F) (a b : Tensor F) (len : Nat) (base : F) :
    Init.logspaceWith fo a b len (.ofOption (some base)) = Init.logspaceWith fo a b len (.ofBase base) ∧
    Init.logspaceWith fo a b len .default = Init.logspaceWith fo a b len (.ofBase (fo.ofNat 10)) ∧
    Init.logspaceWith fo a b len (.ofOption none) = Init.logspaceWith fo a b len (.ofBase (fo.ofNat 10)) ∧
    Init.logspace fo a b len = Init.logspaceWith fo a b len (.ofBase (fo.ofNat 10)) :=
  ⟨rfl, rfl, rfl, rfl⟩

example (a b : Tensor ℝ) : Init.logspaceWith .real a b 4 (.ofOption none) = Init.logspaceWith .real a b 4 (.ofBase 10) := by
  have := (C80_logspace_forms .real a b 4 2).2.2.1
  simpa [FOps.real, FOps.exact, FOps.rounded] using this

/-- C80: `logspace_opt` with `Logspace::base(b)`, `b` or `Some(b)` uses base `b`; with the default options or `None` it
uses base 10. -/
theorem C80_logspace_partial {a b : Tensor ℝ} {ds : List Nat} {xs ys : List ℝ} {len : Nat}
    (ha : Rep a ds xs) (hb : Rep b ds ys) (hr : ds.length < 5) (hne : 0 < ds.prod) (h2 : 2 ≤ len)
    (hle : ∀ (i : Nat) x y, xs[i]? = some x → ys[i]? = some y → x ≤ y) (hfit : Fits (len :: ds)) (base : ℝ)
    (opt : Init.Logspace ℝ)
    (hopt : opt = .ofBase base ∨ opt = .ofOption (some base) ∨ (base = 10 ∧ (opt = .default ∨ opt = .ofOption none))) :
    ∃ t zs, Init.logspaceWith .real a b len opt = .ok t ∧ Rep t (len :: ds) zs ∧
      ∀ k is x y, k < len → at? ds xs is = some x → at? ds ys is = some y →
        at? (len :: ds) zs (k :: is) = some (base ^ (x + k * (y - x) / ((len : ℝ) - 1))) := by
  obtain ⟨h1, h3⟩ := C36_logspace_real_partial ha hb hr hne h2 hle hfit
  obtain ⟨t, zs, e, ht, h⟩ := h1 base
  refine ⟨t, zs, ?_, ht, h⟩
  rcases hopt with rfl | rfl | ⟨rfl, rfl | rfl⟩
  · exact e
  · exact e
  · exact h3.trans e
  · exact h3.trans e

example : ∃ t zs, Init.logspaceWith .real (⟨ofDims [2], 0, 2, [1, 2]⟩ : Tensor ℝ) ⟨ofDims [2], 0, 2, [4, 2]⟩ 7 (.ofBase 2) = .ok t ∧
    Rep t [7, 2] zs ∧ ∀ k is x y, k < 7 → at? [2] [1, 2] is = some x → at? [2] [4, 2] is = some y →
      at? [7, 2] zs (k :: is) = some (2 ^ (x + k * (y - x) / (((7 : Nat) : ℝ) - 1))) := by
  refine C80_logspace_partial (ds := [2]) (xs := [1, 2]) (ys := [4, 2]) (len := 7)
    (rep_fresh (ds := [2]) (xs := [1, 2]) ⟨by simp, by simp⟩ (fits_of_pos (by simp) (by simp)) rfl)
    (rep_fresh (ds := [2]) (xs := [4, 2]) ⟨by simp, by simp⟩ (fits_of_pos (by simp) (by simp)) rfl)
    (by simp) (by simp) (by simp) ?_ (fits_of_pos (by simp) (by simp)) 2 _ (.inl rfl)
  intro i x y hx hy
  match i with
  | 0 => simp at hx hy; subst hx hy; norm_num
  | 1 => simp at hx hy; subst hx hy; norm_num
  | _ + 2 => simp at hx

namespace Stats

/-- C80: a histogram without options has 10 bins; a chain of `n_bins` calls means the last one; asking for 0 bins, in
any of the calls, panics. -/
theorem C80_hist_args (start : HistArgs) (calls : List Nat) :
    (0 ∈ calls → start.chain calls = .error .panic) ∧
    (0 ∉ calls → start.chain calls = .ok ⟨(calls.getLast?).getD start.nBins⟩) := by
  induction calls generalizing start with
  | nil => exact ⟨fun h => (by cases h), fun _ => rfl⟩
  | cons n calls ih =>
    unfold HistArgs.chain forL at ih ⊢
    rw [List.foldlM_cons]
    by_cases hn : n = 0
    · subst hn
      exact ⟨fun _ => rfl, fun h => by simp at h⟩
    · have e : start.withBins n = .ok ⟨n⟩ := by
        unfold HistArgs.withBins
        rw [ensure_true (by omega), ok_bind]; rfl
      simp only [e, ok_bind]
      obtain ⟨h1, h2⟩ := ih ⟨n⟩
      refine ⟨fun h => h1 ?_, fun h => ?_⟩
      · rcases List.mem_cons.1 h with h | h
        · exact absurd h.symm hn
        · exact h
      · refine (h2 fun hc => h (List.mem_cons_of_mem _ hc)).trans ?_
        cases calls <;> rfl

example : HistArgs.default.chain [3, 7] = .ok ⟨7⟩ ∧ HistArgs.default.chain [3, 0] = .error .panic :=
  ⟨(C80_hist_args .default [3, 7]).2 (by simp), (C80_hist_args .default [3, 0]).1 (by simp)⟩

theorem C80_histogram_zero_bins (fs : FStat F) (data : Tensor F) : histogramUsize fs data 0 = .error .panic := rfl

example (fs : FStat ℚ) : histogramUsize fs ⟨ofDims [2], 0, 2, [1, 2]⟩ 0 = .error .panic := C80_histogram_zero_bins fs _

/-- C80: `histogram(data, n)` on a non-empty vector has `n` bins and `n + 1` edges, `histogram(data, ())` has 10 and 11;
every sample is counted in one of them. -/
theorem C80_histogram {K : Type} [Field K] [LinearOrder K] [IsStrictOrderedRing K] {rnd : K → K}
    (ln exp sqrt : K → K) (powf : K → K → K) (fs : FStat K) (hfs : fs.toFOps = .rounded rnd ln exp sqrt powf)
    {data : Tensor K} {xs : List K} {n : Nat} (h : Rep data [xs.length] xs) (hne : xs ≠ []) (hn : 0 < n)
    (hn2 : n + 1 < 2 ^ 32) (hr : ∀ k : Nat, k ≤ xs.length → rnd (k : K) = k) :
    (∃ t e cs es, histogramUsize fs data n = .ok (t, e) ∧ Rep t [n] cs ∧ Rep e [n + 1] es ∧ cs.sum = xs.length) ∧
    (∃ t e cs es, histogramWith fs data .default = .ok (t, e) ∧ Rep t [10] cs ∧ Rep e [11] es ∧ cs.sum = xs.length) := by
  obtain ⟨t, e, cs, es, _, e1, h1, h2, -, -, h3⟩ := C45_counts ln exp sqrt powf fs hfs h hne hn hn2 hr
  obtain ⟨t', e', cs', es', _, e1', h1', h2', -, -, h3'⟩ :=
    C45_counts (n := 10) ln exp sqrt powf fs hfs h hne (by simp) (by simp) hr
  refine ⟨⟨t, e, cs, es, ?_, h1, h2, h3⟩, t', e', cs', es', e1', h1', h2', h3'⟩
  unfold histogramUsize HistArgs.ofUsize HistArgs.withBins
  simp only [ensure_true hn, ok_bind]
  exact e1

example (fs : FStat ℚ) (hfs : fs.toFOps = .rounded id id id id fun x _ => x) :
    ∃ t e cs es, histogramUsize fs ⟨ofDims [3], 0, 3, [1, 2, 5]⟩ 4 = .ok (t, e) ∧ Rep t [4] cs ∧ Rep e [5] es ∧ cs.sum = 3 :=
  (C80_histogram id id id (fun x _ => x) fs hfs (xs := [1, 2, 5])
    (rep_fresh (ds := [3]) (xs := [1, 2, 5]) ⟨by simp, by simp⟩ (fits_of_pos (by simp) (by simp)) rfl) (by simp) (by simp)
    (by simp) (fun _ _ => rfl)).1

end Stats

end Essay
