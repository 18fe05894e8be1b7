import Mathlib.Tactic.LinearCombination
import Mathlib.Tactic.Positivity
import Verif.Props.Stats
import Verif.Props.Sums
import Verif.Props.Algebra
import Verif.Lemmas.Rearrange

/-!
# C86: the statistics are consistent with each other and with the operations that rearrange elements
-/

set_option linter.unusedSectionVars false

namespace Essay

open Shape Stats

variable {K : Type} [Field K] [LinearOrder K] [IsStrictOrderedRing K] (ln exp sqrt : K → K) (powf : K → K → K)

/-! ### lists of numbers -/

theorem mean_perm {xs ys : List K} (h : ys.Perm xs) : mean ys = mean xs := by
  rw [mean, mean, h.sum_eq, h.length_eq]

theorem variance_perm {xs ys : List K} (h : ys.Perm xs) : variance ys = variance xs := by
  rw [variance, variance, mean_perm h, (h.map _).sum_eq, h.length_eq]

theorem sum_affine (a b : K) (xs : List K) : (xs.map fun x => a * x + b).sum = a * xs.sum + xs.length * b := by
  induction xs with
  | nil => simp
  | cons x xs ih => simp only [List.map_cons, List.sum_cons, ih, List.length_cons]; push_cast; ring

theorem length_ne {xs : List K} (h : xs ≠ []) : (xs.length : K) ≠ 0 := by
  exact_mod_cast (List.length_pos_iff.2 h).ne'

theorem length_pos' {xs : List K} (h : xs ≠ []) : (0 : K) < xs.length := by
  exact_mod_cast List.length_pos_iff.2 h

theorem mean_affine (a b : K) {xs : List K} (h : xs ≠ []) : mean (xs.map fun x => a * x + b) = a * mean xs + b := by
  have := length_ne h
  rw [mean, mean, sum_affine, List.length_map]
  field_simp

theorem sum_mul_const (a : K) (xs : List K) : (xs.map fun x => a * x).sum = a * xs.sum := by
  simpa using sum_affine a 0 xs

theorem variance_affine (a b : K) {xs : List K} (h : xs ≠ []) :
    variance (xs.map fun x => a * x + b) = a ^ 2 * variance xs := by
  rw [variance, variance, mean_affine a b h, List.map_map, List.length_map, mul_div_assoc', ← sum_mul_const, List.map_map]
  congr 3
  funext x
  simp only [Function.comp]
  ring

theorem mul_mean {xs : List K} (h : xs ≠ []) : xs.length * mean xs = xs.sum := by
  rw [mean, mul_div_cancel₀ _ (length_ne h)]

theorem sum_sq_dev (c : K) (xs : List K) :
    (xs.map fun x => (x - c) ^ 2).sum = (xs.map fun x => x ^ 2).sum - 2 * c * xs.sum + xs.length * c ^ 2 := by
  induction xs with
  | nil => simp
  | cons x xs ih => simp only [List.map_cons, List.sum_cons, ih, List.length_cons]; push_cast; ring

theorem variance_eq {xs : List K} (h : xs ≠ []) : variance xs = mean (xs.map fun x => x ^ 2) - mean xs ^ 2 := by
  have hl := length_ne h
  rw [variance, sum_sq_dev, mean, mean, List.length_map]
  field_simp
  ring

theorem mean_bounds {xs : List K} (h : xs ≠ []) {m M : K} (hm : ∀ x ∈ xs, m ≤ x) (hM : ∀ x ∈ xs, x ≤ M) :
    m ≤ mean xs ∧ mean xs ≤ M := by
  have hp := length_pos' h
  have h1 : ∀ l : List K, (∀ x ∈ l, m ≤ x ∧ x ≤ M) → l.length * m ≤ l.sum ∧ l.sum ≤ l.length * M := by
    intro l
    induction l with
    | nil => simp
    | cons x l ih =>
      intro hl
      obtain ⟨i1, i2⟩ := ih fun y hy => hl y (List.mem_cons_of_mem _ hy)
      obtain ⟨j1, j2⟩ := hl x List.mem_cons_self
      simp only [List.length_cons, List.sum_cons]; push_cast
      constructor <;> linarith
  obtain ⟨h2, h3⟩ := h1 xs fun x hx => ⟨hm x hx, hM x hx⟩
  rw [mean]
  exact ⟨(le_div_iff₀ hp).2 (by linarith), (div_le_iff₀ hp).2 (by linarith)⟩

theorem variance_le {xs : List K} (h : xs ≠ []) {m M : K} (hm : ∀ x ∈ xs, m ≤ x) (hM : ∀ x ∈ xs, x ≤ M) :
    variance xs ≤ (M - mean xs) * (mean xs - m) := by
  have hp := length_pos' h
  have h0 : 0 ≤ (xs.map fun x => (M - x) * (x - m)).sum := by
    apply List.sum_nonneg
    intro y hy
    obtain ⟨x, hx, rfl⟩ := List.mem_map.1 hy
    exact mul_nonneg (sub_nonneg.2 (hM x hx)) (sub_nonneg.2 (hm x hx))
  have h1 : ∀ l : List K, (l.map fun x => (M - x) * (x - m)).sum =
      (M + m) * l.sum - (l.map fun x => x ^ 2).sum - l.length * (M * m) := by
    intro l
    induction l with
    | nil => simp
    | cons x l ih => simp only [List.map_cons, List.sum_cons, ih, List.length_cons]; push_cast; ring
  rw [h1] at h0
  have h2 : (xs.map fun x => x ^ 2).sum = xs.length * (variance xs + mean xs ^ 2) := by
    rw [variance_eq h, mean, List.length_map]
    field_simp
    ring
  rw [h2, ← mul_mean h] at h0
  have : 0 ≤ (xs.length : K) * ((M - mean xs) * (mean xs - m) - variance xs) := by
    have e : (xs.length : K) * ((M - mean xs) * (mean xs - m) - variance xs) =
        (M + m) * (xs.length * mean xs) - xs.length * (variance xs + mean xs ^ 2) - xs.length * (M * m) := by ring
    rw [e]; exact h0
  have := nonneg_of_mul_nonneg_right this hp
  linarith

theorem sum_flatten_map (ls : List (List K)) : ls.flatten.sum = (ls.map List.sum).sum := by
  induction ls with
  | nil => rfl
  | cons l ls ih => simp [ih]

theorem sum_div_const (d : K) (ls : List K) : (ls.map fun x => x / d).sum = ls.sum / d := by
  induction ls with
  | nil => simp
  | cons l ls ih => simp only [List.map_cons, List.sum_cons, ih]; ring

theorem mean_flatten {ls : List (List K)} {d : Nat} (h : ∀ l ∈ ls, l.length = d) (_hd : d ≠ 0) :
    mean ls.flatten = mean (ls.map mean) := by
  have e : ls.map mean = (ls.map List.sum).map fun x => x / (d : K) := by
    rw [List.map_map]
    exact List.map_congr_left fun l hl => by simp [mean, h l hl]
  rw [mean, mean, e, sum_div_const, sum_flatten_map, flatten_length_const h, div_div, List.length_map, List.length_map]
  push_cast
  rw [mul_comm]

/-- The law of total variance for parts of equal length. -/
theorem variance_flatten {ls : List (List K)} {d : Nat} (h : ∀ l ∈ ls, l.length = d) (hd : d ≠ 0) (hne : ls ≠ []) :
    variance ls.flatten = mean (ls.map variance) + variance (ls.map mean) := by
  have hl : ∀ l ∈ ls, l ≠ [] := fun l hl hc => hd (by rw [← h l hl, hc]; rfl)
  have hf : ls.flatten ≠ [] := by
    obtain ⟨x, l, rfl⟩ := List.exists_cons_of_ne_nil hne
    simp only [List.flatten_cons, ne_eq, List.append_eq_nil_iff, not_and]
    intro hx
    exact absurd hx (hl x List.mem_cons_self)
  have e : mean (ls.map variance) = mean ((ls.map fun l => l.map fun x => x ^ 2).map mean) - mean ((ls.map mean).map fun x => x ^ 2) := by
    have : ls.map variance = ls.map fun l => mean (l.map fun x => x ^ 2) - mean l ^ 2 :=
      List.map_congr_left fun l hm => variance_eq (hl l hm)
    have hs : ∀ qs : List (List K), (qs.map fun l => mean (l.map fun x => x ^ 2) - mean l ^ 2).sum =
        ((qs.map fun l => l.map fun x => x ^ 2).map mean).sum - ((qs.map mean).map fun x => x ^ 2).sum := by
      intro qs
      induction qs with
      | nil => simp
      | cons q qs ih => simp only [List.map_cons, List.sum_cons, ih]; ring
    rw [this, mean, hs, mean, mean]
    simp only [List.length_map]
    ring
  rw [e, variance_eq hf, variance_eq (by simpa using hne), mean_flatten h hd, List.map_flatten,
    mean_flatten (d := d) (by simpa using h) hd]
  ring

/-! ### rearranged elements -/

theorem min_exact {t : Tensor K} {ds : List Nat} {xs : List K} (h : Rep t ds xs) (hne : xs ≠ []) :
    ∃ u v, reduceMin (.exact ln exp sqrt powf) t = .ok u ∧ Rep u [] [v] ∧ v ∈ xs ∧ ∀ x ∈ xs, v ≤ x := by
  obtain ⟨u, v, e, hu, hv, hle⟩ := (C43_whole (exact_order ln exp sqrt powf) h hne).1
  exact ⟨u, v, e, hu, hv, fun x hx => by obtain ⟨j, hj, hle⟩ := hle x hx x rfl; cases hj; exact hle⟩

theorem max_exact {t : Tensor K} {ds : List Nat} {xs : List K} (h : Rep t ds xs) (hne : xs ≠ []) :
    ∃ u v, reduceMax (.exact ln exp sqrt powf) t = .ok u ∧ Rep u [] [v] ∧ v ∈ xs ∧ ∀ x ∈ xs, x ≤ v := by
  obtain ⟨u, v, e, hu, hv, hle⟩ := (C43_whole (exact_order ln exp sqrt powf) h hne).2
  exact ⟨u, v, e, hu, hv, fun x hx => by obtain ⟨j, hj, hle⟩ := hle x hx x rfl; cases hj; exact hle⟩

/-- The reductions of a whole tensor that do not depend on the order of the elements. -/
inductive IsStat : (Tensor K → Res (Tensor K)) → Prop
  | sum : IsStat (reduceOp fun x y => .ok (x + y))
  | product : IsStat (reduceOp fun x y => .ok (x * y))
  | mean : IsStat (reduceMean (.exact ln exp sqrt powf))
  | variance : IsStat (reduceVariance (.exact ln exp sqrt powf))
  | std : IsStat (reduceStd (.exact ln exp sqrt powf))
  | min : IsStat (reduceMin (.exact ln exp sqrt powf))
  | max : IsStat (reduceMax (.exact ln exp sqrt powf))

/-- C86, exact arithmetic: sum, product, mean, variance, standard deviation, minimum and maximum depend only on which
elements a tensor has, not on their order or the shape. -/
theorem C86_rearranged (h0 : sqrt 0 = 0) {s : Tensor K → Res (Tensor K)} (hs : IsStat ln exp sqrt powf s) {t u : Tensor K}
    {ds es : List Nat} {xs ys : List K} (ht : Rep t ds xs) (hu : Rep u es ys) (hp : ys.Perm xs) (hne : xs ≠ []) :
    Same (s t) (s u) [] := by
  have hne' : ys ≠ [] := by rintro rfl; exact hne hp.symm.eq_nil
  cases hs with
  | sum =>
    have : Std.Associative (fun x y : K => x + y) := ⟨add_assoc⟩
    have : Std.Commutative (fun x y : K => x + y) := ⟨add_comm⟩
    obtain ⟨u1, u2, v, e1, e2, r1, r2⟩ := C75_order (fun x y : K => x + y) ht hu hp.symm hne
    exact ⟨u1, u2, [v], e1, e2, r1, r2⟩
  | product =>
    have : Std.Associative (fun x y : K => x * y) := ⟨mul_assoc⟩
    have : Std.Commutative (fun x y : K => x * y) := ⟨mul_comm⟩
    obtain ⟨u1, u2, v, e1, e2, r1, r2⟩ := C75_order (fun x y : K => x * y) ht hu hp.symm hne
    exact ⟨u1, u2, [v], e1, e2, r1, r2⟩
  | mean =>
    obtain ⟨⟨u1, e1, r1⟩, -, -⟩ := C42_whole ln exp sqrt powf h0 ht hne
    obtain ⟨⟨u2, e2, r2⟩, -, -⟩ := C42_whole ln exp sqrt powf h0 hu hne'
    exact ⟨u1, u2, _, e1, e2, r1, by rwa [mean_perm hp] at r2⟩
  | variance =>
    obtain ⟨-, ⟨u1, e1, r1⟩, -⟩ := C42_whole ln exp sqrt powf h0 ht hne
    obtain ⟨-, ⟨u2, e2, r2⟩, -⟩ := C42_whole ln exp sqrt powf h0 hu hne'
    exact ⟨u1, u2, _, e1, e2, r1, by rwa [variance_perm hp] at r2⟩
  | std =>
    obtain ⟨-, -, ⟨u1, e1, r1⟩⟩ := C42_whole ln exp sqrt powf h0 ht hne
    obtain ⟨-, -, ⟨u2, e2, r2⟩⟩ := C42_whole ln exp sqrt powf h0 hu hne'
    exact ⟨u1, u2, _, e1, e2, r1, by rwa [variance_perm hp] at r2⟩
  | min =>
    obtain ⟨u1, v1, e1, r1, m1, l1⟩ := min_exact ln exp sqrt powf ht hne
    obtain ⟨u2, v2, e2, r2, m2, l2⟩ := min_exact ln exp sqrt powf hu hne'
    have : v2 = v1 := le_antisymm (l2 _ (hp.mem_iff.2 m1)) (l1 _ (hp.mem_iff.1 m2))
    subst this
    exact ⟨u1, u2, _, e1, e2, r1, r2⟩
  | max =>
    obtain ⟨u1, v1, e1, r1, m1, l1⟩ := max_exact ln exp sqrt powf ht hne
    obtain ⟨u2, v2, e2, r2, m2, l2⟩ := max_exact ln exp sqrt powf hu hne'
    have : v2 = v1 := le_antisymm (l1 _ (hp.mem_iff.1 m2)) (l2 _ (hp.mem_iff.2 m1))
    subst this
    exact ⟨u1, u2, _, e1, e2, r1, r2⟩

/-- C86: transposing and reshaping change none of the statistics. -/
theorem C86_transpose_reshape (h0 : sqrt 0 = 0) {s : Tensor K → Res (Tensor K)} (hs : IsStat ln exp sqrt powf s)
    {t : Tensor K} {pre : List Nat} {r c : Nat} {xs : List K} (ht : Rep t (pre ++ [r, c]) xs) (hne : xs ≠ []) :
    Same (s t) (t.transpose >>= s) [] ∧
    ∀ es, Adm es → Fits es → es.prod = (pre ++ [r, c]).prod → Same (s t) (t.reshape (ofDims es) >>= s) [] := by
  constructor
  · obtain ⟨u, ys, e, hu, T⟩ := C26_transpose ht hne
    rw [e, ok_bind]
    exact C86_rearranged ln exp sqrt powf h0 hs ht hu (Transposed.perm T ht.length hu.length) hne
  · intro es ha hf hp
    obtain ⟨u, e, hu⟩ := reshape_rep ht ha hf hp
    rw [e, ok_bind]
    exact C86_rearranged ln exp sqrt powf h0 hs ht hu (.refl _) hne

theorem sums_exact {ts : List (Tensor K)} {ps : List (List Nat × List K)} (h : RepAll ts ps) (hne : ∀ p ∈ ps, p.2 ≠ []) :
    ∃ ss, ts.mapM (reduceOp fun x y => (.ok (x + y) : Res K)) = .ok ss ∧ RepAll ss (ps.map fun p => ([], [p.2.sum])) := by
  induction h with
  | nil => exact ⟨[], rfl, .nil⟩
  | cons h1 _ ih =>
    obtain ⟨ss, e, hs⟩ := ih fun p hp => hne p (List.mem_cons_of_mem _ hp)
    obtain ⟨u, e', hu⟩ := reduce_sum_exact h1 (hne _ List.mem_cons_self)
    exact ⟨u :: ss, by rw [List.mapM_cons, e', ok_bind, e, ok_bind]; rfl, .cons hu hs⟩


theorem flatten_ne {ps : List (List K)} (h : ps ≠ []) (hnz : ∀ x ∈ ps, x ≠ []) : ps.flatten ≠ [] := by
  obtain ⟨x, l, rfl⟩ := List.exists_cons_of_ne_nil h
  simp only [List.flatten_cons, ne_eq, List.append_eq_nil_iff, not_and]
  intro hx
  exact absurd hx (hnz x List.mem_cons_self)

/-- C86, exact arithmetic: the sum of a concatenation along any axis is the sum of the tensors' own sums, and its mean is
the mean of their means, weighted by their sizes. -/
theorem C86_concatenate (h0 : sqrt 0 = 0) {pre post : List Nat} {ps : List (Nat × List K)} {ts : List (Tensor K)}
    (hrep : RepAll ts (ps.map fun p => (pre ++ p.1 :: post, p.2))) (hne : ps ≠ []) (hnz : ∀ p ∈ ps, p.2 ≠ []) {D : Nat}
    (hD : (ps.map (·.1)).sum = D) (hD32 : D < 2 ^ 32) (hfit : Fits (pre ++ D :: post)) (hpre : Fits pre)
    (hr : post.length < 5) {a : Int} (ha : axisIndex (pre.length + 1 + post.length) a = some pre.length) :
    ∃ t u ss m, Tensor.concatenateAxis (some a) ts = .ok t ∧
      ts.mapM (reduceOp fun x y => (.ok (x + y) : Res K)) = .ok ss ∧ RepAll ss (ps.map fun p => ([], [p.2.sum])) ∧
      reduceOp (fun x y => (.ok (x + y) : Res K)) t = .ok u ∧ Rep u [] [(ps.map fun p => p.2.sum).sum] ∧
      reduceMean (.exact ln exp sqrt powf) t = .ok m ∧
      Rep m [] [(ps.map fun p => (p.2.length : K) * mean p.2).sum / ((ps.map fun p => p.2.length).sum : Nat)] := by
  have hlens : ∀ p ∈ ps, p.2.length = (pre ++ p.1 :: post).prod := fun p hp =>
    hrep.mem_length _ (List.mem_map.2 ⟨p, hp, rfl⟩)
  obtain ⟨t, out, e, ht, hc⟩ := C27_concatenate_partial hrep hne hD hD32 hfit hpre hr ha
  have hp := hc.perm hD ht.length hlens
  have hfl : (ps.map (·.2)).flatten ≠ [] := flatten_ne (by simpa using hne) (by simpa using fun x y hx => hnz (y, x) hx)
  have hone : out ≠ [] := by rintro rfl; exact hfl hp.symm.eq_nil
  have hsum : out.sum = (ps.map fun p => p.2.sum).sum := by
    rw [hp.sum_eq, sum_flatten_map, List.map_map]; rfl
  obtain ⟨ss, es, hs⟩ := sums_exact hrep (by
    intro p hp
    obtain ⟨q, hq, rfl⟩ := List.mem_map.1 hp
    exact hnz q hq)
  obtain ⟨u, eu, hu⟩ := reduce_sum_exact ht hone
  obtain ⟨⟨m, em, hm⟩, -⟩ := C42_whole ln exp sqrt powf h0 ht hone
  refine ⟨t, u, ss, m, e, es, by simpa [Function.comp_def] using hs, eu, hsum ▸ hu, em, ?_⟩
  have e1 : (ps.map fun p => (p.2.length : K) * mean p.2) = ps.map fun p => p.2.sum :=
    List.map_congr_left fun p hp => mul_mean (hnz p hp)
  have e2 : out.length = (ps.map fun p => p.2.length).sum := by
    rw [hp.length_eq, List.length_flatten, List.map_map]; rfl
  rw [e1, ← hsum, ← e2]
  exact hm

/-- C86, exact arithmetic: the same for a stack of tensors, where all have the same weight: the mean of a stack is the mean
of the tensors' own means. -/
theorem C86_stack (h0 : sqrt 0 = 0) {pre post : List Nat} {ps : List (List K)} {ts : List (Tensor K)}
    (hrep : RepAll ts (ps.map fun x => (pre ++ post, x))) (hne : ps ≠ []) (hnz : 0 < (pre ++ post).prod)
    (h32 : ps.length < 2 ^ 32) (hfit : Fits (pre ++ ps.length :: post)) (hr : post.length < 5)
    (hr6 : pre.length + post.length < 6) {a : Int} (ha : axisIndex (pre.length + post.length + 1) a = some pre.length) :
    ∃ t u m, Tensor.stackVec (some a) ts = .ok t ∧
      reduceOp (fun x y => (.ok (x + y) : Res K)) t = .ok u ∧ Rep u [] [(ps.map List.sum).sum] ∧
      reduceMean (.exact ln exp sqrt powf) t = .ok m ∧ Rep m [] [mean (ps.map mean)] := by
  have hlens : ∀ x ∈ ps, x.length = (pre ++ post).prod := fun x hx =>
    hrep.mem_length _ (List.mem_map.2 ⟨x, hx, rfl⟩)
  have hx0 : ∀ x ∈ ps, x ≠ [] := by
    rintro x hx rfl
    have := hlens _ hx
    simp only [List.length_nil] at this
    omega
  have hpost : 0 < post.prod := by
    rw [List.prod_append] at hnz
    exact Nat.pos_of_mul_pos_left hnz
  obtain ⟨t, out, e, ht, hc⟩ := C28_stack_partial hrep hne h32 hpost hfit hr hr6 ha
  have hp := hc.perm ht.length hlens
  have hfl : ps.flatten ≠ [] := flatten_ne hne hx0
  have hone : out ≠ [] := by rintro rfl; exact hfl hp.symm.eq_nil
  have hsum : out.sum = (ps.map List.sum).sum := by rw [hp.sum_eq, sum_flatten_map]
  obtain ⟨u, eu, hu⟩ := reduce_sum_exact ht hone
  obtain ⟨⟨m, em, hm⟩, -⟩ := C42_whole ln exp sqrt powf h0 ht hone
  refine ⟨t, u, m, e, eu, hsum ▸ hu, em, ?_⟩
  rw [mean_perm hp, mean_flatten (d := (pre ++ post).prod) hlens hnz.ne'] at hm
  exact hm

/-! ### one axis, then the rest -/

theorem reduceRes_sum {l : List K} (h : l ≠ []) : reduceRes (fun x y => (.ok (x + y) : Res K)) l = .ok l.sum := by
  obtain ⟨x, l, rfl⟩ := List.exists_cons_of_ne_nil h
  have e : ∀ (l : List K) (x : K), l.foldlM (fun x y => (.ok (x + y) : Res K)) x = .ok (x + l.sum) := by
    intro l
    induction l with
    | nil => intro x; simp [pure, Except.pure]
    | cons y l ih => intro x; rw [List.foldlM_cons, ok_bind, ih]; simp [add_assoc]
  rw [reduceRes, e]; simp

theorem forall₂_get {α β : Type} {R : α → β → Prop} {l : List α} {m : List β} (h : List.Forall₂ R l m) {p : Nat} {x : α}
    (hp : l[p]? = some x) : ∃ y, m[p]? = some y ∧ R x y := by
  induction h generalizing p with
  | nil => simp at hp
  | cons hr _ ih =>
    cases p with
    | zero => simp at hp; subst hp; exact ⟨_, rfl, hr⟩
    | succ p => simpa using ih (by simpa using hp)

theorem forall₂_get_right {α β : Type} {R : α → β → Prop} {l : List α} {m : List β} (h : List.Forall₂ R l m) {p : Nat}
    {y : β} (hp : m[p]? = some y) : ∃ x, l[p]? = some x ∧ R x y := by
  induction h generalizing p with
  | nil => simp at hp
  | cons hr _ ih =>
    cases p with
    | zero => simp at hp; subst hp; exact ⟨_, rfl, hr⟩
    | succ p => simpa using ih (by simpa using hp)

theorem IsLanes.map {α β : Type} {pre post : List Nat} {d : Nat} {xs : List α} {lanes : List (List α)}
    (h : IsLanes pre d post xs lanes) (f : α → β) : IsLanes pre d post (xs.map f) (lanes.map (List.map f)) := by
  refine ⟨by simpa using h.1, fun i j p hi hp => ?_⟩
  obtain ⟨lane, h1, h2, h3⟩ := h.2 i j p hi hp
  refine ⟨lane.map f, by simp [h1], by simpa using h2, fun k hk => ?_⟩
  obtain ⟨x, hx1, hx2⟩ := h3 k hk
  exact ⟨f x, by simp [hx1], by rw [at_map, hx2]; rfl⟩


theorem lanes_ne {α : Type} {pre post : List Nat} {d : Nat} {xs : List α} {lanes : List (List α)} (h : IsLanes pre d post xs lanes)
    (hx : xs.length = (pre ++ d :: post).prod) (hne : xs ≠ []) : lanes ≠ [] ∧ d ≠ 0 ∧ ∀ l ∈ lanes, l ≠ [] := by
  have hp := h.perm hx
  have hd : d ≠ 0 := by
    rintro rfl
    apply hne
    apply List.eq_nil_of_length_eq_zero
    rw [hx]; simp
  refine ⟨?_, hd, fun l hl hc => hd ?_⟩
  · rintro rfl; exact hne hp.symm.eq_nil
  · rw [← h.length_of_mem l hl, hc]; rfl

/-- C75, C22: summing unsigned integers with overflow checks along an axis first and then the rest gives exactly what
summing everything at once gives: the same sum, or a panic in both cases. -/
theorem C75_unsigned_axis_first {hi : Int} {t : Tensor Int} {pre post : List Nat} {d : Nat} {xs : List Int}
    (h : Rep t (pre ++ d :: post) xs) (hne : xs ≠ []) (hx : ∀ x ∈ xs, 0 ≤ x ∧ x ≤ hi) {a : Int}
    (ha : axisIndex (pre ++ d :: post).length a = some pre.length) :
    Agree (reduceOpAxis (checkedOp 0 hi (· + ·)) t (some a) >>= reduceOp (checkedOp 0 hi (· + ·)))
      (reduceOp (checkedOp 0 hi (· + ·)) t) := by
  obtain ⟨⟨lanes, hl, hok, hbad⟩, -⟩ := C75_axis h hne hx ha
  obtain ⟨l1, -, l3⟩ := lanes_ne hl h.length hne
  have hsum : (lanes.map List.sum).sum = xs.sum := by
    rw [← List.sum_flatten, (hl.perm h.length).sum_eq]
  have hnn : ∀ l ∈ lanes, ∀ x ∈ l, 0 ≤ x := fun l hm x hxm => (hx x (hl.subset l hm x hxm)).1
  have hle : ∀ l ∈ lanes, 0 ≤ l.sum ∧ l.sum ≤ xs.sum := by
    intro l hm
    refine ⟨List.sum_nonneg (hnn l hm), ?_⟩
    rw [← hsum]
    exact List.single_le_sum (fun x hxm => by
      obtain ⟨l', h1, rfl⟩ := List.mem_map.1 hxm
      exact List.sum_nonneg (hnn l' h1)) _ (List.mem_map_of_mem hm)
  by_cases hp : ∀ l ∈ lanes, PrefixesIn 0 hi List.sum l
  · obtain ⟨u, eu, hu⟩ := hok hp
    rw [eu, ok_bind]
    have hux : ∀ x ∈ lanes.map List.sum, 0 ≤ x ∧ x ≤ hi := by
      intro x hxm
      obtain ⟨l, h1, rfl⟩ := List.mem_map.1 hxm
      have := hp l h1 l.length (List.length_pos_iff.2 (l3 l h1)) (Nat.le_refl _)
      simpa using this
    have hv := C75_sum_unsigned hu hux
    have hw := C75_sum_unsigned h hx
    rw [hsum] at hv
    by_cases hs : xs.sum ≤ hi
    · obtain ⟨v, ev, hv⟩ := hv.1 ⟨by simpa using l1, hs⟩
      obtain ⟨w, ew, hw⟩ := hw.1 ⟨hne, hs⟩
      exact Or.inr ⟨v, w, [], _, ev, ew, hv, hw⟩
    · exact Or.inl ⟨.panic, hv.2 fun hc => hs hc.2, hw.2 fun hc => hs hc.2⟩
  · rw [hbad hp]
    refine Or.inl ⟨.panic, rfl, (C75_sum_unsigned h hx).2 fun hc => hp fun l hm k h1 h2 => ?_⟩
    have := sum_take_le (hnn l hm) k
    have := hle l hm
    omega

/-- Bytes whose total is too large, and a matrix whose total fits: both sides agree. -/
example {t t' : Tensor Int} (h : Rep t ([2] ++ 2 :: []) [100, 100, 50, 10]) (h' : Rep t' ([2] ++ 2 :: []) [100, 100, 40, 10]) :
    Agree (reduceOpAxis (checkedOp 0 255 (· + ·)) t (some 1) >>= reduceOp (checkedOp 0 255 (· + ·)))
      (reduceOp (checkedOp 0 255 (· + ·)) t) ∧
    Agree (reduceOpAxis (checkedOp 0 255 (· + ·)) t' (some (-1)) >>= reduceOp (checkedOp 0 255 (· + ·)))
      (reduceOp (checkedOp 0 255 (· + ·)) t') :=
  ⟨C75_unsigned_axis_first h (by simp) (by decide) (by decide), C75_unsigned_axis_first h' (by simp) (by decide) (by decide)⟩

/-- C86, exact arithmetic: reducing the axis and then the rest is the same as reducing the whole tensor at once, for the
sum, the mean, the minimum and the maximum. -/
theorem C86_axis_then_rest (h0 : sqrt 0 = 0) {t : Tensor K} {pre post : List Nat} {d : Nat} {xs : List K}
    (h : Rep t (pre ++ d :: post) xs) (hne : xs ≠ []) {a : Int}
    (ha : axisIndex (pre ++ d :: post).length a = some pre.length) :
    Same (reduceOpAxis (fun x y => (.ok (x + y) : Res K)) t (some a) >>= reduceOp fun x y => .ok (x + y))
      (reduceOp (fun x y => .ok (x + y)) t) [] ∧
    Same (reduceMeanAxis (.exact ln exp sqrt powf) t (some a) >>= reduceMean (.exact ln exp sqrt powf))
      (reduceMean (.exact ln exp sqrt powf) t) [] ∧
    Same (reduceMinAxis (.exact ln exp sqrt powf) t (some a) >>= reduceMin (.exact ln exp sqrt powf))
      (reduceMin (.exact ln exp sqrt powf) t) [] ∧
    Same (reduceMaxAxis (.exact ln exp sqrt powf) t (some a) >>= reduceMax (.exact ln exp sqrt powf))
      (reduceMax (.exact ln exp sqrt powf) t) [] := by
  have hx := h.length
  refine ⟨?_, ?_, ?_, ?_⟩
  · obtain ⟨lanes, hl, hr⟩ := reduceOpAxis_results (fun x y => (.ok (x + y) : Res K)) h hne ha
    obtain ⟨l1, -, l3⟩ := lanes_ne hl hx hne
    have e : ∀ ls : List (List K), (∀ l ∈ ls, l ≠ []) →
        ls.mapM (reduceRes fun x y => (.ok (x + y) : Res K)) = .ok (ls.map List.sum) := by
      intro ls
      induction ls with
      | nil => intro _; rfl
      | cons l ls ih =>
        intro hn
        rw [List.mapM_cons, reduceRes_sum (hn l List.mem_cons_self), ok_bind,
          ih fun l hl => hn l (List.mem_cons_of_mem _ hl)]
        rfl
    rw [e lanes l3] at hr
    obtain ⟨u, eu, hu⟩ := hr
    obtain ⟨v, ev, hv⟩ := reduce_sum_exact hu (by simpa using l1)
    obtain ⟨w, ew, hw⟩ := reduce_sum_exact h hne
    rw [eu, ok_bind]
    refine ⟨v, w, _, ev, ew, hv, ?_⟩
    rwa [← sum_flatten_map, (hl.perm hx).sum_eq]
  · obtain ⟨⟨lanes, u, hl, eu, hu⟩, -⟩ := C42_axis ln exp sqrt powf h0 h hne ha
    obtain ⟨l1, l2, l3⟩ := lanes_ne hl hx hne
    obtain ⟨⟨v, ev, hv⟩, -⟩ := C42_whole ln exp sqrt powf h0 hu (by simpa using l1)
    obtain ⟨⟨w, ew, hw⟩, -⟩ := C42_whole ln exp sqrt powf h0 h hne
    rw [eu, ok_bind]
    refine ⟨v, w, _, ev, ew, hv, ?_⟩
    rwa [← mean_flatten (fun l hm => hl.length_of_mem l hm) l2, mean_perm (hl.perm hx)]
  · obtain ⟨⟨lanes, u, vs, hl, eu, hu, hf⟩, -⟩ := C43_axis (exact_order ln exp sqrt powf) h hne ha
    obtain ⟨l1, -, -⟩ := lanes_ne hl hx hne
    obtain ⟨v, a, ev, hv, m1, b1⟩ := min_exact ln exp sqrt powf hu (by rintro rfl; cases hf; exact l1 rfl)
    obtain ⟨w, b, ew, hw, m2, b2⟩ := min_exact ln exp sqrt powf h hne
    rw [eu, ok_bind]
    have hab : a = b := by
      apply le_antisymm
      · obtain ⟨l, hlm, hbl⟩ := List.mem_flatten.1 ((hl.perm hx).mem_iff.2 m2)
        obtain ⟨p, hp⟩ := List.getElem?_of_mem hlm
        obtain ⟨c, hc, hlc⟩ := forall₂_get hf hp
        obtain ⟨j, hj, hle⟩ := hlc.2 b hbl b rfl
        cases hj
        exact (b1 c (List.mem_of_getElem? hc)).trans hle
      · obtain ⟨p, hp⟩ := List.getElem?_of_mem m1
        obtain ⟨l, hlp, hlc⟩ := forall₂_get_right hf hp
        exact b2 a (hl.subset l (List.mem_of_getElem? hlp) a hlc.1)
    subst hab
    exact ⟨v, w, _, ev, ew, hv, hw⟩
  · obtain ⟨-, ⟨lanes, u, vs, hl, eu, hu, hf⟩⟩ := C43_axis (exact_order ln exp sqrt powf) h hne ha
    obtain ⟨l1, -, -⟩ := lanes_ne hl hx hne
    obtain ⟨v, a, ev, hv, m1, b1⟩ := max_exact ln exp sqrt powf hu (by rintro rfl; cases hf; exact l1 rfl)
    obtain ⟨w, b, ew, hw, m2, b2⟩ := max_exact ln exp sqrt powf h hne
    rw [eu, ok_bind]
    have hab : a = b := by
      apply le_antisymm
      · obtain ⟨p, hp⟩ := List.getElem?_of_mem m1
        obtain ⟨l, hlp, hlc⟩ := forall₂_get_right hf hp
        exact b2 a (hl.subset l (List.mem_of_getElem? hlp) a hlc.1)
      · obtain ⟨l, hlm, hbl⟩ := List.mem_flatten.1 ((hl.perm hx).mem_iff.2 m2)
        obtain ⟨p, hp⟩ := List.getElem?_of_mem hlm
        obtain ⟨c, hc, hlc⟩ := forall₂_get hf hp
        obtain ⟨j, hj, hle⟩ := hlc.2 b hbl b rfl
        cases hj
        exact hle.trans (b1 c (List.mem_of_getElem? hc))
    subst hab
    exact ⟨v, w, _, ev, ew, hv, hw⟩

/-- C86, exact arithmetic, the law of total variance: the variance of all elements is the mean of the variances along any
axis plus the variance of the means along it. -/
theorem C86_total_variance (h0 : sqrt 0 = 0) {t : Tensor K} {pre post : List Nat} {d : Nat} {xs : List K}
    (h : Rep t (pre ++ d :: post) xs) (hne : xs ≠ []) {a : Int}
    (ha : axisIndex (pre ++ d :: post).length a = some pre.length) :
    ∃ u v w x y, (reduceVarianceAxis (.exact ln exp sqrt powf) t (some a) >>= reduceMean (.exact ln exp sqrt powf)) = .ok u ∧
      (reduceMeanAxis (.exact ln exp sqrt powf) t (some a) >>= reduceVariance (.exact ln exp sqrt powf)) = .ok v ∧
      reduceVariance (.exact ln exp sqrt powf) t = .ok w ∧ Rep u [] [x] ∧ Rep v [] [y] ∧ Rep w [] [x + y] := by
  have hx := h.length
  obtain ⟨⟨lanes, um, hl, em, hm⟩, ⟨lanes', uv, hl', ev, hv⟩, -⟩ := C42_axis ln exp sqrt powf h0 h hne ha
  cases hl.unique hl'
  obtain ⟨l1, l2, l3⟩ := lanes_ne hl hx hne
  obtain ⟨-, ⟨v, ev', hv'⟩, -⟩ := C42_whole ln exp sqrt powf h0 hm (by simpa using l1)
  obtain ⟨⟨u, eu', hu'⟩, -⟩ := C42_whole ln exp sqrt powf h0 hv (by simpa using l1)
  obtain ⟨-, ⟨w, ew, hw⟩, -⟩ := C42_whole ln exp sqrt powf h0 h hne
  rw [em, ev, ok_bind, ok_bind]
  refine ⟨u, v, w, _, _, eu', ev', ew, hu', hv', ?_⟩
  rwa [← variance_flatten (fun l hm => hl.length_of_mem l hm) l2 l1, variance_perm (hl.perm hx)]

/-! ### scaling and shifting -/

/-- An arithmetic in which `+` and `*` are those of the field. -/
def IsExact (ar : Arith K K K) : Prop := (∀ x y, ar.mul x y = .ok (x * y)) ∧ ∀ x y, ar.add x y = .ok (x + y)

theorem mapM_ok {α β : Type} (f : α → β) (xs : List α) : xs.mapM (fun x => (.ok (f x) : Res β)) = .ok (xs.map f) := by
  induction xs with
  | nil => rfl
  | cons x xs ih => rw [List.mapM_cons, ih]; rfl

/-- `t * a + b` -/
def scaled (ar : Arith K K K) (a b : K) (t : Tensor K) : Res (Tensor K) := do
  let s ← Tensor.binaryScalar ar .mul t a
  Tensor.binaryScalar ar .add s b

theorem scaled_rep {ar : Arith K K K} (har : IsExact ar) (a b : K) {t : Tensor K} {ds : List Nat} {xs : List K}
    (h : Rep t ds xs) : ∃ u, scaled ar a b t = .ok u ∧ Rep u ds (xs.map fun x => a * x + b) := by
  have h1 := C18_tensor_scalar ar .mul h a
  have e1 : (fun x => meaning ar .mul x a) = fun x => (.ok (x * a) : Res K) := funext fun x => har.1 x a
  rw [e1, mapM_ok] at h1
  obtain ⟨s, es, hs⟩ := h1
  have h2 := C18_tensor_scalar ar .add hs b
  have e2 : (fun x => meaning ar .add x b) = fun x => (.ok (x + b) : Res K) := funext fun x => har.2 x b
  rw [e2, mapM_ok] at h2
  obtain ⟨u, eu, hu⟩ := h2
  refine ⟨u, by rw [scaled, es, ok_bind, eu], ?_⟩
  rw [List.map_map] at hu
  simpa [Function.comp_def, mul_comm] using hu

/-- C86, exact arithmetic: the mean of `t * a + b` is `a * mean + b`, its variance is `a²` times the variance of `t`. -/
theorem C86_affine (h0 : sqrt 0 = 0) {ar : Arith K K K} (har : IsExact ar) (a b : K) {t : Tensor K} {ds : List Nat}
    {xs : List K} (h : Rep t ds xs) (hne : xs ≠ []) :
    Same (scaled ar a b t >>= reduceMean (.exact ln exp sqrt powf))
      (reduceMean (.exact ln exp sqrt powf) t >>= scaled ar a b) [] ∧
    Same (scaled ar a b t >>= reduceVariance (.exact ln exp sqrt powf))
      (reduceVariance (.exact ln exp sqrt powf) t >>= scaled ar (a ^ 2) 0) [] := by
  obtain ⟨s, es, hs⟩ := scaled_rep har a b h
  obtain ⟨⟨u, eu, hu⟩, ⟨v, ev, hv⟩, -⟩ := C42_whole ln exp sqrt powf h0 h hne
  obtain ⟨⟨u', eu', hu'⟩, ⟨v', ev', hv'⟩, -⟩ := C42_whole ln exp sqrt powf h0 hs (by simpa using hne)
  obtain ⟨p, ep, hp⟩ := scaled_rep har a b hu
  obtain ⟨q, eq, hq⟩ := scaled_rep har (a ^ 2) 0 hv
  rw [es, eu, ev, ok_bind, ok_bind, ok_bind, ok_bind]
  refine ⟨⟨u', p, _, eu', ep, hu', ?_⟩, ⟨v', q, _, ev', eq, hv', ?_⟩⟩
  · rw [mean_affine a b hne]; exact hp
  · rw [variance_affine a b hne]; simpa using hq

/-- C86, exact arithmetic: the same along an axis. -/
theorem C86_affine_axis (h0 : sqrt 0 = 0) {ar : Arith K K K} (har : IsExact ar) (c b : K) {t : Tensor K}
    {pre post : List Nat} {d : Nat} {xs : List K}
    (h : Rep t (pre ++ d :: post) xs) (hne : xs ≠ []) {a : Int}
    (ha : axisIndex (pre ++ d :: post).length a = some pre.length) :
    Same (scaled ar c b t >>= fun t => reduceMeanAxis (.exact ln exp sqrt powf) t (some a))
      (reduceMeanAxis (.exact ln exp sqrt powf) t (some a) >>= scaled ar c b) (pre ++ post) ∧
    Same (scaled ar c b t >>= fun t => reduceVarianceAxis (.exact ln exp sqrt powf) t (some a))
      (reduceVarianceAxis (.exact ln exp sqrt powf) t (some a) >>= scaled ar (c ^ 2) 0) (pre ++ post) := by
  have hx := h.length
  obtain ⟨s, es, hs⟩ := scaled_rep har c b h
  obtain ⟨⟨lanes, u, hl, eu, hu⟩, ⟨lanes1, v, hl1, ev, hv⟩, -⟩ := C42_axis ln exp sqrt powf h0 h hne ha
  obtain ⟨⟨lanes', u', hl', eu', hu'⟩, ⟨lanes1', v', hl1', ev', hv'⟩, -⟩ :=
    C42_axis ln exp sqrt powf h0 hs (by simpa using hne) ha
  obtain ⟨-, -, l3⟩ := lanes_ne hl hx hne
  cases hl.unique hl1
  cases hl'.unique hl1'
  cases hl'.unique (hl.map fun x => c * x + b)
  obtain ⟨p, ep, hp⟩ := scaled_rep har c b hu
  obtain ⟨q, eq, hq⟩ := scaled_rep har (c ^ 2) 0 hv
  rw [es, eu, ev, ok_bind, ok_bind, ok_bind, ok_bind]
  refine ⟨⟨u', p, _, eu', ep, hu', ?_⟩, ⟨v', q, _, ev', eq, hv', ?_⟩⟩
  · rw [List.map_map] at hp ⊢
    rw [List.map_congr_left (f := mean ∘ List.map fun x => c * x + b) (g := (fun x => c * x + b) ∘ mean)
      fun l hm => mean_affine c b (l3 l hm)]
    exact hp
  · rw [List.map_map] at hq ⊢
    rw [List.map_congr_left (f := variance ∘ List.map fun x => c * x + b) (g := (fun x => c ^ 2 * x + 0) ∘ variance) fun l hm => by
      simp only [Function.comp, add_zero]; exact variance_affine c b (l3 l hm)]
    exact hq

/-- C86, real numbers: the standard deviation of `t * a + b` is `|a|` times that of `t`. -/
theorem C86_affine_std {ar : Arith ℝ ℝ ℝ} (har : IsExact ar) (a b : ℝ) {t : Tensor ℝ} {ds : List Nat}
    {xs : List ℝ} (h : Rep t ds xs) (hne : xs ≠ []) :
    Same (scaled ar a b t >>= reduceStd .real) (reduceStd .real t >>= scaled ar |a| 0) [] := by
  obtain ⟨s, es, hs⟩ := scaled_rep har a b h
  obtain ⟨-, -, ⟨u, eu, hu⟩⟩ := C42_whole Real.log Real.exp Real.sqrt (fun x y => x ^ y) Real.sqrt_zero h hne
  obtain ⟨-, -, ⟨u', eu', hu'⟩⟩ := C42_whole Real.log Real.exp Real.sqrt (fun x y => x ^ y) Real.sqrt_zero hs (by simpa using hne)
  obtain ⟨p, ep, hp⟩ := scaled_rep har |a| 0 hu
  have eu1 : reduceStd .real t = .ok u := eu
  rw [es, eu1, ok_bind, ok_bind]
  refine ⟨u', p, _, eu', ep, hu', ?_⟩
  rw [variance_affine a b hne, Real.sqrt_mul (sq_nonneg a), Real.sqrt_sq_eq_abs]
  simpa using hp

/-! ### bounds -/

/-- C86, exact arithmetic: the mean is between the minimum and the maximum; the variance is not negative, at most
`(max - mean) * (mean - min)` and so at most a quarter of the square of the range; it is zero only if all elements are
equal; and it is the mean of the squares minus the square of the mean. -/
theorem C86_bounds (h0 : sqrt 0 = 0) {ar : Arith K K K} (har : IsExact ar) {t : Tensor K} {ds : List Nat}
    {xs : List K} (h : Rep t ds xs) (hne : xs ≠ []) :
    ∃ tl th tm tv tq lo hi m v q, reduceMin (.exact ln exp sqrt powf) t = .ok tl ∧
      reduceMax (.exact ln exp sqrt powf) t = .ok th ∧ reduceMean (.exact ln exp sqrt powf) t = .ok tm ∧
      reduceVariance (.exact ln exp sqrt powf) t = .ok tv ∧
      (Tensor.square ar t >>= reduceMean (.exact ln exp sqrt powf)) = .ok tq ∧
      Rep tl [] [lo] ∧ Rep th [] [hi] ∧ Rep tm [] [m] ∧ Rep tv [] [v] ∧ Rep tq [] [q] ∧
      lo ≤ m ∧ m ≤ hi ∧ 0 ≤ v ∧ v ≤ (hi - m) * (m - lo) ∧ v ≤ (hi - lo) ^ 2 / 4 ∧ v = q - m ^ 2 ∧ (v = 0 ↔ lo = hi) := by
  obtain ⟨tl, lo, el, hl, ml, bl⟩ := min_exact ln exp sqrt powf h hne
  obtain ⟨th, hi, eh, hh, mh, bh⟩ := max_exact ln exp sqrt powf h hne
  obtain ⟨⟨tm, em, hm⟩, ⟨tv, ev, hv⟩, -⟩ := C42_whole ln exp sqrt powf h0 h hne
  have hq := C18_square ar h
  have e1 : (fun x => ar.mul x x) = fun x => (.ok (x ^ 2) : Res K) := funext fun x => by rw [har.1, sq]
  rw [e1, mapM_ok] at hq
  obtain ⟨s, es, hs⟩ := hq
  obtain ⟨⟨tq, eq, hq⟩, -⟩ := C42_whole ln exp sqrt powf h0 hs (by simpa using hne)
  obtain ⟨b1, b2⟩ := mean_bounds hne bl bh
  have b3 := variance_le hne bl bh
  have hvn : 0 ≤ variance xs := by
    rw [variance]
    apply div_nonneg _ (length_pos' hne).le
    apply List.sum_nonneg
    intro y hy
    obtain ⟨x, -, rfl⟩ := List.mem_map.1 hy
    exact sq_nonneg _
  refine ⟨tl, th, tm, tv, tq, lo, hi, _, _, _, el, eh, em, ev, by rw [es, ok_bind, eq], hl, hh, hm, hv, hq, b1, b2, hvn, b3,
    ?_, variance_eq hne, ?_, ?_⟩
  · nlinarith [sq_nonneg (hi + lo - 2 * mean xs)]
  · intro hz
    have hall : ∀ x ∈ xs, x = mean xs := by
      rw [variance, div_eq_zero_iff, or_iff_left (length_ne hne)] at hz
      intro x hx
      have := List.single_le_sum (l := xs.map fun x => (x - mean xs) ^ 2) ?_ _ (List.mem_map.2 ⟨x, hx, rfl⟩)
      · rw [hz] at this
        exact sub_eq_zero.1 (pow_eq_zero_iff (two_ne_zero) |>.1 (le_antisymm this (sq_nonneg _)))
      · intro y hy
        obtain ⟨x, -, rfl⟩ := List.mem_map.1 hy
        exact sq_nonneg _
    rw [hall lo ml, ← hall hi mh]
  · rintro rfl
    have : mean xs = lo := le_antisymm b2 b1
    rw [this] at b3
    simp only [sub_self, mul_zero] at b3
    exact le_antisymm b3 hvn

/-- C86, exact arithmetic: negating all elements swaps minimum and maximum. -/
theorem C86_negate {t : Tensor K} {ds : List Nat} {xs : List K} (h : Rep t ds xs) (hne : xs ≠ []) :
    Same (Tensor.unary (fun x => .ok (-x)) t >>= reduceMin (.exact ln exp sqrt powf))
      (reduceMax (.exact ln exp sqrt powf) t >>= Tensor.unary (fun x => .ok (-x))) [] ∧
    Same (Tensor.unary (fun x => .ok (-x)) t >>= reduceMax (.exact ln exp sqrt powf))
      (reduceMin (.exact ln exp sqrt powf) t >>= Tensor.unary (fun x => .ok (-x))) [] := by
  have neg : ∀ {t : Tensor K} {ds : List Nat} {xs : List K}, Rep t ds xs →
      ∃ u, Tensor.unary (fun x => .ok (-x)) t = .ok u ∧ Rep u ds (xs.map fun x => -x) := by
    intro t ds xs h
    have h1 := C18_unary (fun x => (.ok (-x) : Res K)) h
    rwa [mapM_ok] at h1
  obtain ⟨s, es, hs⟩ := neg h
  have hne' : (xs.map fun x => -x) ≠ [] := by simpa using hne
  obtain ⟨tl, lo, el, hl, ml, bl⟩ := min_exact ln exp sqrt powf h hne
  obtain ⟨th, hi, eh, hh, mh, bh⟩ := max_exact ln exp sqrt powf h hne
  obtain ⟨tl', lo', el', hl', ml', bl'⟩ := min_exact ln exp sqrt powf hs hne'
  obtain ⟨th', hi', eh', hh', mh', bh'⟩ := max_exact ln exp sqrt powf hs hne'
  obtain ⟨p, ep, hp⟩ := neg hl
  obtain ⟨q, eq, hq⟩ := neg hh
  rw [es, el, eh, ok_bind, ok_bind, ok_bind, ok_bind]
  obtain ⟨x, hx, rfl⟩ := List.mem_map.1 ml'
  obtain ⟨y, hy, rfl⟩ := List.mem_map.1 mh'
  have e1 : x = hi := le_antisymm (bh x hx) (neg_le_neg_iff.1 (bl' _ (List.mem_map.2 ⟨hi, mh, rfl⟩)))
  have e2 : y = lo := le_antisymm (neg_le_neg_iff.1 (bh' _ (List.mem_map.2 ⟨lo, ml, rfl⟩))) (bl y hy)
  subst e1 e2
  exact ⟨⟨tl', q, _, el', eq, hl', by simpa using hq⟩, ⟨th', p, _, eh', ep, hh', by simpa using hp⟩⟩

/-! ### normalizing -/

theorem affine_unique {a b c d x y : K} (hxy : x ≠ y) (h1 : a * x + b = c * x + d) (h2 : a * y + b = c * y + d) (v : K) :
    a * v + b = c * v + d := by
  have h : (a - c) * (x - y) = 0 := by linear_combination h1 - h2
  rcases mul_eq_zero.1 h with h | h
  · have ha : a = c := sub_eq_zero.1 h
    subst ha
    have : b = d := add_left_cancel h1
    rw [this]
  · exact absurd (sub_eq_zero.1 h) hxy

/-- C86, exact arithmetic: scaling by a positive factor and shifting do not change what `normalize_unit` returns, and
normalizing twice is the same as normalizing once. -/
theorem C86_normalize (fs : FStat K) (hfs : fs.toFOps = .exact ln exp sqrt powf) {ar : Arith K K K} (har : IsExact ar)
    {t : Tensor K} {ds : List Nat} {xs : List K} (h : Rep t ds xs)
    (hrange : ∀ x ∈ xs, fs.minValue ≤ x ∧ x ≤ fs.maxValue) {x y : K} (hx : x ∈ xs) (hy : y ∈ xs) (hxy : x ≠ y) :
    (∀ a b, 0 < a → (∀ x ∈ xs, fs.minValue ≤ a * x + b ∧ a * x + b ≤ fs.maxValue) →
      Same (scaled ar a b t >>= normalizeUnit fs) (normalizeUnit fs t) ds) ∧
    (fs.minValue ≤ 0 → 1 ≤ fs.maxValue → Same (normalizeUnit fs t >>= normalizeUnit fs) (normalizeUnit fs t) ds) := by
  have hne : xs ≠ [] := List.ne_nil_of_mem hx
  obtain ⟨-, lo, -, -, ml, bl⟩ := min_exact ln exp sqrt powf h hne
  obtain ⟨-, hi, -, -, mh, bh⟩ := max_exact ln exp sqrt powf h hne
  have hlt := min_lt_max bl bh hx hy hxy
  obtain ⟨u, p, q, eu, hu, hp, hb, hz, ho⟩ := C44_exact ln exp sqrt powf fs hfs h hrange hx hy hxy
  have key : ∀ (a b : K) (s : Tensor K), 0 < a → Rep s ds (xs.map fun v => a * v + b) →
      (∀ x ∈ xs, fs.minValue ≤ a * x + b ∧ a * x + b ≤ fs.maxValue) → Same (normalizeUnit fs s) (.ok u) ds := by
    intro a b s ha hs hr
    have hmem : ∀ {v}, v ∈ xs → a * v + b ∈ xs.map fun v => a * v + b := fun hv => List.mem_map.2 ⟨_, hv, rfl⟩
    have hmono : ∀ {v w : K}, v ≤ w → a * v + b ≤ a * w + b := fun hvw => by
      have := mul_le_mul_of_nonneg_left hvw ha.le; linarith
    obtain ⟨u', p', q', eu', hu', -, -, hz', ho'⟩ := C44_exact ln exp sqrt powf fs hfs hs
      (by intro z hz; obtain ⟨v, hv, rfl⟩ := List.mem_map.1 hz; exact hr v hv) (hmem hx) (hmem hy) (by
        intro hc
        exact hxy (mul_left_cancel₀ ha.ne' (add_right_cancel hc)))
    have h1 := hz' _ (hmem ml) (by intro z hz; obtain ⟨v, hv, rfl⟩ := List.mem_map.1 hz; exact hmono (bl v hv))
    have h2 := ho' _ (hmem mh) (by intro z hz; obtain ⟨v, hv, rfl⟩ := List.mem_map.1 hz; exact hmono (bh v hv))
    have h3 := hz lo ml bl
    have h4 := ho hi mh bh
    refine ⟨u', u, _, eu', rfl, hu', ?_⟩
    rw [List.map_map]
    have : xs.map ((fun v => p' * v + q') ∘ fun v => a * v + b) = xs.map fun v => p * v + q := by
      apply List.map_congr_left
      intro v _
      have := affine_unique (a := p' * a) (b := p' * b + q') (c := p) (d := q) hlt.ne
        (by linear_combination h1 - h3) (by linear_combination h2 - h4) v
      simp only [Function.comp]
      linear_combination this
    rw [this]
    exact hu
  constructor
  · intro a b ha hr
    obtain ⟨s, es, hs⟩ := scaled_rep har a b h
    rw [es, ok_bind, eu]
    exact key a b s ha hs hr
  · intro hmn hmx
    rw [eu, ok_bind]
    exact key p q u hp hu fun v hv => ⟨hmn.trans (hb v hv).1, (hb v hv).2.trans hmx⟩

/-! ### examples -/

def conA : Tensor ℚ := ⟨ofDims [2, 3], 0, 6, [1, 2, 3, 4, 5, 7]⟩

theorem conA_rep : Rep conA [2, 3] [1, 2, 3, 4, 5, 7] :=
  ⟨⟨wf_ofDims ⟨by simp, by simp⟩, rfl, by simp [conA]⟩, rfl, rfl⟩

def exAr : Arith ℚ ℚ ℚ :=
  ⟨fun x y => .ok (x + y), fun x y => .ok (x - y), fun x y => .ok (x * y), fun x y => .ok (x / y), fun _ _ => .error .panic,
    fun _ _ => .error .panic, fun _ _ => .error .panic, fun _ _ => .error .panic, fun _ _ => .error .panic,
    fun _ _ => .error .panic⟩

theorem exAr_exact : IsExact exAr := ⟨fun _ _ => rfl, fun _ _ => rfl⟩

example : Same (reduceVariance (.exact id id id fun x _ => x) conA)
    (conA.transpose >>= reduceVariance (.exact id id id fun x _ => x)) [] :=
  (C86_transpose_reshape id id id (fun x _ => x) rfl .variance (pre := []) conA_rep (by simp)).1

example : Same (reduceMeanAxis (.exact id id id fun x _ => x) conA (some 1) >>= reduceMean (.exact id id id fun x _ => x))
    (reduceMean (.exact id id id fun x _ => x) conA) [] :=
  (C86_axis_then_rest id id id (fun x _ => x) rfl (pre := [2]) (post := []) conA_rep (by simp) (by decide)).2.1

example : ∃ u v w x y, (reduceVarianceAxis (.exact id id id fun x _ => x) conA (some (-2)) >>=
      reduceMean (.exact id id id fun x _ => x)) = .ok u ∧
    (reduceMeanAxis (.exact id id id fun x _ => x) conA (some (-2)) >>= reduceVariance (.exact id id id fun x _ => x)) = .ok v ∧
    reduceVariance (.exact id id id fun x _ => x) conA = .ok w ∧ Rep u [] [x] ∧ Rep v [] [y] ∧ Rep w [] [x + y] :=
  C86_total_variance id id id (fun x _ => x) rfl (pre := []) (post := [3]) conA_rep (by simp) (by decide)

example : Same (scaled exAr 3 (-2) conA >>= reduceVariance (.exact id id id fun x _ => x))
    (reduceVariance (.exact id id id fun x _ => x) conA >>= scaled exAr (3 ^ 2) 0) [] :=
  (C86_affine id id id (fun x _ => x) rfl exAr_exact 3 (-2) conA_rep (by simp)).2

example : ∃ t u m, Tensor.stackVec (some 1) [conA, conA] = .ok t ∧
    reduceOp (fun x y => (.ok (x + y) : Res ℚ)) t = .ok u ∧
    Rep u [] [([[1, 2, 3, 4, 5, 7], [1, 2, 3, 4, 5, 7]].map List.sum).sum] ∧
    reduceMean (.exact id id id fun x _ => x) t = .ok m ∧
    Rep m [] [mean ([[1, 2, 3, 4, 5, 7], [1, 2, 3, 4, 5, 7]].map mean)] :=
  C86_stack id id id (fun x _ => x) rfl (pre := [2]) (post := [3]) (.cons conA_rep (.cons conA_rep .nil)) (by simp) (by simp)
    (by simp) (fits_of_pos (by simp) (by simp)) (by simp) (by simp) (by decide)

example : ∃ t u ss m, Tensor.concatenateAxis (some (-1)) [conA, conA] = .ok t ∧
    [conA, conA].mapM (reduceOp fun x y => (.ok (x + y) : Res ℚ)) = .ok ss ∧ RepAll ss [([], [22]), ([], [22])] ∧
    reduceOp (fun x y => (.ok (x + y) : Res ℚ)) t = .ok u ∧ Rep u [] [44] ∧
    reduceMean (.exact id id id fun x _ => x) t = .ok m ∧ Rep m [] [11 / 3] := by
  have := C86_concatenate id id id (fun x _ => x) rfl (pre := [2]) (post := []) (D := 6) (a := -1)
    (ps := [(3, [1, 2, 3, 4, 5, 7]), (3, [1, 2, 3, 4, 5, 7])]) (.cons conA_rep (.cons conA_rep .nil)) (by simp) (by simp)
    (by simp) (by simp) (fits_of_pos (by simp) (by simp)) (fits_of_pos (by simp) (by simp)) (by simp) (by decide)
  norm_num [mean] at this
  simpa using this

/-! ### axis `None` -/

theorem agree_of_yields {V : Type} {x x' : Exec Unit (Tensor V)} {y : Exec Unit (List V)} {ds : List Nat} (h : Yields x y ds)
    (h' : Yields x' y ds) : Agree (Tensor.runPure x) (Tensor.runPure x') := by
  have h := h ()
  have h' := h' ()
  unfold Tensor.runPure
  cases hy : y.run () with
  | error e =>
    rw [hy] at h h'
    exact .inl ⟨e, by rw [h]; rfl, by rw [h']; rfl⟩
  | ok r =>
    rw [hy] at h h'
    obtain ⟨t, e, ht⟩ := h
    obtain ⟨u, e', hu⟩ := h'
    exact .inr ⟨t, u, ds, _, by rw [e]; rfl, by rw [e']; rfl, ht, hu⟩

/-- C86: given the axis `None`, the axis form of every statistic is the statistic of the whole tensor, in any float or
integer arithmetic and for tensors without elements too. -/
theorem C86_no_axis {F T : Type} (fo : FOps F) (op : T → T → Res T) {t : Tensor F} {u : Tensor T} {ds es : List Nat}
    {xs : List F} {ys : List T} (h : Rep t ds xs) (hu : Rep u es ys) :
    Agree (reduceMinAxis fo t none) (reduceMin fo t) ∧ Agree (reduceMaxAxis fo t none) (reduceMax fo t) ∧
    Agree (reduceMeanAxis fo t none) (reduceMean fo t) ∧ Agree (reduceStdAxis fo t none) (reduceStd fo t) ∧
    Agree (reduceVarianceAxis fo t none) (reduceVariance fo t) ∧ Agree (reduceOpAxis op u none) (reduceOp op u) :=
  ⟨agree_of_yields (C21_reduce_axis_none h _) (C21_reduce h _), agree_of_yields (C21_reduce_axis_none h _) (C21_reduce h _),
    agree_of_yields (C21_fold_axis_none h _ _ _) (C21_fold h _ _ _),
    agree_of_yields (C21_fold_axis_none h _ _ _) (C21_fold h _ _ _),
    agree_of_yields (C21_fold_axis_none h _ _ _) (C21_fold h _ _ _),
    agree_of_yields (C21_reduce_axis_none hu _) (C21_reduce hu _)⟩

example : Agree (reduceMaxAxis (.exact id id id fun x _ => x) conA none) (reduceMax (.exact id id id fun x _ => x) conA) :=
  (C86_no_axis _ (fun x y => (.ok (x * y) : Res ℚ)) conA_rep conA_rep).2.1

example : Same (reduceMax (.exact id id id fun x _ => x) conA)
    (reduceMax (.exact id id id fun x _ => x) (⟨ofDims [6], 0, 6, [7, 5, 4, 3, 2, 1]⟩ : Tensor ℚ)) [] :=
  C86_rearranged id id id (fun x _ => x) rfl .max conA_rep
    (rep_fresh (ds := [6]) (xs := [7, 5, 4, 3, 2, 1]) ⟨by simp, by simp⟩ (fits_of_pos (by simp) (by simp)) rfl)
    (by decide) (by simp)

example : Same (scaled exAr 3 (-2) conA >>= fun t => reduceVarianceAxis (.exact id id id fun x _ => x) t (some 1))
    (reduceVarianceAxis (.exact id id id fun x _ => x) conA (some 1) >>= scaled exAr (3 ^ 2) 0) [2] :=
  (C86_affine_axis id id id (fun x _ => x) rfl exAr_exact 3 (-2) (pre := [2]) (post := []) conA_rep (by simp) (by decide)).2

example : ∃ tl th tm tv tq lo hi m v q, reduceMin (.exact id id id fun x _ => x) conA = .ok tl ∧
    reduceMax (.exact id id id fun x _ => x) conA = .ok th ∧ reduceMean (.exact id id id fun x _ => x) conA = .ok tm ∧
    reduceVariance (.exact id id id fun x _ => x) conA = .ok tv ∧
    (Tensor.square exAr conA >>= reduceMean (.exact id id id fun x _ => x)) = .ok tq ∧
    Rep tl [] [lo] ∧ Rep th [] [hi] ∧ Rep tm [] [m] ∧ Rep tv [] [v] ∧ Rep tq [] [q] ∧
    lo ≤ m ∧ m ≤ hi ∧ 0 ≤ v ∧ v ≤ (hi - m) * (m - lo) ∧ v ≤ (hi - lo) ^ 2 / 4 ∧ v = q - m ^ 2 ∧ (v = 0 ↔ lo = hi) :=
  C86_bounds id id id (fun x _ => x) rfl exAr_exact conA_rep (by simp)

example : Same (Tensor.unary (fun x => .ok (-x)) conA >>= reduceMin (.exact id id id fun x _ => x))
    (reduceMax (.exact id id id fun x _ => x) conA >>= Tensor.unary (fun x => .ok (-x))) [] :=
  (C86_negate id id id (fun x _ => x) conA_rep (by simp)).1

example {ar : Arith ℝ ℝ ℝ} (har : IsExact ar) {t : Tensor ℝ} (h : Rep t [3] [1, 2, 4]) :
    Same (scaled ar (-2) 7 t >>= reduceStd .real) (reduceStd .real t >>= scaled ar |-2| 0) [] :=
  C86_affine_std har (-2) 7 h (by simp)

example : Same (scaled exAr 2 5 conA >>= normalizeUnit exStat) (normalizeUnit exStat conA) [2, 3] :=
  (C86_normalize id id id (fun x _ => x) exStat rfl exAr_exact
    (rep_fresh (ds := [2, 3]) (xs := [1, 2, 3, 4, 5, 7]) ⟨by simp, by simp⟩ (fits_of_pos (by simp) (by simp)) rfl)
    (by simp [exStat]; norm_num) (x := 1) (y := 2) (by simp) (by simp) (by norm_num)).1 2 5 (by norm_num)
    (by simp [exStat]; norm_num)

end Essay
