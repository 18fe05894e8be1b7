import Verif.Lemmas.Ieee
import Verif.Props.Sums
import Verif.Props.Linalg
import Verif.Props.Matvec

/-!
# Properties C77, C78: sums, means, products of matrices and variances in rounded arithmetic
-/

set_option linter.unusedSectionVars false

namespace Essay

open Shape Stats Linalg

section lemmas

variable {K : Type} [Field K] [LinearOrder K] [IsStrictOrderedRing K] {rep : K → Prop} {rnd : K → K} {u tau : K}

theorem IsFormat.add_rep (hf : IsFormat rep rnd u tau) {x y : K} (hx : rep x) (hy : rep y) :
    |rnd (x + y) - (x + y)| ≤ u * |x + y| := by
  rcases le_total |x + y| tau with h | h
  · have := hf.sub x (-y) hx (hf.neg y hy) (by rwa [sub_neg_eq_add])
    rw [sub_neg_eq_add] at this
    rw [hf.fixed _ this, sub_self, abs_zero]
    exact mul_nonneg hf.u_nonneg (abs_nonneg _)
  · exact hf.rel _ h

theorem IsFormat.err (hf : IsFormat rep rnd u tau) (x : K) : |rnd x - x| ≤ u * |x| + u * tau := by
  have h1 := mul_nonneg hf.u_nonneg hf.tau_pos.le
  have h2 := mul_nonneg hf.u_nonneg (abs_nonneg x)
  rcases le_total |x| tau with h | h
  · have := hf.abs x h; linarith
  · have := hf.rel x h; linarith

omit [IsStrictOrderedRing K] in
theorem IsFormat.zero_eq (hf : IsFormat rep rnd u tau) : rnd 0 = 0 := hf.fixed 0 hf.zero

theorem IsFormat.nonneg (hf : IsFormat rep rnd u tau) {x : K} (h : 0 ≤ x) : 0 ≤ rnd x := by
  have := hf.mono 0 x h; rwa [hf.zero_eq] at this

theorem IsFormat.nonpos (hf : IsFormat rep rnd u tau) {x : K} (h : x ≤ 0) : rnd x ≤ 0 := by
  have := hf.mono x 0 h; rwa [hf.zero_eq] at this

theorem sum_abs_nonneg (xs : List K) : 0 ≤ (xs.map fun x => |x|).sum :=
  List.sum_nonneg fun y hy => by obtain ⟨x, _, rfl⟩ := List.mem_map.1 hy; positivity

theorem abs_sum_le (xs : List K) : |xs.sum| ≤ (xs.map fun x => |x|).sum := by
  induction xs with
  | nil => simp
  | cons x xs ih =>
    rw [List.sum_cons, List.map_cons, List.sum_cons]
    exact (abs_add_le _ _).trans (by linarith)

/-- Error of adding from the left in rounded arithmetic. -/
theorem foldl_round (hf : IsFormat rep rnd u tau) (xs : List K) {s : K} (hs : rep s) (hx : ∀ x ∈ xs, rep x) :
    rep (xs.foldl (fun a b => rnd (a + b)) s) ∧
    |xs.foldl (fun a b => rnd (a + b)) s - (s + xs.sum)| ≤ ((1 + u) ^ xs.length - 1) * (|s| + (xs.map fun x => |x|).sum) := by
  induction xs using List.reverseRecOn with
  | nil => simpa using hs
  | append_singleton xs x ih =>
    obtain ⟨hr, hE⟩ := ih fun y hy => hx y (List.mem_append_left _ hy)
    have hxr : rep x := hx x (by simp)
    rw [List.foldl_append, List.foldl_cons, List.foldl_nil]
    refine ⟨hf.closed _, ?_⟩
    set fl := xs.foldl (fun a b => rnd (a + b)) s
    set A := |s| + (xs.map fun x => |x|).sum with hA
    set g := (1 + u) ^ xs.length with hg
    have hg1 : 1 ≤ g := one_le_pow₀ (by linarith [hf.u_nonneg])
    have h1 := hf.add_rep hr hxr
    have hS : |s + xs.sum| ≤ A := (abs_add_le _ _).trans (by linarith [abs_sum_le xs])
    have h2 : |fl + x| ≤ A + (g - 1) * A + |x| := by
      have e : fl + x = (fl - (s + xs.sum)) + (s + xs.sum) + x := by ring
      rw [e]
      refine (abs_add_le _ _).trans ?_
      have := abs_add_le (fl - (s + xs.sum)) (s + xs.sum)
      linarith
    have h3 : |rnd (fl + x) - (s + (xs ++ [x]).sum)| ≤ u * |fl + x| + (g - 1) * A := by
      have e : rnd (fl + x) - (s + (xs ++ [x]).sum) = (rnd (fl + x) - (fl + x)) + (fl - (s + xs.sum)) := by
        rw [List.sum_append, List.sum_singleton]; ring
      rw [e]
      exact (abs_add_le _ _).trans (by linarith)
    refine h3.trans ?_
    have e : |s| + ((xs ++ [x]).map fun x => |x|).sum = A + |x| := by simp [hA]; ring
    rw [e, List.length_append, List.length_singleton, pow_succ, ← hg]
    have h4 := mul_le_mul_of_nonneg_left h2 hf.u_nonneg
    have h5 : 0 ≤ (1 + u) * (g - 1) * |x| :=
      mul_nonneg (mul_nonneg (by linarith [hf.u_nonneg]) (by linarith)) (abs_nonneg x)
    nlinarith

/-- Rounded products against exact products. -/
theorem sum_round (hf : IsFormat rep rnd u tau) (xs : List K) :
    |(xs.map rnd).sum - xs.sum| ≤ u * (xs.map fun x => |x|).sum + xs.length * (u * tau) ∧
    ((xs.map rnd).map fun x => |x|).sum ≤ (1 + u) * (xs.map fun x => |x|).sum + xs.length * (u * tau) := by
  induction xs with
  | nil => simp
  | cons x xs ih =>
    obtain ⟨i1, i2⟩ := ih
    have h := hf.err x
    simp only [List.map_cons, List.sum_cons, List.length_cons, Nat.cast_add, Nat.cast_one]
    constructor
    · have e : rnd x + (xs.map rnd).sum - (x + xs.sum) = (rnd x - x) + ((xs.map rnd).sum - xs.sum) := by ring
      rw [e]
      refine (abs_add_le _ _).trans ?_
      linarith
    · have e : |rnd x| ≤ |rnd x - x| + |x| := by
        have := abs_add_le (rnd x - x) x
        simpa using this
      linarith

/-- Error of a scalar product in rounded arithmetic, underflow included. -/
theorem foldl_round_dot (hf : IsFormat rep rnd u tau) (zs : List K) :
    rep (zs.foldl (fun v z => rnd (v + rnd z)) 0) ∧
    |zs.foldl (fun v z => rnd (v + rnd z)) 0 - zs.sum| ≤
      ((1 + u) ^ zs.length - 1) * (zs.map fun z => |z|).sum + (1 + u) ^ zs.length * (zs.length * (u * tau)) := by
  have hu := hf.u_nonneg
  have hut := mul_nonneg hu hf.tau_pos.le
  cases zs with
  | nil => simpa using hf.zero
  | cons z zs =>
    have e : (z :: zs).foldl (fun v z => rnd (v + rnd z)) 0 = (zs.map rnd).foldl (fun a b => rnd (a + b)) (rnd z) := by
      rw [List.foldl_cons, zero_add, hf.fixed _ (hf.closed z), List.foldl_map]
    rw [e]
    obtain ⟨h1, h2⟩ := foldl_round hf (zs.map rnd) (hf.closed z) fun x hx => by
      obtain ⟨y, _, rfl⟩ := List.mem_map.1 hx; exact hf.closed y
    refine ⟨h1, ?_⟩
    obtain ⟨h3, h4⟩ := sum_round hf (z :: zs)
    simp only [List.map_cons, List.sum_cons] at h3 h4
    rw [List.length_map] at h2
    set fl := (zs.map rnd).foldl (fun a b => rnd (a + b)) (rnd z)
    set S := rnd z + (zs.map rnd).sum
    set B := |rnd z| + ((zs.map rnd).map fun x => |x|).sum
    simp only [List.map_cons, List.sum_cons]
    set A := |z| + (zs.map fun x => |x|).sum
    have hA : 0 ≤ A := add_nonneg (abs_nonneg _) (sum_abs_nonneg zs)
    have hg : 1 ≤ (1 + u) ^ zs.length := one_le_pow₀ (by linarith)
    set g := (1 + u) ^ zs.length with hgd
    have ht : |fl - (z + zs.sum)| ≤ (g - 1) * B + (u * A + ((z :: zs).length : K) * (u * tau)) := by
      have e : fl - (z + zs.sum) = (fl - S) + (S - (z + zs.sum)) := by ring
      rw [e]
      exact (abs_add_le _ _).trans (add_le_add h2 h3)
    refine ht.trans ?_
    have h5 := mul_le_mul_of_nonneg_left h4 (by linarith : 0 ≤ g - 1)
    set n : K := ((z :: zs).length : K)
    have hn : 0 ≤ n * (u * tau) := mul_nonneg (Nat.cast_nonneg _) hut
    have hp : (1 + u) ^ (z :: zs).length = g * (1 + u) := by rw [List.length_cons, pow_succ]
    rw [hp]
    have h6 : 0 ≤ g * u * (n * (u * tau)) := mul_nonneg (mul_nonneg (by linarith) hu) hn
    nlinarith

theorem dot_rounded (hf : IsFormat rep rnd u tau) (ln exp sqrt : K → K) (powf : K → K → K) (ps : List (K × K)) :
    |dot (.rounded rnd ln exp sqrt powf) ps - (ps.map fun p => p.1 * p.2).sum| ≤
      ((1 + u) ^ ps.length - 1) * (ps.map fun p => |p.1 * p.2|).sum + (1 + u) ^ ps.length * (ps.length * (u * tau)) := by
  obtain ⟨h1, h2⟩ := foldl_round_dot hf (ps.map fun p => p.1 * p.2)
  have e : dot (.rounded rnd ln exp sqrt powf) ps =
      (ps.map fun p => p.1 * p.2).foldl (fun v z => rnd (v + rnd z)) 0 := by
    unfold dot
    simp only [FOps.rounded, one_mul]
    rw [List.foldl_map] at h1 ⊢
    exact hf.fixed _ h1
  rw [e]
  simpa [Function.comp_def] using h2

end lemmas

/-! ## C77 -/

section C77

variable {K : Type} [Field K] [LinearOrder K] [IsStrictOrderedRing K] {rep : K → Prop} {rnd : K → K} {u tau : K}
variable (ln exp sqrt : K → K) (powf : K → K → K)

/-- C77: the error of `reduce_sum` of `n` floats is at most `((1+u)^(n-1) - 1)` times the sum of their absolute values
(`u` is 2^-24 for `f32`), also when partial sums are tiny. -/
theorem C77_sum (hf : IsFormat rep rnd u tau) {t : Tensor K} {ds : List Nat} {xs : List K} (h : Rep t ds xs)
    (hne : xs ≠ []) (hx : ∀ x ∈ xs, rep x) :
    ∃ r v, reduceOp (fun x y => .ok ((FOps.rounded rnd ln exp sqrt powf).add x y)) t = .ok r ∧ Rep r [] [v] ∧ rep v ∧
      |v - xs.sum| ≤ ((1 + u) ^ (xs.length - 1) - 1) * (xs.map fun x => |x|).sum := by
  obtain ⟨x, xs, rfl⟩ := List.exists_cons_of_ne_nil hne
  obtain ⟨r, hr, hr'⟩ := reduce_pure h fun x y => rnd (x + y)
  obtain ⟨h1, h2⟩ := foldl_round hf xs (hx x (by simp)) fun y hy => hx y (by simp [hy])
  exact ⟨r, _, hr, hr', h1, by simpa using h2⟩

/-- C77 for `reduce_sum_axis`: the same bound for every lane. -/
theorem C77_sum_axis (hf : IsFormat rep rnd u tau) {t : Tensor K} {pre post : List Nat} {d : Nat} {xs : List K}
    (h : Rep t (pre ++ d :: post) xs) (hne : xs ≠ []) (hx : ∀ x ∈ xs, rep x) {a : Int}
    (ha : axisIndex (pre ++ d :: post).length a = some pre.length) :
    ∃ lanes r vs, IsLanes pre d post xs lanes ∧
      reduceOpAxis (fun x y => .ok ((FOps.rounded rnd ln exp sqrt powf).add x y)) t (some a) = .ok r ∧
      Rep r (pre ++ post) vs ∧ vs.length = lanes.length ∧
      ∀ (i : Nat) l v, lanes[i]? = some l → vs[i]? = some v →
        |v - l.sum| ≤ ((1 + u) ^ (d - 1) - 1) * (l.map fun x => |x|).sum := by
  obtain ⟨lanes, r, hl, hn, hr, hr'⟩ := reduceAxis_pure h hne ha (fun x y => rnd (x + y))
    (g := fun l => l.tail.foldl (fun x y => rnd (x + y)) (l.headD 0)) (by intro x l; rfl)
  refine ⟨lanes, r, _, hl, hr, hr', by simp, ?_⟩
  intro i l v h1 h2
  rw [List.getElem?_map, h1] at h2
  cases h2
  have hm := List.mem_of_getElem? h1
  have hd := hl.length_of_mem l hm
  have hsub := hl.subset l hm
  obtain ⟨x, l, rfl⟩ := List.exists_cons_of_ne_nil (hn l hm)
  obtain ⟨_, h3⟩ := foldl_round hf l (hx x (hsub x (by simp))) fun y hy => hx y (hsub y (by simp [hy]))
  rw [← hd]
  simpa using h3

theorem mean_round (hf : IsFormat rep rnd u tau) {xs : List K} (hne : xs ≠ []) (hx : ∀ x ∈ xs, rep x)
    (hn : rnd (xs.length : K) = xs.length) :
    |Mean.intoResult (.rounded rnd ln exp sqrt powf) (xs.foldl (Mean.update (.rounded rnd ln exp sqrt powf))
        (Mean.default (.rounded rnd ln exp sqrt powf))) - mean xs| ≤
      ((1 + u) ^ xs.length - 1) * ((xs.map fun x => |x|).sum / xs.length) + u * tau := by
  have hl : 1 ≤ xs.length := List.length_pos_iff.2 hne
  rw [foldl_mean]
  unfold Mean.intoResult mean Mean.default
  simp only [FOps.rounded, Nat.zero_add]
  rw [max_eq_left hl, hn]
  have hu := hf.u_nonneg
  obtain ⟨x, xs, rfl⟩ := List.exists_cons_of_ne_nil hne
  rw [List.foldl_cons, zero_add, hf.fixed x (hx x (by simp))]
  obtain ⟨_, h2⟩ := foldl_round hf xs (hx x (by simp)) fun y hy => hx y (by simp [hy])
  have hn0 : (0 : K) < ((x :: xs).length : K) := by exact_mod_cast hl
  set n : K := ((x :: xs).length : K)
  set fl := xs.foldl (fun a b => rnd (a + b)) x
  simp only [List.map_cons, List.sum_cons, List.length_cons, pow_succ]
  set A := |x| + (xs.map fun x => |x|).sum
  set S := x + xs.sum
  set g := (1 + u) ^ xs.length
  have hA : 0 ≤ A := add_nonneg (abs_nonneg _) (sum_abs_nonneg xs)
  have h3 := hf.err (fl / n)
  have h4 : |fl / n - S / n| ≤ (g - 1) * (A / n) := by
    rw [← sub_div, abs_div, abs_of_pos hn0, ← mul_div_assoc]
    exact div_le_div_of_nonneg_right h2 hn0.le
  have hS : |S / n| ≤ A / n := by
    rw [abs_div, abs_of_pos hn0]
    refine div_le_div_of_nonneg_right ?_ hn0.le
    exact (abs_add_le _ _).trans (by linarith [abs_sum_le xs])
  have h5 : |fl / n| ≤ |fl / n - S / n| + |S / n| := by
    have := abs_add_le (fl / n - S / n) (S / n)
    simpa using this
  have h6 : |rnd (fl / n) - S / n| ≤ |rnd (fl / n) - fl / n| + |fl / n - S / n| := by
    have := abs_add_le (rnd (fl / n) - fl / n) (fl / n - S / n)
    simpa using this
  have h7 : u * |fl / n| ≤ u * (g * (A / n)) := mul_le_mul_of_nonneg_left (by nlinarith) hu
  have : |rnd (fl / n) - S / n| ≤ (g * (1 + u) - 1) * (A / n) + u * tau := by nlinarith
  exact this

/-- C77: error of `reduce_mean` of up to 2^24 floats (`rnd n = n`). -/
theorem C77_mean (hf : IsFormat rep rnd u tau) {t : Tensor K} {ds : List Nat} {xs : List K} (h : Rep t ds xs)
    (hne : xs ≠ []) (hx : ∀ x ∈ xs, rep x) (hn : rnd (xs.length : K) = xs.length) :
    ∃ r v, reduceMean (.rounded rnd ln exp sqrt powf) t = .ok r ∧ Rep r [] [v] ∧
      |v - mean xs| ≤ ((1 + u) ^ xs.length - 1) * ((xs.map fun x => |x|).sum / xs.length) + u * tau := by
  obtain ⟨r, hr, hr'⟩ := fold_pure h (Mean.default (.rounded rnd ln exp sqrt powf))
    (Mean.update (.rounded rnd ln exp sqrt powf)) (Mean.intoResult (.rounded rnd ln exp sqrt powf))
  exact ⟨r, _, hr, hr', mean_round ln exp sqrt powf hf hne hx hn⟩

variable {F : Type}

/-- C77 for `matmul` (transposed or not, batched): every entry is the exact scalar product up to the usual bound for a
product of length `k`; the second term covers products that underflow. -/
theorem C77_matmul (hf : IsFormat rep rnd u tau) (tr : Transpose) {a b : Tensor K} {A : List Nat} {m k n : Nat}
    {xs ys : List K} (ha : Rep a (A ++ flip tr.left m k) xs) (hb : Rep b (A ++ flip tr.right k n) ys) (hfA : Fits A)
    (hfO : Fits (A ++ [n, m])) :
    ∃ t zs, matmulT (FOps.rounded rnd ln exp sqrt powf) a b tr = .ok t ∧ Rep t (A ++ [n, m]) zs ∧
      ∀ is i j, (f g : Nat → K) → i < m → j < n → (ravel A is).isSome →
        (∀ l, l < k → at? (A ++ flip tr.left m k) xs (is ++ flip tr.left i l) = some (f l) ∧
          at? (A ++ flip tr.right k n) ys (is ++ flip tr.right l j) = some (g l)) →
        ∃ v, at? (A ++ [m, n]) zs (is ++ [i, j]) = some v ∧
          |v - ∑ l ∈ Finset.range k, f l * g l| ≤
            ((1 + u) ^ k - 1) * (∑ l ∈ Finset.range k, |f l * g l|) + (1 + u) ^ k * (k * (u * tau)) := by
  obtain ⟨t, zs, e, ht, h⟩ := C39_matmul_partial (.rounded rnd ln exp sqrt powf) tr ha hb rfl hfA hfO
  refine ⟨t, zs, e, ht, ?_⟩
  intro is i j f g hi hj hs hfg
  refine ⟨_, h is is i j ((List.range k).map fun l => (f l, g l)) rfl hi hj hs (by simp) ?_, ?_⟩
  · intro l p hp
    rw [List.getElem?_map] at hp
    obtain ⟨l', hl', rfl⟩ := Option.map_eq_some_iff.1 hp
    obtain ⟨hlt, rfl⟩ := List.getElem?_eq_some_iff.1 hl'
    simp only [List.length_range] at hlt
    simpa using hfg l hlt
  · have := dot_rounded hf ln exp sqrt powf ((List.range k).map fun l => (f l, g l))
    rw [List.map_map, List.map_map, List.length_map, List.length_range] at this
    simpa [Finset.sum_range, ← List.sum_ofFn, List.ofFn_eq_map, Function.comp_def, List.map_ofFn, ← List.map_coe_finRange_eq_range] using this

/-- C77 for `matvec` (transposed or not, batched over leading dimensions `P`, rows `R`). -/
theorem C77_matvec (hf : IsFormat rep rnd u tau) {tr : Transpose} (htr : tr = .none ∨ tr = .transposeA) {a x : Tensor K}
    {P A R : List Nat} {m k : Nat} {xs ys : List K}
    (ha : Rep a (A ++ flip tr.left m k) xs) (hx : Rep x (P ++ A ++ R ++ [k]) ys) (hR : R.length ≤ 1)
    (hP : R = [] → P ++ A = []) (hpos : 0 < xs.length ∧ 0 < ys.length) (hfO : Fits (P ++ A ++ R ++ [m])) :
    ∃ t zs, matvecT (FOps.rounded rnd ln exp sqrt powf) a x tr = .ok t ∧ Rep t (P ++ A ++ R ++ [m]) zs ∧
      ∀ pi ai ri j, (f g : Nat → K) → (ravel P pi).isSome → (ravel A ai).isSome → (ravel R ri).isSome → j < m →
        (∀ l, l < k → at? (P ++ A ++ R ++ [k]) ys (pi ++ ai ++ ri ++ [l]) = some (f l) ∧
          at? (A ++ flip tr.left m k) xs (ai ++ flip tr.left j l) = some (g l)) →
        ∃ v, at? (P ++ A ++ R ++ [m]) zs (pi ++ ai ++ ri ++ [j]) = some v ∧
          |v - ∑ l ∈ Finset.range k, f l * g l| ≤
            ((1 + u) ^ k - 1) * (∑ l ∈ Finset.range k, |f l * g l|) + (1 + u) ^ k * (k * (u * tau)) := by
  obtain ⟨t, zs, e, ht, h⟩ := C41_matvec_partial (.rounded rnd ln exp sqrt powf) htr ha hx hR hP hpos hfO
  refine ⟨t, zs, e, ht, ?_⟩
  intro pi ai ri j f g h1 h2 h3 hj hfg
  refine ⟨_, h pi ai ri j ((List.range k).map fun l => (f l, g l)) h1 h2 h3 hj (by simp) ?_, ?_⟩
  · intro l p hp
    rw [List.getElem?_map] at hp
    obtain ⟨l', hl', rfl⟩ := Option.map_eq_some_iff.1 hp
    obtain ⟨hlt, rfl⟩ := List.getElem?_eq_some_iff.1 hl'
    simp only [List.length_range] at hlt
    simpa using hfg l hlt
  · have := dot_rounded hf ln exp sqrt powf ((List.range k).map fun l => (f l, g l))
    rw [List.map_map, List.map_map, List.length_map, List.length_range] at this
    simpa [Finset.sum_range, ← List.sum_ofFn, List.ofFn_eq_map, Function.comp_def, List.map_ofFn,
      ← List.map_coe_finRange_eq_range] using this

end C77

/-- C77 for `reduce_hypot` with a correctly rounded square root, when no square underflows. -/
theorem C77_hypot {rep : ℝ → Prop} {rnd : ℝ → ℝ} {u tau : ℝ} (hf : IsFormat rep rnd u tau) (ln exp : ℝ → ℝ)
    (powf : ℝ → ℝ → ℝ) {t : Tensor ℝ} {ds : List Nat} {xs : List ℝ} (h : Rep t ds xs)
    (hx : ∀ x ∈ xs, x = 0 ∨ tau ≤ x * x) :
    ∃ r v, reduceHypot (.rounded rnd ln exp (fun y => rnd (Real.sqrt y)) powf) t = .ok r ∧ Rep r [] [v] ∧
      |v - Real.sqrt (xs.map (· ^ 2)).sum| ≤
        ((1 + u) ^ (xs.length + 1) - 1) * Real.sqrt (xs.map (· ^ 2)).sum + u * tau := by
  obtain ⟨r, hr, hr'⟩ := fold_pure h (0 : ℝ) (fun s v => rnd (s + rnd (v * v))) (fun y => rnd (Real.sqrt y))
  refine ⟨r, _, hr, hr', ?_⟩
  have hu := hf.u_nonneg
  -- rounding the squares has a relative error
  have key : |xs.foldl (fun s v => rnd (s + rnd (v * v))) 0 - (xs.map (· ^ 2)).sum| ≤
      ((1 + u) ^ xs.length - 1) * (xs.map (· ^ 2)).sum := by
    clear h hr hr'
    cases xs with
    | nil => simp
    | cons y ys =>
      have hsq : ∀ x ∈ y :: ys, |rnd (x * x) - x ^ 2| ≤ u * x ^ 2 := by
        intro x hxm
        rcases hx x hxm with rfl | hx
        · simp [hf.zero_eq]
        · have h0 : |x * x| = x ^ 2 := by rw [abs_of_nonneg (mul_self_nonneg x)]; ring
          have := hf.rel (x * x) (by rw [h0]; linarith [sq x])
          rwa [h0, show rnd (x * x) - x * x = rnd (x * x) - x ^ 2 by ring] at this
      have e : (y :: ys).foldl (fun s v => rnd (s + rnd (v * v))) 0 =
          (ys.map fun v => rnd (v * v)).foldl (fun a b => rnd (a + b)) (rnd (y * y)) := by
        rw [List.foldl_cons, zero_add, hf.fixed _ (hf.closed _), List.foldl_map]
      obtain ⟨_, h2⟩ := foldl_round hf (ys.map fun v => rnd (v * v)) (hf.closed (y * y)) fun x hx => by
        obtain ⟨z, _, rfl⟩ := List.mem_map.1 hx; exact hf.closed _
      rw [e]
      have hnn : ∀ x : ℝ, |rnd (x * x)| = rnd (x * x) := fun x => abs_of_nonneg (hf.nonneg (mul_self_nonneg x))
      have hsum : ∀ zs : List ℝ, (∀ x ∈ zs, |rnd (x * x) - x ^ 2| ≤ u * x ^ 2) →
          |(zs.map fun v => rnd (v * v)).sum - (zs.map (· ^ 2)).sum| ≤ u * (zs.map (· ^ 2)).sum := by
        intro zs
        induction zs with
        | nil => intro _; simp
        | cons z zs ih =>
          intro h
          have i := ih fun x hx => h x (by simp [hx])
          have hz := h z (by simp)
          simp only [List.map_cons, List.sum_cons]
          have e : rnd (z * z) + (zs.map fun v => rnd (v * v)).sum - (z ^ 2 + (zs.map (· ^ 2)).sum) =
            (rnd (z * z) - z ^ 2) + ((zs.map fun v => rnd (v * v)).sum - (zs.map (· ^ 2)).sum) := by ring
          rw [e]
          exact (abs_add_le _ _).trans (by linarith)
      have h3 := hsum (y :: ys) hsq
      rw [List.map_map, List.length_map] at h2
      simp only [Function.comp_def, hnn] at h2
      simp only [List.map_cons, List.sum_cons, List.length_cons, pow_succ (1 + u)] at h3 ⊢
      set fl := (ys.map fun v => rnd (v * v)).foldl (fun a b => rnd (a + b)) (rnd (y * y))
      set S := y ^ 2 + (ys.map (· ^ 2)).sum
      set B := rnd (y * y) + (ys.map fun v => rnd (v * v)).sum
      have hg : 1 ≤ (1 + u) ^ ys.length := one_le_pow₀ (by linarith)
      set g := (1 + u) ^ ys.length
      have hB : B ≤ S + u * S := by linarith [(abs_le.1 h3).2]
      have h4 : |fl - S| ≤ |fl - B| + |B - S| := by
        have := abs_add_le (fl - B) (B - S)
        simpa using this
      have h5 := mul_le_mul_of_nonneg_left hB (by linarith : 0 ≤ g - 1)
      refine h4.trans ((add_le_add h2 h3).trans ?_)
      nlinarith
  set s := xs.foldl (fun s v => rnd (s + rnd (v * v))) 0 with hs
  set S := (xs.map (· ^ 2)).sum with hS
  have hS0 : 0 ≤ S := sum_sq_nonneg xs
  have hs0 : 0 ≤ s := by
    rw [hs]
    rcases List.eq_nil_or_concat' xs with h0 | ⟨l, a, h0⟩
    · rw [h0]; simp
    · rw [h0, List.foldl_append, List.foldl_cons, List.foldl_nil]
      have : ∀ l : List ℝ, 0 ≤ l.foldl (fun s v => rnd (s + rnd (v * v))) 0 := by
        intro l
        induction l using List.reverseRecOn with
        | nil => simp
        | append_singleton l a ih =>
          rw [List.foldl_append, List.foldl_cons, List.foldl_nil]
          exact hf.nonneg (add_nonneg ih (hf.nonneg (mul_self_nonneg a)))
      exact hf.nonneg (add_nonneg (this l) (hf.nonneg (mul_self_nonneg a)))
  set g := (1 + u) ^ xs.length with hg
  have hg1 : 1 ≤ g := one_le_pow₀ (by linarith)
  have hr : |Real.sqrt s - Real.sqrt S| ≤ (g - 1) * Real.sqrt S := by
    rcases hS0.eq_or_lt with h0 | h0
    · rw [← h0] at key ⊢
      have : s = 0 := by simpa using key
      simp [this]
    · have hq : 0 < Real.sqrt S := Real.sqrt_pos.2 h0
      have e : (Real.sqrt s - Real.sqrt S) * (Real.sqrt s + Real.sqrt S) = s - S := by
        have := Real.mul_self_sqrt hs0; have := Real.mul_self_sqrt hS0; nlinarith
      have hle : Real.sqrt S ≤ Real.sqrt s + Real.sqrt S := by linarith [Real.sqrt_nonneg s]
      have e2 : |Real.sqrt s - Real.sqrt S| * (Real.sqrt s + Real.sqrt S) = |s - S| := by
        rw [← e, abs_mul, abs_of_pos (lt_of_lt_of_le hq hle)]
      have h3 : |Real.sqrt s - Real.sqrt S| * Real.sqrt S ≤ (g - 1) * Real.sqrt S * Real.sqrt S := by
        have := mul_le_mul_of_nonneg_left hle (abs_nonneg (Real.sqrt s - Real.sqrt S))
        have hm := Real.mul_self_sqrt hS0
        rw [mul_assoc, hm]
        linarith
      exact le_of_mul_le_mul_right h3 hq
  have h3 := hf.err (Real.sqrt s)
  rw [abs_of_nonneg (Real.sqrt_nonneg s)] at h3
  have h4 : |rnd (Real.sqrt s) - Real.sqrt S| ≤ |rnd (Real.sqrt s) - Real.sqrt s| + |Real.sqrt s - Real.sqrt S| := by
    have := abs_add_le (rnd (Real.sqrt s) - Real.sqrt s) (Real.sqrt s - Real.sqrt S)
    simpa using this
  have h5 : Real.sqrt s ≤ g * Real.sqrt S := by linarith [(abs_le.1 hr).2]
  have h6 := mul_le_mul_of_nonneg_left h5 hu
  rw [pow_succ, ← hg]
  nlinarith

theorem foldl_ones {K : Type} [Field K] [LinearOrder K] [IsStrictOrderedRing K] [FloorRing K] {p : Nat} {emin : Int}
    (hp : 2 ≤ p) (he : emin ≤ 0) (n : Nat) (hn : 2 ^ p ≤ n) :
    (List.replicate n (1 : K)).foldl (fun a b => Ieee.round p emin (a + b)) 0 = 2 ^ p := by
  have key : ∀ n, (List.replicate n (1 : K)).foldl (fun a b => Ieee.round p emin (a + b)) 0 = ((min n (2 ^ p) : Nat) : K) := by
    intro n
    induction n with
    | zero => simp
    | succ n ih =>
      rw [List.replicate_succ', List.foldl_append, ih, List.foldl_cons, List.foldl_nil]
      by_cases h : n < 2 ^ p
      · rw [min_eq_left (by omega), min_eq_left (by omega)]
        have := Ieee.round_nat (K := K) (p := p) (emin := emin) (k := n + 1) (by omega) hp he
        push_cast at this ⊢
        exact this
      · rw [min_eq_right (by omega), min_eq_right (by omega)]
        have := Ieee.round_succ (K := K) hp he
        push_cast
        exact this
  rw [key, min_eq_right hn]; simp

section saturation

variable {K : Type} [Field K] [LinearOrder K] [IsStrictOrderedRing K] [FloorRing K]

/-- C77: rounding errors matter. The `f32` sum of 2^25 ones is 2^24, where the running sum stops growing. -/
theorem C77_sum_saturates (ln exp sqrt : K → K) (powf : K → K → K) {t : Tensor K} {ds : List Nat}
    (h : Rep t ds (List.replicate (2 ^ 25) 1)) :
    ∃ r, reduceOp (fun x y => .ok ((FOps.rounded Ieee.f32 ln exp sqrt powf).add x y)) t = .ok r ∧ Rep r [] [2 ^ 24] := by
  rw [show 2 ^ 25 = (2 ^ 25 - 1) + 1 by norm_num, List.replicate_succ] at h
  obtain ⟨r, hr, hr'⟩ := reduce_pure h fun x y => Ieee.f32 (x + y)
  refine ⟨r, hr, ?_⟩
  have := foldl_ones (K := K) (p := 24) (emin := -149) (by norm_num) (by norm_num) (2 ^ 25) (by norm_num)
  rw [show 2 ^ 25 = (2 ^ 25 - 1) + 1 by norm_num, List.replicate_succ, List.foldl_cons, zero_add] at this
  have h1 := Ieee.round_nat (K := K) (p := 24) (emin := -149) (k := 1) (by norm_num) (by norm_num) (by norm_num)
  rw [Nat.cast_one] at h1
  rw [h1] at this
  rwa [show (List.replicate (2 ^ 25 - 1) (1 : K)).foldl (fun x y => Ieee.f32 (x + y)) 1 = 2 ^ 24 from this] at hr'

/-- C77: and so the `f32` mean of 2^25 ones is one half. -/
theorem C77_mean_saturates (ln exp sqrt : K → K) (powf : K → K → K) {t : Tensor K} {ds : List Nat}
    (h : Rep t ds (List.replicate (2 ^ 25) 1)) :
    ∃ r, reduceMean (.rounded Ieee.f32 ln exp sqrt powf) t = .ok r ∧ Rep r [] [1 / 2] := by
  obtain ⟨r, hr, hr'⟩ := fold_pure h (Mean.default (.rounded Ieee.f32 ln exp sqrt powf))
    (Mean.update (.rounded Ieee.f32 ln exp sqrt powf)) (Mean.intoResult (.rounded Ieee.f32 ln exp sqrt powf))
  refine ⟨r, hr, ?_⟩
  rw [foldl_mean] at hr'
  unfold Mean.intoResult Mean.default at hr'
  simp only [FOps.rounded, Nat.zero_add, List.length_replicate] at hr'
  have e := foldl_ones (K := K) (p := 24) (emin := -149) (by norm_num) (by norm_num) (2 ^ 25) (by norm_num)
  rw [show (List.replicate (2 ^ 25) (1 : K)).foldl (fun x y => Ieee.f32 (x + y)) 0 = 2 ^ 24 from e] at hr'
  have h1 : Ieee.f32 ((max (2 ^ 25) 1 : Nat) : K) = 2 ^ 25 := by
    have := Ieee.round_fixed (Ieee.rep_zpow (K := K) (p := 24) (emin := -149) (b := 25) (by norm_num) (by norm_num))
    have e : ((2 : K) ^ (25 : Int)) = ((max (2 ^ 25) 1 : Nat) : K) := by norm_num
    rw [e] at this
    unfold Ieee.f32
    rw [this]; norm_num
  have h2 : Ieee.f32 ((2 : K) ^ 24 / 2 ^ 25) = 1 / 2 := by
    have := Ieee.round_fixed (Ieee.rep_zpow (K := K) (p := 24) (emin := -149) (b := -1) (by norm_num) (by norm_num))
    have e : ((2 : K) ^ (-1 : Int)) = 1 / 2 := by norm_num
    rw [e] at this
    rw [show (2 : K) ^ 24 / 2 ^ 25 = 1 / 2 by norm_num]
    exact this
  rw [h1, h2] at hr'
  exact hr'

end saturation

/-! ## C78 -/

section C78

variable {K : Type} [Field K] [LinearOrder K] [IsStrictOrderedRing K] {rep : K → Prop} {rnd : K → K} {u tau : K}

/-- The share of a difference that is added to the running mean does not exceed the difference. -/
theorem share_le (hf : IsFormat rep rnd u tau) {x m c : K} (hx : rep x) (hm : rep m) (hc : 2 ≤ c) (h : m ≤ x) :
    0 ≤ rnd (rnd (x - m) / c) ∧ rnd (rnd (x - m) / c) ≤ x - m := by
  have hd : 0 ≤ x - m := by linarith
  have hy := hf.nonneg hd
  have hc0 : 0 < c := by linarith
  have hz : 0 ≤ rnd (x - m) / c := div_nonneg hy hc0.le
  refine ⟨hf.nonneg hz, ?_⟩
  have hu := hf.u_nonneg
  have hzc : rnd (x - m) / c ≤ rnd (x - m) / 2 := div_le_div_of_nonneg_left hy (by norm_num) hc
  rcases le_total (x - m) tau with h1 | h1
  · have e := hf.fixed _ (hf.sub x m hx hm (by rwa [abs_of_nonneg hd]))
    rw [e] at hzc ⊢
    have := hf.mono _ _ (hzc.trans (by linarith : (x - m) / 2 ≤ x - m))
    rwa [e] at this
  · have h2 := hf.rel (x - m) (by rwa [abs_of_nonneg hd])
    rw [abs_of_nonneg hd] at h2
    have h3 := (abs_le.1 h2).2
    have h4 : rnd (x - m) / 2 ≤ (1 + u) / 2 * (x - m) := by linarith
    rcases le_total (rnd (x - m) / c) tau with h5 | h5
    · have := hf.mono _ _ h5
      rw [hf.fixed _ hf.tau_rep] at this
      exact this.trans h1
    · have h6 := hf.rel _ (by rwa [abs_of_nonneg hz])
      rw [abs_of_nonneg hz] at h6
      have h7 := (abs_le.1 h6).2
      have h8 : rnd (rnd (x - m) / c) ≤ (1 + u) * ((1 + u) / 2 * (x - m)) := by nlinarith
      have h9 : (1 + u) * ((1 + u) / 2) ≤ 1 := by nlinarith [hf.u_le]
      nlinarith

theorem IsFormat.symm (hf : IsFormat rep rnd u tau) : IsFormat rep (fun x => - rnd (-x)) u tau where
  mono x y h := by have := hf.mono (-y) (-x) (by linarith); linarith
  fixed x hx := by rw [hf.fixed _ (hf.neg x hx), neg_neg]
  closed x := hf.neg _ (hf.closed _)
  neg := hf.neg
  zero := hf.zero
  one := hf.one
  two := hf.two
  u_nonneg := hf.u_nonneg
  u_le := hf.u_le
  tau_pos := hf.tau_pos
  tau_rep := hf.tau_rep
  sub := hf.sub
  rel x h := by
    have := hf.rel (-x) (by rwa [abs_neg])
    rwa [abs_neg, ← abs_neg, show -(rnd (-x) - -x) = -rnd (-x) - x by ring] at this
  abs x h := by
    have := hf.abs (-x) (by rwa [abs_neg])
    rwa [← abs_neg, show -(rnd (-x) - -x) = -rnd (-x) - x by ring] at this

/-- The updated mean lies between the old mean and the new element. -/
theorem mean_between (hf : IsFormat rep rnd u tau) {x m c : K} (hx : rep x) (hm : rep m) (hc : 2 ≤ c) :
    (m ≤ x → m ≤ rnd (m + rnd (rnd (x - m) / c)) ∧ rnd (m + rnd (rnd (x - m) / c)) ≤ x) ∧
    (x ≤ m → x ≤ rnd (m + rnd (rnd (x - m) / c)) ∧ rnd (m + rnd (rnd (x - m) / c)) ≤ m) := by
  constructor
  · intro h
    obtain ⟨h1, h2⟩ := share_le hf hx hm hc h
    have a := hf.mono m _ (by linarith : m ≤ m + rnd (rnd (x - m) / c))
    have b := hf.mono (m + rnd (rnd (x - m) / c)) x (by linarith)
    rw [hf.fixed m hm] at a
    rw [hf.fixed x hx] at b
    exact ⟨a, b⟩
  · intro h
    obtain ⟨h1, h2⟩ := share_le hf.symm (hf.neg x hx) (hf.neg m hm) hc (by linarith)
    have e : -(-x - -m) = x - m := by ring
    have e2 : -(-rnd (x - m) / c) = rnd (x - m) / c := by ring
    simp only [e, e2] at h1 h2
    have a := hf.mono (m + rnd (rnd (x - m) / c)) m (by linarith)
    have b := hf.mono x (m + rnd (rnd (x - m) / c)) (by linarith)
    rw [hf.fixed m hm] at a
    rw [hf.fixed x hx] at b
    exact ⟨b, a⟩

variable (ln exp sqrt : K → K) (powf : K → K → K)

/-- Invariant of the variance loop in rounded arithmetic. -/
theorem foldl_var_round (hf : IsFormat rep rnd u tau) {lo hi : K} (xs : List K) (hx : ∀ x ∈ xs, rep x ∧ lo ≤ x ∧ x ≤ hi) :
    let v := xs.foldl (Var.update (.rounded rnd ln exp sqrt powf)) (Var.default (.rounded rnd ln exp sqrt powf))
    v.k = xs.length ∧ 0 ≤ v.s ∧ rep v.m ∧ (xs ≠ [] → lo ≤ v.m ∧ v.m ≤ hi) ∧ (lo = hi → v.s = 0) := by
  induction xs using List.reverseRecOn with
  | nil => exact ⟨rfl, le_refl _, hf.zero, fun h => absurd rfl h, fun _ => rfl⟩
  | append_singleton xs x ih =>
    obtain ⟨hk, hs, hm, hb, hz⟩ := ih fun y hy => hx y (List.mem_append_left _ hy)
    obtain ⟨hxr, hlo, hhi⟩ := hx x (by simp)
    simp only [List.foldl_append, List.foldl_cons, List.foldl_nil]
    set v := xs.foldl (Var.update (.rounded rnd ln exp sqrt powf)) (Var.default (.rounded rnd ln exp sqrt powf))
    unfold Var.update
    by_cases h0 : v.k = 0
    · rw [if_pos h0]
      refine ⟨?_, le_refl _, hxr, fun _ => ⟨hlo, hhi⟩, fun _ => rfl⟩
      rw [List.length_append, ← hk, h0]; rfl
    · rw [if_neg h0]
      have hne : xs ≠ [] := by rintro rfl; exact h0 hk
      have hc : (2 : K) ≤ rnd ((v.k + 1 : Nat) : K) := by
        have h2 : (2 : K) ≤ ((v.k + 1 : Nat) : K) := by exact_mod_cast (by omega : 2 ≤ v.k + 1)
        have := hf.mono _ _ h2
        rwa [hf.fixed _ hf.two] at this
      obtain ⟨b1, b2⟩ := mean_between hf hxr hm hc
      obtain ⟨hl, hh⟩ := hb hne
      simp only [FOps.rounded]
      set c := rnd ((v.k + 1 : Nat) : K)
      set m' := rnd (v.m + rnd (rnd (x - v.m) / c))
      refine ⟨by rw [List.length_append, ← hk]; rfl, hf.nonneg (add_nonneg hs (hf.nonneg ?_)), hf.closed _, fun _ => ?_,
        fun heq => ?_⟩
      · rcases le_total v.m x with h | h
        · exact mul_nonneg (hf.nonneg (by linarith)) (hf.nonneg (by linarith [(b1 h).2]))
        · exact mul_nonneg_of_nonpos_of_nonpos (hf.nonpos (by linarith)) (hf.nonpos (by linarith [(b2 h).1]))
      · rcases le_total v.m x with h | h
        · have := b1 h; exact ⟨by linarith, by linarith⟩
        · have := b2 h; exact ⟨by linarith, by linarith⟩
      · have hxm : x - v.m = 0 := by linarith
        rw [hz heq, hxm, hf.zero_eq, zero_mul, hf.zero_eq, add_zero, hf.zero_eq]

theorem intoVar_round (hf : IsFormat rep rnd u tau) {xs : List K} (hx : ∀ x ∈ xs, rep x) :
    0 ≤ Var.intoVar (.rounded rnd ln exp sqrt powf)
      (xs.foldl (Var.update (.rounded rnd ln exp sqrt powf)) (Var.default (.rounded rnd ln exp sqrt powf))) := by
  obtain ⟨B, hB⟩ : ∃ B, ∀ x ∈ xs, |x| ≤ B := by
    refine ⟨(xs.map fun x => |x|).sum, fun x hx => ?_⟩
    exact List.single_le_sum (by intro y hy; obtain ⟨z, _, rfl⟩ := List.mem_map.1 hy; positivity) _ (List.mem_map.2 ⟨x, hx, rfl⟩)
  have h := foldl_var_round ln exp sqrt powf hf (lo := -B) (hi := B) xs fun x hm =>
    ⟨hx x hm, (abs_le.1 (hB x hm)).1, (abs_le.1 (hB x hm)).2⟩
  unfold Var.intoVar
  split
  · simp only [FOps.rounded]
    exact hf.nonneg (div_nonneg h.2.1 (hf.nonneg (Nat.cast_nonneg _)))
  · exact le_refl _

/-- C78: `reduce_variance` never returns a negative number, whatever floats it is given and however many: the rounded
running mean never overtakes an element. So `reduce_std` never takes the square root of a negative number.
Missing for the full property: overflow, see `C82_variance_partial` and `C82_variance_overflow_violates`. -/
theorem C78_nonneg_partial (hf : IsFormat rep rnd u tau) {t : Tensor K} {ds : List Nat} {xs : List K} (h : Rep t ds xs)
    (hx : ∀ x ∈ xs, rep x) :
    (∃ r v, reduceVariance (.rounded rnd ln exp sqrt powf) t = .ok r ∧ Rep r [] [v] ∧ 0 ≤ v) ∧
    ∃ r w, reduceStd (.rounded rnd ln exp sqrt powf) t = .ok r ∧ Rep r [] [w] ∧ (w = 0 ∨ ∃ v, 0 ≤ v ∧ w = sqrt v) := by
  have h0 := intoVar_round ln exp sqrt powf hf hx
  constructor
  · obtain ⟨r, hr, hr'⟩ := fold_pure h (Var.default (.rounded rnd ln exp sqrt powf))
      (Var.update (.rounded rnd ln exp sqrt powf)) (Var.intoVar (.rounded rnd ln exp sqrt powf))
    exact ⟨r, _, hr, hr', h0⟩
  · obtain ⟨r, hr, hr'⟩ := fold_pure h (Var.default (.rounded rnd ln exp sqrt powf))
      (Var.update (.rounded rnd ln exp sqrt powf)) (Var.intoStd (.rounded rnd ln exp sqrt powf))
    refine ⟨r, _, hr, hr', ?_⟩
    unfold Var.intoVar at h0
    unfold Var.intoStd
    split at h0
    · next hk => rw [if_pos hk]; exact Or.inr ⟨_, h0, rfl⟩
    · next hk => rw [if_neg hk]; exact Or.inl rfl

/-- C78 for the axis versions, missing the same. -/
theorem C78_nonneg_axis_partial (hf : IsFormat rep rnd u tau) {t : Tensor K} {pre post : List Nat} {d : Nat} {xs : List K}
    (h : Rep t (pre ++ d :: post) xs) (hne : xs ≠ []) (hx : ∀ x ∈ xs, rep x) {a : Int}
    (ha : axisIndex (pre ++ d :: post).length a = some pre.length) :
    (∃ r vs, reduceVarianceAxis (.rounded rnd ln exp sqrt powf) t (some a) = .ok r ∧ Rep r (pre ++ post) vs ∧
      ∀ v ∈ vs, 0 ≤ v) ∧
    ∃ r ws, reduceStdAxis (.rounded rnd ln exp sqrt powf) t (some a) = .ok r ∧ Rep r (pre ++ post) ws ∧
      ∀ w ∈ ws, w = 0 ∨ ∃ v, 0 ≤ v ∧ w = sqrt v := by
  constructor
  · obtain ⟨lanes, r, hl, _, hr, hr'⟩ := foldAxis_pure h hne ha (Var.default (.rounded rnd ln exp sqrt powf))
      (Var.update (.rounded rnd ln exp sqrt powf)) (Var.intoVar (.rounded rnd ln exp sqrt powf))
    refine ⟨r, _, hr, hr', fun v hv => ?_⟩
    obtain ⟨l, hlm, rfl⟩ := List.mem_map.1 hv
    exact intoVar_round ln exp sqrt powf hf fun x hm => hx x (hl.subset l hlm x hm)
  · obtain ⟨lanes, r, hl, _, hr, hr'⟩ := foldAxis_pure h hne ha (Var.default (.rounded rnd ln exp sqrt powf))
      (Var.update (.rounded rnd ln exp sqrt powf)) (Var.intoStd (.rounded rnd ln exp sqrt powf))
    refine ⟨r, _, hr, hr', fun v hv => ?_⟩
    obtain ⟨l, hlm, rfl⟩ := List.mem_map.1 hv
    have h0 := intoVar_round ln exp sqrt powf hf fun x hm => hx x (hl.subset l hlm x hm)
    unfold Var.intoVar at h0
    unfold Var.intoStd
    split at h0
    · next hk => rw [if_pos hk]; exact Or.inr ⟨_, h0, rfl⟩
    · next hk => rw [if_neg hk]; exact Or.inl rfl

/-- C78: the variance of equal floats is exactly zero, whatever the rounding and however many there are. -/
theorem C78_constant (hf : IsFormat rep rnd u tau) {t : Tensor K} {ds : List Nat} {n : Nat} {c : K} (hc : rep c)
    (h : Rep t ds (List.replicate n c)) :
    ∃ r, reduceVariance (.rounded rnd ln exp sqrt powf) t = .ok r ∧ Rep r [] [0] := by
  obtain ⟨r, hr, hr'⟩ := fold_pure h (Var.default (.rounded rnd ln exp sqrt powf))
    (Var.update (.rounded rnd ln exp sqrt powf)) (Var.intoVar (.rounded rnd ln exp sqrt powf))
  refine ⟨r, hr, ?_⟩
  have h0 := foldl_var_round ln exp sqrt powf hf (lo := c) (hi := c) (List.replicate n c) fun x hm => by
    rw [List.eq_of_mem_replicate hm]; exact ⟨hc, le_refl _, le_refl _⟩
  have : Var.intoVar (.rounded rnd ln exp sqrt powf) ((List.replicate n c).foldl
      (Var.update (.rounded rnd ln exp sqrt powf)) (Var.default (.rounded rnd ln exp sqrt powf))) = 0 := by
    unfold Var.intoVar
    split
    · rw [h0.2.2.2.2 rfl]
      simp [FOps.rounded, hf.zero_eq]
    · rfl
  rwa [this] at hr'

end C78

/-! ### Examples -/

/-- `f32` is a format (so the hypothesis `IsFormat` is met), and so is `f64`. -/
example : IsFormat (Ieee.Representable 24 (-149) : ℚ → Prop) Ieee.f32 (2 ^ (-24 : Int)) (2 ^ (-126 : Int)) :=
  Ieee.f32_isFormat

/-- One tenth is not representable; its rounding is. The sum of three roundings has an error of at most
`(1 + 2^-24)^2 - 1` relative to its size. -/
example {t : Tensor ℚ} (h : Rep t [3] [Ieee.f32 (1 / 10), Ieee.f32 (1 / 10), Ieee.f32 (1 / 10)]) :
    ∃ r v, reduceOp (fun x y => .ok ((FOps.rounded Ieee.f32 id id id (fun x _ => x)).add x y)) t = .ok r ∧
      Rep r [] [v] ∧ Ieee.Representable 24 (-149) v ∧
      |v - ([Ieee.f32 (1 / 10), Ieee.f32 (1 / 10), Ieee.f32 (1 / 10)] : List ℚ).sum| ≤
        ((1 + 2 ^ (-24 : Int)) ^ 2 - 1) * (([Ieee.f32 (1 / 10), Ieee.f32 (1 / 10), Ieee.f32 (1 / 10)] : List ℚ).map
          fun x => |x|).sum :=
  C77_sum id id id (fun x _ => x) Ieee.f32_isFormat h (by simp) (by
    intro x hx
    have : x = Ieee.f32 (1 / 10) := by simpa using hx
    rw [this]
    exact Ieee.f32_isFormat.closed _)

/-- A tensor of 2^25 ones exists. -/
example : ∃ t : Tensor ℚ, Rep t [2 ^ 25] (List.replicate (2 ^ 25) 1) :=
  ⟨_, rep_fresh ⟨by simp, by simp⟩ (fits_of_pos (by simp) (by simp)) (by rw [List.length_replicate]; simp)⟩

/-- The variance of one million copies of any `f32` is zero. -/
example {t : Tensor ℚ} {c : ℚ} (h : Rep t [1000, 1000] (List.replicate 1000000 (Ieee.f32 c))) :
    ∃ r, reduceVariance (.rounded Ieee.f32 id id id (fun x _ => x)) t = .ok r ∧ Rep r [] [0] :=
  C78_constant id id id (fun x _ => x) Ieee.f32_isFormat (Ieee.f32_isFormat.closed c) h

/-- The hypotheses of `C45_saturation_violates` about the rounding are met by `f32`, with `N = 2^24`. -/
example : (∀ k : Nat, k ≤ 2 ^ 24 → Ieee.f32 (k : ℚ) = k) ∧ Ieee.f32 (((2 ^ 24 : Nat) : ℚ) + 1) = (2 ^ 24 : Nat) := by
  refine ⟨fun k hk => Ieee.round_nat hk (by norm_num) (by norm_num), ?_⟩
  have := Ieee.round_succ (K := ℚ) (p := 24) (emin := -149) (by norm_num) (by norm_num)
  push_cast
  exact this

/-- Whole numbers up to 2^24 are `f32` values. -/
theorem rep32_nat (k : Nat) (hk : k ≤ 2 ^ 24) : Ieee.Representable 24 (-149) (k : ℚ) := by
  have := Ieee.f32_isFormat.closed (k : ℚ)
  rwa [show Ieee.f32 (k : ℚ) = k from Ieee.round_nat hk (by norm_num) (by norm_num)] at this

/-- `[[16777216, 1], [3, 5]]`: `f32` values whose first row has no exact `f32` sum. -/
def exWide : Tensor ℚ := ⟨ofDims [2, 2], 0, 4, [16777216, 1, 3, 5]⟩

theorem exWide_rep : Rep exWide [2, 2] [16777216, 1, 3, 5] :=
  rep_fresh (ds := [2, 2]) (xs := [16777216, 1, 3, 5]) ⟨by simp, by simp⟩ (fits_of_pos (by simp) (by simp)) rfl

theorem exWide_mem : ∀ x ∈ ([16777216, 1, 3, 5] : List ℚ), Ieee.Representable 24 (-149) x := by
  simp only [List.mem_cons, List.not_mem_nil, or_false]
  rintro x (rfl | rfl | rfl | rfl)
  · exact_mod_cast rep32_nat 16777216 (by norm_num)
  · exact_mod_cast rep32_nat 1 (by norm_num)
  · exact_mod_cast rep32_nat 3 (by norm_num)
  · exact_mod_cast rep32_nat 5 (by norm_num)

example : ∃ lanes r vs, IsLanes [2] 2 [] [16777216, 1, 3, 5] lanes ∧
    reduceOpAxis (fun x y => .ok ((FOps.rounded Ieee.f32 id id id fun x _ => x).add x y)) exWide (some 1) = .ok r ∧
    Rep r [2] vs ∧ vs.length = lanes.length ∧
    ∀ (i : Nat) l v, lanes[i]? = some l → vs[i]? = some v →
      |v - l.sum| ≤ ((1 + (2 : ℚ) ^ (-24 : Int)) ^ (2 - 1) - 1) * (l.map fun x => |x|).sum :=
  C77_sum_axis id id id (fun x _ => x) Ieee.f32_isFormat (pre := [2]) (post := []) exWide_rep (by simp) exWide_mem (by decide)

example : ∃ r v, reduceMean (.rounded Ieee.f32 id id id fun x _ => x) exWide = .ok r ∧ Rep r [] [v] ∧
    |v - mean [16777216, 1, 3, 5]| ≤ ((1 + (2 : ℚ) ^ (-24 : Int)) ^ 4 - 1) *
      ((([16777216, 1, 3, 5] : List ℚ).map fun x => |x|).sum / ((4 : Nat) : ℚ)) + 2 ^ (-24 : Int) * 2 ^ (-126 : Int) :=
  C77_mean id id id (fun x _ => x) Ieee.f32_isFormat exWide_rep (by simp) exWide_mem
    (Ieee.round_nat (by norm_num) (by norm_num) (by norm_num))

example : ∃ t zs, matmulT (.naive (.rounded Ieee.f32 id id id fun x _ => x)) exWide exWide .transposeB = .ok t ∧ Rep t [2, 2] zs ∧
    ∀ is i j, (f g : Nat → ℚ) → i < 2 → j < 2 → (ravel [] is).isSome →
      (∀ l, l < 2 → at? [2, 2] [16777216, 1, 3, 5] (is ++ [i, l]) = some (f l) ∧
        at? [2, 2] [16777216, 1, 3, 5] (is ++ [j, l]) = some (g l)) →
      ∃ v, at? [2, 2] zs (is ++ [i, j]) = some v ∧
        |v - ∑ l ∈ Finset.range 2, f l * g l| ≤ ((1 + (2 : ℚ) ^ (-24 : Int)) ^ 2 - 1) * (∑ l ∈ Finset.range 2, |f l * g l|) +
          (1 + 2 ^ (-24 : Int)) ^ 2 * ((2 : Nat) * (2 ^ (-24 : Int) * 2 ^ (-126 : Int))) :=
  C77_matmul id id id (fun x _ => x) Ieee.f32_isFormat .transposeB (A := []) (m := 2) (k := 2) (n := 2) exWide_rep exWide_rep
    fits_nil (fits_of_pos (by simp) (by simp))

example : ∃ t zs, matvecT (.naive (.rounded Ieee.f32 id id id fun x _ => x)) exWide exWide .none = .ok t ∧ Rep t [2, 2] zs ∧
    ∀ pi ai ri j, (f g : Nat → ℚ) → (ravel [] pi).isSome → (ravel [] ai).isSome → (ravel [2] ri).isSome → j < 2 →
      (∀ l, l < 2 → at? [2, 2] [16777216, 1, 3, 5] (pi ++ ai ++ ri ++ [l]) = some (f l) ∧
        at? [2, 2] [16777216, 1, 3, 5] (ai ++ [j, l]) = some (g l)) →
      ∃ v, at? [2, 2] zs (pi ++ ai ++ ri ++ [j]) = some v ∧
        |v - ∑ l ∈ Finset.range 2, f l * g l| ≤ ((1 + (2 : ℚ) ^ (-24 : Int)) ^ 2 - 1) * (∑ l ∈ Finset.range 2, |f l * g l|) +
          (1 + 2 ^ (-24 : Int)) ^ 2 * ((2 : Nat) * (2 ^ (-24 : Int) * 2 ^ (-126 : Int))) :=
  C77_matvec id id id (fun x _ => x) Ieee.f32_isFormat (.inl rfl) (P := []) (A := []) (R := [2]) (m := 2) (k := 2) exWide_rep
    exWide_rep (by simp) (by simp) (by simp) (fits_of_pos (by simp) (by simp))

example : ∃ r v, reduceHypot (.rounded Ieee.f32 id id (fun y => Ieee.f32 (Real.sqrt y)) fun x _ => x)
      (⟨ofDims [2], 0, 2, [3, 4]⟩ : Tensor ℝ) = .ok r ∧ Rep r [] [v] ∧
    |v - Real.sqrt (([3, 4] : List ℝ).map (· ^ 2)).sum| ≤
      ((1 + (2 : ℝ) ^ (-24 : Int)) ^ (2 + 1) - 1) * Real.sqrt (([3, 4] : List ℝ).map (· ^ 2)).sum +
        2 ^ (-24 : Int) * 2 ^ (-126 : Int) :=
  C77_hypot Ieee.f32_isFormat id id (fun x _ => x) (ds := [2]) (xs := [3, 4])
    (rep_fresh (ds := [2]) (xs := [3, 4]) ⟨by simp, by simp⟩ (fits_of_pos (by simp) (by simp)) rfl) (by
      simp only [List.mem_cons, List.not_mem_nil, or_false]
      rintro x (rfl | rfl) <;> right <;> norm_num)

/-- Both saturation theorems on a tensor that exists. -/
example : ∃ (t : Tensor ℚ) (r m : Tensor ℚ),
    reduceOp (fun x y => .ok ((FOps.rounded Ieee.f32 id id id fun x _ => x).add x y)) t = .ok r ∧ Rep r [] [2 ^ 24] ∧
    reduceMean (.rounded Ieee.f32 id id id fun x _ => x) t = .ok m ∧ Rep m [] [1 / 2] := by
  have h : Rep _ [2 ^ 25] (List.replicate (2 ^ 25) (1 : ℚ)) :=
    rep_fresh ⟨by simp, by simp⟩ (fits_of_pos (by simp) (by simp)) (by rw [List.length_replicate]; simp)
  obtain ⟨r, h1, h2⟩ := C77_sum_saturates id id id (fun x _ => x) h
  obtain ⟨m, h3, h4⟩ := C77_mean_saturates id id id (fun x _ => x) h
  exact ⟨_, r, m, h1, h2, h3, h4⟩

example : ∃ r v, reduceVariance (.rounded Ieee.f32 id id id fun x _ => x) exWide = .ok r ∧ Rep r [] [v] ∧ 0 ≤ v :=
  (C78_nonneg_partial id id id (fun x _ => x) Ieee.f32_isFormat exWide_rep exWide_mem).1

example : ∃ r vs, reduceVarianceAxis (.rounded Ieee.f32 id id id fun x _ => x) exWide (some (-2)) = .ok r ∧ Rep r [2] vs ∧
    ∀ v ∈ vs, 0 ≤ v :=
  (C78_nonneg_axis_partial id id id (fun x _ => x) Ieee.f32_isFormat (pre := []) (post := [2]) exWide_rep (by simp) exWide_mem
    (by decide)).1

end Essay
