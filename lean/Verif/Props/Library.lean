import Verif.Spec.Library
import Verif.Props.Rounding
import Verif.Props.Special

/-!
# Matrix products computed by the library

The default build multiplies matrices with the crate `matrixmultiply`, whose order of additions is its own. The theorems
here hold for every implementation whose entries are sums of the right products in any order (`Blas.Sums`); the simple
loops of blas_naive.rs are one of them.
-/

set_option linter.unusedSectionVars false

namespace Essay

open Shape Stats Linalg

section general

variable {F : Type}

theorem evaluates_naive (fo : FOps F) (fma : F → F → F → F) (ps : List (F × F)) :
    Evaluates fo fma ps (ps.foldl (fun v p => fo.add v (fo.mul p.1 p.2)) fo.zero) := by
  induction ps using List.reverseRecOn with
  | nil => exact .zero
  | append_singleton ps p ih =>
    rw [List.foldl_append]
    exact .add ih (.mul p.1 p.2)

/-- The simple loops are an implementation as described. -/
theorem sums_naive (fo : FOps F) (fma : F → F → F → F) : (Blas.naive fo).Sums fo fma :=
  fun _ _ _ _ _ ps _ _ _ => .scale (evaluates_naive fo fma ps)

/-- Pairs read at the positions of a row and a column, from functions giving the elements. -/
theorem pairs_of {k : Nat} {P : Nat → F → F → Prop} {f g : Nat → F} (h : ∀ l, l < k → P l (f l) (g l)) :
    ∀ (l : Nat) p, ((List.range k).map fun l => (f l, g l))[l]? = some p → P l p.1 p.2 := by
  intro l p hp
  rw [List.getElem?_map] at hp
  obtain ⟨l', hl', rfl⟩ := Option.map_eq_some_iff.1 hp
  obtain ⟨hlt, rfl⟩ := List.getElem?_eq_some_iff.1 hl'
  simp only [List.length_range] at hlt
  simpa using h l hlt

/-- C39 for every implementation: each entry is a sum, in some order, of the products of its row and its column. -/
theorem C39_any_order_partial {bl : Blas F} {fo : FOps F} {fma : F → F → F → F} (hbl : bl.Sums fo fma) (tr : Transpose)
    {a b : Tensor F} {A B : List Nat} {m k n : Nat} {xs ys : List F}
    (ha : Rep a (A ++ flip tr.left m k) xs) (hb : Rep b (B ++ flip tr.right k n) ys) (hAB : A.prod = B.prod)
    (hfA : Fits A) (hfO : Fits (B ++ [n, m])) :
    ∃ t zs, matmulT bl a b tr = .ok t ∧ Rep t (B ++ [n, m]) zs ∧
      ∀ ai bi i j, (f g : Nat → F) → ravel A ai = ravel B bi → i < m → j < n → (ravel B bi).isSome →
        (∀ l, l < k → at? (A ++ flip tr.left m k) xs (ai ++ flip tr.left i l) = some (f l) ∧
          at? (B ++ flip tr.right k n) ys (bi ++ flip tr.right l j) = some (g l)) →
        ∃ v, at? (B ++ [m, n]) zs (bi ++ [i, j]) = some v ∧
          Evaluates fo fma ((List.range k).map fun l => (f l, g l)) v := by
  obtain ⟨t, zs, e, ht, h⟩ := C39_library_partial bl tr ha hb hAB hfA hfO
  refine ⟨t, zs, e, ht, fun ai bi i j f g hr hi hj hs hfg => ?_⟩
  refine ⟨_, h ai bi i j ((List.range k).map fun l => (f l, g l)) hr hi hj hs (by simp) ?_, hbl _ _ _ _ _ _ hi hj (by simp)⟩
  exact pairs_of (P := fun l x y => at? (A ++ flip tr.left m k) xs (ai ++ flip tr.left i l) = some x ∧
    at? (B ++ flip tr.right k n) ys (bi ++ flip tr.right l j) = some y) hfg

/-- C41 for every implementation. -/
theorem C41_any_order_partial {bl : Blas F} {fo : FOps F} {fma : F → F → F → F} (hbl : bl.Sums fo fma) {tr : Transpose}
    (htr : tr = .none ∨ tr = .transposeA) {a x : Tensor F} {P A R : List Nat} {m k : Nat} {xs ys : List F}
    (ha : Rep a (A ++ flip tr.left m k) xs) (hx : Rep x (P ++ A ++ R ++ [k]) ys) (hR : R.length ≤ 1)
    (hP : R = [] → P ++ A = []) (hpos : 0 < xs.length ∧ 0 < ys.length) (hfO : Fits (P ++ A ++ R ++ [m])) :
    ∃ t zs, matvecT bl a x tr = .ok t ∧ Rep t (P ++ A ++ R ++ [m]) zs ∧
      ∀ pi ai ri j, (f g : Nat → F) → (ravel P pi).isSome → (ravel A ai).isSome → (ravel R ri).isSome → j < m →
        (∀ l, l < k → at? (P ++ A ++ R ++ [k]) ys (pi ++ ai ++ ri ++ [l]) = some (f l) ∧
          at? (A ++ flip tr.left m k) xs (ai ++ flip tr.left j l) = some (g l)) →
        ∃ v, at? (P ++ A ++ R ++ [m]) zs (pi ++ ai ++ ri ++ [j]) = some v ∧
          Evaluates fo fma ((List.range k).map fun l => (f l, g l)) v := by
  obtain ⟨t, zs, e, ht, h⟩ := C41_library_partial bl htr ha hx hR hP hpos hfO
  refine ⟨t, zs, e, ht, fun pi ai ri j f g h1 h2 h3 hj hfg => ?_⟩
  obtain ⟨i, hi⟩ := Option.isSome_iff_exists.1 h3
  refine ⟨_, h pi ai ri i j ((List.range k).map fun l => (f l, g l)) h1 h2 hi hj (by simp) ?_,
    hbl _ _ _ _ _ _ (ravel_lt hi) hj (by simp)⟩
  exact pairs_of (P := fun l x y => at? (P ++ A ++ R ++ [k]) ys (pi ++ ai ++ ri ++ [l]) = some x ∧
    at? (A ++ flip tr.left m k) xs (ai ++ flip tr.left j l) = some y) hfg

/-- Bad values are kept in every order of evaluation. -/
theorem evaluates_bad {fo : FOps F} {fma : F → F → F → F} {bad : F → Prop} (hab : Absorbs fo bad)
    (hfma : ∀ x y z, bad x ∨ bad y ∨ bad z → bad (fma x y z)) {ps : List (F × F)} {v : F} (h : Evaluates fo fma ps v)
    (hp : ∃ p : F × F, p ∈ ps ∧ (bad p.1 ∨ bad p.2)) : bad v := by
  induction h with
  | zero => obtain ⟨p, hp, _⟩ := hp; simp at hp
  | mul x y => obtain ⟨p, hp, h⟩ := hp; simp at hp; subst hp; exact hab.mul _ _ h
  | swapped x y => obtain ⟨p, hp, h⟩ := hp; simp at hp; subst hp; exact hab.mul _ _ h.symm
  | fused x y _ ih =>
    obtain ⟨p, hp, h⟩ := hp
    rcases List.mem_cons.1 hp with rfl | hp
    · exact hfma _ _ _ (by rcases h with h | h <;> simp [h])
    · exact hfma _ _ _ (.inr (.inr (ih ⟨p, hp, h⟩)))
  | add _ _ ih1 ih2 =>
    obtain ⟨p, hp, h⟩ := hp
    rcases List.mem_append.1 hp with hp | hp
    · exact hab.add _ _ (.inl (ih1 ⟨p, hp, h⟩))
    · exact hab.add _ _ (.inr (ih2 ⟨p, hp, h⟩))
  | scale _ ih => exact hab.mul _ _ (.inr (ih hp))
  | fusedScale _ _ ih1 ih2 =>
    obtain ⟨p, hp, h⟩ := hp
    rcases List.mem_append.1 hp with hp | hp
    · exact hfma _ _ _ (.inr (.inl (ih1 ⟨p, hp, h⟩)))
    · exact hfma _ _ _ (.inr (.inr (ih2 ⟨p, hp, h⟩)))
  | perm e _ ih =>
    obtain ⟨p, hp, h⟩ := hp
    exact ih ⟨p, e.mem_iff.2 hp, h⟩

end general

theorem range_sums {K : Type} [Field K] [LinearOrder K] [IsStrictOrderedRing K] {k : Nat} (f g : Nat → K) :
    (((List.range k).map fun l => (f l, g l)).map fun p => p.1 * p.2).sum = ∑ l ∈ Finset.range k, f l * g l ∧
    (((List.range k).map fun l => (f l, g l)).map fun p => |p.1 * p.2|).sum = ∑ l ∈ Finset.range k, |f l * g l| := by
  constructor <;> rw [List.map_map] <;>
    simp [Finset.sum_range, ← List.sum_ofFn, List.ofFn_eq_map, Function.comp_def, ← List.map_coe_finRange_eq_range]

section exact

variable {K : Type} [Field K] [LinearOrder K] [IsStrictOrderedRing K] (ln exp sqrt : K → K) (powf : K → K → K)

/-- In exact arithmetic every order gives the sum of the products. -/
theorem evaluates_exact {ps : List (K × K)} {v : K}
    (h : Evaluates (.exact ln exp sqrt powf) (fun x y z => x * y + z) ps v) : v = (ps.map fun p => p.1 * p.2).sum := by
  induction h with
  | zero => rfl
  | mul x y => simp [FOps.exact]
  | swapped x y => simp [FOps.exact, mul_comm]
  | fused x y _ ih => simp [ih]
  | add _ _ ih1 ih2 => simp [FOps.exact, ih1, ih2]
  | scale _ ih => simp [FOps.exact, ih]
  | fusedScale _ _ ih1 ih2 => simp [FOps.exact, ih1, ih2]
  | perm e _ ih => rw [ih]; exact (e.map _).sum_eq

/-- C39 in exact arithmetic: all implementations give the same product, so what is proved of the simple loops in exact
arithmetic (C85) holds for the library. -/
theorem C39_orders_agree {bl : Blas K} (hbl : bl.Sums (.exact ln exp sqrt powf) fun x y z => x * y + z) (tr : Transpose)
    {a b : Tensor K} {ds es : List Nat} {xs ys : List K} (ha : Rep a ds xs) (hb : Rep b es ys)
    (hle : ∀ A B r c r' c', ds = A ++ [r, c] → es = B ++ [r', c'] → A.prod ≤ B.prod) :
    matmulT bl a b tr = matmulT (FOps.exact ln exp sqrt powf) a b tr := by
  by_cases h : ∃ A B m k n, ds = A ++ flip tr.left m k ∧ es = B ++ flip tr.right k n
  swap
  · rw [matmul_panic bl tr ha hb h, matmul_panic _ tr ha hb h]
  obtain ⟨A, B, m, k, n, rfl, rfl⟩ := h
  have hl : A.prod ≤ B.prod := by
    have e1 : ∃ r c, flip tr.left m k = [r, c] := by cases tr.left <;> exact ⟨_, _, rfl⟩
    have e2 : ∃ r c, flip tr.right k n = [r, c] := by cases tr.right <;> exact ⟨_, _, rfl⟩
    obtain ⟨r, c, e1⟩ := e1
    obtain ⟨r', c', e2⟩ := e2
    exact hle A B r c r' c' (by rw [e1]) (by rw [e2])
  by_cases hfA : Fits A
  swap
  · have key : ∀ bl : Blas K, matmulT bl a b tr = .error .panic := by
      intro bl
      obtain ⟨k', ek⟩ := mkn_ok ha hb
      unfold matmulT
      rw [ensure_true (by rw [ha.rank]; simp [flip_length]), ok_bind, ek, ok_bind]
      dsimp only
      rw [ha.rank, usub_ok (by simp [flip_length]), ok_bind,
        show (A ++ flip tr.left m k).length - 2 = A.length by simp [flip_length]]
      rw [ha.shape, sublen_outer ha.adm.len, foldl_not_fits hfA, error_bind]
    rw [key, key]
  rw [matmulT_eq bl ha hb hl hfA, matmulT_eq _ ha hb hl hfA]
  congr 1
  unfold prodList
  refine List.map_congr_left fun p hp => ?_
  have hp := List.mem_range.1 hp
  have hpos := pos_right_of_lt_mul hp
  have hm : 0 < m := Nat.pos_of_mul_pos_right hpos
  have hn : 0 < n := Nat.pos_of_mul_pos_left hpos
  have key : ∀ bl : Blas K, bl.Sums (.exact ln exp sqrt powf) (fun x y z => x * y + z) → ∀ ps : List (K × K),
      ps.length = k → bl.entry m k n (p / n % m) (p % n) ps = (ps.map fun p => p.1 * p.2).sum := fun bl h ps hl =>
    evaluates_exact ln exp sqrt powf (h _ _ _ _ _ ps (Nat.mod_lt _ hm) (Nat.mod_lt _ hn) hl)
  have el : ∀ (bl bl' : Blas K) (t : Bool) (m k q i l : Nat) (xs : List K) N, xs.length = N * (m * k) → q < N → i < m →
      l < k → elemAt bl t m k xs q i l = elemAt bl' t m k xs q i l := by
    intro bl bl' t m k q i l xs N h1 h2 h3 h4
    have := (elemAt_eq bl (t := t) h1 h2 h3 h4).symm.trans (elemAt_eq bl' h1 h2 h3 h4)
    exact Option.some.inj this
  rw [key bl hbl _ (pairsR_length _ _ _), key _ (sums_naive _ _) _ (pairsR_length _ _ _)]
  unfold pairsR
  rw [List.map_map, List.map_map]
  congr 1
  refine List.map_congr_left fun l hl' => ?_
  have hl' := List.mem_range.1 hl'
  have hq : p / (m * n) < A.prod := div_lt_of_lt_mul' hp
  dsimp only [Function.comp]
  rw [el bl (.naive (.exact ln exp sqrt powf)) tr.left m k _ _ l xs A.prod (by rw [ha.length, List.prod_append, flip_prod]) hq (Nat.mod_lt _ hm) hl',
    el bl (.naive (.exact ln exp sqrt powf)) tr.right k n _ l _ ys B.prod (by rw [hb.length, List.prod_append, flip_prod]) (by omega) hl' (Nat.mod_lt _ hn)]

/-- C39 in exact arithmetic, any order of additions: the entries are the sums of products. -/
theorem C39_exact_any_order_partial {bl : Blas K} (hbl : bl.Sums (.exact ln exp sqrt powf) fun x y z => x * y + z)
    (tr : Transpose) {a b : Tensor K} {A B : List Nat} {m k n : Nat} {xs ys : List K}
    (ha : Rep a (A ++ flip tr.left m k) xs) (hb : Rep b (B ++ flip tr.right k n) ys) (hAB : A.prod = B.prod)
    (hfA : Fits A) (hfO : Fits (B ++ [n, m])) :
    ∃ t zs, matmulT bl a b tr = .ok t ∧ Rep t (B ++ [n, m]) zs ∧
      ∀ ai bi i j, (f g : Nat → K) → ravel A ai = ravel B bi → i < m → j < n → (ravel B bi).isSome →
        (∀ l, l < k → at? (A ++ flip tr.left m k) xs (ai ++ flip tr.left i l) = some (f l) ∧
          at? (B ++ flip tr.right k n) ys (bi ++ flip tr.right l j) = some (g l)) →
        at? (B ++ [m, n]) zs (bi ++ [i, j]) = some (∑ l ∈ Finset.range k, f l * g l) := by
  obtain ⟨t, zs, e, ht, h⟩ := C39_any_order_partial hbl tr ha hb hAB hfA hfO
  refine ⟨t, zs, e, ht, fun ai bi i j f g hr hi hj hs hfg => ?_⟩
  obtain ⟨v, hv, hev⟩ := h ai bi i j f g hr hi hj hs hfg
  rw [hv, evaluates_exact ln exp sqrt powf hev, (range_sums f g).1]

/-- C41 in exact arithmetic, any order of additions. -/
theorem C41_exact_any_order_partial {bl : Blas K} (hbl : bl.Sums (.exact ln exp sqrt powf) fun x y z => x * y + z)
    {tr : Transpose} (htr : tr = .none ∨ tr = .transposeA) {a x : Tensor K} {P A R : List Nat} {m k : Nat} {xs ys : List K}
    (ha : Rep a (A ++ flip tr.left m k) xs) (hx : Rep x (P ++ A ++ R ++ [k]) ys) (hR : R.length ≤ 1)
    (hP : R = [] → P ++ A = []) (hpos : 0 < xs.length ∧ 0 < ys.length) (hfO : Fits (P ++ A ++ R ++ [m])) :
    ∃ t zs, matvecT bl a x tr = .ok t ∧ Rep t (P ++ A ++ R ++ [m]) zs ∧
      ∀ pi ai ri j, (f g : Nat → K) → (ravel P pi).isSome → (ravel A ai).isSome → (ravel R ri).isSome → j < m →
        (∀ l, l < k → at? (P ++ A ++ R ++ [k]) ys (pi ++ ai ++ ri ++ [l]) = some (f l) ∧
          at? (A ++ flip tr.left m k) xs (ai ++ flip tr.left j l) = some (g l)) →
        at? (P ++ A ++ R ++ [m]) zs (pi ++ ai ++ ri ++ [j]) = some (∑ l ∈ Finset.range k, f l * g l) := by
  obtain ⟨t, zs, e, ht, h⟩ := C41_any_order_partial hbl htr ha hx hR hP hpos hfO
  refine ⟨t, zs, e, ht, fun pi ai ri j f g h1 h2 h3 hj hfg => ?_⟩
  obtain ⟨v, hv, hev⟩ := h pi ai ri j f g h1 h2 h3 hj hfg
  rw [hv, evaluates_exact ln exp sqrt powf hev, (range_sums f g).1]

end exact

section rounded

variable {K : Type} [Field K] [LinearOrder K] [IsStrictOrderedRing K] {rep : K → Prop} {rnd : K → K} {u tau : K}

/-- The sum of products within the error bound of a scalar product of that length. -/
structure Near (rep : K → Prop) (u tau : K) (ps : List (K × K)) (w : K) : Prop where
  rep : rep w
  nil : ps = [] → w = 0
  err : |w - (ps.map fun p => p.1 * p.2).sum| ≤
    ((1 + u) ^ ps.length - 1) * (ps.map fun p => |p.1 * p.2|).sum + (1 + u) ^ ps.length * (ps.length * (u * tau))

theorem prods_nonneg (ps : List (K × K)) : 0 ≤ (ps.map fun p => |p.1 * p.2|).sum := by
  have := sum_abs_nonneg (ps.map fun p => p.1 * p.2)
  rwa [List.map_map] at this

theorem prods_abs (ps : List (K × K)) : |(ps.map fun p => p.1 * p.2).sum| ≤ (ps.map fun p => |p.1 * p.2|).sum := by
  have := abs_sum_le (ps.map fun p => p.1 * p.2)
  rwa [List.map_map] at this

theorem Near.bound {ps : List (K × K)} {w : K} (h : Near rep u tau ps w) :
    |w| ≤ (1 + u) ^ ps.length * ((ps.map fun p => |p.1 * p.2|).sum + ps.length * (u * tau)) := by
  have h1 := abs_add_le (w - (ps.map fun p => p.1 * p.2).sum) (ps.map fun p => p.1 * p.2).sum
  rw [sub_add_cancel] at h1
  have h2 := h.err
  have h3 := prods_abs ps
  nlinarith

theorem near_zero (hf : IsFormat rep rnd u tau) : Near rep u tau [] 0 := ⟨hf.zero, fun _ => rfl, by simp⟩

theorem near_fused (hf : IsFormat rep rnd u tau) {ps : List (K × K)} {v : K} (h : Near rep u tau ps v) (x y : K) :
    Near rep u tau ((x, y) :: ps) (rnd (x * y + v)) := by
  refine ⟨hf.closed _, (fun h => nomatch h), ?_⟩
  have hu := hf.u_nonneg
  have hut := mul_nonneg hu hf.tau_pos.le
  simp only [List.map_cons, List.sum_cons, List.length_cons, pow_succ, Nat.cast_add, Nat.cast_one]
  have h1 := hf.err (x * y + v)
  have h2 := h.err
  have h3 := prods_abs ps
  have h4 := prods_nonneg ps
  set G := (1 + u) ^ ps.length
  set S := (ps.map fun p => |p.1 * p.2|).sum
  set T := (ps.map fun p => p.1 * p.2).sum
  set z := x * y
  set n : K := (ps.length : K)
  have hG : 1 ≤ G := one_le_pow₀ (by linarith)
  have hn : 0 ≤ n := Nat.cast_nonneg _
  have e : rnd (z + v) - (z + T) = (rnd (z + v) - (z + v)) + (v - T) := by ring
  have h5 := abs_add_le (rnd (z + v) - (z + v)) (v - T)
  have h6 : |z + v| ≤ |z| + (|v - T| + S) := by
    have e : z + v = z + ((v - T) + T) := by ring
    rw [e]
    exact (abs_add_le _ _).trans (by linarith [abs_add_le (v - T) T])
  have h7 := mul_le_mul_of_nonneg_left h6 hu
  have hz := abs_nonneg z
  rw [e]
  refine h5.trans ?_
  have h8 : |v - T| * (1 + u) ≤ ((G - 1) * S + G * (n * (u * tau))) * (1 + u) := mul_le_mul_of_nonneg_right h2 (by linarith)
  have h9 : 0 ≤ (G - 1) * (1 + u) * |z| := mul_nonneg (mul_nonneg (by linarith) (by linarith)) hz
  have h10 : 0 ≤ (G * (1 + u) - 1) * (u * tau) := mul_nonneg (by nlinarith) hut
  nlinarith

theorem near_mul (hf : IsFormat rep rnd u tau) (x y : K) : Near rep u tau [(x, y)] (rnd (x * y)) := by
  have := near_fused hf (near_zero hf) x y
  rwa [add_zero] at this

theorem near_add (hf : IsFormat rep rnd u tau) {ps qs : List (K × K)} {v w : K} (hv : Near rep u tau ps v)
    (hw : Near rep u tau qs w) : Near rep u tau (ps ++ qs) (rnd (v + w)) := by
  by_cases h1 : ps = []
  · subst h1
    rw [hv.nil rfl, zero_add, hf.fixed _ hw.rep, List.nil_append]
    exact hw
  by_cases h2 : qs = []
  · subst h2
    rw [hw.nil rfl, add_zero, hf.fixed _ hv.rep, List.append_nil]
    exact hv
  refine ⟨hf.closed _, fun h => absurd (List.append_eq_nil_iff.1 h).1 h1, ?_⟩
  have hu := hf.u_nonneg
  have hut := mul_nonneg hu hf.tau_pos.le
  have l1 : 0 < ps.length := List.length_pos_of_ne_nil h1
  have l2 : 0 < qs.length := List.length_pos_of_ne_nil h2
  have e1 := hv.err
  have e2 := hw.err
  have s1 := prods_nonneg ps
  have s2 := prods_nonneg qs
  have a1 := prods_abs ps
  have a2 := prods_abs qs
  have er := hf.add_rep hv.rep hw.rep
  have g1 : (1 + u) ^ ps.length ≤ (1 + u) ^ (ps.length + qs.length - 1) := pow_le_pow_right₀ (by linarith) (by omega)
  have g2 : (1 + u) ^ qs.length ≤ (1 + u) ^ (ps.length + qs.length - 1) := pow_le_pow_right₀ (by linarith) (by omega)
  have hp : (1 + u) ^ (ps.length + qs.length) = (1 + u) ^ (ps.length + qs.length - 1) * (1 + u) := by
    rw [← pow_succ]; congr 1; omega
  simp only [List.map_append, List.sum_append, List.length_append, hp, Nat.cast_add]
  set G := (1 + u) ^ (ps.length + qs.length - 1)
  set S1 := (ps.map fun p => |p.1 * p.2|).sum
  set S2 := (qs.map fun p => |p.1 * p.2|).sum
  set T1 := (ps.map fun p => p.1 * p.2).sum
  set T2 := (qs.map fun p => p.1 * p.2).sum
  set n1 : K := (ps.length : K)
  set n2 : K := (qs.length : K)
  have hn1 : 0 ≤ n1 * (u * tau) := mul_nonneg (Nat.cast_nonneg _) hut
  have hn2 : 0 ≤ n2 * (u * tau) := mul_nonneg (Nat.cast_nonneg _) hut
  have f1 : |v - T1| ≤ (G - 1) * S1 + G * (n1 * (u * tau)) := e1.trans (by
    have := mul_le_mul_of_nonneg_right g1 s1
    have := mul_le_mul_of_nonneg_right g1 hn1
    linarith)
  have f2 : |w - T2| ≤ (G - 1) * S2 + G * (n2 * (u * tau)) := e2.trans (by
    have := mul_le_mul_of_nonneg_right g2 s2
    have := mul_le_mul_of_nonneg_right g2 hn2
    linarith)
  have e : rnd (v + w) - (T1 + T2) = (rnd (v + w) - (v + w)) + ((v - T1) + (w - T2)) := by ring
  have h5 := abs_add_le (rnd (v + w) - (v + w)) ((v - T1) + (w - T2))
  have h5' := abs_add_le (v - T1) (w - T2)
  have h6 : |v + w| ≤ |v - T1| + |w - T2| + (S1 + S2) := by
    have e : v + w = ((v - T1) + (w - T2)) + (T1 + T2) := by ring
    rw [e]
    exact (abs_add_le _ _).trans (by linarith [abs_add_le T1 T2])
  have h7 := mul_le_mul_of_nonneg_left h6 hu
  rw [e]
  refine h5.trans ?_
  have h8 := mul_le_mul_of_nonneg_right (add_le_add f1 f2) (by linarith : (0 : K) ≤ 1 + u)
  nlinarith

theorem Near.scale (hf : IsFormat rep rnd u tau) {ps : List (K × K)} {v : K} (hv : Near rep u tau ps v) :
    Near rep u tau ps (rnd (1 * v)) := by rwa [one_mul, hf.fixed _ hv.rep]

theorem Near.perm {ps qs : List (K × K)} {v : K} (e : ps.Perm qs) (hv : Near rep u tau ps v) : Near rep u tau qs v := by
  refine ⟨hv.rep, fun h => hv.nil (by subst h; exact e.eq_nil), ?_⟩
  have := hv.err
  rwa [e.length_eq, (e.map _).sum_eq, (e.map fun p : K × K => |p.1 * p.2|).sum_eq] at this

variable (ln exp sqrt : K → K) (powf : K → K → K)

theorem evaluates_near (hf : IsFormat rep rnd u tau) {ps : List (K × K)} {v : K}
    (h : Evaluates (.rounded rnd ln exp sqrt powf) (fun x y z => rnd (x * y + z)) ps v) : Near rep u tau ps v := by
  induction h with
  | zero => exact near_zero hf
  | mul x y => exact near_mul hf x y
  | swapped x y =>
    have := near_mul hf x y
    rwa [mul_comm] at this
  | fused x y _ ih => exact near_fused hf ih x y
  | add _ _ ih1 ih2 => exact near_add hf ih1 ih2
  | scale _ ih => exact ih.scale hf
  | fusedScale _ _ ih1 ih2 =>
    have := near_add hf ih1 ih2
    simpa [FOps.rounded] using this
  | perm e _ ih => exact ih.perm e

/-- C77 for `matmul` with any order of additions, with or without fused multiply-adds: the bound of the simple loops. -/
theorem C77_matmul_any_order (hf : IsFormat rep rnd u tau) {bl : Blas K}
    (hbl : bl.Sums (.rounded rnd ln exp sqrt powf) fun x y z => rnd (x * y + z)) (tr : Transpose) {a b : Tensor K}
    {A : List Nat} {m k n : Nat} {xs ys : List K} (ha : Rep a (A ++ flip tr.left m k) xs)
    (hb : Rep b (A ++ flip tr.right k n) ys) (hfA : Fits A) (hfO : Fits (A ++ [n, m])) :
    ∃ t zs, matmulT bl a b tr = .ok t ∧ Rep t (A ++ [n, m]) zs ∧
      ∀ is i j, (f g : Nat → K) → i < m → j < n → (ravel A is).isSome →
        (∀ l, l < k → at? (A ++ flip tr.left m k) xs (is ++ flip tr.left i l) = some (f l) ∧
          at? (A ++ flip tr.right k n) ys (is ++ flip tr.right l j) = some (g l)) →
        ∃ v, at? (A ++ [m, n]) zs (is ++ [i, j]) = some v ∧
          |v - ∑ l ∈ Finset.range k, f l * g l| ≤
            ((1 + u) ^ k - 1) * (∑ l ∈ Finset.range k, |f l * g l|) + (1 + u) ^ k * (k * (u * tau)) := by
  obtain ⟨t, zs, e, ht, h⟩ := C39_any_order_partial hbl tr ha hb rfl hfA hfO
  refine ⟨t, zs, e, ht, fun is i j f g hi hj hs hfg => ?_⟩
  obtain ⟨v, hv, hev⟩ := h is is i j f g rfl hi hj hs hfg
  refine ⟨v, hv, ?_⟩
  have := (evaluates_near ln exp sqrt powf hf hev).err
  rwa [(range_sums f g).1, (range_sums f g).2, List.length_map, List.length_range] at this

/-- C77 for `matvec` with any order of additions. -/
theorem C77_matvec_any_order (hf : IsFormat rep rnd u tau) {bl : Blas K}
    (hbl : bl.Sums (.rounded rnd ln exp sqrt powf) fun x y z => rnd (x * y + z)) {tr : Transpose}
    (htr : tr = .none ∨ tr = .transposeA) {a x : Tensor K} {P A R : List Nat} {m k : Nat} {xs ys : List K}
    (ha : Rep a (A ++ flip tr.left m k) xs) (hx : Rep x (P ++ A ++ R ++ [k]) ys) (hR : R.length ≤ 1)
    (hP : R = [] → P ++ A = []) (hpos : 0 < xs.length ∧ 0 < ys.length) (hfO : Fits (P ++ A ++ R ++ [m])) :
    ∃ t zs, matvecT bl a x tr = .ok t ∧ Rep t (P ++ A ++ R ++ [m]) zs ∧
      ∀ pi ai ri j, (f g : Nat → K) → (ravel P pi).isSome → (ravel A ai).isSome → (ravel R ri).isSome → j < m →
        (∀ l, l < k → at? (P ++ A ++ R ++ [k]) ys (pi ++ ai ++ ri ++ [l]) = some (f l) ∧
          at? (A ++ flip tr.left m k) xs (ai ++ flip tr.left j l) = some (g l)) →
        ∃ v, at? (P ++ A ++ R ++ [m]) zs (pi ++ ai ++ ri ++ [j]) = some v ∧
          |v - ∑ l ∈ Finset.range k, f l * g l| ≤
            ((1 + u) ^ k - 1) * (∑ l ∈ Finset.range k, |f l * g l|) + (1 + u) ^ k * (k * (u * tau)) := by
  obtain ⟨t, zs, e, ht, h⟩ := C41_any_order_partial hbl htr ha hx hR hP hpos hfO
  refine ⟨t, zs, e, ht, fun pi ai ri j f g h1 h2 h3 hj hfg => ?_⟩
  obtain ⟨v, hv, hev⟩ := h pi ai ri j f g h1 h2 h3 hj hfg
  refine ⟨v, hv, ?_⟩
  have := (evaluates_near ln exp sqrt powf hf hev).err
  rwa [(range_sums f g).1, (range_sums f g).2, List.length_map, List.length_range] at this

end rounded

section ieee

variable {K : Type} [Field K] [LinearOrder K] [IsStrictOrderedRing K]

theorem Fp.fma_nan (rnd : K → K) (big : K) (x y z : Fp K) (h : x = .nan ∨ y = .nan ∨ z = .nan) :
    Fp.fma rnd big x y z = .nan := by
  rcases h with rfl | rfl | rfl
  · cases y <;> cases z <;> rfl
  · cases x <;> cases z <;> rfl
  · cases x <;> cases y <;> first | rfl | exact Fp.add_nan_right _

theorem Fp.val_fma {rnd : K → K} {big : K} {x y z : Fp K} {a b c : K} (hx : x.val = some a) (hy : y.val = some b)
    (hz : z.val = some c) (h : |rnd (a * b + c)| ≤ big) : (Fp.fma rnd big x y z).val = some (rnd (a * b + c)) := by
  unfold Fp.fma
  rw [hx, hy, hz]
  exact Fp.val_pack h

/-- C82 for `matmul` with any order of additions: a NaN in the row or the column makes the entry NaN. -/
theorem C82_nan_matmul_any_order {F : Type} {bl : Blas F} {fo : FOps F} {fma : F → F → F → F} (hbl : bl.Sums fo fma)
    {bad : F → Prop} (hab : Absorbs fo bad) (hfma : ∀ x y z, bad x ∨ bad y ∨ bad z → bad (fma x y z)) (tr : Transpose)
    {a b : Tensor F} {A : List Nat} {m k n : Nat} {xs ys : List F} (ha : Rep a (A ++ flip tr.left m k) xs)
    (hb : Rep b (A ++ flip tr.right k n) ys) (hfA : Fits A) (hfO : Fits (A ++ [n, m])) :
    ∃ t zs, matmulT bl a b tr = .ok t ∧ Rep t (A ++ [n, m]) zs ∧
      ∀ is i j, (f g : Nat → F) → i < m → j < n → (ravel A is).isSome →
        (∀ l, l < k → at? (A ++ flip tr.left m k) xs (is ++ flip tr.left i l) = some (f l) ∧
          at? (A ++ flip tr.right k n) ys (is ++ flip tr.right l j) = some (g l)) →
        (∃ l, l < k ∧ (bad (f l) ∨ bad (g l))) → ∃ v, at? (A ++ [m, n]) zs (is ++ [i, j]) = some v ∧ bad v := by
  obtain ⟨t, zs, e, ht, h⟩ := C39_any_order_partial hbl tr ha hb rfl hfA hfO
  refine ⟨t, zs, e, ht, fun is i j f g hi hj hs hfg ⟨l, hl, hbad⟩ => ?_⟩
  obtain ⟨v, hv, hev⟩ := h is is i j f g rfl hi hj hs hfg
  exact ⟨v, hv, evaluates_bad hab hfma hev ⟨(f l, g l), List.mem_map.2 ⟨l, List.mem_range.2 hl, rfl⟩, hbad⟩⟩

/-- C82 for `matvec` with any order of additions. -/
theorem C82_nan_matvec_any_order {F : Type} {bl : Blas F} {fo : FOps F} {fma : F → F → F → F} (hbl : bl.Sums fo fma)
    {bad : F → Prop} (hab : Absorbs fo bad) (hfma : ∀ x y z, bad x ∨ bad y ∨ bad z → bad (fma x y z)) {tr : Transpose}
    (htr : tr = .none ∨ tr = .transposeA) {a x : Tensor F} {P A R : List Nat} {m k : Nat} {xs ys : List F}
    (ha : Rep a (A ++ flip tr.left m k) xs) (hx : Rep x (P ++ A ++ R ++ [k]) ys) (hR : R.length ≤ 1)
    (hP : R = [] → P ++ A = []) (hpos : 0 < xs.length ∧ 0 < ys.length) (hfO : Fits (P ++ A ++ R ++ [m])) :
    ∃ t zs, matvecT bl a x tr = .ok t ∧ Rep t (P ++ A ++ R ++ [m]) zs ∧
      ∀ pi ai ri j, (f g : Nat → F) → (ravel P pi).isSome → (ravel A ai).isSome → (ravel R ri).isSome → j < m →
        (∀ l, l < k → at? (P ++ A ++ R ++ [k]) ys (pi ++ ai ++ ri ++ [l]) = some (f l) ∧
          at? (A ++ flip tr.left m k) xs (ai ++ flip tr.left j l) = some (g l)) →
        (∃ l, l < k ∧ (bad (f l) ∨ bad (g l))) →
        ∃ v, at? (P ++ A ++ R ++ [m]) zs (pi ++ ai ++ ri ++ [j]) = some v ∧ bad v := by
  obtain ⟨t, zs, e, ht, h⟩ := C41_any_order_partial hbl htr ha hx hR hP hpos hfO
  refine ⟨t, zs, e, ht, fun pi ai ri j f g h1 h2 h3 hj hfg ⟨l, hl, hbad⟩ => ?_⟩
  obtain ⟨v, hv, hev⟩ := h pi ai ri j f g h1 h2 h3 hj hfg
  exact ⟨v, hv, evaluates_bad hab hfma hev ⟨(f l, g l), List.mem_map.2 ⟨l, List.mem_range.2 hl, rfl⟩, hbad⟩⟩

variable {rep : K → Prop} {rnd : K → K} {u tau big : K} (ln exp : Fp K → Fp K) (sq : K → K) (powf : Fp K → Fp K → Fp K)

/-- The values of a pair of finite numbers. -/
def finPair (p : Fp K × Fp K) : K × K := (p.1.val.getD 0, p.2.val.getD 0)

/-- No computation of a sum whose terms are small enough overflows, in any order. -/
theorem evaluates_fp (hf : IsFormat rep rnd u tau) {fs : List (Fp K × Fp K)} {v : Fp K}
    (h : Evaluates (.ieee rnd big ln exp sq powf) (Fp.fma rnd big) fs v)
    (hfin : ∀ p ∈ fs, p.1.val.isSome ∧ p.2.val.isSome)
    (hb : (1 + u) ^ fs.length * (((fs.map finPair).map fun p => |p.1 * p.2|).sum + fs.length * (u * tau)) ≤ big) :
    ∃ w, v.val = some w ∧ Near rep u tau (fs.map finPair) w := by
  have hu := hf.u_nonneg
  have hut := mul_nonneg hu hf.tau_pos.le
  have fit : ∀ {fs : List (Fp K × Fp K)} {w : K}, Near rep u tau (fs.map finPair) w →
      (1 + u) ^ fs.length * (((fs.map finPair).map fun p => |p.1 * p.2|).sum + fs.length * (u * tau)) ≤ big → |w| ≤ big := by
    intro fs w hw hb
    have := hw.bound
    rw [List.length_map] at this
    exact this.trans hb
  have sub : ∀ {fs gs : List (Fp K × Fp K)},
      (1 + u) ^ (fs ++ gs).length * ((((fs ++ gs).map finPair).map fun p => |p.1 * p.2|).sum + (fs ++ gs).length * (u * tau)) ≤ big →
      (1 + u) ^ fs.length * (((fs.map finPair).map fun p => |p.1 * p.2|).sum + fs.length * (u * tau)) ≤ big ∧
      (1 + u) ^ gs.length * (((gs.map finPair).map fun p => |p.1 * p.2|).sum + gs.length * (u * tau)) ≤ big := by
    intro fs gs hb
    have p1 := prods_nonneg (fs.map finPair)
    have p2 := prods_nonneg (gs.map finPair)
    simp only [List.map_append, List.sum_append, List.length_append, Nat.cast_add] at hb
    have n1 : 0 ≤ (fs.length : K) * (u * tau) := mul_nonneg (Nat.cast_nonneg _) hut
    have n2 : 0 ≤ (gs.length : K) * (u * tau) := mul_nonneg (Nat.cast_nonneg _) hut
    constructor <;> refine le_trans (mul_le_mul (pow_le_pow_right₀ (by linarith) (by omega)) ?_ (by linarith) (by positivity)) hb <;>
      linarith
  induction h with
  | zero => exact ⟨0, rfl, near_zero hf⟩
  | mul x y =>
    obtain ⟨h1, h2⟩ := hfin (x, y) (by simp)
    obtain ⟨a, ha⟩ := Option.isSome_iff_exists.1 h1
    obtain ⟨b, hb'⟩ := Option.isSome_iff_exists.1 h2
    dsimp only at ha hb'
    have e : [(x, y)].map finPair = [(a, b)] := by simp [finPair, ha, hb']
    have hn := near_mul hf a b
    rw [← e] at hn
    exact ⟨_, Fp.val_mul ha hb' (fit hn hb), hn⟩
  | swapped x y =>
    obtain ⟨h1, h2⟩ := hfin (x, y) (by simp)
    obtain ⟨a, ha⟩ := Option.isSome_iff_exists.1 h1
    obtain ⟨b, hb'⟩ := Option.isSome_iff_exists.1 h2
    dsimp only at ha hb'
    have e : [(x, y)].map finPair = [(a, b)] := by simp [finPair, ha, hb']
    have hn := near_mul hf a b
    rw [← e, mul_comm] at hn
    exact ⟨_, Fp.val_mul hb' ha (fit hn hb), hn⟩
  | @fused ps v x y _ ih =>
    obtain ⟨h1, h2⟩ := hfin (x, y) (by simp)
    obtain ⟨a, ha⟩ := Option.isSome_iff_exists.1 h1
    obtain ⟨b, hb'⟩ := Option.isSome_iff_exists.1 h2
    dsimp only at ha hb'
    obtain ⟨w, hw, hn⟩ := ih (fun p hp => hfin p (by simp [hp])) (sub (fs := [(x, y)]) hb).2
    have e : ((x, y) :: ps).map finPair = (a, b) :: ps.map finPair := by simp [finPair, ha, hb']
    have hn := near_fused hf hn a b
    rw [← e] at hn
    exact ⟨_, Fp.val_fma ha hb' hw (fit hn hb), hn⟩
  | add _ _ ih1 ih2 =>
    obtain ⟨w1, hw1, hn1⟩ := ih1 (fun p hp => hfin p (by simp [hp])) (sub hb).1
    obtain ⟨w2, hw2, hn2⟩ := ih2 (fun p hp => hfin p (by simp [hp])) (sub hb).2
    have hn := near_add hf hn1 hn2
    rw [← List.map_append] at hn
    exact ⟨_, Fp.val_add hw1 hw2 (fit hn hb), hn⟩
  | scale _ ih =>
    obtain ⟨w, hw, hn⟩ := ih hfin hb
    have hn := hn.scale hf
    exact ⟨_, Fp.val_mul (a := 1) rfl hw (fit hn hb), hn⟩
  | fusedScale _ _ ih1 ih2 =>
    obtain ⟨w1, hw1, hn1⟩ := ih1 (fun p hp => hfin p (by simp [hp])) (sub hb).1
    obtain ⟨w2, hw2, hn2⟩ := ih2 (fun p hp => hfin p (by simp [hp])) (sub hb).2
    have hn := near_add hf hn1 hn2
    rw [← List.map_append, ← one_mul w1] at hn
    exact ⟨_, Fp.val_fma (a := 1) rfl hw1 hw2 (fit hn hb), hn⟩
  | perm e _ ih =>
    obtain ⟨w, hw, hn⟩ := ih (fun p hp => hfin p (e.mem_iff.1 hp)) (by
      rwa [e.length_eq, ((e.map finPair).map fun p : K × K => |p.1 * p.2|).sum_eq])
    exact ⟨w, hw, hn.perm (e.map _)⟩

/-- C82 for `matmul` with any order of additions: an entry whose exact terms are small enough is finite and has the
error bound of C77. -/
theorem C82_matmul_any_order (hf : IsFormat rep rnd u tau) {bl : Blas (Fp K)}
    (hbl : bl.Sums (.ieee rnd big ln exp sq powf) (Fp.fma rnd big)) (tr : Transpose) {a b : Tensor (Fp K)} {A : List Nat}
    {m k n : Nat} {xs ys : List (Fp K)} (ha : Rep a (A ++ flip tr.left m k) xs) (hb : Rep b (A ++ flip tr.right k n) ys)
    (hfA : Fits A) (hfO : Fits (A ++ [n, m])) :
    ∃ t zs, matmulT bl a b tr = .ok t ∧ Rep t (A ++ [n, m]) zs ∧
      ∀ is i j, (f g : Nat → Fp K) → (p q : Nat → K) → i < m → j < n → (ravel A is).isSome →
        (∀ l, l < k → at? (A ++ flip tr.left m k) xs (is ++ flip tr.left i l) = some (f l) ∧
          at? (A ++ flip tr.right k n) ys (is ++ flip tr.right l j) = some (g l) ∧
          (f l).val = some (p l) ∧ (g l).val = some (q l)) →
        (1 + u) ^ k * ((∑ l ∈ Finset.range k, |p l * q l|) + k * (u * tau)) ≤ big →
        ∃ v w, at? (A ++ [m, n]) zs (is ++ [i, j]) = some v ∧ v.val = some w ∧
          |w - ∑ l ∈ Finset.range k, p l * q l| ≤
            ((1 + u) ^ k - 1) * (∑ l ∈ Finset.range k, |p l * q l|) + (1 + u) ^ k * (k * (u * tau)) := by
  obtain ⟨t, zs, e, ht, h⟩ := C39_any_order_partial hbl tr ha hb rfl hfA hfO
  refine ⟨t, zs, e, ht, fun is i j f g p q hi hj hs hfg hbd => ?_⟩
  obtain ⟨v, hv, hev⟩ := h is is i j f g rfl hi hj hs fun l hl => ⟨(hfg l hl).1, (hfg l hl).2.1⟩
  have em : ((List.range k).map fun l => (f l, g l)).map finPair = (List.range k).map fun l => (p l, q l) := by
    rw [List.map_map]
    refine List.map_congr_left fun l hl => ?_
    obtain ⟨-, -, h1, h2⟩ := hfg l (List.mem_range.1 hl)
    simp [finPair, h1, h2]
  obtain ⟨w, hw, hn⟩ := evaluates_fp ln exp sq powf hf hev (by
      intro r hr
      obtain ⟨l, hl, rfl⟩ := List.mem_map.1 hr
      obtain ⟨-, -, h1, h2⟩ := hfg l (List.mem_range.1 hl)
      simp [h1, h2]) (by rwa [em, (range_sums p q).2, List.length_map, List.length_range])
  rw [em] at hn
  have := hn.err
  rw [(range_sums p q).1, (range_sums p q).2, List.length_map, List.length_range] at this
  exact ⟨v, w, hv, hw, this⟩

/-- C82 for `matvec` with any order of additions. -/
theorem C82_matvec_any_order (hf : IsFormat rep rnd u tau) {bl : Blas (Fp K)}
    (hbl : bl.Sums (.ieee rnd big ln exp sq powf) (Fp.fma rnd big)) {tr : Transpose} (htr : tr = .none ∨ tr = .transposeA)
    {a x : Tensor (Fp K)} {P A R : List Nat} {m k : Nat} {xs ys : List (Fp K)}
    (ha : Rep a (A ++ flip tr.left m k) xs) (hx : Rep x (P ++ A ++ R ++ [k]) ys) (hR : R.length ≤ 1)
    (hP : R = [] → P ++ A = []) (hpos : 0 < xs.length ∧ 0 < ys.length) (hfO : Fits (P ++ A ++ R ++ [m])) :
    ∃ t zs, matvecT bl a x tr = .ok t ∧ Rep t (P ++ A ++ R ++ [m]) zs ∧
      ∀ pi ai ri j, (f g : Nat → Fp K) → (p q : Nat → K) → (ravel P pi).isSome → (ravel A ai).isSome →
        (ravel R ri).isSome → j < m →
        (∀ l, l < k → at? (P ++ A ++ R ++ [k]) ys (pi ++ ai ++ ri ++ [l]) = some (f l) ∧
          at? (A ++ flip tr.left m k) xs (ai ++ flip tr.left j l) = some (g l) ∧
          (f l).val = some (p l) ∧ (g l).val = some (q l)) →
        (1 + u) ^ k * ((∑ l ∈ Finset.range k, |p l * q l|) + k * (u * tau)) ≤ big →
        ∃ v w, at? (P ++ A ++ R ++ [m]) zs (pi ++ ai ++ ri ++ [j]) = some v ∧ v.val = some w ∧
          |w - ∑ l ∈ Finset.range k, p l * q l| ≤
            ((1 + u) ^ k - 1) * (∑ l ∈ Finset.range k, |p l * q l|) + (1 + u) ^ k * (k * (u * tau)) := by
  obtain ⟨t, zs, e, ht, h⟩ := C41_any_order_partial hbl htr ha hx hR hP hpos hfO
  refine ⟨t, zs, e, ht, fun pi ai ri j f g p q h1 h2 h3 hj hfg hbd => ?_⟩
  obtain ⟨v, hv, hev⟩ := h pi ai ri j f g h1 h2 h3 hj fun l hl => ⟨(hfg l hl).1, (hfg l hl).2.1⟩
  have em : ((List.range k).map fun l => (f l, g l)).map finPair = (List.range k).map fun l => (p l, q l) := by
    rw [List.map_map]
    refine List.map_congr_left fun l hl => ?_
    obtain ⟨-, -, h1, h2⟩ := hfg l (List.mem_range.1 hl)
    simp [finPair, h1, h2]
  obtain ⟨w, hw, hn⟩ := evaluates_fp ln exp sq powf hf hev (by
      intro r hr
      obtain ⟨l, hl, rfl⟩ := List.mem_map.1 hr
      obtain ⟨-, -, h1, h2⟩ := hfg l (List.mem_range.1 hl)
      simp [h1, h2]) (by rwa [em, (range_sums p q).2, List.length_map, List.length_range])
  rw [em] at hn
  have := hn.err
  rw [(range_sums p q).1, (range_sums p q).2, List.length_map, List.length_range] at this
  exact ⟨v, w, hv, hw, this⟩

end ieee

section examples

/-- A kernel with two accumulators, one for each half, filled from the end with fused multiply-adds. -/
def exKernel {F : Type} (fo : FOps F) (fma : F → F → F → F) : Kernel F := fun _ k _ _ _ one ps =>
  fma one ((ps.take (k / 2)).foldr (fun p v => fma p.1 p.2 v) fo.zero)
    ((ps.drop (k / 2)).foldr (fun p v => fma p.1 p.2 v) fo.zero)

theorem exKernel_sums {F : Type} (fo : FOps F) (fma : F → F → F → F) :
    (Blas.library fo.one (exKernel fo fma)).Sums fo fma := by
  have h : ∀ ps : List (F × F), Evaluates fo fma ps (ps.foldr (fun p v => fma p.1 p.2 v) fo.zero) := by
    intro ps
    induction ps with
    | nil => exact .zero
    | cons p ps ih => exact .fused p.1 p.2 ih
  intro m k n i j ps _ _ _
  have := Evaluates.fusedScale (h (ps.take (k / 2))) (h (ps.drop (k / 2)))
  rwa [List.take_append_drop] at this

example : ∃ t zs, matmulT (.library 1 (exKernel exOps fun x y z => x * y + z)) exA exB .none = .ok t ∧ Rep t [2, 2] zs ∧
    ∀ ai bi i j, (f g : Nat → ℚ) → ravel [] ai = ravel [] bi → i < 2 → j < 2 → (ravel [] bi).isSome →
      (∀ l, l < 3 → at? [2, 3] [1, 2, 3, 4, 5, 6] (ai ++ [i, l]) = some (f l) ∧
        at? [3, 2] [1, 0, 2, 1, 0, 3] (bi ++ [l, j]) = some (g l)) →
      ∃ v, at? [2, 2] zs (bi ++ [i, j]) = some v ∧
        Evaluates exOps (fun x y z => x * y + z) ((List.range 3).map fun l => (f l, g l)) v :=
  C39_any_order_partial (exKernel_sums exOps _) .none (A := []) (B := []) (m := 2) (k := 3) (n := 2) exA_rep exB_rep rfl
    (by simp [fits_cons, fits_nil]) (by simp [fits_cons, fits_nil])

/-- The product of the kernel with two accumulators is that of the loops, in exact arithmetic. -/
example : matmulT (.library 1 (exKernel exOps fun x y z => x * y + z)) exA exB .none = matmulT (.naive exOps) exA exB .none :=
  C39_orders_agree id id id (fun x _ => x) (exKernel_sums exOps _) .none exA_rep exB_rep (by
    intro A B r c r' c' h1 h2
    have h1' := List.append_inj' (s₁ := []) (t₁ := [2, 3]) h1 rfl
    have h2' := List.append_inj' (s₁ := []) (t₁ := [3, 2]) h2 rfl
    rw [← h1'.1, ← h2'.1])

/-- Different kernels give different `f32` entries. -/
example : Evaluates (.rounded Ieee.f32 id id id fun x _ => x) (fun x y z => Ieee.f32 (x * y + z)) [((1 : ℚ), 3), (5, 7)]
    (Ieee.f32 (1 * 3 + Ieee.f32 (7 * 5))) := .fused 1 3 (.swapped 5 7)

example : ∃ t zs, matmulT (.library 1 (exKernel (.rounded Ieee.f32 id id id fun x _ => x) fun x y z => Ieee.f32 (x * y + z)))
      exWide exWide .transposeB = .ok t ∧ Rep t [2, 2] zs ∧
    ∀ is i j, (f g : Nat → ℚ) → i < 2 → j < 2 → (ravel [] is).isSome →
      (∀ l, l < 2 → at? [2, 2] [16777216, 1, 3, 5] (is ++ [i, l]) = some (f l) ∧
        at? [2, 2] [16777216, 1, 3, 5] (is ++ [j, l]) = some (g l)) →
      ∃ v, at? [2, 2] zs (is ++ [i, j]) = some v ∧
        |v - ∑ l ∈ Finset.range 2, f l * g l| ≤ ((1 + (2 : ℚ) ^ (-24 : Int)) ^ 2 - 1) * (∑ l ∈ Finset.range 2, |f l * g l|) +
          (1 + 2 ^ (-24 : Int)) ^ 2 * ((2 : Nat) * (2 ^ (-24 : Int) * 2 ^ (-126 : Int))) :=
  C77_matmul_any_order id id id (fun x _ => x) Ieee.f32_isFormat (exKernel_sums (.rounded Ieee.f32 id id id fun x _ => x) _)
    .transposeB (A := []) (m := 2) (k := 2) (n := 2) exWide_rep exWide_rep fits_nil (fits_of_pos (by simp) (by simp))

example : ∃ t zs, matvecT (.library 1 (exKernel (.rounded Ieee.f32 id id id fun x _ => x) fun x y z => Ieee.f32 (x * y + z)))
      exWide exWide .none = .ok t ∧ Rep t [2, 2] zs ∧
    ∀ pi ai ri j, (f g : Nat → ℚ) → (ravel [] pi).isSome → (ravel [] ai).isSome → (ravel [2] ri).isSome → j < 2 →
      (∀ l, l < 2 → at? [2, 2] [16777216, 1, 3, 5] (pi ++ ai ++ ri ++ [l]) = some (f l) ∧
        at? [2, 2] [16777216, 1, 3, 5] (ai ++ [j, l]) = some (g l)) →
      ∃ v, at? [2, 2] zs (pi ++ ai ++ ri ++ [j]) = some v ∧
        |v - ∑ l ∈ Finset.range 2, f l * g l| ≤ ((1 + (2 : ℚ) ^ (-24 : Int)) ^ 2 - 1) * (∑ l ∈ Finset.range 2, |f l * g l|) +
          (1 + 2 ^ (-24 : Int)) ^ 2 * ((2 : Nat) * (2 ^ (-24 : Int) * 2 ^ (-126 : Int))) :=
  C77_matvec_any_order id id id (fun x _ => x) Ieee.f32_isFormat (exKernel_sums (.rounded Ieee.f32 id id id fun x _ => x) _)
    (.inl rfl) (P := []) (A := []) (R := [2]) (m := 2) (k := 2) exWide_rep
    exWide_rep (by simp) (by simp) (by simp) (fits_of_pos (by simp) (by simp))

/-- `f32` products by the kernel with two accumulators. -/
def exLib32 (sq : ℚ → ℚ) : Blas (Fp ℚ) := .library (.num 1) (exKernel (Special.f32 sq) (Fp.fma Ieee.f32 Special.max32))

theorem exLib32_sums (sq : ℚ → ℚ) : (exLib32 sq).Sums (Special.f32 sq) (Fp.fma Ieee.f32 Special.max32) :=
  exKernel_sums (Special.f32 sq) _

example (sq : ℚ → ℚ) : ∃ t zs, matvecT (exLib32 sq) ⟨ofDims [2, 2], 0, 4, [.num 1, .nan, .num 2, .num 3]⟩
    ⟨ofDims [1, 2], 0, 2, [.num 1, .zero false]⟩ .none = .ok t ∧ Rep t [1, 2] zs ∧
    ∃ v, at? [1, 2] zs [0, 0] = some v ∧ v = .nan := by
  obtain ⟨t, zs, h1, h2, h3⟩ := C82_nan_matvec_any_order (exLib32_sums sq) (ieee_absorbs Ieee.f32 Special.max32 id id sq fun x _ => x)
    (Fp.fma_nan Ieee.f32 Special.max32) (tr := .none) (.inl rfl) (P := []) (A := []) (R := [1]) (m := 2) (k := 2)
    (Special.rep2 2 2 [.num 1, .nan, .num 2, .num 3] rfl (by decide) (by decide))
    (Special.rep2 1 2 [.num 1, .zero false] rfl (by decide) (by decide)) (by simp) (by simp) (by simp)
    (fits_of_pos (by simp) (by simp))
  refine ⟨t, zs, h1, h2, h3 [] [] [0] 0 (fun l => [.num 1, .zero false][l]?.getD .nan) (fun l => [.num 1, .nan][l]?.getD .nan)
    rfl rfl rfl (by simp) ?_ ⟨1, by simp, .inr rfl⟩⟩
  intro l hl
  match l with
  | 0 => exact ⟨rfl, rfl⟩
  | 1 => exact ⟨rfl, rfl⟩

example (sq : ℚ → ℚ) : ∃ t zs, matmulT (exLib32 sq) ⟨ofDims [2, 2], 0, 4, [.num 1, .nan, .num 2, .num 3]⟩
    ⟨ofDims [2, 2], 0, 4, [.num 1, .zero false, .num 2, .num 3]⟩ .none = .ok t ∧ Rep t [2, 2] zs ∧
    ∃ v, at? [2, 2] zs [0, 0] = some v ∧ v = .nan := by
  obtain ⟨t, zs, h1, h2, h3⟩ := C82_nan_matmul_any_order (exLib32_sums sq) (ieee_absorbs Ieee.f32 Special.max32 id id sq fun x _ => x)
    (Fp.fma_nan Ieee.f32 Special.max32) .none (A := []) (m := 2)
    (k := 2) (n := 2) (Special.rep2 2 2 [.num 1, .nan, .num 2, .num 3] rfl (by decide) (by decide))
    (Special.rep2 2 2 [.num 1, .zero false, .num 2, .num 3] rfl (by decide) (by decide)) fits_nil (fits_of_pos (by simp) (by simp))
  refine ⟨t, zs, h1, h2, h3 [] 0 0 (fun l => [.num 1, .nan][l]?.getD .nan) (fun l => [.num 1, .num 2][l]?.getD .nan) (by simp)
    (by simp) rfl ?_ ⟨1, by simp, .inl rfl⟩⟩
  intro l hl
  match l with
  | 0 => exact ⟨rfl, rfl⟩
  | 1 => exact ⟨rfl, rfl⟩

example (sq : ℚ → ℚ) : ∃ t zs, matmulT (exLib32 sq) ⟨ofDims [1, 2], 0, 2, [.num 1, .num 3]⟩
    ⟨ofDims [2, 1], 0, 2, [.num 5, .zero true]⟩ .none = .ok t ∧ Rep t [1, 1] zs ∧
    ∃ v w, at? [1, 1] zs [0, 0] = some v ∧ v.val = some w ∧ |w - 5| ≤ 1 / 1000000 := by
  obtain ⟨t, zs, h1, h2, h3⟩ := C82_matmul_any_order (big := Special.max32) id id sq (fun x _ => x) Ieee.f32_isFormat
    (exLib32_sums sq) .none (A := []) (m := 1)
    (k := 2) (n := 1) (Special.rep2 1 2 [.num 1, .num 3] rfl (by decide) (by decide))
    (Special.rep2 2 1 [.num 5, .zero true] rfl (by decide) (by decide)) fits_nil (fits_of_pos (by simp) (by simp))
  obtain ⟨v, w, h4, h5, h6⟩ := h3 [] 0 0 (fun l => if l = 0 then .num 1 else .num 3)
    (fun l => if l = 0 then .num 5 else .zero true) (fun l => if l = 0 then 1 else 3) (fun l => if l = 0 then 5 else 0)
    (by simp) (by simp) rfl (fun l hl => by
      match l with
      | 0 => exact ⟨rfl, rfl, rfl, rfl⟩
      | 1 => exact ⟨rfl, rfl, rfl, rfl⟩) (by simp [Finset.sum_range_succ]; norm_num [Special.max32])
  refine ⟨t, zs, h1, h2, v, w, h4, h5, ?_⟩
  simp [Finset.sum_range_succ] at h6
  exact h6.trans (by norm_num)

example (sq : ℚ → ℚ) : ∃ t zs, matvecT (exLib32 sq) ⟨ofDims [1, 2], 0, 2, [.num 1, .num 3]⟩
    ⟨ofDims [1, 2], 0, 2, [.num 5, .zero true]⟩ .none = .ok t ∧ Rep t [1, 1] zs ∧
    ∃ v w, at? [1, 1] zs [0, 0] = some v ∧ v.val = some w ∧ |w - 5| ≤ 1 / 1000000 := by
  obtain ⟨t, zs, h1, h2, h3⟩ := C82_matvec_any_order (big := Special.max32) id id sq (fun x _ => x) Ieee.f32_isFormat
    (exLib32_sums sq) (tr := .none) (.inl rfl) (P := []) (A := []) (R := [1]) (m := 1)
    (k := 2) (Special.rep2 1 2 [.num 1, .num 3] rfl (by decide) (by decide))
    (Special.rep2 1 2 [.num 5, .zero true] rfl (by decide) (by decide)) (by simp) (by simp) (by simp)
    (fits_of_pos (by simp) (by simp))
  obtain ⟨v, w, h4, h5, h6⟩ := h3 [] [] [0] 0 (fun l => if l = 0 then .num 5 else .zero true)
    (fun l => if l = 0 then .num 1 else .num 3) (fun l => if l = 0 then 5 else 0) (fun l => if l = 0 then 1 else 3)
    rfl rfl rfl (by simp) (fun l hl => by
      match l with
      | 0 => exact ⟨rfl, rfl, rfl, rfl⟩
      | 1 => exact ⟨rfl, rfl, rfl, rfl⟩) (by simp [Finset.sum_range_succ]; norm_num [Special.max32])
  refine ⟨t, zs, h1, h2, v, w, h4, h5, ?_⟩
  simp [Finset.sum_range_succ] at h6
  exact h6.trans (by norm_num)

example : ∃ t zs, matmulT (.library 1 (exKernel exOps fun x y z => x * y + z)) exB exB .transposeB = .ok t ∧ Rep t [3, 3] zs ∧
    ∀ ai bi i j, (f g : Nat → ℚ) → ravel [] ai = ravel [] bi → i < 3 → j < 3 → (ravel [] bi).isSome →
      (∀ l, l < 2 → at? [3, 2] [1, 0, 2, 1, 0, 3] (ai ++ [i, l]) = some (f l) ∧
        at? [3, 2] [1, 0, 2, 1, 0, 3] (bi ++ [j, l]) = some (g l)) →
      at? [3, 3] zs (bi ++ [i, j]) = some (∑ l ∈ Finset.range 2, f l * g l) :=
  C39_exact_any_order_partial id id id (fun x _ => x) (exKernel_sums exOps _) .transposeB (A := []) (B := []) (m := 3) (k := 2)
    (n := 3) exB_rep exB_rep rfl fits_nil (fits_of_pos (by simp) (by simp))

example : ∃ t zs, matvecT (.library 1 (exKernel exOps fun x y z => x * y + z)) exWide exWide .none = .ok t ∧ Rep t [2, 2] zs ∧
    ∀ pi ai ri j, (f g : Nat → ℚ) → (ravel [] pi).isSome → (ravel [] ai).isSome → (ravel [2] ri).isSome → j < 2 →
      (∀ l, l < 2 → at? [2, 2] [16777216, 1, 3, 5] (pi ++ ai ++ ri ++ [l]) = some (f l) ∧
        at? [2, 2] [16777216, 1, 3, 5] (ai ++ [j, l]) = some (g l)) →
      at? [2, 2] zs (pi ++ ai ++ ri ++ [j]) = some (∑ l ∈ Finset.range 2, f l * g l) :=
  C41_exact_any_order_partial id id id (fun x _ => x) (exKernel_sums exOps _) (.inl rfl) (P := []) (A := []) (R := [2]) (m := 2)
    (k := 2) exWide_rep exWide_rep (by simp) (by simp) (by simp) (fits_of_pos (by simp) (by simp))

/-- The same for any library, whatever its kernel computes: the entry comes from the right pairs. -/
example (bl : Blas ℚ) := C39_library_partial bl .none (A := []) (B := []) (m := 2) (k := 3) (n := 2) exA_rep exB_rep rfl fits_nil
  (fits_of_pos (by simp) (by simp))

example (bl : Blas ℚ) := C41_library_partial bl (tr := .none) (.inl rfl) (P := []) (A := []) (R := [2]) (m := 2) (k := 2) exWide_rep
  exWide_rep (by simp) (by simp) (by simp) (fits_of_pos (by simp) (by simp))

example := C41_any_order_partial (exKernel_sums exOps fun x y z => x * y + z) (tr := .none) (.inl rfl) (P := []) (A := []) (R := [2])
  (m := 2) (k := 2) exWide_rep exWide_rep (by simp) (by simp) (by simp) (fits_of_pos (by simp) (by simp))

end examples

end Essay
