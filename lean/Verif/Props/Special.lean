import Mathlib.Tactic.NormNum
import Verif.Lemmas.Fp
import Verif.Props.Rounding
import Verif.Props.Matvec

/-!
# Property C82: NaN, infinities and overflow
-/

set_option linter.unusedSectionVars false

namespace Essay

open Shape Stats Linalg

variable {F : Type}

/-! ## NaN is never lost -/

/-- Arithmetic never leaves `bad`: an operation with a bad argument has a bad result. -/
structure Absorbs (fo : FOps F) (bad : F → Prop) : Prop where
  add : ∀ x y, bad x ∨ bad y → bad (fo.add x y)
  sub : ∀ x y, bad x ∨ bad y → bad (fo.sub x y)
  mul : ∀ x y, bad x ∨ bad y → bad (fo.mul x y)
  div : ∀ x y, bad x ∨ bad y → bad (fo.div x y)
  sqrt : ∀ x, bad x → bad (fo.sqrt x)

/-- NaN is such a set in IEEE arithmetic. -/
theorem ieee_absorbs {K : Type} [Field K] [LinearOrder K] [IsStrictOrderedRing K] (rnd : K → K) (big : K) (ln exp : Fp K → Fp K) (sq : K → K)
    (powf : Fp K → Fp K → Fp K) : Absorbs (FOps.ieee rnd big ln exp sq powf) (· = Fp.nan) where
  add := by rintro x y (rfl | rfl) <;> simp [FOps.ieee]
  sub := by rintro x y (rfl | rfl) <;> simp [FOps.ieee]
  mul := by rintro x y (rfl | rfl) <;> simp [FOps.ieee]
  div := by rintro x y (rfl | rfl) <;> simp [FOps.ieee]
  sqrt := by rintro x rfl; rfl

/-- The lanes are determined by the elements. -/
theorem IsLanes.unique {T : Type} {pre post : List Nat} {d : Nat} {xs : List T} {ls ls' : List (List T)}
    (h : IsLanes pre d post xs ls) (h' : IsLanes pre d post xs ls') : ls = ls' := by
  apply List.ext_getElem?
  intro p
  by_cases hp : p < (pre ++ post).prod
  · obtain ⟨is, his⟩ := ravel_surj _ hp
    have hlen := ravel_length his
    have hi : (is.take pre.length).length = pre.length := by simp at hlen ⊢; omega
    have hr : ravel (pre ++ post) (is.take pre.length ++ is.drop pre.length) = some p := by
      rw [List.take_append_drop]; exact his
    obtain ⟨l, h1, h2, h3⟩ := h.2 _ _ p hi hr
    obtain ⟨l', h1', h2', h3'⟩ := h'.2 _ _ p hi hr
    rw [h1, h1']
    congr 1
    apply List.ext_getElem?
    intro k
    by_cases hk : k < d
    · obtain ⟨x, e, e'⟩ := h3 k hk
      obtain ⟨y, f, f'⟩ := h3' k hk
      rw [e, f, ← e', ← f']
    · rw [List.getElem?_eq_none (by omega), List.getElem?_eq_none (by omega)]
  · rw [List.getElem?_eq_none (by rw [h.1]; omega), List.getElem?_eq_none (by rw [h'.1]; omega)]

theorem foldl_bad {S T : Type} {bad : S → Prop} {badT : T → Prop} {f : S → T → S} (h1 : ∀ s x, bad s → bad (f s x))
    (h2 : ∀ s x, badT x → bad (f s x)) {xs : List T} {s : S} (h : bad s ∨ ∃ x ∈ xs, badT x) : bad (xs.foldl f s) := by
  induction xs generalizing s with
  | nil => simpa using h
  | cons x xs ih =>
    rw [List.foldl_cons]
    apply ih
    rcases h with h | ⟨y, hy, hb⟩
    · exact Or.inl (h1 _ _ h)
    · rcases List.mem_cons.1 hy with rfl | hy
      · exact Or.inl (h2 _ _ hb)
      · exact Or.inr ⟨y, hy, hb⟩

theorem foldl_var_bad {fo : FOps F} {bad : F → Prop} (ha : Absorbs fo bad) (xs : List F) :
    let v := xs.foldl (Var.update fo) (Var.default fo)
    v.k = xs.length ∧ ((∃ x ∈ xs, bad x) → bad v.m ∧ (2 ≤ xs.length → bad v.s)) := by
  induction xs using List.reverseRecOn with
  | nil => exact ⟨rfl, by simp⟩
  | append_singleton xs x ih =>
    obtain ⟨hk, ih⟩ := ih
    simp only [List.foldl_append, List.foldl_cons, List.foldl_nil]
    generalize xs.foldl (Var.update fo) (Var.default fo) = v at *
    unfold Var.update
    by_cases h0 : v.k = 0
    · rw [if_pos h0]
      rw [h0] at hk
      have : xs = [] := List.eq_nil_of_length_eq_zero hk.symm
      subst this
      refine ⟨rfl, ?_⟩
      rintro ⟨y, hy, hb⟩
      simp only [List.nil_append, List.mem_singleton] at hy
      subst hy
      exact ⟨hb, by simp⟩
    · rw [if_neg h0]
      refine ⟨by simp [hk], ?_⟩
      rintro ⟨y, hy, hb⟩
      rcases List.mem_append.1 hy with hy | hy
      · have hm := (ih ⟨y, hy, hb⟩).1
        have hd := ha.sub x v.m (Or.inr hm)
        exact ⟨ha.add _ _ (Or.inl hm), fun _ => ha.add _ _ (Or.inr (ha.mul _ _ (Or.inl hd)))⟩
      · simp only [List.mem_singleton] at hy
        subst hy
        have hd := ha.sub y v.m (Or.inl hb)
        exact ⟨ha.add _ _ (Or.inr (ha.div _ _ (Or.inl hd))), fun _ => ha.add _ _ (Or.inr (ha.mul _ _ (Or.inl hd)))⟩

theorem sum_bad {fo : FOps F} {bad : F → Prop} (ha : Absorbs fo bad) {x : F} {xs : List F} (h : ∃ y ∈ x :: xs, bad y) :
    bad (xs.foldl fo.add x) := by
  refine foldl_bad (bad := bad) (badT := bad) (fun s x h => ha.add _ _ (Or.inl h)) (fun s x h => ha.add _ _ (Or.inr h)) ?_
  obtain ⟨y, hy, hb⟩ := h
  rcases List.mem_cons.1 hy with rfl | hy
  · exact Or.inl hb
  · exact Or.inr ⟨y, hy, hb⟩

theorem mean_bad {fo : FOps F} {bad : F → Prop} (ha : Absorbs fo bad) {xs : List F} (h : ∃ y ∈ xs, bad y) :
    bad (Mean.intoResult fo (xs.foldl (Mean.update fo) (Mean.default fo))) := by
  rw [foldl_mean]
  refine ha.div _ _ (Or.inl ?_)
  exact foldl_bad (bad := bad) (badT := bad) (fun s x h => ha.add _ _ (Or.inl h)) (fun s x h => ha.add _ _ (Or.inr h))
    (Or.inr h)

theorem var_bad {fo : FOps F} {bad : F → Prop} (ha : Absorbs fo bad) {xs : List F} (h : ∃ y ∈ xs, bad y)
    (h2 : 2 ≤ xs.length) :
    bad (Var.intoVar fo (xs.foldl (Var.update fo) (Var.default fo))) ∧
    bad (Var.intoStd fo (xs.foldl (Var.update fo) (Var.default fo))) := by
  obtain ⟨hk, hb⟩ := foldl_var_bad ha xs
  have hs := (hb h).2 h2
  have : (xs.foldl (Var.update fo) (Var.default fo)).k > 1 := by rw [hk]; omega
  unfold Var.intoVar Var.intoStd
  rw [if_pos this, if_pos this]
  have := ha.div _ (fo.ofNat (xs.foldl (Var.update fo) (Var.default fo)).k) (Or.inl hs)
  exact ⟨this, ha.sqrt _ this⟩

/-- C82: if one element is NaN, so are the sum, the mean, the Euclidean norm and, for two or more elements, the variance
and the standard deviation. -/
theorem C82_nan_whole {fo : FOps F} {bad : F → Prop} (ha : Absorbs fo bad) {t : Tensor F} {ds : List Nat} {xs : List F}
    (h : Rep t ds xs) (hb : ∃ x ∈ xs, bad x) :
    (∃ r v, reduceOp (fun x y => .ok (fo.add x y)) t = .ok r ∧ Rep r [] [v] ∧ bad v) ∧
    (∃ r v, reduceMean fo t = .ok r ∧ Rep r [] [v] ∧ bad v) ∧
    (∃ r v, reduceHypot fo t = .ok r ∧ Rep r [] [v] ∧ bad v) ∧
    (2 ≤ xs.length → (∃ r v, reduceVariance fo t = .ok r ∧ Rep r [] [v] ∧ bad v) ∧
      ∃ r v, reduceStd fo t = .ok r ∧ Rep r [] [v] ∧ bad v) := by
  refine ⟨?_, ?_, ?_, fun h2 => ⟨?_, ?_⟩⟩
  · obtain ⟨y, hy, -⟩ := id hb
    obtain ⟨x, xs, rfl⟩ := List.exists_cons_of_ne_nil (List.ne_nil_of_mem hy)
    obtain ⟨r, e, hr⟩ := reduce_pure h fo.add
    exact ⟨r, _, e, hr, sum_bad ha hb⟩
  · obtain ⟨r, e, hr⟩ := fold_pure h (Mean.default fo) (Mean.update fo) (Mean.intoResult fo)
    exact ⟨r, _, e, hr, mean_bad ha hb⟩
  · obtain ⟨r, e, hr⟩ := fold_pure h fo.zero (fun s v => fo.add s (fo.mul v v)) fo.sqrt
    refine ⟨r, _, e, hr, ha.sqrt _ ?_⟩
    exact foldl_bad (bad := bad) (badT := bad) (fun s x h => ha.add _ _ (Or.inl h))
      (fun s x h => ha.add _ _ (Or.inr (ha.mul _ _ (Or.inl h)))) (Or.inr hb)
  · obtain ⟨r, e, hr⟩ := fold_pure h (Var.default fo) (Var.update fo) (Var.intoVar fo)
    exact ⟨r, _, e, hr, (var_bad ha hb h2).1⟩
  · obtain ⟨r, e, hr⟩ := fold_pure h (Var.default fo) (Var.update fo) (Var.intoStd fo)
    exact ⟨r, _, e, hr, (var_bad ha hb h2).2⟩

/-- C82 along an axis: the result at a position is NaN if the lane of that position has a NaN. -/
theorem C82_nan_axis {fo : FOps F} {bad : F → Prop} (hab : Absorbs fo bad) {t : Tensor F} {pre post : List Nat} {d : Nat}
    {xs : List F} (h : Rep t (pre ++ d :: post) xs) (hne : xs ≠ []) {a : Int}
    (ha : axisIndex (pre ++ d :: post).length a = some pre.length) :
    ∃ lanes, IsLanes pre d post xs lanes ∧
      (∃ r vs, reduceOpAxis (fun x y => .ok (fo.add x y)) t (some a) = .ok r ∧ Rep r (pre ++ post) vs ∧
        List.Forall₂ (fun l v => (∃ x ∈ l, bad x) → bad v) lanes vs) ∧
      (∃ r vs, reduceMeanAxis fo t (some a) = .ok r ∧ Rep r (pre ++ post) vs ∧
        List.Forall₂ (fun l v => (∃ x ∈ l, bad x) → bad v) lanes vs) ∧
      (2 ≤ d → (∃ r vs, reduceVarianceAxis fo t (some a) = .ok r ∧ Rep r (pre ++ post) vs ∧
          List.Forall₂ (fun l v => (∃ x ∈ l, bad x) → bad v) lanes vs) ∧
        ∃ r vs, reduceStdAxis fo t (some a) = .ok r ∧ Rep r (pre ++ post) vs ∧
          List.Forall₂ (fun l v => (∃ x ∈ l, bad x) → bad v) lanes vs) := by
  obtain ⟨x0, xs', hxs⟩ := List.exists_cons_of_ne_nil hne
  have key : ∀ (lanes : List (List F)) (g : List F → F), (∀ l ∈ lanes, (∃ x ∈ l, bad x) → bad (g l)) →
      List.Forall₂ (fun l v => (∃ x ∈ l, bad x) → bad v) lanes (lanes.map g) := by
    intro lanes g hg
    rw [List.forall₂_map_right_iff]
    exact List.forall₂_same.2 hg
  obtain ⟨lanes, r, hl, hn, e, hr⟩ := reduceAxis_pure h hne ha fo.add
    (g := fun l => l.tail.foldl fo.add (l.headD x0)) (by intro x l; rfl)
  refine ⟨lanes, hl, ⟨r, _, e, hr, ?_⟩, ?_, fun h2 => ⟨?_, ?_⟩⟩
  · refine key _ _ fun l hlm hb => ?_
    obtain ⟨x, l, rfl⟩ := List.exists_cons_of_ne_nil (hn l hlm)
    exact sum_bad hab hb
  · obtain ⟨lanes', r, hl', _, e, hr⟩ := foldAxis_pure h hne ha (Mean.default fo) (Mean.update fo) (Mean.intoResult fo)
    obtain rfl := hl.unique hl'
    exact ⟨r, _, e, hr, key _ _ fun l _ hb => mean_bad hab hb⟩
  · obtain ⟨lanes', r, hl', _, e, hr⟩ := foldAxis_pure h hne ha (Var.default fo) (Var.update fo) (Var.intoVar fo)
    obtain rfl := hl.unique hl'
    exact ⟨r, _, e, hr, key _ _ fun l hlm hb => (var_bad hab hb (by rw [hl.length_of_mem l hlm]; exact h2)).1⟩
  · obtain ⟨lanes', r, hl', _, e, hr⟩ := foldAxis_pure h hne ha (Var.default fo) (Var.update fo) (Var.intoStd fo)
    obtain rfl := hl.unique hl'
    exact ⟨r, _, e, hr, key _ _ fun l hlm hb => (var_bad hab hb (by rw [hl.length_of_mem l hlm]; exact h2)).2⟩

theorem at?_exists {T : Type} {ds is : List Nat} {xs : List T} {p : Nat} (hl : xs.length = ds.prod)
    (h : ravel ds is = some p) : ∃ v, at? ds xs is = some v := by
  have hp := ravel_lt h
  rw [← hl] at hp
  exact ⟨xs[p], by simp [at?, h, hp]⟩

theorem ravel_append_some {ds es is js : List Nat} {p q : Nat} (h : ravel ds is = some p) (h' : ravel es js = some q) :
    ravel (ds ++ es) (is ++ js) = some (p * es.prod + q) := by
  rw [ravel_append (ravel_length h), h, h']; rfl

theorem dot_bad {fo : FOps F} {bad : F → Prop} (ha : Absorbs fo bad) {ps : List (F × F)}
    (h : ∃ p : F × F, p ∈ ps ∧ (bad p.1 ∨ bad p.2)) : bad (dot fo ps) := by
  unfold dot
  refine ha.mul _ _ (Or.inr ?_)
  exact foldl_bad (bad := bad) (badT := fun p : F × F => bad p.1 ∨ bad p.2) (fun s x h => ha.add _ _ (Or.inl h))
    (fun s x h => ha.add _ _ (Or.inr (ha.mul _ _ h))) (Or.inr h)

/-- C82: an entry of a matrix product is NaN if the row or the column it is computed from has a NaN, even where the
other factor is zero. -/
theorem C82_nan_matmul {fo : FOps F} {bad : F → Prop} (hab : Absorbs fo bad) (tr : Transpose) {a b : Tensor F}
    {A : List Nat} {m k n : Nat} {xs ys : List F} (ha : Rep a (A ++ flip tr.left m k) xs)
    (hb : Rep b (A ++ flip tr.right k n) ys) (hfA : Fits A) (hfO : Fits (A ++ [n, m])) :
    ∃ t zs, matmulT fo a b tr = .ok t ∧ Rep t (A ++ [n, m]) zs ∧
      ∀ is i j l x y, i < m → j < n → l < k → (ravel A is).isSome →
        at? (A ++ flip tr.left m k) xs (is ++ flip tr.left i l) = some x →
        at? (A ++ flip tr.right k n) ys (is ++ flip tr.right l j) = some y → bad x ∨ bad y →
        ∃ v, at? (A ++ [m, n]) zs (is ++ [i, j]) = some v ∧ bad v := by
  obtain ⟨t, zs, e, ht, h⟩ := C39_matmul_partial fo tr ha hb rfl hfA hfO
  refine ⟨t, zs, e, ht, ?_⟩
  intro is i j l x y hi hj hl hs hx hy hxy
  have key : ∀ l, l < k → ∃ p : F × F, at? (A ++ flip tr.left m k) xs (is ++ flip tr.left i l) = some p.1 ∧
      at? (A ++ flip tr.right k n) ys (is ++ flip tr.right l j) = some p.2 := by
    intro l hl
    obtain ⟨p, hp⟩ := Option.isSome_iff_exists.1 hs
    obtain ⟨v, hv⟩ := at?_exists ha.length (ravel_append_some hp (ravel_flip (t := tr.left) hi hl))
    obtain ⟨w, hw⟩ := at?_exists hb.length (ravel_append_some hp (ravel_flip (t := tr.right) hl hj))
    exact ⟨(v, w), hv, hw⟩
  have : Nonempty (F × F) := ⟨(x, y)⟩
  choose! f hf using key
  refine ⟨_, h is is i j ((List.range k).map f) rfl hi hj hs (by simp) ?_, dot_bad hab ⟨f l, ?_, ?_⟩⟩
  · intro l p hp
    rw [List.getElem?_map] at hp
    obtain ⟨l', hl', rfl⟩ := Option.map_eq_some_iff.1 hp
    obtain ⟨hlt, rfl⟩ := List.getElem?_eq_some_iff.1 hl'
    simp only [List.length_range] at hlt
    simpa using hf l hlt
  · exact List.mem_map.2 ⟨l, List.mem_range.2 hl, rfl⟩
  · obtain ⟨h1, h2⟩ := hf l hl
    rw [hx] at h1
    rw [hy] at h2
    cases h1; cases h2
    exact hxy

/-- C82 for `matvec`. -/
theorem C82_nan_matvec {fo : FOps F} {bad : F → Prop} (hab : Absorbs fo bad) {tr : Transpose}
    (htr : tr = .none ∨ tr = .transposeA) {a x : Tensor F} {P A R : List Nat} {m k : Nat} {xs ys : List F}
    (ha : Rep a (A ++ flip tr.left m k) xs) (hx : Rep x (P ++ A ++ R ++ [k]) ys) (hR : R.length ≤ 1)
    (hP : R = [] → P ++ A = []) (hpos : 0 < xs.length ∧ 0 < ys.length) (hfO : Fits (P ++ A ++ R ++ [m])) :
    ∃ t zs, matvecT fo a x tr = .ok t ∧ Rep t (P ++ A ++ R ++ [m]) zs ∧
      ∀ pi ai ri j l v w, (ravel P pi).isSome → (ravel A ai).isSome → (ravel R ri).isSome → j < m → l < k →
        at? (P ++ A ++ R ++ [k]) ys (pi ++ ai ++ ri ++ [l]) = some v →
        at? (A ++ flip tr.left m k) xs (ai ++ flip tr.left j l) = some w → bad v ∨ bad w →
        ∃ z, at? (P ++ A ++ R ++ [m]) zs (pi ++ ai ++ ri ++ [j]) = some z ∧ bad z := by
  obtain ⟨t, zs, e, ht, h⟩ := C41_matvec_partial fo htr ha hx hR hP hpos hfO
  refine ⟨t, zs, e, ht, ?_⟩
  intro pi ai ri j l v w h1 h2 h3 hj hl hv hw hvw
  have key : ∀ l, l < k → ∃ p : F × F, at? (P ++ A ++ R ++ [k]) ys (pi ++ ai ++ ri ++ [l]) = some p.1 ∧
      at? (A ++ flip tr.left m k) xs (ai ++ flip tr.left j l) = some p.2 := by
    intro l hl
    obtain ⟨p1, hp1⟩ := Option.isSome_iff_exists.1 h1
    obtain ⟨p2, hp2⟩ := Option.isSome_iff_exists.1 h2
    obtain ⟨p3, hp3⟩ := Option.isSome_iff_exists.1 h3
    obtain ⟨v, hv⟩ := at?_exists hx.length (ravel_append_some (ravel_append_some (ravel_append_some hp1 hp2) hp3)
      (show ravel [k] [l] = some l by simp [ravel, hl]))
    obtain ⟨w, hw⟩ := at?_exists ha.length (ravel_append_some hp2 (ravel_flip (t := tr.left) hj hl))
    exact ⟨(v, w), hv, hw⟩
  have : Nonempty (F × F) := ⟨(v, w)⟩
  choose! f hf using key
  refine ⟨_, h pi ai ri j ((List.range k).map f) h1 h2 h3 hj (by simp) ?_, dot_bad hab ⟨f l, ?_, ?_⟩⟩
  · intro l p hp
    rw [List.getElem?_map] at hp
    obtain ⟨l', hl', rfl⟩ := Option.map_eq_some_iff.1 hp
    obtain ⟨hlt, rfl⟩ := List.getElem?_eq_some_iff.1 hl'
    simp only [List.length_range] at hlt
    simpa using hf l hlt
  · exact List.mem_map.2 ⟨l, List.mem_range.2 hl, rfl⟩
  · obtain ⟨h1, h2⟩ := hf l hl
    rw [hv] at h1
    rw [hw] at h2
    cases h1; cases h2
    exact hvw

/-! ## Minimum and maximum -/

section ieee

variable {K : Type} [Field K] [LinearOrder K] [IsStrictOrderedRing K] {rep : K → Prop} {rnd : K → K} {u tau big : K}
variable (ln exp : Fp K → Fp K) (sq : K → K) (powf : Fp K → Fp K → Fp K)

/-- C82: `reduce_min` and `reduce_max` skip NaN. Their result is an element; it is NaN only if all elements are; and it
compares with every element that is not NaN, infinities included. -/
theorem C82_min_max {t : Tensor (Fp K)} {ds : List Nat} {xs : List (Fp K)} (h : Rep t ds xs) (hne : xs ≠ []) :
    (∃ r v, reduceMin (.ieee rnd big ln exp sq powf) t = .ok r ∧ Rep r [] [v] ∧ v ∈ xs ∧
      ∀ x ∈ xs, x ≠ .nan → v ≠ .nan ∧ (FOps.ieee rnd big ln exp sq powf).le v x = true) ∧
    ∃ r v, reduceMax (.ieee rnd big ln exp sq powf) t = .ok r ∧ Rep r [] [v] ∧ v ∈ xs ∧
      ∀ x ∈ xs, x ≠ .nan → v ≠ .nan ∧ (FOps.ieee rnd big ln exp sq powf).le x v = true := by
  obtain ⟨⟨r, v, e, hr, hv, hl⟩, ⟨r', v', e', hr', hv', hl'⟩⟩ := C43_whole (Fp.order rnd big ln exp sq powf) h hne
  have some_key : ∀ x : Fp K, x ≠ .nan → ∃ k, x.key = some k := by
    intro x hx
    rw [← Option.isSome_iff_exists, Option.isSome_iff_ne_none]
    exact fun hc => hx (Fp.key_eq_none.1 hc)
  refine ⟨⟨r, v, e, hr, hv, fun x hx hn => ?_⟩, r', v', e', hr', hv', fun x hx hn => ?_⟩
  · obtain ⟨k, hk⟩ := some_key x hn
    obtain ⟨j, hj, hjk⟩ := hl x hx k hk
    refine ⟨fun hc => ?_, Fp.cmp_iff.2 ⟨j, k, hj, hk, by simpa using hjk⟩⟩
    rw [hc] at hj; cases hj
  · obtain ⟨k, hk⟩ := some_key x hn
    obtain ⟨j, hj, hjk⟩ := hl' x hx k hk
    refine ⟨fun hc => ?_, Fp.cmp_iff.2 ⟨k, j, hk, hj, by simpa using hjk⟩⟩
    rw [hc] at hj; cases hj

/-! ## Sums of non-negative values -/

theorem foldl_nonneg (hr : IsRounding rep rnd) (h0 : rep 0) {xs : List (Fp K)} {x : Fp K} (hx : x.NonNeg)
    (h : ∀ y ∈ xs, y.NonNeg) :
    (xs.foldl (Fp.add rnd big) x).NonNeg ∧
    (x = .inf false ∨ .inf false ∈ xs → xs.foldl (Fp.add rnd big) x = .inf false) := by
  induction xs generalizing x with
  | nil => exact ⟨hx, by simp⟩
  | cons y ys ih =>
    have hy := h y (by simp)
    obtain ⟨h1, h2⟩ := ih (Fp.nonneg_add (big := big) hr h0 hx hy) fun z hz => h z (by simp [hz])
    refine ⟨h1, ?_⟩
    intro hc
    rw [List.foldl_cons]
    apply h2
    rcases hc with rfl | hc
    · exact Or.inl (Fp.add_inf_left hy)
    · rcases List.mem_cons.1 hc with rfl | hc
      · exact Or.inl (Fp.add_inf_right hx)
      · exact Or.inr hc

/-- C82: a sum of values from zero on, `+inf` included, is never NaN and never negative; it is `+inf` if an element is. -/
theorem C82_sum_nonneg (hr : IsRounding rep rnd) (h0 : rep 0) {t : Tensor (Fp K)} {ds : List Nat} {xs : List (Fp K)}
    (h : Rep t ds xs) (hne : xs ≠ []) (hx : ∀ x ∈ xs, x.NonNeg) :
    ∃ r v, reduceOp (fun x y => .ok ((FOps.ieee rnd big ln exp sq powf).add x y)) t = .ok r ∧ Rep r [] [v] ∧ v.NonNeg ∧
      (.inf false ∈ xs → v = .inf false) := by
  obtain ⟨x, xs, rfl⟩ := List.exists_cons_of_ne_nil hne
  obtain ⟨r, e, hr'⟩ := reduce_pure h (Fp.add rnd big)
  obtain ⟨h1, h2⟩ := foldl_nonneg (big := big) (xs := xs) hr h0 (hx x (by simp)) fun y hy => hx y (by simp [hy])
  refine ⟨r, _, e, hr', h1, fun hc => h2 ?_⟩
  rcases List.mem_cons.1 hc with hc | hc
  · exact Or.inl hc.symm
  · exact Or.inr hc

/-! ## Finite values -/

theorem abs_fl_le {x w : K} {xs : List K}
    (h : |w - (x + xs.sum)| ≤ ((1 + u) ^ xs.length - 1) * (|x| + (xs.map fun y => |y|).sum)) :
    |w| ≤ (1 + u) ^ xs.length * (|x| + (xs.map fun y => |y|).sum) := by
  have h1 := abs_add_le (w - (x + xs.sum)) (x + xs.sum)
  have h2 := abs_add_le x xs.sum
  have h3 := abs_sum_le xs
  rw [sub_add_cancel] at h1
  linarith

/-- As long as the absolute values add up to less than the largest finite number (with a margin for rounding), the
running sums of finite values are finite and are those of the arithmetic without overflow. -/
theorem foldl_add_val (hf : IsFormat rep rnd u tau) {f : Fp K} {fs : List (Fp K)} {x : K} {xs : List K}
    (hv : f.val = some x) (hvs : fs.map Fp.val = xs.map some) (hx : rep x) (hxs : ∀ y ∈ xs, rep y)
    (hb : (1 + u) ^ xs.length * (|x| + (xs.map fun y => |y|).sum) ≤ big) :
    (fs.foldl (Fp.add rnd big) f).val = some (xs.foldl (fun a b => rnd (a + b)) x) := by
  have hu := hf.u_nonneg
  induction xs using List.reverseRecOn generalizing fs with
  | nil => simp only [List.map_nil, List.map_eq_nil_iff] at hvs; subst hvs; simpa using hv
  | append_singleton xs y ih =>
    obtain ⟨fs, g, rfl⟩ : ∃ gs g, fs = gs ++ [g] := by
      refine ⟨fs.dropLast, fs.getLast ?_, (List.dropLast_append_getLast _).symm⟩
      rintro rfl; simp at hvs
    simp only [List.map_append, List.map_cons, List.map_nil] at hvs
    obtain ⟨h1, h2⟩ := List.append_inj' hvs rfl
    simp only [List.cons.injEq, and_true] at h2
    simp only [List.map_append, List.map_cons, List.map_nil, List.sum_append, List.sum_cons, List.sum_nil, add_zero,
      List.length_append, List.length_cons, List.length_nil, zero_add] at hb
    have hA := sum_abs_nonneg xs
    have hp : (1 : K) ≤ (1 + u) ^ xs.length := one_le_pow₀ (by linarith)
    have hS : 0 ≤ |x| + (xs.map fun y => |y|).sum := add_nonneg (abs_nonneg _) hA
    have ih := ih h1 (fun z hz => hxs z (by simp [hz])) (by
      refine le_trans ?_ hb
      rw [pow_succ]
      have : 0 ≤ (1 + u) ^ xs.length * |y| := mul_nonneg (by linarith) (abs_nonneg y)
      have : 0 ≤ (1 + u) ^ xs.length * (|x| + (xs.map fun y => |y|).sum) := mul_nonneg (by linarith) hS
      nlinarith [mul_nonneg this hu, abs_nonneg y])
    simp only [List.foldl_append, List.foldl_cons, List.foldl_nil]
    refine Fp.val_add ih h2 ?_
    obtain ⟨_, h4⟩ := foldl_round hf (xs ++ [y]) hx hxs
    simp only [List.foldl_append, List.foldl_cons, List.foldl_nil] at h4
    exact (abs_fl_le (xs := xs ++ [y]) (by simpa using h4)).trans (by simpa using hb)

/-- C82: the sum of finite floats whose absolute values add up to at most the largest finite number (up to the factor
`(1+u)^(n-1)`) does not overflow, and the error bound of C77 holds in full IEEE arithmetic. -/
theorem C82_sum (hf : IsFormat rep rnd u tau) {t : Tensor (Fp K)} {ds : List Nat} {fs : List (Fp K)} {xs : List K}
    (h : Rep t ds fs) (hne : fs ≠ []) (hv : fs.map Fp.val = xs.map some) (hx : ∀ x ∈ xs, rep x)
    (hb : (1 + u) ^ (xs.length - 1) * (xs.map fun x => |x|).sum ≤ big) :
    ∃ r v w, reduceOp (fun x y => .ok ((FOps.ieee rnd big ln exp sq powf).add x y)) t = .ok r ∧ Rep r [] [v] ∧
      v.val = some w ∧ |w - xs.sum| ≤ ((1 + u) ^ (xs.length - 1) - 1) * (xs.map fun x => |x|).sum := by
  obtain ⟨f, fs, rfl⟩ := List.exists_cons_of_ne_nil hne
  cases xs with
  | nil => simp at hv
  | cons x xs =>
    simp only [List.map_cons, List.cons.injEq] at hv
    obtain ⟨r, e, hr⟩ := reduce_pure h (Fp.add rnd big)
    have hxs : ∀ y ∈ xs, rep y := fun y hy => hx y (by simp [hy])
    refine ⟨r, _, _, e, hr, foldl_add_val hf hv.1 hv.2 (hx x (by simp)) hxs (by simpa using hb), ?_⟩
    simpa using (foldl_round hf xs (hx x (by simp)) hxs).2

theorem ofNat_val (hf : IsFormat rep rnd u tau) (hbig : rep big) {n : Nat} (h1 : 1 ≤ n) (h : (n : K) ≤ big) :
    (Fp.pack rnd big false (n : K)).val = some (rnd n) ∧ 1 ≤ rnd (n : K) ∧ rnd (n : K) ≤ big := by
  have a : 1 ≤ rnd (n : K) := by
    have := hf.mono 1 n (by exact_mod_cast h1)
    rwa [hf.fixed 1 hf.one] at this
  have b : rnd (n : K) ≤ big := by
    have := hf.mono _ _ h
    rwa [hf.fixed _ hbig] at this
  exact ⟨Fp.val_pack (by rwa [abs_of_nonneg (by linarith)]), a, b⟩

theorem abs_rnd_le (hf : IsFormat rep rnd u tau) {x b : K} (hb : rep b) (h : |x| ≤ b) : |rnd x| ≤ b := by
  obtain ⟨h1, h2⟩ := abs_le.1 h
  have a := hf.mono _ _ h1
  have c := hf.mono _ _ h2
  rw [hf.fixed _ (hf.neg _ hb)] at a
  rw [hf.fixed _ hb] at c
  exact abs_le.2 ⟨a, c⟩

/-- C82 for `reduce_mean`. -/
theorem C82_mean (hf : IsFormat rep rnd u tau) (hbig : rep big) {t : Tensor (Fp K)} {ds : List Nat} {fs : List (Fp K)}
    {xs : List K} (h : Rep t ds fs) (hne : fs ≠ []) (hv : fs.map Fp.val = xs.map some) (hx : ∀ x ∈ xs, rep x)
    (hn : rnd (xs.length : K) = xs.length) (hnb : (xs.length : K) ≤ big)
    (hb : (1 + u) ^ xs.length * (xs.map fun x => |x|).sum ≤ big) :
    ∃ r v w, reduceMean (.ieee rnd big ln exp sq powf) t = .ok r ∧ Rep r [] [v] ∧ v.val = some w ∧
      |w - mean xs| ≤ ((1 + u) ^ xs.length - 1) * ((xs.map fun x => |x|).sum / xs.length) + u * tau := by
  have hu := hf.u_nonneg
  obtain ⟨f, fs, rfl⟩ := List.exists_cons_of_ne_nil hne
  cases xs with
  | nil => simp at hv
  | cons x xs =>
    obtain ⟨r, e, hr⟩ := C42_mean_any (.ieee rnd big ln exp sq powf) h
    refine ⟨r, _, _, e, hr, ?_, mean_round (fun x => x) (fun x => x) (fun x => x) (fun x _ => x) hf (by simp) hx hn⟩
    have hlen : fs.length = xs.length := by simpa using congrArg List.length hv
    have hxs : ∀ y ∈ xs, rep y := fun y hy => hx y (by simp [hy])
    have hxr := hx x (by simp)
    simp only [List.map_cons, List.cons.injEq] at hv
    have hA := sum_abs_nonneg xs
    have hp : (1 : K) ≤ (1 + u) ^ xs.length := one_le_pow₀ (by linarith)
    have hS : 0 ≤ |x| + (xs.map fun y => |y|).sum := add_nonneg (abs_nonneg _) hA
    have hb' : (1 + u) ^ xs.length * (|x| + (xs.map fun y => |y|).sum) ≤ big := by
      refine le_trans ?_ hb
      simp only [List.length_cons, List.map_cons, List.sum_cons, pow_succ]
      have : 0 ≤ (1 + u) ^ xs.length * (|x| + (xs.map fun y => |y|).sum) := mul_nonneg (by linarith) hS
      nlinarith [mul_nonneg this hu]
    have hxb : |x| ≤ big := by nlinarith [abs_nonneg x]
    have h0 : (Fp.add rnd big (.zero false) f).val = some x := by
      have := Fp.val_add (rnd := rnd) (big := big) (x := .zero false) (a := 0) rfl hv.1 (by
        rw [zero_add, hf.fixed x hxr]; exact hxb)
      rwa [zero_add, hf.fixed x hxr] at this
    have h1 := foldl_add_val hf h0 hv.2 hxr hxs hb'
    have h2 := abs_fl_le (foldl_round hf xs hxr hxs).2
    obtain ⟨h3, h4, h5⟩ := ofNat_val hf hbig (n := (x :: xs).length) (by simp) hnb
    rw [foldl_mean]
    have hmax : max (f :: fs).length 1 = (x :: xs).length := by simp [hlen]
    have hmax' : max (x :: xs).length 1 = (x :: xs).length := by simp
    simp only [Mean.intoResult, Mean.default, FOps.rounded, FOps.ieee, List.foldl_cons, hmax, hmax', zero_add,
      hf.fixed x hxr]
    refine Fp.val_div h1 h3 (by linarith) (abs_rnd_le hf hbig ?_)
    rw [abs_div, abs_of_nonneg (by linarith : (0 : K) ≤ rnd ((x :: xs).length : K))]
    exact (div_le_self (abs_nonneg _) h4).trans (h2.trans hb')

theorem foldl_dot_val (hf : IsFormat rep rnd u tau) {fs : List (Fp K × Fp K)} {ps : List (K × K)}
    (hv : fs.map (fun p => (p.1.val, p.2.val)) = ps.map fun p => (some p.1, some p.2))
    (hb : (1 + u) ^ ps.length * ((ps.map fun p => |p.1 * p.2|).sum + ps.length * (u * tau)) ≤ big) :
    (fs.foldl (fun v p => Fp.add rnd big v (Fp.mul rnd big p.1 p.2)) (.zero false)).val =
      some (ps.foldl (fun v p => rnd (v + rnd (p.1 * p.2))) 0) := by
  have hu := hf.u_nonneg
  have hut := mul_nonneg hu hf.tau_pos.le
  induction ps using List.reverseRecOn generalizing fs with
  | nil => simp only [List.map_nil, List.map_eq_nil_iff] at hv; subst hv; rfl
  | append_singleton ps p ih =>
    obtain ⟨fs, g, rfl⟩ : ∃ gs g, fs = gs ++ [g] := by
      refine ⟨fs.dropLast, fs.getLast ?_, (List.dropLast_append_getLast _).symm⟩
      rintro rfl; simp at hv
    simp only [List.map_append, List.map_cons, List.map_nil] at hv
    obtain ⟨h1, h2⟩ := List.append_inj' hv rfl
    simp only [List.cons.injEq, and_true, Prod.mk.injEq] at h2
    have hsum := sum_abs_nonneg (ps.map fun p => p.1 * p.2)
    rw [List.map_map] at hsum
    have h4 := (foldl_round_dot hf ((ps ++ [p]).map fun p => p.1 * p.2)).2
    simp only [List.map_append, List.map_cons, List.map_nil, List.sum_append, List.sum_cons, List.sum_nil, add_zero,
      List.length_append, List.length_cons, List.length_nil, zero_add, List.map_map, Function.comp_def, pow_succ,
      List.length_map, Nat.cast_add, Nat.cast_one, List.foldl_append, List.foldl_cons, List.foldl_nil, List.foldl_map]
      at hb h4 hsum
    have hp : (1 : K) ≤ (1 + u) ^ ps.length := one_le_pow₀ (by linarith)
    set G := (1 + u) ^ ps.length
    set A := (ps.map fun p => |p.1 * p.2|).sum
    set n : K := (ps.length : K)
    have hn : 0 ≤ n := Nat.cast_nonneg _
    have hnt : 0 ≤ n * (u * tau) := mul_nonneg hn hut
    have hq := abs_nonneg (p.1 * p.2)
    have hG : G ≤ G * (1 + u) := by nlinarith
    have ih := ih h1 (by
      refine le_trans (mul_le_mul hG ?_ (by positivity) (by nlinarith)) hb
      nlinarith)
    simp only [List.foldl_append, List.foldl_cons, List.foldl_nil]
    have h1' : |rnd (p.1 * p.2)| ≤ big := by
      have h5 := hf.err (p.1 * p.2)
      have h6 := abs_add_le (rnd (p.1 * p.2) - p.1 * p.2) (p.1 * p.2)
      rw [sub_add_cancel] at h6
      refine le_trans ?_ hb
      have h7 : (1 + u) * |p.1 * p.2| ≤ G * (1 + u) * |p.1 * p.2| := mul_le_mul_of_nonneg_right (by nlinarith) hq
      have h8 : u * tau ≤ G * (1 + u) * (u * tau) := by nlinarith
      have h9 : 0 ≤ G * (1 + u) * (A + n * (u * tau)) := by positivity
      nlinarith
    refine Fp.val_add ih (Fp.val_mul h2.1 h2.2 h1') ?_
    have h5 := abs_sum_le (ps.map fun p => p.1 * p.2)
    simp only [List.map_map, Function.comp_def] at h5
    set w := rnd (ps.foldl (fun v p => rnd (v + rnd (p.1 * p.2))) 0 + rnd (p.1 * p.2))
    set S := (ps.map fun p => p.1 * p.2).sum
    have h6 := abs_add_le (w - (S + p.1 * p.2)) (S + p.1 * p.2)
    have h7 := abs_add_le S (p.1 * p.2)
    rw [sub_add_cancel] at h6
    refine le_trans ?_ hb
    nlinarith

theorem dot_val (hf : IsFormat rep rnd u tau) {fs : List (Fp K × Fp K)} {ps : List (K × K)}
    (hv : fs.map (fun p => (p.1.val, p.2.val)) = ps.map fun p => (some p.1, some p.2))
    (hb : (1 + u) ^ ps.length * ((ps.map fun p => |p.1 * p.2|).sum + ps.length * (u * tau)) ≤ big) :
    ∃ w, (dot (.ieee rnd big ln exp sq powf) fs).val = some w ∧ |w - (ps.map fun p => p.1 * p.2).sum| ≤
      ((1 + u) ^ ps.length - 1) * (ps.map fun p => |p.1 * p.2|).sum + (1 + u) ^ ps.length * (ps.length * (u * tau)) := by
  have h1 := foldl_dot_val hf hv hb
  obtain ⟨h2, h3⟩ := foldl_round_dot hf (ps.map fun p => p.1 * p.2)
  simp only [List.map_map, Function.comp_def, List.length_map, List.foldl_map] at h2 h3
  refine ⟨_, ?_, h3⟩
  set w := ps.foldl (fun v p => rnd (v + rnd (p.1 * p.2))) 0
  have h4 : rnd (1 * w) = w := by rw [one_mul, hf.fixed _ h2]
  have h5 := Fp.val_mul (rnd := rnd) (big := big) (x := .num 1) (a := 1) rfl h1 (by
    rw [h4]
    have h5 := abs_sum_le (ps.map fun p => p.1 * p.2)
    simp only [List.map_map, Function.comp_def] at h5
    have h6 := abs_add_le (w - (ps.map fun p => p.1 * p.2).sum) (ps.map fun p => p.1 * p.2).sum
    rw [sub_add_cancel] at h6
    refine le_trans ?_ hb
    nlinarith)
  rw [h4] at h5
  exact h5

/-- C82 for `matmul`: an entry whose exact terms are small enough is finite and has the error bound of C77. -/
theorem C82_matmul (hf : IsFormat rep rnd u tau) (tr : Transpose) {a b : Tensor (Fp K)} {A : List Nat} {m k n : Nat}
    {xs ys : List (Fp K)} (ha : Rep a (A ++ flip tr.left m k) xs) (hb : Rep b (A ++ flip tr.right k n) ys) (hfA : Fits A)
    (hfO : Fits (A ++ [n, m])) :
    ∃ t zs, matmulT (FOps.ieee rnd big ln exp sq powf) a b tr = .ok t ∧ Rep t (A ++ [n, m]) zs ∧
      ∀ is i j, (f g : Nat → Fp K) → (p q : Nat → K) → i < m → j < n → (ravel A is).isSome →
        (∀ l, l < k → at? (A ++ flip tr.left m k) xs (is ++ flip tr.left i l) = some (f l) ∧
          at? (A ++ flip tr.right k n) ys (is ++ flip tr.right l j) = some (g l) ∧
          (f l).val = some (p l) ∧ (g l).val = some (q l)) →
        (1 + u) ^ k * ((∑ l ∈ Finset.range k, |p l * q l|) + k * (u * tau)) ≤ big →
        ∃ v w, at? (A ++ [m, n]) zs (is ++ [i, j]) = some v ∧ v.val = some w ∧
          |w - ∑ l ∈ Finset.range k, p l * q l| ≤
            ((1 + u) ^ k - 1) * (∑ l ∈ Finset.range k, |p l * q l|) + (1 + u) ^ k * (k * (u * tau)) := by
  obtain ⟨t, zs, e, ht, h⟩ := C39_matmul_partial (.ieee rnd big ln exp sq powf) tr ha hb rfl hfA hfO
  refine ⟨t, zs, e, ht, ?_⟩
  intro is i j f g p q hi hj hs hfg hbd
  obtain ⟨w, hw, hw'⟩ := dot_val (big := big) ln exp sq powf hf (fs := (List.range k).map fun l => (f l, g l))
    (ps := (List.range k).map fun l => (p l, q l)) (by
      rw [List.map_map, List.map_map]
      refine List.map_congr_left fun l hl => ?_
      obtain ⟨-, -, h1, h2⟩ := hfg l (List.mem_range.1 hl)
      simp [h1, h2]) (by
      rw [List.map_map, List.length_map, List.length_range]
      simpa [Finset.sum_range, ← List.sum_ofFn, List.ofFn_eq_map, Function.comp_def, List.map_ofFn,
        ← List.map_coe_finRange_eq_range] using hbd)
  refine ⟨_, w, h is is i j ((List.range k).map fun l => (f l, g l)) rfl hi hj hs (by simp) ?_, hw, ?_⟩
  · intro l r hr
    rw [List.getElem?_map] at hr
    obtain ⟨l', hl', rfl⟩ := Option.map_eq_some_iff.1 hr
    obtain ⟨hlt, rfl⟩ := List.getElem?_eq_some_iff.1 hl'
    simp only [List.length_range] at hlt
    simpa using ⟨(hfg l hlt).1, (hfg l hlt).2.1⟩
  · rw [List.map_map, List.map_map, List.length_map, List.length_range] at hw'
    simpa [Finset.sum_range, ← List.sum_ofFn, List.ofFn_eq_map, Function.comp_def, List.map_ofFn,
      ← List.map_coe_finRange_eq_range] using hw'

/-! ## Variance -/

/-- Invariant of the variance loop: the mean is finite and between the elements, the sum of squares not negative. -/
theorem foldl_var_val (hf : IsFormat rep rnd u tau) (hbig : rep big) {fs : List (Fp K)} {xs : List K}
    (hv : fs.map Fp.val = xs.map some) (hx : ∀ x ∈ xs, rep x ∧ |x| ≤ big)
    (hd : ∀ x ∈ xs, ∀ y ∈ xs, |rnd (x - y)| ≤ big) (hn : (xs.length : K) ≤ big) :
    let v := fs.foldl (Var.update (.ieee rnd big ln exp sq powf)) (Var.default (.ieee rnd big ln exp sq powf))
    v.k = xs.length ∧ v.s.NonNeg ∧ (xs ≠ [] → ∃ m lo hi, v.m.val = some m ∧ rep m ∧ lo ∈ xs ∧ hi ∈ xs ∧ lo ≤ m ∧ m ≤ hi) := by
  induction xs using List.reverseRecOn generalizing fs with
  | nil =>
    simp only [List.map_nil, List.map_eq_nil_iff] at hv
    subst hv
    exact ⟨rfl, trivial, fun h => absurd rfl h⟩
  | append_singleton xs x ih =>
    obtain ⟨fs, f, rfl⟩ : ∃ gs g, fs = gs ++ [g] := by
      refine ⟨fs.dropLast, fs.getLast ?_, (List.dropLast_append_getLast _).symm⟩
      rintro rfl; simp at hv
    simp only [List.map_append, List.map_cons, List.map_nil] at hv
    obtain ⟨hv1, hv2⟩ := List.append_inj' hv rfl
    simp only [List.cons.injEq, and_true] at hv2
    have hnx : (xs.length : K) ≤ big := by
      refine le_trans ?_ hn
      simp
    obtain ⟨hk, hs, hm⟩ := ih hv1 (fun y hy => hx y (by simp [hy]))
      (fun y hy z hz => hd y (by simp [hy]) z (by simp [hz])) hnx
    obtain ⟨hxr, hxb⟩ := hx x (by simp)
    simp only [List.foldl_append, List.foldl_cons, List.foldl_nil]
    generalize fs.foldl (Var.update (.ieee rnd big ln exp sq powf)) (Var.default (.ieee rnd big ln exp sq powf)) = v at *
    unfold Var.update
    by_cases h0 : v.k = 0
    · rw [if_pos h0]
      refine ⟨?_, trivial, fun _ => ⟨x, x, x, hv2, hxr, by simp, by simp, le_refl _, le_refl _⟩⟩
      rw [List.length_append, ← hk, h0]; rfl
    · rw [if_neg h0]
      have hne : xs ≠ [] := by rintro rfl; exact h0 hk
      obtain ⟨m, lo, hi, hmv, hmr, hlo, hhi, hlm, hmh⟩ := hm hne
      have hk1 : v.k + 1 = (xs ++ [x]).length := by simp [hk]
      obtain ⟨c1, c2, c3⟩ := ofNat_val hf hbig (n := v.k + 1) (by omega) (by rw [hk1]; exact hn)
      have c4 : (2 : K) ≤ rnd ((v.k + 1 : Nat) : K) := by
        have h2 : (2 : K) ≤ ((v.k + 1 : Nat) : K) := by exact_mod_cast (by omega : 2 ≤ v.k + 1)
        have := hf.mono _ _ h2
        rwa [hf.fixed _ hf.two] at this
      obtain ⟨b1, b2⟩ := mean_between hf hxr hmr c4
      simp only [FOps.ieee]
      set c := rnd ((v.k + 1 : Nat) : K)
      -- differences from points between elements do not overflow
      have hbig0 : 0 ≤ big := (abs_nonneg x).trans hxb
      have hdiff : ∀ z, lo ≤ z ∨ x ≤ z → z ≤ hi ∨ z ≤ x → |rnd (x - z)| ≤ big := by
        intro z h1 h2
        refine abs_le.2 ⟨?_, ?_⟩
        · rcases h2 with h2 | h2
          · have a := hf.mono (x - hi) (x - z) (by linarith)
            have b := (abs_le.1 (hd x (by simp) hi (by simp [hhi]))).1
            linarith
          · have := hf.nonneg (x := x - z) (by linarith)
            linarith
        · rcases h1 with h1 | h1
          · have a := hf.mono (x - z) (x - lo) (by linarith)
            have b := (abs_le.1 (hd x (by simp) lo (by simp [hlo]))).2
            linarith
          · have := hf.nonpos (x := x - z) (by linarith)
            linarith
      have hmm : |rnd (x - m)| ≤ big := hdiff m (Or.inl hlm) (Or.inl hmh)
      have hin : ∀ y ∈ xs, -big ≤ y ∧ y ≤ big := fun y hy => abs_le.1 (hx y (by simp [hy])).2
      have d1 := Fp.val_sub hv2 hmv hmm
      have e1 : (Fp.div rnd big (Fp.sub rnd big f v.m) (Fp.pack rnd big false ((v.k + 1 : Nat) : K))).val =
          some (rnd (rnd (x - m) / c)) := by
        refine Fp.val_div d1 c1 (by linarith) (abs_rnd_le hf hbig ?_)
        rw [abs_div, abs_of_nonneg (by linarith : (0 : K) ≤ c)]
        exact (div_le_self (abs_nonneg _) c2).trans hmm
      have hm' : |rnd (m + rnd (rnd (x - m) / c))| ≤ big := by
        refine abs_le.2 ?_
        have h1 := hin lo hlo
        have h2 := hin hi hhi
        have h3 := abs_le.1 hxb
        rcases le_total m x with h | h
        · have := b1 h; exact ⟨by linarith, by linarith⟩
        · have := b2 h; exact ⟨by linarith, by linarith⟩
      have e2 := Fp.val_add hmv e1 hm'
      set m' := rnd (m + rnd (rnd (x - m) / c))
      have d2 := Fp.val_sub hv2 e2 (hdiff m' (by
        rcases le_total m x with h | h
        · exact Or.inl (hlm.trans (b1 h).1)
        · exact Or.inr (b2 h).1) (by
        rcases le_total m x with h | h
        · exact Or.inr (b1 h).2
        · exact Or.inl ((b2 h).2.trans hmh)))
      refine ⟨hk1, Fp.nonneg_add hf.toIsRounding hf.zero hs ?_, fun _ => ?_⟩
      · rw [Fp.mul_eq d1 d2]
        refine Fp.nonneg_pack hf.toIsRounding hf.zero ?_
        rcases le_total m x with h | h
        · exact mul_nonneg (hf.nonneg (by linarith)) (hf.nonneg (by linarith [(b1 h).2]))
        · exact mul_nonneg_of_nonpos_of_nonpos (hf.nonpos (by linarith)) (hf.nonpos (by linarith [(b2 h).1]))
      · rcases le_total m x with h | h
        · exact ⟨m', lo, x, e2, hf.closed _, by simp [hlo], by simp, hlm.trans (b1 h).1, (b1 h).2⟩
        · exact ⟨m', x, hi, e2, hf.closed _, by simp, by simp [hhi], (b2 h).1, (b2 h).2.trans hmh⟩

theorem intoVar_val (hf : IsFormat rep rnd u tau) (hbig : rep big) {fs : List (Fp K)} {xs : List K}
    (hv : fs.map Fp.val = xs.map some) (hx : ∀ x ∈ xs, rep x ∧ |x| ≤ big)
    (hd : ∀ x ∈ xs, ∀ y ∈ xs, |rnd (x - y)| ≤ big) (hn : (xs.length : K) ≤ big) (hsq : ∀ x, 0 ≤ x → 0 ≤ sq x) :
    (Var.intoVar (.ieee rnd big ln exp sq powf) (fs.foldl (Var.update (.ieee rnd big ln exp sq powf))
      (Var.default (.ieee rnd big ln exp sq powf)))).NonNeg ∧
    (Var.intoStd (.ieee rnd big ln exp sq powf) (fs.foldl (Var.update (.ieee rnd big ln exp sq powf))
      (Var.default (.ieee rnd big ln exp sq powf)))).NonNeg := by
  obtain ⟨hk, hs, -⟩ := foldl_var_val ln exp sq powf hf hbig hv hx hd hn
  generalize fs.foldl (Var.update (.ieee rnd big ln exp sq powf)) (Var.default (.ieee rnd big ln exp sq powf)) = v at *
  unfold Var.intoVar Var.intoStd
  by_cases h1 : v.k > 1
  swap
  · rw [if_neg h1, if_neg h1]; exact ⟨trivial, trivial⟩
  rw [if_pos h1, if_pos h1]
  obtain ⟨c1, c2, c3⟩ := ofNat_val hf hbig (n := v.k) (by omega) (by rw [hk]; exact hn)
  have c0 : (0 : K) < rnd (v.k : K) := by linarith
  have key : (Fp.div rnd big v.s (Fp.pack rnd big false (v.k : K))).NonNeg := by
    generalize Fp.pack rnd big false (v.k : K) = c at c1
    cases c <;> simp only [Fp.val, reduceCtorEq, Option.some.injEq] at c1
    · rw [← c1] at c0; exact absurd c0 (lt_irrefl _)
    · next y =>
      subst c1
      have hy : decide (rnd (v.k : K) < 0) = false := decide_eq_false (by linarith)
      generalize v.s = s at hs
      cases s with
      | nan => exact absurd hs (by simp [Fp.NonNeg])
      | inf b => simp only [Fp.NonNeg] at hs; subst hs; simp [Fp.div, Fp.NonNeg, Fp.sign, hy]
      | zero b =>
        refine Fp.nonneg_pack hf.toIsRounding hf.zero ?_
        simp [Fp.val]
      | num s =>
        refine Fp.nonneg_pack hf.toIsRounding hf.zero ?_
        simp only [Fp.val, Option.getD_some]
        exact div_nonneg hs c0.le
  refine ⟨key, ?_⟩
  simp only [FOps.ieee]
  generalize Fp.div rnd big v.s (Fp.pack rnd big false (v.k : K)) = w at key
  cases w with
  | nan => exact key
  | inf b => simp only [Fp.NonNeg] at key; subst key; rfl
  | zero b => trivial
  | num w =>
    have hw : ¬ w < 0 := not_lt.2 key
    simp only [Fp.sqrt, hw, if_false]
    split
    · trivial
    · exact hsq w key

/-- C82: in full IEEE arithmetic the variance and the standard deviation of finite floats are never negative and never
NaN (they may be `+inf`) if no difference of two elements overflows.
Missing for the full property: that condition, see `C82_variance_overflow_violates`. -/
theorem C82_variance_partial (hf : IsFormat rep rnd u tau) (hbig : rep big) (hsq : ∀ x, 0 ≤ x → 0 ≤ sq x)
    {t : Tensor (Fp K)} {ds : List Nat} {fs : List (Fp K)} {xs : List K} (h : Rep t ds fs)
    (hv : fs.map Fp.val = xs.map some) (hx : ∀ x ∈ xs, rep x ∧ |x| ≤ big)
    (hd : ∀ x ∈ xs, ∀ y ∈ xs, |rnd (x - y)| ≤ big) (hn : (xs.length : K) ≤ big) :
    (∃ r v, reduceVariance (.ieee rnd big ln exp sq powf) t = .ok r ∧ Rep r [] [v] ∧ v.NonNeg) ∧
    ∃ r v, reduceStd (.ieee rnd big ln exp sq powf) t = .ok r ∧ Rep r [] [v] ∧ v.NonNeg := by
  obtain ⟨h1, h2⟩ := intoVar_val ln exp sq powf hf hbig hv hx hd hn hsq
  obtain ⟨r, e, hr⟩ := fold_pure h (Var.default (.ieee rnd big ln exp sq powf)) (Var.update (.ieee rnd big ln exp sq powf))
    (Var.intoVar (.ieee rnd big ln exp sq powf))
  obtain ⟨r', e', hr'⟩ := fold_pure h (Var.default (.ieee rnd big ln exp sq powf))
    (Var.update (.ieee rnd big ln exp sq powf)) (Var.intoStd (.ieee rnd big ln exp sq powf))
  exact ⟨⟨r, _, e, hr, h1⟩, r', _, e', hr', h2⟩

theorem add_finite_inf {f : Fp K} {x : K} (hf : f.val = some x) (s : Bool) :
    Fp.add rnd big f (.inf s) = .inf s := by
  cases f <;> simp [Fp.val] at hf <;> rfl

theorem div_inf_pos {c : K} (hc : 0 ≤ c) (s : Bool) : Fp.div rnd big (.inf s) (.num c) = .inf s := by
  have : decide (c < 0) = false := decide_eq_false (not_lt.2 hc)
  simp only [Fp.div, Fp.sign, this, Bool.xor_false]

/-- C82: the variance of two finite floats whose difference overflows, such as the largest and the smallest finite `f32`,
is minus infinity, and their standard deviation is NaN. -/
theorem C82_variance_overflow_violates (hf : IsFormat rep rnd u tau) (hbig : rep big) (h2 : 2 ≤ big)
    {t : Tensor (Fp K)} {ds : List Nat} {f g : Fp K} {x y : K} (h : Rep t ds [f, g]) (hx : f.val = some x)
    (hy : g.val = some y) (hd : big < |rnd (y - x)|) :
    (∃ r, reduceVariance (.ieee rnd big ln exp sq powf) t = .ok r ∧ Rep r [] [.inf true]) ∧
    ∃ r, reduceStd (.ieee rnd big ln exp sq powf) t = .ok r ∧ Rep r [] [.nan] := by
  have hbig0 : 0 ≤ big := by linarith
  have hsub : Fp.sub rnd big g f = .inf (decide (y - x < 0)) := by
    unfold Fp.sub
    rw [Fp.add_eq hy (Fp.val_neg hx), ← sub_eq_add_neg]
    exact Fp.pack_inf hbig0 hd
  obtain ⟨c1, c2, c3⟩ := ofNat_val hf hbig (n := 2) (by omega) (by push_cast; exact h2)
  have hc : Fp.pack rnd big false ((2 : Nat) : K) = .num (rnd ((2 : Nat) : K)) := by
    generalize Fp.pack rnd big false ((2 : Nat) : K) = c at c1
    cases c <;> simp only [Fp.val, reduceCtorEq, Option.some.injEq] at c1
    · rw [← c1] at c2; exact absurd c2 (by norm_num)
    · rw [c1]
  have hdiv : ∀ s, Fp.div rnd big (.inf s) (.num (rnd ((2 : Nat) : K))) = .inf s := div_inf_pos (by linarith)
  have hst : [f, g].foldl (Var.update (.ieee rnd big ln exp sq powf)) (Var.default (.ieee rnd big ln exp sq powf)) =
      ⟨2, .inf (decide (y - x < 0)), .inf true⟩ := by
    simp only [List.foldl_cons, List.foldl_nil, Var.update, Var.default, FOps.ieee, if_true, Nat.reduceAdd, hsub, hc]
    rw [if_neg (by omega)]
    have hm : Fp.add rnd big f (Fp.div rnd big (.inf (decide (y - x < 0))) (.num (rnd ((2 : Nat) : K)))) =
        .inf (decide (y - x < 0)) := by
      rw [hdiv, add_finite_inf hx]
    rw [hm]
    have hs : Fp.sub rnd big g (.inf (decide (y - x < 0))) = .inf (!decide (y - x < 0)) := by
      unfold Fp.sub Fp.neg
      exact add_finite_inf hy _
    rw [hs]
    cases decide (y - x < 0) <;> rfl
  have hvar : Var.intoVar (.ieee rnd big ln exp sq powf) ⟨2, .inf (decide (y - x < 0)), .inf true⟩ = .inf true := by
    simp only [Var.intoVar, FOps.ieee, hc, hdiv]
    rfl
  have hstd : Var.intoStd (.ieee rnd big ln exp sq powf) ⟨2, .inf (decide (y - x < 0)), .inf true⟩ = .nan := by
    simp only [Var.intoStd, FOps.ieee, hc, hdiv]
    rfl
  obtain ⟨r, e, hr⟩ := fold_pure h (Var.default (.ieee rnd big ln exp sq powf)) (Var.update (.ieee rnd big ln exp sq powf))
    (Var.intoVar (.ieee rnd big ln exp sq powf))
  obtain ⟨r', e', hr'⟩ := fold_pure h (Var.default (.ieee rnd big ln exp sq powf))
    (Var.update (.ieee rnd big ln exp sq powf)) (Var.intoStd (.ieee rnd big ln exp sq powf))
  rw [hst, hvar] at hr
  rw [hst, hstd] at hr'
  exact ⟨⟨r, e, hr⟩, r', e', hr'⟩

/-! ## Norms and normalization -/

/-- C82: `reduce_hypot` overflows as soon as one square does, although the norm itself may be far from the largest finite
number. -/
theorem C82_hypot_overflow_violates (hr : IsRounding rep rnd) (h0 : rep 0) (hbig : 0 ≤ big) {t : Tensor (Fp K)}
    {ds : List Nat} {fs : List (Fp K)} {xs : List K} (h : Rep t ds fs) (hv : fs.map Fp.val = xs.map some) {x : K}
    (hx : x ∈ xs) (hb : big < rnd (x * x)) :
    ∃ r, reduceHypot (.ieee rnd big ln exp sq powf) t = .ok r ∧ Rep r [] [.inf false] := by
  obtain ⟨r, e, hr'⟩ := fold_pure h (Fp.zero false) (fun s v => Fp.add rnd big s (Fp.mul rnd big v v)) (Fp.sqrt sq)
  refine ⟨r, e, ?_⟩
  suffices hs : fs.foldl (fun s v => Fp.add rnd big s (Fp.mul rnd big v v)) (.zero false) = .inf false by
    rw [hs] at hr'; exact hr'
  have hmul : ∀ f ∈ fs, (Fp.mul rnd big f f).NonNeg := by
    intro f hf
    have : f.val ∈ xs.map some := by rw [← hv]; exact List.mem_map.2 ⟨f, hf, rfl⟩
    obtain ⟨y, _, hy⟩ := List.mem_map.1 this
    rw [Fp.mul_eq hy.symm hy.symm]
    exact Fp.nonneg_pack hr h0 (mul_self_nonneg y)
  have : some x ∈ fs.map Fp.val := by rw [hv]; exact List.mem_map.2 ⟨x, hx, rfl⟩
  obtain ⟨f, hf, hfx⟩ := List.mem_map.1 this
  have hfm : Fp.mul rnd big f f = .inf false := by
    rw [Fp.mul_eq hfx hfx, Fp.pack_inf hbig (lt_of_lt_of_le hb (le_abs_self _))]
    rw [decide_eq_false (not_lt.2 (mul_self_nonneg x))]
  have := (foldl_nonneg (big := big) (x := .zero false) (xs := fs.map fun f => Fp.mul rnd big f f) hr h0 trivial (by
    intro y hy
    obtain ⟨f, hf, rfl⟩ := List.mem_map.1 hy
    exact hmul f hf)).2 (Or.inr (List.mem_map.2 ⟨f, hf, hfm⟩))
  rw [List.foldl_map] at this
  exact this

theorem key_of_val {f : Fp K} {x : K} (h : f.val = some x) : f.key = some ((x : WithTop K) : WithBot (WithTop K)) := by
  cases f <;> simp [Fp.val] at h <;> subst h <;> rfl

theorem foldl_min_val {gs : List (Fp K)} {xs : List K} (hv : gs.map Fp.val = xs.map some) (hx : ∀ x ∈ xs, |x| ≤ big)
    {lo : K} (hlo : lo ∈ xs) (hl : ∀ x ∈ xs, lo ≤ x) :
    (gs.foldl (fmin (.ieee rnd big ln exp sq powf)) (.num big)).val = some lo := by
  obtain ⟨h1, h2⟩ := foldl_fmin (Fp.order rnd big ln exp sq powf) (.num big) gs
  generalize gs.foldl (fmin (.ieee rnd big ln exp sq powf)) (.num big) = m at *
  have hm : ∃ y, m.val = some y ∧ lo ≤ y := by
    rcases List.mem_cons.1 h1 with rfl | h1
    · exact ⟨big, rfl, (le_abs_self lo).trans (hx lo hlo)⟩
    · have : m.val ∈ xs.map some := by rw [← hv]; exact List.mem_map.2 ⟨m, h1, rfl⟩
      obtain ⟨y, hy, e⟩ := List.mem_map.1 this
      exact ⟨y, e.symm, hl y hy⟩
  obtain ⟨y, hy, hly⟩ := hm
  have : some lo ∈ gs.map Fp.val := by rw [hv]; exact List.mem_map.2 ⟨lo, hlo, rfl⟩
  obtain ⟨g, hg, hgl⟩ := List.mem_map.1 this
  obtain ⟨j, hj, hjk⟩ := h2 g (by simp [hg]) _ (key_of_val hgl)
  rw [key_of_val hy] at hj
  cases hj
  have : y ≤ lo := by simpa using hjk
  rw [hy, le_antisymm this hly]

theorem foldl_max_val {gs : List (Fp K)} {xs : List K} (hv : gs.map Fp.val = xs.map some) (hx : ∀ x ∈ xs, |x| ≤ big)
    {hi : K} (hhi : hi ∈ xs) (hl : ∀ x ∈ xs, x ≤ hi) :
    (gs.foldl (fmax (.ieee rnd big ln exp sq powf)) (.num (-big))).val = some hi := by
  obtain ⟨h1, h2⟩ := foldl_fmax (Fp.order rnd big ln exp sq powf) (.num (-big)) gs
  generalize gs.foldl (fmax (.ieee rnd big ln exp sq powf)) (.num (-big)) = m at *
  have hm : ∃ y, m.val = some y ∧ y ≤ hi := by
    rcases List.mem_cons.1 h1 with rfl | h1
    · exact ⟨-big, rfl, (abs_le.1 (hx hi hhi)).1⟩
    · have : m.val ∈ xs.map some := by rw [← hv]; exact List.mem_map.2 ⟨m, h1, rfl⟩
      obtain ⟨y, hy, e⟩ := List.mem_map.1 this
      exact ⟨y, e.symm, hl y hy⟩
  obtain ⟨y, hy, hly⟩ := hm
  have : some hi ∈ gs.map Fp.val := by rw [hv]; exact List.mem_map.2 ⟨hi, hhi, rfl⟩
  obtain ⟨g, hg, hgl⟩ := List.mem_map.1 this
  obtain ⟨j, hj, hjk⟩ := h2 g (by simp [hg]) _ (key_of_val hgl)
  rw [key_of_val hy] at hj
  cases hj
  have : hi ≤ y := by simpa using hjk
  rw [hy, le_antisymm hly this]

theorem zero_of_val_rnd (hz : rnd 0 = 0) {f g : Fp K} {x : K} (hf : f.val = some x) (hg : g.val = some x) :
    ∃ s, Fp.sub rnd big f g = .zero s := by
  unfold Fp.sub
  rw [Fp.add_eq hf (Fp.val_neg hg), add_neg_cancel]
  unfold Fp.pack
  rw [if_pos hz]
  exact ⟨_, rfl⟩

variable (fs : FStat (Fp K)) (hfs : fs.toFOps = .ieee rnd big ln exp sq powf) (hmax : fs.maxValue = .num big)
  (hmin : fs.minValue = .num (-big))

include hfs hmax hmin

/-- `normalize_unit` of finite values with least value `lo` and greatest value `hi`. -/
theorem normalize_val {t : Tensor (Fp K)} {ds : List Nat} {gs : List (Fp K)} {xs : List K} (h : Rep t ds gs)
    (hv : gs.map Fp.val = xs.map some) (hx : ∀ x ∈ xs, |x| ≤ big) {lo hi : K} (hlo : lo ∈ xs) (hl : ∀ x ∈ xs, lo ≤ x)
    (hhi : hi ∈ xs) (hh : ∀ x ∈ xs, x ≤ hi) :
    ∃ r m M, normalizeUnit fs t = .ok r ∧ m.val = some lo ∧ M.val = some hi ∧
      Rep r ds (gs.map fun g => Fp.div rnd big (Fp.sub rnd big g m) (Fp.sub rnd big M m)) := by
  obtain ⟨r, e, hr⟩ := normalizeUnit_any fs h
  rw [hfs, hmax, hmin] at hr
  exact ⟨r, _, _, e, foldl_min_val ln exp sq powf hv hx hlo hl, foldl_max_val ln exp sq powf hv hx hhi hh, hr⟩

/-- C82: `normalize_unit` of a tensor whose elements are all the same finite number is NaN everywhere. -/
theorem C82_normalize_constant_violates (hz : rnd 0 = 0) {t : Tensor (Fp K)} {ds : List Nat} {n : Nat} {f : Fp K} {x : K}
    (h : Rep t ds (List.replicate n f)) (hf : f.val = some x) (hx : |x| ≤ big) :
    ∃ r, normalizeUnit fs t = .ok r ∧ Rep r ds (List.replicate n .nan) := by
  cases n with
  | zero =>
    obtain ⟨r, e, hr⟩ := normalizeUnit_any fs h
    exact ⟨r, e, by simpa using hr⟩
  | succ n =>
    obtain ⟨r, m, M, e, hm, hM, hr⟩ := normalize_val ln exp sq powf fs hfs hmax hmin h
      (xs := List.replicate (n + 1) x) (by simp [hf]) (by intro y hy; rw [List.eq_of_mem_replicate hy]; exact hx)
      (lo := x) (hi := x) (by simp) (by intro y hy; rw [List.eq_of_mem_replicate hy]) (by simp)
      (by intro y hy; rw [List.eq_of_mem_replicate hy])
    refine ⟨r, e, ?_⟩
    obtain ⟨s, hs⟩ := zero_of_val_rnd (rnd := rnd) (big := big) hz hf hm
    obtain ⟨s', hs'⟩ := zero_of_val_rnd (rnd := rnd) (big := big) hz hM hm
    rw [List.map_replicate, hs, hs'] at hr
    exact hr

/-- C82: if the difference of the greatest and the least element overflows, `normalize_unit` turns the greatest into NaN
(and every element whose difference from the least does not overflow into zero). -/
theorem C82_normalize_overflow_violates (hbig : 0 ≤ big) {t : Tensor (Fp K)} {ds : List Nat} {gs : List (Fp K)}
    {xs : List K} (h : Rep t ds gs) (hv : gs.map Fp.val = xs.map some) (hx : ∀ x ∈ xs, |x| ≤ big) {lo hi : K}
    (hlo : lo ∈ xs) (hl : ∀ x ∈ xs, lo ≤ x) (hhi : hi ∈ xs) (hh : ∀ x ∈ xs, x ≤ hi) (hd : big < |rnd (hi - lo)|) :
    ∃ r vs, normalizeUnit fs t = .ok r ∧ Rep r ds vs ∧
      ∀ (i : Nat) x v, xs[i]? = some x → vs[i]? = some v →
        (x = hi → v = .nan) ∧ (|rnd (x - lo)| ≤ big → v.val = some 0) := by
  obtain ⟨r, m, M, e, hm, hM, hr⟩ := normalize_val ln exp sq powf fs hfs hmax hmin h hv hx hlo hl hhi hh
  refine ⟨r, _, e, hr, ?_⟩
  intro i x v hxi hvi
  rw [List.getElem?_map] at hvi
  obtain ⟨g, hg, rfl⟩ := Option.map_eq_some_iff.1 hvi
  have hgx : g.val = some x := by
    have := congrArg (·[i]?) hv
    simp only [List.getElem?_map, hg, hxi, Option.map_some, Option.some.injEq] at this
    exact this
  have hinf : ∀ f : Fp K, f.val = some hi → ∃ s, Fp.sub rnd big f m = .inf s := by
    intro f hf
    unfold Fp.sub
    rw [Fp.add_eq hf (Fp.val_neg hm), ← sub_eq_add_neg]
    exact ⟨_, Fp.pack_inf hbig hd⟩
  obtain ⟨s, hs⟩ := hinf M hM
  rw [hs]
  constructor
  · rintro rfl
    obtain ⟨s', hs'⟩ := hinf g hgx
    rw [hs']; rfl
  · intro hfin
    have := Fp.val_sub hgx hm hfin
    generalize Fp.sub rnd big g m = q at this
    cases q <;> simp [Fp.val] at this <;> rfl

end ieee

/-! ## NaN that is lost -/

/-- C82: variance and standard deviation of a single NaN are zero. -/
theorem C82_nan_single_violates (fo : FOps F) {t : Tensor F} {ds : List Nat} {x : F} (h : Rep t ds [x]) :
    (∃ r, reduceVariance fo t = .ok r ∧ Rep r [] [fo.zero]) ∧ ∃ r, reduceStd fo t = .ok r ∧ Rep r [] [fo.zero] := by
  obtain ⟨r, e, hr⟩ := fold_pure h (Var.default fo) (Var.update fo) (Var.intoVar fo)
  obtain ⟨r', e', hr'⟩ := fold_pure h (Var.default fo) (Var.update fo) (Var.intoStd fo)
  exact ⟨⟨r, e, hr⟩, r', e', hr'⟩

section histogram

variable {K : Type} [Field K] [LinearOrder K] [IsStrictOrderedRing K] {rnd : K → K} {big : K}
variable (ln exp : Fp K → Fp K) (sq : K → K) (powf : Fp K → Fp K → Fp K)

theorem iterate_val {N : Nat} (hr : ∀ k : Nat, k ≤ N → rnd (k : K) = k) (hb : (N : K) ≤ big) (c : Nat) (hc : c ≤ N) :
    ((fun v => Fp.add rnd big v (.num 1))^[c] (.zero false)).val = some (c : K) := by
  induction c with
  | zero => simp [Fp.val]
  | succ c ih =>
    rw [Function.iterate_succ_apply']
    have h1 : rnd ((c : K) + 1) = ((c + 1 : Nat) : K) := by
      have := hr (c + 1) hc
      push_cast at this ⊢
      exact this
    have h2 : |rnd ((c : K) + 1)| ≤ big := by
      rw [h1, abs_of_nonneg (Nat.cast_nonneg _)]
      exact le_trans (by exact_mod_cast hc) hb
    rw [Fp.val_add (ih (by omega)) (y := .num 1) (b := 1) rfl h2, h1]

theorem fold_nan (f : Fp K → Fp K → Fp K) (hf : ∀ x y, f x y = x ∨ f x y = y) {n : Nat} :
    (List.replicate n Fp.nan).foldl f .nan = .nan := by
  induction n with
  | zero => rfl
  | succ n ih =>
    rw [List.replicate_succ, List.foldl_cons]
    rcases hf .nan .nan with h | h <;> rw [h] <;> exact ih

/-- C82: with a NaN among the samples, `histogram` counts it in the first bin. (A user would expect NaN to be
rejected or left out.) A vector of NaN only is rejected. -/
theorem C82_histogram_nan_violates (fs : FStat (Fp K)) (hfs : fs.toFOps = .ieee rnd big ln exp sq powf)
    (hnan : fs.floorUsize .nan = 0) {data : Tensor (Fp K)} {xs : List (Fp K)} {n : Nat} (h : Rep data [xs.length] xs)
    (hn : 0 < n) (hn2 : n + 1 < 2 ^ 32) (hr : ∀ k : Nat, k ≤ xs.length → rnd (k : K) = k) (hb : (xs.length : K) ≤ big) :
    ((∃ x ∈ xs, x ≠ .nan) → ∃ t e cs es, ∃ bin : Fp K → Nat, histogram fs data n = .ok (t, e) ∧ Rep t [n] cs ∧
      Rep e [n + 1] es ∧ (∀ x, bin x < n) ∧ bin .nan = 0 ∧
      ∀ i, i < n → ∃ c, cs[i]? = some c ∧ c.val = some ((xs.countP fun x => bin x = i : Nat) : K)) ∧
    ((∀ x ∈ xs, x = .nan) → histogram fs data n = .error .panic) := by
  have ho : IsFloatOrder fs.toFOps (Fp.key (K := K)) := by rw [hfs]; exact Fp.order ..
  constructor
  · rintro ⟨y, hy, hyn⟩
    obtain ⟨x, xs, rfl⟩ := List.exists_cons_of_ne_nil (List.ne_nil_of_mem hy)
    have hky : ∃ k, y.key = some k := by
      rw [← Option.isSome_iff_exists, Option.isSome_iff_ne_none]
      exact fun hc => hyn (Fp.key_eq_none.1 hc)
    obtain ⟨k, hk⟩ := hky
    obtain ⟨j, hj, h1⟩ := (foldl_fmin ho x xs).2 y hy k hk
    obtain ⟨j', hj', h2⟩ := (foldl_fmax ho x xs).2 y hy k hk
    obtain ⟨t, e, cs, es, e1, ht, he, -, hc⟩ := histogram_eq fs h hn hn2 (by
      have : fs.le = (FOps.ieee rnd big ln exp sq powf).le := by rw [hfs]
      rw [this]
      exact Fp.cmp_iff.2 ⟨j, j', hj, hj', by simpa using h1.trans h2⟩)
    refine ⟨t, e, cs, es, binOf fs (xs.foldl (fmin fs.toFOps) x)
      (binWidth fs (xs.foldl (fmin fs.toFOps) x) (xs.foldl (fmax fs.toFOps) x) n) n, e1, ht, he,
      fun x => binOf_lt _ _ _ hn x, ?_, fun i hi => ⟨_, hc i hi, ?_⟩⟩
    · have : ∀ a b, fs.div (fs.sub .nan a) b = .nan := by intro a b; rw [hfs]; simp [FOps.ieee]
      unfold binOf
      rw [this, hnan, if_pos hn]
    · have e1 : fs.zero = .zero false := by rw [hfs]; rfl
      have e2 : (fun v => fs.add v fs.one) = fun v => Fp.add rnd big v (.num 1) := by rw [hfs]; rfl
      rw [e1, e2]
      exact iterate_val hr hb _ List.countP_le_length
  · intro hall
    obtain ⟨m, rfl⟩ : ∃ m, xs = List.replicate m .nan := ⟨xs.length, List.eq_replicate_iff.2 ⟨rfl, hall⟩⟩
    cases m with
    | zero => exact C45_rejects fs h (by simp)
    | succ m =>
      rw [List.length_replicate] at h
      rw [List.replicate_succ] at h
      obtain ⟨u, e1, hu⟩ := reduce_pure h (fmin fs.toFOps)
      obtain ⟨u', e2, hu'⟩ := reduce_pure h (fmax fs.toFOps)
      rw [fold_nan _ (fmin_cases _)] at hu
      rw [fold_nan _ (fmax_cases _)] at hu'
      obtain ⟨a, e3, ha⟩ := C06_from_scalar (Fp.nan (K := K))
      have e5 := C35_rejects fs.toFOps (len := n + 1) ha ha (by omega) (by
        rintro ⟨-, -, -, h4, -⟩
        have := h4 0 .nan .nan rfl rfl
        rw [hfs] at this
        simp [FOps.ieee, Fp.cmp, Fp.key] at this)
      unfold histogram reduceMin reduceMax
      rw [ensure_true hn, ok_bind, ensure_true (by rw [h.rank]; rfl), ok_bind, e1, ok_bind, index1_eq hu]
      dsimp only [List.getElem?_cons_zero]
      rw [ok_bind, e2, ok_bind, index1_eq hu']
      dsimp only [List.getElem?_cons_zero]
      rw [ok_bind, e3, ok_bind, ok_bind, e5, error_bind]

/-- `normalize_unit` with NaN elements: they stay NaN, and the others are scaled as if they were not there. -/
theorem C82_normalize_nan (fs : FStat (Fp K)) (hfs : fs.toFOps = .ieee rnd big ln exp sq powf)
    (hmax : fs.maxValue ≠ .nan) (hmin : fs.minValue ≠ .nan) {t t' : Tensor (Fp K)} {ds ds' : List Nat}
    {xs : List (Fp K)} (h : Rep t ds xs) (h' : Rep t' ds' (xs.filter fun x => decide (x ≠ .nan))) :
    ∃ r r', ∃ f : Fp K → Fp K, normalizeUnit fs t = .ok r ∧ normalizeUnit fs t' = .ok r' ∧ Rep r ds (xs.map f) ∧
      Rep r' ds' ((xs.filter fun x => decide (x ≠ .nan)).map f) ∧ f .nan = .nan := by
  have ho : IsFloatOrder fs.toFOps (Fp.key (K := K)) := by rw [hfs]; exact Fp.order ..
  have hn : ∀ x, isNan fs.toFOps x = true ↔ x = .nan := fun x => (isNan_iff ho x).trans Fp.key_eq_none
  have key : ∀ f : Fp K → Fp K → Fp K, (∀ a, a ≠ .nan → f a .nan = a) → (∀ a b, f a b = a ∨ f a b = b) →
      ∀ (xs : List (Fp K)) a, a ≠ .nan → xs.foldl f a = (xs.filter fun x => decide (x ≠ .nan)).foldl f a := by
    intro f h1 h2 xs
    induction xs with
    | nil => intro a _; rfl
    | cons x xs ih =>
      intro a ha
      by_cases hx : x = .nan
      · subst hx
        rw [List.foldl_cons, h1 a ha, ih a ha]
        simp
      · rw [List.foldl_cons, List.filter_cons_of_pos (by simpa using hx), List.foldl_cons]
        refine ih _ ?_
        rcases h2 a x with h | h <;> rw [h] <;> assumption
  have k1 := key (fmin fs.toFOps) (by
    intro a ha
    unfold fmin
    rw [if_neg (fun hc => ha ((hn a).1 hc)), if_pos ((hn _).2 rfl)]) (fmin_cases _) xs _ hmax
  have k2 := key (fmax fs.toFOps) (by
    intro a ha
    unfold fmax
    rw [if_neg (fun hc => ha ((hn a).1 hc)), if_pos ((hn _).2 rfl)]) (fmax_cases _) xs _ hmin
  obtain ⟨r, e, hr⟩ := normalizeUnit_any fs h
  obtain ⟨r', e', hr'⟩ := normalizeUnit_any fs h'
  rw [← k1, ← k2] at hr'
  refine ⟨r, r', _, e, e', hr, hr', ?_⟩
  rw [hfs]; simp [FOps.ieee]

end histogram

/-! ### Examples -/

namespace Special

/-- The largest finite `f32`. -/
def max32 : ℚ := (2 ^ 24 - 1) * 2 ^ 104

theorem rep_max32 : Ieee.Representable 24 (-149) max32 :=
  ⟨2 ^ 24 - 1, 104, by norm_num, by norm_num, by norm_num [max32]⟩

/-- `f32` arithmetic (the square root is only named). -/
def f32 (sq : ℚ → ℚ) : FOps (Fp ℚ) := .ieee Ieee.f32 max32 id id sq fun x _ => x

/-- The values met in this file are values of `f32`; doubling the largest one overflows. -/
theorem f32_double : max32 < |Ieee.f32 (-max32 - max32)| := by
  have : Ieee.f32 (-max32 - max32) = -max32 - max32 :=
    Ieee.f32_isFormat.fixed _ ⟨-(2 ^ 24 - 1), 105, by norm_num, by norm_num, by norm_num [max32]⟩
  rw [this]
  norm_num [max32]

/-- The variance of the largest and the smallest finite `f32` is minus infinity, the standard deviation NaN. -/
example (sq : ℚ → ℚ) {t : Tensor (Fp ℚ)} (h : Rep t [2] [.num max32, .num (-max32)]) :
    (∃ r, reduceVariance (f32 sq) t = .ok r ∧ Rep r [] [.inf true]) ∧
    ∃ r, reduceStd (f32 sq) t = .ok r ∧ Rep r [] [.nan] :=
  C82_variance_overflow_violates id id sq (fun x _ => x) Ieee.f32_isFormat rep_max32 (by norm_num [max32]) h rfl rfl
    f32_double

/-- The sum of a vector with a NaN is NaN. -/
example (sq : ℚ → ℚ) {t : Tensor (Fp ℚ)} (h : Rep t [3] [.num 1, .nan, .inf true]) :
    ∃ r v, reduceOp (fun x y => .ok ((f32 sq).add x y)) t = .ok r ∧ Rep r [] [v] ∧ v = .nan :=
  (C82_nan_whole (ieee_absorbs Ieee.f32 max32 id id sq fun x _ => x) h ⟨.nan, by simp, rfl⟩).1

/-- The sum of three finite `f32` far below the largest one is finite, with the usual error bound. -/
example (sq : ℚ → ℚ) {t : Tensor (Fp ℚ)} (h : Rep t [3] [.num 1, .zero true, .num (-3)]) :
    ∃ r v w, reduceOp (fun x y => .ok ((f32 sq).add x y)) t = .ok r ∧ Rep r [] [v] ∧ v.val = some w ∧
      |w - ([1, 0, -3] : List ℚ).sum| ≤
        ((1 + 2 ^ (-24 : Int)) ^ 2 - 1) * (([1, 0, -3] : List ℚ).map fun x => |x|).sum :=
  C82_sum id id sq (fun x _ => x) Ieee.f32_isFormat h (by simp) (by simp [Fp.val]) (by
    intro x hx
    simp only [List.mem_cons, List.not_mem_nil, or_false] at hx
    rcases hx with rfl | rfl | rfl
    · exact Ieee.f32_isFormat.one
    · exact Ieee.f32_isFormat.zero
    · exact ⟨-3, 0, by norm_num, by norm_num, by norm_num⟩) (by norm_num [max32])

/-- The norm of a vector with an element above the root of the largest `f32` overflows: its square does. -/
example : max32 < Ieee.f32 ((2 : ℚ) ^ 64 * 2 ^ 64) := by
  have : Ieee.f32 ((2 : ℚ) ^ 64 * 2 ^ 64) = 2 ^ 128 :=
    Ieee.f32_isFormat.fixed _ ⟨1, 128, by norm_num, by norm_num, by norm_num⟩ |>.trans (by norm_num)
  rw [this]
  norm_num [max32]

/-- `normalize_unit` of a vector of equal numbers. -/
example (sq : ℚ → ℚ) (fs : FStat (Fp ℚ)) (hfs : fs.toFOps = f32 sq) (h1 : fs.maxValue = .num max32)
    (h2 : fs.minValue = .num (-max32)) {t : Tensor (Fp ℚ)} (h : Rep t [3] (List.replicate 3 (.num 5))) :
    ∃ r, normalizeUnit fs t = .ok r ∧ Rep r [3] [.nan, .nan, .nan] :=
  C82_normalize_constant_violates id id sq (fun x _ => x) fs hfs h1 h2 Ieee.f32_isFormat.zero_eq h rfl
    (by norm_num [max32])

/-- Tensors of such values exist. -/
example : ∃ t : Tensor (Fp ℚ), Rep t [3] [.num 1, .nan, .inf true] :=
  ⟨_, rep_fresh ⟨by simp, by simp⟩ (fits_of_pos (by simp) (by simp)) rfl⟩

/-- A tensor as the crate makes it. -/
theorem rep2 {α : Type} (m n : Nat) (xs : List α) (h : xs.length = m * n) (hn : 0 < m * n) (hl : m * n < 2 ^ 32) :
    Rep (⟨ofDims [m, n], 0, xs.length, xs⟩ : Tensor α) [m, n] xs := by
  have h1 := Nat.le_mul_of_pos_right m (Nat.pos_of_mul_pos_left hn)
  have h2 := Nat.le_mul_of_pos_left n (Nat.pos_of_mul_pos_right hn)
  exact rep_fresh ⟨by simp, by simp; omega⟩ (fits_of_pos (by simpa using hn) (by simpa using hl)) (by simpa using h)

/-- Row 0 of `[[1, NaN], [2, 3]]` has a NaN. -/
example (sq : ℚ → ℚ) : ∃ lanes, IsLanes [2] 2 [] [Fp.num (1 : ℚ), .nan, .num 2, .num 3] lanes ∧
    ∃ r vs, reduceOpAxis (fun x y => .ok ((f32 sq).add x y)) ⟨ofDims [2, 2], 0, 4, [.num 1, .nan, .num 2, .num 3]⟩ (some 1) =
        .ok r ∧ Rep r [2] vs ∧ List.Forall₂ (fun l v => (∃ x ∈ l, x = .nan) → v = .nan) lanes vs := by
  obtain ⟨lanes, h, h1, -⟩ := C82_nan_axis (ieee_absorbs Ieee.f32 max32 id id sq fun x _ => x) (pre := [2]) (post := [])
    (rep2 2 2 [.num 1, .nan, .num 2, .num 3] rfl (by decide) (by decide)) (by simp) (a := 1) (by decide)
  exact ⟨lanes, h, h1⟩

example (sq : ℚ → ℚ) : ∃ t zs, matmulT (.naive (f32 sq)) ⟨ofDims [2, 2], 0, 4, [.num 1, .nan, .num 2, .num 3]⟩
    ⟨ofDims [2, 2], 0, 4, [.num 1, .zero false, .num 2, .num 3]⟩ .none = .ok t ∧ Rep t [2, 2] zs ∧
    ∃ v, at? [2, 2] zs [0, 0] = some v ∧ v = .nan := by
  obtain ⟨t, zs, h1, h2, h3⟩ := C82_nan_matmul (ieee_absorbs Ieee.f32 max32 id id sq fun x _ => x) .none (A := []) (m := 2)
    (k := 2) (n := 2) (rep2 2 2 [.num 1, .nan, .num 2, .num 3] rfl (by decide) (by decide))
    (rep2 2 2 [.num 1, .zero false, .num 2, .num 3] rfl (by decide) (by decide)) fits_nil (fits_of_pos (by simp) (by simp))
  exact ⟨t, zs, h1, h2, h3 [] 0 0 1 .nan (.num 2) (by simp) (by simp) (by simp) rfl rfl rfl (.inl rfl)⟩

example (sq : ℚ → ℚ) : ∃ t zs, matvecT (.naive (f32 sq)) ⟨ofDims [2, 2], 0, 4, [.num 1, .nan, .num 2, .num 3]⟩
    ⟨ofDims [1, 2], 0, 2, [.num 1, .zero false]⟩ .none = .ok t ∧ Rep t [1, 2] zs ∧
    ∃ v, at? [1, 2] zs [0, 0] = some v ∧ v = .nan := by
  obtain ⟨t, zs, h1, h2, h3⟩ := C82_nan_matvec (ieee_absorbs Ieee.f32 max32 id id sq fun x _ => x) (tr := .none) (.inl rfl)
    (P := []) (A := []) (R := [1]) (m := 2) (k := 2) (rep2 2 2 [.num 1, .nan, .num 2, .num 3] rfl (by decide) (by decide))
    (rep2 1 2 [.num 1, .zero false] rfl (by decide) (by decide)) (by simp) (by simp) (by simp)
    (fits_of_pos (by simp) (by simp))
  exact ⟨t, zs, h1, h2, h3 [] [] [0] 0 1 (.zero false) .nan rfl rfl rfl (by simp) (by simp) rfl rfl (.inr rfl)⟩

example (sq : ℚ → ℚ) {t : Tensor (Fp ℚ)} (h : Rep t [3] [.nan, .num 1, .inf true]) :
    ∃ r v, reduceMin (f32 sq) t = .ok r ∧ Rep r [] [v] ∧ v ∈ [Fp.nan, .num 1, .inf true] ∧ v ≠ .nan := by
  obtain ⟨r, v, h1, h2, h3, h4⟩ := (C82_min_max (rnd := Ieee.f32) (big := max32) id id sq (fun x _ => x) h (by simp)).1
  exact ⟨r, v, h1, h2, h3, (h4 (.num 1) (by simp) (by simp)).1⟩

example (sq : ℚ → ℚ) {t : Tensor (Fp ℚ)} (h : Rep t [3] [.num 1, .inf false, .zero true]) :
    ∃ r, reduceOp (fun x y => .ok ((f32 sq).add x y)) t = .ok r ∧ Rep r [] [.inf false] := by
  obtain ⟨r, v, h1, h2, -, h3⟩ := C82_sum_nonneg (big := max32) id id sq (fun x _ => x) Ieee.f32_isFormat.toIsRounding
    Ieee.f32_isFormat.zero h (by simp) (by simp [Fp.NonNeg])
  exact ⟨r, h1, h3 (by simp) ▸ h2⟩

theorem rep32_one_three : ∀ x ∈ ([1, 0, -3] : List ℚ), Ieee.Representable 24 (-149) x := by
  intro x hx
  simp only [List.mem_cons, List.not_mem_nil, or_false] at hx
  rcases hx with rfl | rfl | rfl
  · exact Ieee.f32_isFormat.one
  · exact Ieee.f32_isFormat.zero
  · exact ⟨-3, 0, by norm_num, by norm_num, by norm_num⟩

example (sq : ℚ → ℚ) {t : Tensor (Fp ℚ)} (h : Rep t [3] [.num 1, .zero true, .num (-3)]) :
    ∃ r v w, reduceMean (f32 sq) t = .ok r ∧ Rep r [] [v] ∧ v.val = some w ∧ |w - mean [1, 0, -3]| ≤ 1 / 1000000 := by
  obtain ⟨r, v, w, h1, h2, h3, h4⟩ := C82_mean id id sq (fun x _ => x) Ieee.f32_isFormat rep_max32 h (by simp)
    (xs := [1, 0, -3]) (by simp [Fp.val]) rep32_one_three (Ieee.round_nat (by norm_num) (by norm_num) (by norm_num))
    (by norm_num [max32]) (by norm_num [max32])
  exact ⟨r, v, w, h1, h2, h3, h4.trans (by norm_num)⟩

example (sq : ℚ → ℚ) : ∃ t zs, matmulT (.naive (f32 sq)) ⟨ofDims [1, 2], 0, 2, [.num 1, .num 3]⟩
    ⟨ofDims [2, 1], 0, 2, [.num 5, .zero true]⟩ .none = .ok t ∧ Rep t [1, 1] zs ∧
    ∃ v w, at? [1, 1] zs [0, 0] = some v ∧ v.val = some w ∧ |w - 5| ≤ 1 / 1000000 := by
  obtain ⟨t, zs, h1, h2, h3⟩ := C82_matmul (big := max32) id id sq (fun x _ => x) Ieee.f32_isFormat .none (A := []) (m := 1)
    (k := 2) (n := 1) (rep2 1 2 [.num 1, .num 3] rfl (by decide) (by decide))
    (rep2 2 1 [.num 5, .zero true] rfl (by decide) (by decide)) fits_nil (fits_of_pos (by simp) (by simp))
  obtain ⟨v, w, h4, h5, h6⟩ := h3 [] 0 0 (fun l => if l = 0 then .num 1 else .num 3)
    (fun l => if l = 0 then .num 5 else .zero true) (fun l => if l = 0 then 1 else 3) (fun l => if l = 0 then 5 else 0)
    (by simp) (by simp) rfl (fun l hl => by
      match l with
      | 0 => exact ⟨rfl, rfl, rfl, rfl⟩
      | 1 => exact ⟨rfl, rfl, rfl, rfl⟩) (by simp [Finset.sum_range_succ]; norm_num [max32])
  refine ⟨t, zs, h1, h2, v, w, h4, h5, ?_⟩
  simp [Finset.sum_range_succ] at h6
  exact h6.trans (by norm_num)

example (sq : ℚ → ℚ) (hsq : ∀ x, 0 ≤ x → 0 ≤ sq x) {t : Tensor (Fp ℚ)} (h : Rep t [3] [.num 1, .zero true, .num (-3)]) :
    ∃ r v, reduceVariance (f32 sq) t = .ok r ∧ Rep r [] [v] ∧ v.NonNeg :=
  (C82_variance_partial id id sq (fun x _ => x) Ieee.f32_isFormat rep_max32 hsq h (xs := [1, 0, -3]) (by simp [Fp.val])
    (fun x hx => ⟨rep32_one_three x hx, by
      simp only [List.mem_cons, List.not_mem_nil, or_false] at hx
      rcases hx with rfl | rfl | rfl <;> norm_num [max32]⟩)
    (fun x hx y hy => by
      obtain ⟨n, hn, e⟩ : ∃ n : Int, |n| ≤ 4 ∧ x - y = n := by
        simp only [List.mem_cons, List.not_mem_nil, or_false] at hx hy
        rcases hx with rfl | rfl | rfl <;> rcases hy with rfl | rfl | rfl
        exacts [⟨0, by norm_num, by norm_num⟩, ⟨1, by norm_num, by norm_num⟩, ⟨4, by norm_num, by norm_num⟩,
          ⟨-1, by norm_num, by norm_num⟩, ⟨0, by norm_num, by norm_num⟩, ⟨3, by norm_num, by norm_num⟩,
          ⟨-4, by norm_num, by norm_num⟩, ⟨-3, by norm_num, by norm_num⟩, ⟨0, by norm_num, by norm_num⟩]
      rw [Ieee.f32_isFormat.fixed _ ⟨n, 0, hn.trans_lt (by norm_num), by norm_num, by simpa using e⟩, e]
      have : |(n : ℚ)| ≤ 4 := by exact_mod_cast hn
      exact this.trans (by norm_num [max32])) (by norm_num [max32])).1

example (sq : ℚ → ℚ) {t : Tensor (Fp ℚ)} (h : Rep t [2] [.num (2 ^ 64), .zero false]) :
    ∃ r, reduceHypot (f32 sq) t = .ok r ∧ Rep r [] [.inf false] :=
  C82_hypot_overflow_violates id id sq (fun x _ => x) Ieee.f32_isFormat.toIsRounding Ieee.f32_isFormat.zero
    (by norm_num [max32]) h (xs := [2 ^ 64, 0]) (by simp [Fp.val]) (x := 2 ^ 64) (by simp) (by
      have : Ieee.f32 ((2 : ℚ) ^ 64 * 2 ^ 64) = 2 ^ 128 :=
        Ieee.f32_isFormat.fixed _ ⟨1, 128, by norm_num, by norm_num, by norm_num⟩ |>.trans (by norm_num)
      rw [this]
      norm_num [max32])

example (sq : ℚ → ℚ) (fs : FStat (Fp ℚ)) (hfs : fs.toFOps = f32 sq) (h1 : fs.maxValue = .num max32)
    (h2 : fs.minValue = .num (-max32)) {t : Tensor (Fp ℚ)} (h : Rep t [2] [.num (-max32), .num max32]) :
    ∃ r vs, normalizeUnit fs t = .ok r ∧ Rep r [2] vs ∧ ∀ v, vs[1]? = some v → v = .nan := by
  obtain ⟨r, vs, h3, h4, h5⟩ := C82_normalize_overflow_violates id id sq (fun x _ => x) fs hfs h1 h2 (by norm_num [max32]) h
    (xs := [-max32, max32]) rfl (by simp [max32]; norm_num) (lo := -max32) (hi := max32) (by simp)
    (by simp [max32]; norm_num) (by simp) (by simp [max32]; norm_num) (by
      have : Ieee.f32 (max32 - -max32) = max32 - -max32 :=
        Ieee.f32_isFormat.fixed _ ⟨2 ^ 24 - 1, 105, by norm_num, by norm_num, by norm_num [max32]⟩
      rw [this]
      norm_num [max32])
  exact ⟨r, vs, h3, h4, fun v hv => (h5 1 max32 v rfl hv).1 rfl⟩

/-- One NaN has variance 0. -/
example (sq : ℚ → ℚ) {t : Tensor (Fp ℚ)} (h : Rep t [1] [.nan]) :
    ∃ r, reduceVariance (f32 sq) t = .ok r ∧ Rep r [] [.zero false] := (C82_nan_single_violates (f32 sq) h).1

example (sq : ℚ → ℚ) (fs : FStat (Fp ℚ)) (hfs : fs.toFOps = f32 sq) (hnan : fs.floorUsize .nan = 0) {t : Tensor (Fp ℚ)}
    (h : Rep t [3] [.nan, .num 1, .num 2]) :
    ∃ t' e cs es, ∃ bin : Fp ℚ → Nat, histogram fs t 4 = .ok (t', e) ∧ Rep t' [4] cs ∧ Rep e [5] es ∧ (∀ x, bin x < 4) ∧
      bin .nan = 0 ∧ ∀ i, i < 4 → ∃ c, cs[i]? = some c ∧
        c.val = some (([Fp.nan, .num 1, .num 2].countP fun x => bin x = i : Nat) : ℚ) :=
  (C82_histogram_nan_violates id id sq (fun x _ => x) fs hfs hnan (xs := [.nan, .num 1, .num 2]) (n := 4) h (by simp) (by simp)
    (fun k hk => Ieee.round_nat (hk.trans (by simp)) (by norm_num) (by norm_num)) (by norm_num [max32])).1
    ⟨.num 1, by simp, by simp⟩

example (sq : ℚ → ℚ) (fs : FStat (Fp ℚ)) (hfs : fs.toFOps = f32 sq) (h1 : fs.maxValue = .num max32)
    (h2 : fs.minValue = .num (-max32)) {t t' : Tensor (Fp ℚ)} (h : Rep t [3] [.nan, .num 1, .num 2])
    (h' : Rep t' [2] [.num 1, .num 2]) :
    ∃ r r', ∃ f : Fp ℚ → Fp ℚ, normalizeUnit fs t = .ok r ∧ normalizeUnit fs t' = .ok r' ∧
      Rep r [3] [f .nan, f (.num 1), f (.num 2)] ∧ Rep r' [2] [f (.num 1), f (.num 2)] ∧ f .nan = .nan :=
  C82_normalize_nan id id sq (fun x _ => x) fs hfs (by simp [h1]) (by simp [h2]) h (ds' := [2]) h'

end Special

end Essay
