import Mathlib.Tactic.FieldSimp
import Mathlib.Tactic.LinearCombination
import Verif.Spec.Stats
import Verif.Props.Map
import Verif.Props.Fold

/-!
# Helper lemmas for statistics
-/

namespace Essay

open Shape

variable {F K T U V S : Type}

/-- An operation that behaves as a computation without effects. -/
theorem runPure_pure {x : Exec Unit (Tensor V)} {ys : List V} {ds : List Nat} (h : Yields x (pure ys) ds) :
    ∃ t, Tensor.runPure x = .ok t ∧ Rep t ds ys := by
  obtain ⟨t, e, hr⟩ := h ()
  exact ⟨t, by simp only [Tensor.runPure, e, ok_bind]; rfl, hr⟩

theorem runPure_panic {x : Exec Unit (Tensor V)} {y : Exec Unit (List V)} {ds : List Nat} (h : Yields x y ds)
    (hy : y.run () = .error .panic) : Tensor.runPure x = .error .panic := by
  have := h ()
  rw [hy] at this
  simp only [Tensor.runPure, this, error_bind]

theorem IsLanes.length_of_mem {pre post : List Nat} {d : Nat} {xs : List T} {lanes : List (List T)}
    (h : IsLanes pre d post xs lanes) : ∀ l ∈ lanes, l.length = d := by
  intro l hl
  obtain ⟨p, hp⟩ := List.getElem?_of_mem hl
  have hlt : p < (pre ++ post).prod := by rw [← h.1]; exact (List.getElem?_eq_some_iff.1 hp).1
  obtain ⟨is, his⟩ := ravel_surj _ hlt
  have hlen := ravel_length his
  obtain ⟨lane, h1, h2, _⟩ := h.2 (is.take pre.length) (is.drop pre.length) p (by simp at hlen ⊢; omega)
    (by rw [List.take_append_drop]; exact his)
  rw [hp] at h1
  cases h1
  exact h2

theorem lane_ne_nil {pre post : List Nat} {d : Nat} {xs : List T} {lanes : List (List T)} {t : Tensor T}
    (hr : Rep t (pre ++ d :: post) xs) (hne : xs ≠ []) (h : IsLanes pre d post xs lanes) : ∀ l ∈ lanes, l ≠ [] := by
  intro l hl hc
  have := h.length_of_mem l hl
  subst hc
  apply hne
  rw [← List.length_eq_zero_iff, hr.length, prod_mid, ← this]
  simp

theorem mapM_red {f : T → T → T} {g : List T → T} (hg : ∀ x l, g (x :: l) = l.foldl f x) {ls : List (List T)}
    (h : ∀ l ∈ ls, l ≠ []) :
    ls.mapM (reduceLane fun s v => (pure (f s v) : Exec Unit T)) = pure (ls.map g) := by
  induction ls with
  | nil => rfl
  | cons l ls ih =>
    rw [List.mapM_cons, ih fun l hl => h l (List.mem_cons_of_mem _ hl)]
    cases l with
    | nil => exact absurd rfl (h [] List.mem_cons_self)
    | cons x l => rw [reduceLane, foldlM_pure]; simp [hg]

/-- `reduce` with a pure function on a non-empty tensor. -/
theorem reduce_pure {t : Tensor T} {ds : List Nat} {x : T} {xs : List T} (h : Rep t ds (x :: xs)) (f : T → T → T) :
    ∃ u, Tensor.runPure (t.reduce fun s v => (pure (f s v) : Exec Unit T)) = .ok u ∧ Rep u [] [xs.foldl f x] := by
  apply runPure_pure
  have := C21_reduce h (fun s v => (pure (f s v) : Exec Unit T))
  rw [reduceLane, foldlM_pure] at this
  exact this

theorem reduce_empty {t : Tensor T} {ds : List Nat} (h : Rep t ds []) (f : T → T → Exec Unit T) :
    Tensor.runPure (t.reduce f) = .error .panic :=
  runPure_panic (C21_reduce h f) rfl

theorem reduceAxis_pure {t : Tensor T} {pre post : List Nat} {d : Nat} {xs : List T} (h : Rep t (pre ++ d :: post) xs)
    (hne : xs ≠ []) {a : Int} (ha : axisIndex (pre ++ d :: post).length a = some pre.length) (f : T → T → T)
    {g : List T → T} (hg : ∀ x l, g (x :: l) = l.foldl f x) :
    ∃ lanes u, IsLanes pre d post xs lanes ∧ (∀ l ∈ lanes, l ≠ []) ∧
      Tensor.runPure (t.reduceAxis (some a) fun s v => (pure (f s v) : Exec Unit T)) = .ok u ∧
      Rep u (pre ++ post) (lanes.map g) := by
  obtain ⟨lanes, hl, hy⟩ := C21_reduce_axis h hne ha (fun s v => (pure (f s v) : Exec Unit T))
  have hn := lane_ne_nil h hne hl
  rw [mapM_red hg hn] at hy
  obtain ⟨u, e, hu⟩ := runPure_pure hy
  exact ⟨lanes, u, hl, hn, e, hu⟩

theorem fold_pure {t : Tensor T} {ds : List Nat} {xs : List T} (h : Rep t ds xs) (init : S) (f : S → T → S) (g : S → V) :
    ∃ u, Tensor.runPure (t.fold init (fun s v => (pure (f s v) : Exec Unit S)) g) = .ok u ∧
      Rep u [] [g (xs.foldl f init)] := by
  apply runPure_pure
  have := C21_fold h init (fun s v => (pure (f s v) : Exec Unit S)) g
  rw [foldlM_pure] at this
  exact this

theorem foldAxis_none_pure {t : Tensor T} {ds : List Nat} {xs : List T} (h : Rep t ds xs) (init : S) (f : S → T → S)
    (g : S → V) :
    ∃ u, Tensor.runPure (t.foldAxis none init (fun s v => (pure (f s v) : Exec Unit S)) g) = .ok u ∧
      Rep u [] [g (xs.foldl f init)] := by
  apply runPure_pure
  have := C21_fold_axis_none h init (fun s v => (pure (f s v) : Exec Unit S)) g
  rw [foldlM_pure] at this
  exact this

theorem foldAxis_pure {t : Tensor T} {pre post : List Nat} {d : Nat} {xs : List T} (h : Rep t (pre ++ d :: post) xs)
    (hne : xs ≠ []) {a : Int} (ha : axisIndex (pre ++ d :: post).length a = some pre.length) (init : S) (f : S → T → S)
    (g : S → V) :
    ∃ lanes u, IsLanes pre d post xs lanes ∧ (∀ l ∈ lanes, l ≠ []) ∧
      Tensor.runPure (t.foldAxis (some a) init (fun s v => (pure (f s v) : Exec Unit S)) g) = .ok u ∧
      Rep u (pre ++ post) (lanes.map fun l => g (l.foldl f init)) := by
  obtain ⟨lanes, hl, hy⟩ := C21_fold_axis h hne ha init (fun s v => (pure (f s v) : Exec Unit S)) g
  have hn := lane_ne_nil h hne hl
  have : (fun lane : List T => lane.foldlM (fun s v => (pure (f s v) : Exec Unit S)) init >>= fun s => pure (g s)) =
      fun lane => (pure (g (lane.foldl f init)) : Exec Unit V) := by
    funext lane; rw [foldlM_pure]; rfl
  rw [this, mapM_pure] at hy
  obtain ⟨u, e, hu⟩ := runPure_pure hy
  exact ⟨lanes, u, hl, hn, e, hu⟩

namespace Stats

/-! ### minimum, maximum -/

section order

variable [LinearOrder K] {fo : FOps F} {key : F → Option K}

theorem isNan_iff (ho : IsFloatOrder fo key) (x : F) : isNan fo x = true ↔ key x = none := by
  unfold isNan
  rw [Bool.not_eq_true', Bool.eq_false_iff, Ne, ho.eq_iff]
  cases key x <;> simp

theorem fmin_cases (fo : FOps F) (a b : F) : fmin fo a b = a ∨ fmin fo a b = b := by
  unfold fmin; split <;> [exact Or.inr rfl; split <;> [exact Or.inl rfl; split <;> simp]]

theorem fmax_cases (fo : FOps F) (a b : F) : fmax fo a b = a ∨ fmax fo a b = b := by
  unfold fmax; split <;> [exact Or.inr rfl; split <;> [exact Or.inl rfl; split <;> simp]]

theorem fmin_le (ho : IsFloatOrder fo key) (a b : F) {x : F} (hx : x = a ∨ x = b) {k : K} (hk : key x = some k) :
    ∃ j, key (fmin fo a b) = some j ∧ j ≤ k := by
  have na := isNan_iff ho a
  have nb := isNan_iff ho b
  have hl := ho.lt_iff a b
  unfold fmin
  cases ha : key a with
  | none =>
    rw [if_pos (na.2 ha)]
    rcases hx with rfl | rfl
    · rw [ha] at hk; cases hk
    · exact ⟨k, hk, le_refl _⟩
  | some ka =>
    rw [if_neg (by rw [na, ha]; simp)]
    cases hb : key b with
    | none =>
      rw [if_pos (nb.2 hb)]
      rcases hx with rfl | rfl
      · exact ⟨k, hk, le_refl _⟩
      · rw [hb] at hk; cases hk
    | some kb =>
      rw [if_neg (by rw [nb, hb]; simp)]
      split
      · next h =>
        obtain ⟨j, k', h1, h2, h3⟩ := hl.1 h
        rcases hx with rfl | rfl
        · exact ⟨k, hk, le_refl _⟩
        · rw [hk] at h2; cases h2; exact ⟨j, h1, h3.le⟩
      · next h =>
        rcases hx with rfl | rfl
        · refine ⟨kb, hb, ?_⟩
          by_contra hc
          exact h (hl.2 ⟨k, kb, hk, hb, lt_of_not_ge hc⟩)
        · exact ⟨k, hk, le_refl _⟩

theorem fmax_ge (ho : IsFloatOrder fo key) (a b : F) {x : F} (hx : x = a ∨ x = b) {k : K} (hk : key x = some k) :
    ∃ j, key (fmax fo a b) = some j ∧ k ≤ j := by
  have na := isNan_iff ho a
  have nb := isNan_iff ho b
  have hl := ho.lt_iff b a
  unfold fmax
  cases ha : key a with
  | none =>
    rw [if_pos (na.2 ha)]
    rcases hx with rfl | rfl
    · rw [ha] at hk; cases hk
    · exact ⟨k, hk, le_refl _⟩
  | some ka =>
    rw [if_neg (by rw [na, ha]; simp)]
    cases hb : key b with
    | none =>
      rw [if_pos (nb.2 hb)]
      rcases hx with rfl | rfl
      · exact ⟨k, hk, le_refl _⟩
      · rw [hb] at hk; cases hk
    | some kb =>
      rw [if_neg (by rw [nb, hb]; simp)]
      split
      · next h =>
        obtain ⟨j, k', h1, h2, h3⟩ := hl.1 h
        rcases hx with rfl | rfl
        · exact ⟨k, hk, le_refl _⟩
        · rw [hk] at h1; cases h1; exact ⟨k', h2, h3.le⟩
      · next h =>
        rcases hx with rfl | rfl
        · refine ⟨kb, hb, ?_⟩
          by_contra hc
          exact h (hl.2 ⟨kb, k, hb, hk, lt_of_not_ge hc⟩)
        · exact ⟨k, hk, le_refl _⟩

theorem foldl_fmin (ho : IsFloatOrder fo key) (x : F) (xs : List F) : LeastOf key (x :: xs) (xs.foldl (fmin fo) x) := by
  induction xs generalizing x with
  | nil => exact ⟨by simp, fun y hy k hk => ⟨k, by simp at hy; subst hy; exact hk, le_refl _⟩⟩
  | cons y xs ih =>
    rw [List.foldl_cons]
    obtain ⟨h1, h2⟩ := ih (fmin fo x y)
    refine ⟨?_, ?_⟩
    · rcases List.mem_cons.1 h1 with h | h
      · rw [h]; rcases fmin_cases fo x y with e | e <;> rw [e] <;> simp
      · simp [h]
    · intro z hz k hk
      have : z = x ∨ z = y ∨ z ∈ xs := by simpa using hz
      rcases this with h | h | h
      · obtain ⟨j, hj, hjk⟩ := fmin_le ho x y (Or.inl h) hk
        obtain ⟨i, hi, hij⟩ := h2 _ List.mem_cons_self j hj
        exact ⟨i, hi, hij.trans hjk⟩
      · obtain ⟨j, hj, hjk⟩ := fmin_le ho x y (Or.inr h) hk
        obtain ⟨i, hi, hij⟩ := h2 _ List.mem_cons_self j hj
        exact ⟨i, hi, hij.trans hjk⟩
      · exact h2 z (List.mem_cons_of_mem _ h) k hk

theorem foldl_fmax (ho : IsFloatOrder fo key) (x : F) (xs : List F) :
    GreatestOf key (x :: xs) (xs.foldl (fmax fo) x) := by
  induction xs generalizing x with
  | nil => exact ⟨by simp, fun y hy k hk => ⟨k, by simp at hy; subst hy; exact hk, le_refl _⟩⟩
  | cons y xs ih =>
    rw [List.foldl_cons]
    obtain ⟨h1, h2⟩ := ih (fmax fo x y)
    refine ⟨?_, ?_⟩
    · rcases List.mem_cons.1 h1 with h | h
      · rw [h]; rcases fmax_cases fo x y with e | e <;> rw [e] <;> simp
      · simp [h]
    · intro z hz k hk
      have : z = x ∨ z = y ∨ z ∈ xs := by simpa using hz
      rcases this with h | h | h
      · obtain ⟨j, hj, hjk⟩ := fmax_ge ho x y (Or.inl h) hk
        obtain ⟨i, hi, hij⟩ := h2 _ List.mem_cons_self j hj
        exact ⟨i, hi, hjk.trans hij⟩
      · obtain ⟨j, hj, hjk⟩ := fmax_ge ho x y (Or.inr h) hk
        obtain ⟨i, hi, hij⟩ := h2 _ List.mem_cons_self j hj
        exact ⟨i, hi, hjk.trans hij⟩
      · exact h2 z (List.mem_cons_of_mem _ h) k hk

end order

/-! ### mean, variance -/

theorem foldl_mean (fo : FOps F) (xs : List F) (s : Mean F) :
    xs.foldl (Mean.update fo) s = ⟨s.n + xs.length, xs.foldl fo.add s.sum⟩ := by
  induction xs generalizing s with
  | nil => rfl
  | cons x xs ih => simp only [List.foldl_cons, ih, Mean.update, List.length_cons]; congr 1; omega

section exact

variable [Field K] [LinearOrder K] [IsStrictOrderedRing K] (ln exp sqrt : K → K) (powf : K → K → K)

omit [LinearOrder K] [IsStrictOrderedRing K] in
theorem foldl_add (xs : List K) (s : K) : xs.foldl (fun x y => x + y) s = s + xs.sum := by
  induction xs generalizing s with
  | nil => simp
  | cons x xs ih => simp [ih, add_assoc]

/-- Welford's invariant in terms of the sum and the sum of squares. -/
theorem foldl_var (xs : List K) (hne : xs ≠ []) :
    xs.foldl (Var.update (.exact ln exp sqrt powf)) (Var.default (.exact ln exp sqrt powf)) =
      ⟨xs.length, xs.sum / xs.length, (xs.map (· ^ 2)).sum - xs.sum ^ 2 / xs.length⟩ := by
  induction xs using List.reverseRecOn with
  | nil => exact absurd rfl hne
  | append_singleton xs x ih =>
    rw [List.foldl_append, List.foldl_cons, List.foldl_nil]
    by_cases hx : xs = []
    · subst hx
      simp [Var.update, Var.default, FOps.exact]
    · rw [ih hx]
      have hl : xs.length ≠ 0 := by simpa using hx
      have hK : (xs.length : K) ≠ 0 := by exact_mod_cast hl
      have hK1 : (xs.length : K) + 1 ≠ 0 := by exact_mod_cast Nat.succ_ne_zero xs.length
      unfold Var.update
      rw [if_neg hl]
      simp only [FOps.exact, List.length_append, List.length_cons, List.length_nil, List.sum_append, List.sum_cons,
        List.sum_nil, List.map_append, List.map_cons, List.map_nil, Nat.cast_add, Nat.cast_one, zero_add, add_zero]
      congr 1
      · field_simp
        ring
      · field_simp
        ring

omit [LinearOrder K] [IsStrictOrderedRing K] in
theorem sum_sq (xs : List K) (c : K) :
    (xs.map fun x => (x - c) ^ 2).sum = (xs.map (· ^ 2)).sum - 2 * c * xs.sum + xs.length * c ^ 2 := by
  induction xs with
  | nil => simp
  | cons x xs ih => simp only [List.map_cons, List.sum_cons, ih, List.length_cons, Nat.cast_add, Nat.cast_one]; ring

theorem var_eq (xs : List K) (hne : xs ≠ []) :
    (xs.map (· ^ 2)).sum - xs.sum ^ 2 / xs.length = (xs.map fun x => (x - mean xs) ^ 2).sum := by
  have hK : (xs.length : K) ≠ 0 := by
    have hl : xs.length ≠ 0 := by simpa using hne
    exact_mod_cast hl
  rw [sum_sq, mean]
  field_simp
  ring

theorem intoVar_eq (xs : List K) (hne : xs ≠ []) :
    Var.intoVar (.exact ln exp sqrt powf)
      (xs.foldl (Var.update (.exact ln exp sqrt powf)) (Var.default (.exact ln exp sqrt powf))) = variance xs := by
  rw [foldl_var ln exp sqrt powf xs hne, var_eq xs hne]
  unfold Var.intoVar variance
  simp only [FOps.exact]
  split
  · rfl
  · next h =>
    match xs with
    | [] => exact absurd rfl hne
    | [x] => simp [mean]
    | x :: y :: xs => simp at h

theorem intoStd_eq (xs : List K) (hne : xs ≠ []) (h0 : sqrt 0 = 0) :
    Var.intoStd (.exact ln exp sqrt powf)
      (xs.foldl (Var.update (.exact ln exp sqrt powf)) (Var.default (.exact ln exp sqrt powf))) = sqrt (variance xs) := by
  rw [← intoVar_eq ln exp sqrt powf xs hne]
  unfold Var.intoStd Var.intoVar
  split
  · rfl
  · simp [FOps.exact, h0]

omit [IsStrictOrderedRing K] in
theorem intoMean_eq (xs : List K) (hne : xs ≠ []) :
    Mean.intoResult (.exact ln exp sqrt powf)
      (xs.foldl (Mean.update (.exact ln exp sqrt powf)) (Mean.default (.exact ln exp sqrt powf))) = mean xs := by
  have hl : 1 ≤ xs.length := List.length_pos_iff.2 hne
  rw [foldl_mean]
  unfold Mean.intoResult mean Mean.default
  simp only [FOps.exact, Nat.zero_add]
  rw [foldl_add, zero_add, max_eq_left hl]

end exact

end Stats

end Essay
