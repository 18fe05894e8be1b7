import Verif.Spec.Sums
import Verif.Props.Stats

/-!
# Properties C75, C76: sums, products and Euclidean norms
-/

namespace Essay

open Shape Stats

variable {T F : Type}

/-! ## C75 -/

/-- Left fold from the first element with an operator that may panic. -/
def reduceRes (op : T → T → Res T) : List T → Res T
  | [] => .error .panic
  | x :: xs => xs.foldlM op x

theorem foldlM_lift (op : T → T → Res T) (l : List T) (x : T) :
    l.foldlM (fun s v => (liftM (op s v) : Exec Unit T)) x = liftM (l.foldlM op x) := by
  induction l generalizing x with
  | nil => rfl
  | cons y l ih =>
    rw [List.foldlM_cons, List.foldlM_cons, lift_bind]
    exact bind_congr fun v => ih v

theorem reduceLane_lift (op : T → T → Res T) (l : List T) :
    reduceLane (fun s v => (liftM (op s v) : Exec Unit T)) l = liftM (reduceRes op l) := by
  cases l with
  | nil => rfl
  | cons x l => exact foldlM_lift op l x

theorem reduceOp_results (op : T → T → Res T) {t : Tensor T} {ds : List Nat} {xs : List T} (h : Rep t ds xs) :
    Results (reduceOp op t) ([xs].mapM (reduceRes op)) [] := by
  apply results_of_yields
  have h1 := C21_reduce h fun s v => (liftM (op s v) : Exec Unit T)
  rw [reduceLane_lift] at h1
  simpa using h1

theorem reduceOpAxis_results (op : T → T → Res T) {t : Tensor T} {pre post : List Nat} {d : Nat} {xs : List T}
    (h : Rep t (pre ++ d :: post) xs) (hne : xs ≠ []) {a : Int}
    (ha : axisIndex (pre ++ d :: post).length a = some pre.length) :
    ∃ lanes, IsLanes pre d post xs lanes ∧ Results (reduceOpAxis op t (some a)) (lanes.mapM (reduceRes op)) (pre ++ post) := by
  obtain ⟨lanes, hl, hy⟩ := C21_reduce_axis h hne ha fun s v => (liftM (op s v) : Exec Unit T)
  refine ⟨lanes, hl, results_of_yields ?_⟩
  have : (reduceLane fun s v => (liftM (op s v) : Exec Unit T)) = fun l => liftM (reduceRes op l) :=
    funext (reduceLane_lift op)
  rw [this] at hy
  exact hy

/-- All partial results (of the first `k` elements, `k = 1, 2, ..`) lie in the range. -/
def PrefixesIn (lo hi : Int) (g : List Int → Int) (xs : List Int) : Prop :=
  ∀ k, 0 < k → k ≤ xs.length → lo ≤ g (xs.take k) ∧ g (xs.take k) ≤ hi

theorem reduceRes_checked {lo hi : Int} {f : Int → Int → Int} {g : List Int → Int} (h1 : ∀ x, g [x] = x)
    (hf : ∀ l x, l ≠ [] → g (l ++ [x]) = f (g l) x) {xs : List Int} (hne : xs ≠ [])
    (hx : ∀ x ∈ xs, lo ≤ x ∧ x ≤ hi) :
    (PrefixesIn lo hi g xs → reduceRes (checkedOp lo hi f) xs = .ok (g xs)) ∧
    (¬ PrefixesIn lo hi g xs → reduceRes (checkedOp lo hi f) xs = .error .panic) := by
  obtain ⟨x, xs, rfl⟩ := List.exists_cons_of_ne_nil hne
  have key : ∀ (l : List Int) (a : List Int), a ≠ [] →
      ((∀ k, 0 < k → k ≤ l.length → lo ≤ g (a ++ l.take k) ∧ g (a ++ l.take k) ≤ hi) →
        l.foldlM (checkedOp lo hi f) (g a) = .ok (g (a ++ l))) ∧
      ((¬ ∀ k, 0 < k → k ≤ l.length → lo ≤ g (a ++ l.take k) ∧ g (a ++ l.take k) ≤ hi) →
        l.foldlM (checkedOp lo hi f) (g a) = .error .panic) := by
    intro l
    induction l with
    | nil =>
      intro a _
      refine ⟨fun _ => by simp [pure, Except.pure], fun h => absurd (fun k h0 h1 => ?_) h⟩
      simp at h1; omega
    | cons y l ih =>
      intro a ha
      have ih := ih (a ++ [y]) (by simp)
      have hy := hf a y ha
      rw [List.foldlM_cons]
      unfold checkedOp
      by_cases hr : lo ≤ f (g a) y ∧ f (g a) y ≤ hi
      · rw [if_pos hr, ok_bind, ← hy]
        have e : (∀ k, 0 < k → k ≤ (y :: l).length → lo ≤ g (a ++ (y :: l).take k) ∧ g (a ++ (y :: l).take k) ≤ hi) ↔
            ∀ k, 0 < k → k ≤ l.length → lo ≤ g (a ++ [y] ++ l.take k) ∧ g (a ++ [y] ++ l.take k) ≤ hi := by
          constructor
          · intro h k h0 h1
            simpa using h (k + 1) (by omega) (by simpa using h1)
          · intro h k h0 h1
            obtain ⟨k, rfl⟩ : ∃ j, k = j + 1 := ⟨k - 1, by omega⟩
            cases k with
            | zero => simpa [hy] using hr
            | succ k => simpa using h (k + 1) (by omega) (by simpa using h1)
        refine ⟨fun h => ?_, fun h => ih.2 (fun hc => h (e.2 hc))⟩
        rw [show a ++ y :: l = a ++ [y] ++ l by simp]
        exact ih.1 (e.1 h)
      · rw [if_neg hr, error_bind]
        refine ⟨fun h => ?_, fun _ => rfl⟩
        have := h 1 (by omega) (by simp)
        simp only [List.take_succ_cons, List.take_zero, hy] at this
        exact absurd this hr
  have k0 := key xs [x] (by simp)
  rw [h1] at k0
  have e : PrefixesIn lo hi g (x :: xs) ↔
      ∀ k, 0 < k → k ≤ xs.length → lo ≤ g ([x] ++ xs.take k) ∧ g ([x] ++ xs.take k) ≤ hi := by
    constructor
    · intro h k h0 h1
      simpa using h (k + 1) (by omega) (by simpa using h1)
    · intro h k h0 hk
      obtain ⟨k, rfl⟩ : ∃ j, k = j + 1 := ⟨k - 1, by omega⟩
      cases k with
      | zero => simpa [h1] using hx x (by simp)
      | succ k => simpa using h (k + 1) (by omega) (by simpa using hk)
  exact ⟨fun h => k0.1 (e.1 h), fun h => k0.2 fun hc => h (e.2 hc)⟩

theorem sum_snoc (l : List Int) (x : Int) : (l ++ [x]).sum = l.sum + x := by simp
theorem prod_snoc (l : List Int) (x : Int) : (l ++ [x]).prod = l.prod * x := by simp

theorem whole_checked {lo hi : Int} {f : Int → Int → Int} {g : List Int → Int} (h1 : ∀ x, g [x] = x)
    (hf : ∀ l x, l ≠ [] → g (l ++ [x]) = f (g l) x) {t : Tensor Int} {ds : List Nat} {xs : List Int} (h : Rep t ds xs)
    (hx : ∀ x ∈ xs, lo ≤ x ∧ x ≤ hi) :
    (xs ≠ [] ∧ PrefixesIn lo hi g xs → ∃ u, reduceOp (checkedOp lo hi f) t = .ok u ∧ Rep u [] [g xs]) ∧
    (¬ (xs ≠ [] ∧ PrefixesIn lo hi g xs) → reduceOp (checkedOp lo hi f) t = .error .panic) := by
  have hr := reduceOp_results (checkedOp lo hi f) h
  by_cases hne : xs = []
  · subst hne
    exact ⟨fun h => absurd rfl h.1, fun _ => hr⟩
  · obtain ⟨k1, k2⟩ := reduceRes_checked h1 hf hne hx
    constructor
    · rintro ⟨-, hp⟩
      simp only [List.mapM_cons, k1 hp, ok_bind, List.mapM_nil] at hr
      exact hr
    · intro hp
      simp only [List.mapM_cons, k2 fun hc => hp ⟨hne, hc⟩, error_bind] at hr
      exact hr

theorem mapM_checked {op : Int → Int → Res Int} {P : List Int → Prop} {g : List Int → Int} {ls : List (List Int)}
    (h : ∀ l ∈ ls, (P l → reduceRes op l = .ok (g l)) ∧ (¬ P l → reduceRes op l = .error .panic)) :
    ((∀ l ∈ ls, P l) → ls.mapM (reduceRes op) = .ok (ls.map g)) ∧
    ((¬ ∀ l ∈ ls, P l) → ls.mapM (reduceRes op) = .error .panic) := by
  induction ls with
  | nil => exact ⟨fun _ => rfl, fun h => absurd (by simp) h⟩
  | cons l ls ih =>
    obtain ⟨i1, i2⟩ := ih fun l hl => h l (List.mem_cons_of_mem _ hl)
    obtain ⟨k1, k2⟩ := h l List.mem_cons_self
    rw [List.mapM_cons]
    constructor
    · intro hp
      rw [k1 (hp l List.mem_cons_self), ok_bind, i1 fun l hl => hp l (List.mem_cons_of_mem _ hl)]; rfl
    · intro hp
      by_cases hl : P l
      · rw [k1 hl, ok_bind, i2 fun hc => hp (by rintro l' (_ | ⟨_, h⟩); exacts [hl, hc _ h])]; rfl
      · rw [k2 hl]; rfl

theorem IsLanes.subset {pre post : List Nat} {d : Nat} {xs : List T} {lanes : List (List T)}
    (h : IsLanes pre d post xs lanes) : ∀ l ∈ lanes, ∀ x ∈ l, x ∈ xs := by
  intro l hl x hx
  obtain ⟨p, hp⟩ := List.getElem?_of_mem hl
  have hlt : p < (pre ++ post).prod := by rw [← h.1]; exact (List.getElem?_eq_some_iff.1 hp).1
  obtain ⟨is, his⟩ := ravel_surj _ hlt
  have hlen := ravel_length his
  obtain ⟨lane, h1, h2, h3⟩ := h.2 (is.take pre.length) (is.drop pre.length) p (by simp at hlen ⊢; omega)
    (by rw [List.take_append_drop]; exact his)
  rw [hp] at h1
  cases h1
  obtain ⟨k, hk⟩ := List.getElem?_of_mem hx
  obtain ⟨y, h4, h5⟩ := h3 k (by rw [← h2]; exact (List.getElem?_eq_some_iff.1 hk).1)
  rw [hk] at h4
  cases h4
  unfold at? at h5
  obtain ⟨q, _, hq⟩ := Option.bind_eq_some_iff.1 h5
  exact List.mem_of_getElem? hq

theorem axis_checked {lo hi : Int} {f : Int → Int → Int} {g : List Int → Int} (h1 : ∀ x, g [x] = x)
    (hf : ∀ l x, l ≠ [] → g (l ++ [x]) = f (g l) x) {t : Tensor Int} {pre post : List Nat} {d : Nat} {xs : List Int}
    (h : Rep t (pre ++ d :: post) xs) (hne : xs ≠ []) (hx : ∀ x ∈ xs, lo ≤ x ∧ x ≤ hi) {a : Int}
    (ha : axisIndex (pre ++ d :: post).length a = some pre.length) :
    ∃ lanes, IsLanes pre d post xs lanes ∧
      ((∀ l ∈ lanes, PrefixesIn lo hi g l) → ∃ u, reduceOpAxis (checkedOp lo hi f) t (some a) = .ok u ∧
        Rep u (pre ++ post) (lanes.map g)) ∧
      ((¬ ∀ l ∈ lanes, PrefixesIn lo hi g l) → reduceOpAxis (checkedOp lo hi f) t (some a) = .error .panic) := by
  obtain ⟨lanes, hl, hr⟩ := reduceOpAxis_results (checkedOp lo hi f) h hne ha
  have hn := lane_ne_nil h hne hl
  obtain ⟨k1, k2⟩ := mapM_checked (op := checkedOp lo hi f) (P := PrefixesIn lo hi g) (g := g) (ls := lanes)
    fun l hm => reduceRes_checked h1 hf (hn l hm) fun x hxl => hx x (hl.subset l hm x hxl)
  refine ⟨lanes, hl, fun hp => ?_, fun hp => ?_⟩
  · rw [k1 hp] at hr; exact hr
  · rw [k2 hp] at hr; exact hr

/-- C75, integer type with the values `lo .. hi`, overflow checks on: `reduce_sum` returns exactly when the tensor is not
empty and every partial sum stays in range, and then it is the exact sum; else it panics. -/
theorem C75_sum {lo hi : Int} {t : Tensor Int} {ds : List Nat} {xs : List Int} (h : Rep t ds xs)
    (hx : ∀ x ∈ xs, lo ≤ x ∧ x ≤ hi) :
    (xs ≠ [] ∧ PrefixesIn lo hi List.sum xs →
      ∃ u, reduceOp (checkedOp lo hi (· + ·)) t = .ok u ∧ Rep u [] [xs.sum]) ∧
    (¬ (xs ≠ [] ∧ PrefixesIn lo hi List.sum xs) → reduceOp (checkedOp lo hi (· + ·)) t = .error .panic) :=
  whole_checked (by simp) (fun l x _ => sum_snoc l x) h hx

/-- C75: `reduce_product` likewise. -/
theorem C75_product {lo hi : Int} {t : Tensor Int} {ds : List Nat} {xs : List Int} (h : Rep t ds xs)
    (hx : ∀ x ∈ xs, lo ≤ x ∧ x ≤ hi) :
    (xs ≠ [] ∧ PrefixesIn lo hi List.prod xs →
      ∃ u, reduceOp (checkedOp lo hi (· * ·)) t = .ok u ∧ Rep u [] [xs.prod]) ∧
    (¬ (xs ≠ [] ∧ PrefixesIn lo hi List.prod xs) → reduceOp (checkedOp lo hi (· * ·)) t = .error .panic) :=
  whole_checked (by simp) (fun l x _ => prod_snoc l x) h hx

example {t : Tensor Int} (h : Rep t [3] [-2, 5, 4]) :
    ∃ u, reduceOp (checkedOp (-128) 127 (· * ·)) t = .ok u ∧ Rep u [] [-40] :=
  (C75_product h (by simp)).1 ⟨by simp, fun k h0 hk => by
    match k, hk with
    | 1, _ => simp
    | 2, _ => simp
    | 3, _ => simp⟩

/-- C75: `reduce_sum_axis` and `reduce_product_axis` do this for every lane along the axis. -/
theorem C75_axis {lo hi : Int} {t : Tensor Int} {pre post : List Nat} {d : Nat} {xs : List Int}
    (h : Rep t (pre ++ d :: post) xs) (hne : xs ≠ []) (hx : ∀ x ∈ xs, lo ≤ x ∧ x ≤ hi) {a : Int}
    (ha : axisIndex (pre ++ d :: post).length a = some pre.length) :
    (∃ lanes, IsLanes pre d post xs lanes ∧
      ((∀ l ∈ lanes, PrefixesIn lo hi List.sum l) → ∃ u, reduceOpAxis (checkedOp lo hi (· + ·)) t (some a) = .ok u ∧
        Rep u (pre ++ post) (lanes.map List.sum)) ∧
      ((¬ ∀ l ∈ lanes, PrefixesIn lo hi List.sum l) →
        reduceOpAxis (checkedOp lo hi (· + ·)) t (some a) = .error .panic)) ∧
    (∃ lanes, IsLanes pre d post xs lanes ∧
      ((∀ l ∈ lanes, PrefixesIn lo hi List.prod l) → ∃ u, reduceOpAxis (checkedOp lo hi (· * ·)) t (some a) = .ok u ∧
        Rep u (pre ++ post) (lanes.map List.prod)) ∧
      ((¬ ∀ l ∈ lanes, PrefixesIn lo hi List.prod l) →
        reduceOpAxis (checkedOp lo hi (· * ·)) t (some a) = .error .panic)) :=
  ⟨axis_checked (by simp) (fun l x _ => sum_snoc l x) h hne hx ha,
    axis_checked (by simp) (fun l x _ => prod_snoc l x) h hne hx ha⟩

theorem sum_take_le {l : List Int} (h : ∀ x ∈ l, 0 ≤ x) (k : Nat) : 0 ≤ (l.take k).sum ∧ (l.take k).sum ≤ l.sum := by
  have h1 : 0 ≤ (l.take k).sum := List.sum_nonneg fun x hx => h x (List.mem_of_mem_take hx)
  have h2 : 0 ≤ (l.drop k).sum := List.sum_nonneg fun x hx => h x (List.mem_of_mem_drop hx)
  have h3 := congrArg List.sum (List.take_append_drop k l)
  rw [List.sum_append] at h3
  omega

/-- C75, unsigned type: `reduce_sum` returns exactly when the tensor is not empty and the exact sum fits, whatever the
order of the elements. -/
theorem C75_sum_unsigned {hi : Int} {t : Tensor Int} {ds : List Nat} {xs : List Int} (h : Rep t ds xs)
    (hx : ∀ x ∈ xs, 0 ≤ x ∧ x ≤ hi) :
    (xs ≠ [] ∧ xs.sum ≤ hi → ∃ u, reduceOp (checkedOp 0 hi (· + ·)) t = .ok u ∧ Rep u [] [xs.sum]) ∧
    (¬ (xs ≠ [] ∧ xs.sum ≤ hi) → reduceOp (checkedOp 0 hi (· + ·)) t = .error .panic) := by
  have e : xs ≠ [] ∧ PrefixesIn 0 hi List.sum xs ↔ xs ≠ [] ∧ xs.sum ≤ hi := by
    constructor
    · rintro ⟨h1, h2⟩
      refine ⟨h1, ?_⟩
      have := (h2 xs.length (List.length_pos_iff.2 h1) (Nat.le_refl _)).2
      simpa using this
    · rintro ⟨h1, h2⟩
      refine ⟨h1, fun k _ _ => ?_⟩
      have := sum_take_le (fun x hm => (hx x hm).1) k
      omega
  rw [← e]
  exact C75_sum h hx

example {t : Tensor Int} (h : Rep t [2] [200, 56]) : reduceOp (checkedOp 0 255 (· + ·)) t = .error .panic :=
  (C75_sum_unsigned h (by simp)).2 (by simp)

/-- C75, release build (wrapping arithmetic on an unsigned type with `m` values): a non-empty sum is the exact sum modulo
`m`, so the order of the elements does not matter. -/
theorem C75_sum_wrapping {m : Nat} {t : Tensor Int} {ds : List Nat} {xs : List Int} (h : Rep t ds xs) (hne : xs ≠ [])
    (hx : ∀ x ∈ xs, 0 ≤ x ∧ x < m) :
    ∃ u, reduceOp (wrappingOp m (· + ·)) t = .ok u ∧ Rep u [] [xs.sum % m] := by
  have hr := reduceOp_results (wrappingOp m (· + ·)) h
  obtain ⟨x, xs, rfl⟩ := List.exists_cons_of_ne_nil hne
  have key : ∀ (l : List Int) (s : Int), l.foldlM (wrappingOp m (· + ·)) (s % m) = .ok ((s + l.sum) % m) := by
    intro l
    induction l with
    | nil => intro s; simp [pure, Except.pure]
    | cons y l ih =>
      intro s
      rw [List.foldlM_cons]
      simp only [wrappingOp, ok_bind, Int.emod_add_emod]
      rw [ih]
      congr 2
      simp; ring
  have hx0 : x % m = x := Int.emod_eq_of_lt (hx x (by simp)).1 (hx x (by simp)).2
  have k := key xs x
  rw [hx0] at k
  simp only [List.mapM_cons, reduceRes, k, ok_bind, List.mapM_nil] at hr
  rw [List.sum_cons]
  exact hr

theorem foldl_merge (op : T → T → T) (l : List T) (x : T) :
    (l.map some).foldl (Option.merge op) (some x) = some (l.foldl op x) := by
  induction l generalizing x with
  | nil => rfl
  | cons y l ih => exact ih _

/-- C75: with a commutative, associative operation that never panics (wrapping integers, exact arithmetic) the order of
the elements does not matter. -/
theorem C75_order (op : T → T → T) [Std.Associative op] [Std.Commutative op] {t t' : Tensor T} {ds ds' : List Nat}
    {xs xs' : List T} (h : Rep t ds xs) (h' : Rep t' ds' xs') (hp : xs.Perm xs') (hne : xs ≠ []) :
    ∃ u u' v, reduceOp (fun x y => .ok (op x y)) t = .ok u ∧ reduceOp (fun x y => .ok (op x y)) t' = .ok u' ∧
      Rep u [] [v] ∧ Rep u' [] [v] := by
  have hr := reduceOp_results (fun x y => (.ok (op x y) : Res T)) h
  have hr' := reduceOp_results (fun x y => (.ok (op x y) : Res T)) h'
  have e : ∀ (l : List T) x, l.foldlM (fun x y => (.ok (op x y) : Res T)) x = .ok (l.foldl op x) := by
    intro l
    induction l with
    | nil => intro x; rfl
    | cons y l ih => intro x; rw [List.foldlM_cons, ok_bind, ih]; rfl
  obtain ⟨x, xs, rfl⟩ := List.exists_cons_of_ne_nil hne
  obtain ⟨x', xs', rfl⟩ := List.exists_cons_of_ne_nil (fun hc => by subst hc; simp at hp : xs' ≠ [])
  have hv : xs.foldl op x = xs'.foldl op x' := by
    have := (hp.map some).foldl_op_eq (op := Option.merge op) (a := none)
    simp only [List.map_cons, List.foldl_cons] at this
    rw [show Option.merge op none (some x) = some x from rfl, show Option.merge op none (some x') = some x' from rfl,
      foldl_merge, foldl_merge] at this
    exact Option.some.inj this
  simp only [List.mapM_cons, reduceRes, e, ok_bind, List.mapM_nil] at hr hr'
  obtain ⟨u, hu, hu'⟩ := hr
  obtain ⟨w, hw, hw'⟩ := hr'
  exact ⟨u, w, _, hu, hw, hu', hv ▸ hw'⟩

example {t t' : Tensor Nat} (h : Rep t [3] [3, 1, 2]) (h' : Rep t' [1, 3] [2, 3, 1]) :
    ∃ u u' v, reduceOp (fun x y => .ok (max x y)) t = .ok u ∧ reduceOp (fun x y => .ok (max x y)) t' = .ok u' ∧
      Rep u [] [v] ∧ Rep u' [] [v] :=
  C75_order max h h' (by decide) (by simp)

/-- C75: an empty tensor has no sum and no product, whatever the element type. -/
theorem C75_empty (op : T → T → Res T) {t : Tensor T} {ds : List Nat} (h : Rep t ds []) :
    reduceOp op t = .error .panic := reduceOp_results op h

example (op : T → T → Res T) : reduceOp op (⟨ofDims [2, 0], 0, 0, []⟩ : Tensor T) = .error .panic :=
  C75_empty op (ds := [2, 0]) ⟨⟨wf_ofDims (l := [2, 0]) ⟨by simp, by simp⟩, rfl, by simp⟩, rfl, rfl⟩

/-! ### Examples -/

/-- The bytes 100, -100, 120 can be added in this order (-128 .. 127), but 100, 120, -100 cannot. -/
example {t t' : Tensor Int} (h : Rep t [3] [100, -100, 120]) (h' : Rep t' [3] [100, 120, -100]) :
    (∃ u, reduceOp (checkedOp (-128) 127 (· + ·)) t = .ok u ∧ Rep u [] [120]) ∧
    reduceOp (checkedOp (-128) 127 (· + ·)) t' = .error .panic := by
  constructor
  · refine (C75_sum h (by decide)).1 ⟨by simp, fun k h0 h1 => ?_⟩
    have : k = 1 ∨ k = 2 ∨ k = 3 := by simp at h1; omega
    rcases this with rfl | rfl | rfl <;> decide
  · refine (C75_sum h' (by decide)).2 fun hc => ?_
    have := hc.2 2 (by omega) (by decide)
    revert this
    decide

example : ∃ t : Tensor Int, Rep t [3] [100, -100, 120] := ⟨_, rep_fresh ⟨by simp, by simp⟩ (fits_of_pos (by simp) (by simp)) rfl⟩

/-- In a release build `200u8 + 100 + 7` is `51`. -/
example {t : Tensor Int} (h : Rep t [3] [200, 100, 7]) :
    ∃ u, reduceOp (wrappingOp 256 (· + ·)) t = .ok u ∧ Rep u [] [51] :=
  C75_sum_wrapping h (by simp) (by decide)

/-- The hypotheses of `C75_axis` are met by a 2x3 matrix of bytes and either axis. -/
example : ∃ t : Tensor Int, Rep t ([] ++ 2 :: [3]) [1, 2, 3, 4, 5, 6] ∧ axisIndex ([] ++ 2 :: [3]).length 0 = some 0 ∧
    axisIndex ([2] ++ 3 :: []).length (-1) = some 1 :=
  ⟨_, rep_fresh (ds := [2, 3]) ⟨by simp, by simp⟩ (fits_of_pos (by simp) (by simp)) rfl, by decide, by decide⟩

/-! ## C76 -/

theorem foldl_sq (xs : List ℝ) (s : ℝ) : xs.foldl (fun s v => s + v * v) s = s + (xs.map (· ^ 2)).sum := by
  induction xs generalizing s with
  | nil => simp
  | cons x xs ih => rw [List.foldl_cons, ih]; simp; ring

theorem sum_sq_nonneg (xs : List ℝ) : 0 ≤ (xs.map (· ^ 2)).sum :=
  List.sum_nonneg fun y hy => by obtain ⟨x, _, rfl⟩ := List.mem_map.1 hy; positivity

theorem sq_le_sum_sq {xs : List ℝ} {x : ℝ} (hx : x ∈ xs) : x ^ 2 ≤ (xs.map (· ^ 2)).sum := by
  induction xs with
  | nil => simp at hx
  | cons y xs ih =>
    have h0 := sum_sq_nonneg xs
    rw [List.map_cons, List.sum_cons]
    rcases List.mem_cons.1 hx with rfl | h
    · linarith
    · have := ih h; nlinarith [sq_nonneg y]

/-- C76: `reduce_hypot` of the reals is the Euclidean norm of all elements, for every shape; zero for an empty tensor. -/
theorem C76_hypot {t : Tensor ℝ} {ds : List Nat} {xs : List ℝ} (h : Rep t ds xs) :
    ∃ u, reduceHypot .real t = .ok u ∧ Rep u [] [Real.sqrt (xs.map (· ^ 2)).sum] := by
  have := fold_pure h (0 : ℝ) (fun s v => s + v * v) Real.sqrt
  rw [foldl_sq, zero_add] at this
  exact this

/-- C76: the result is never negative, it is zero only if all elements are, it is at least the absolute value of every
element, and it does not depend on signs, on the order of the elements or on the shape. -/
theorem C76_norm {t t' : Tensor ℝ} {ds ds' : List Nat} {xs xs' : List ℝ} (h : Rep t ds xs) (h' : Rep t' ds' xs')
    (hp : (xs.map fun x => |x|).Perm (xs'.map fun x => |x|)) :
    ∃ u u' v, reduceHypot .real t = .ok u ∧ Rep u [] [v] ∧ reduceHypot .real t' = .ok u' ∧ Rep u' [] [v] ∧ 0 ≤ v ∧
      (v = 0 ↔ ∀ x ∈ xs, x = 0) ∧ ∀ x ∈ xs, |x| ≤ v := by
  obtain ⟨u, hu, hr⟩ := C76_hypot h
  obtain ⟨u', hu', hr'⟩ := C76_hypot h'
  have e : (xs.map (· ^ 2)).sum = (xs'.map (· ^ 2)).sum := by
    have := (hp.map (· ^ 2)).sum_eq
    simpa [Function.comp_def] using this
  refine ⟨u, u', _, hu, hr, hu', e ▸ hr', Real.sqrt_nonneg _, ?_, fun x hx => ?_⟩
  · rw [Real.sqrt_eq_zero (sum_sq_nonneg xs)]
    constructor
    · intro h0 x hx
      have := sq_le_sum_sq hx
      rw [h0] at this
      exact pow_eq_zero_iff (two_ne_zero) |>.1 (le_antisymm this (sq_nonneg x))
    · intro h0
      have : xs.map (· ^ 2) = xs.map fun _ => (0 : ℝ) := List.map_congr_left fun x hx => by simp [h0 x hx]
      rw [this]; simp
  · rw [← Real.sqrt_sq_eq_abs]
    exact Real.sqrt_le_sqrt (sq_le_sum_sq hx)

/-- C76: multiplying all elements by `c` multiplies the result by `|c|`. -/
theorem C76_scale {t t' : Tensor ℝ} {ds ds' : List Nat} {xs : List ℝ} (c : ℝ) (h : Rep t ds xs)
    (h' : Rep t' ds' (xs.map (c * ·))) :
    ∃ u u' v, reduceHypot .real t = .ok u ∧ Rep u [] [v] ∧ reduceHypot .real t' = .ok u' ∧ Rep u' [] [|c| * v] := by
  obtain ⟨u, hu, hr⟩ := C76_hypot h
  obtain ⟨u', hu', hr'⟩ := C76_hypot h'
  refine ⟨u, u', _, hu, hr, hu', ?_⟩
  have e : ((xs.map (c * ·)).map (· ^ 2)).sum = c ^ 2 * (xs.map (· ^ 2)).sum := by
    rw [List.map_map, ← List.sum_map_mul_left]
    congr 1
    exact List.map_congr_left fun x _ => mul_pow c x 2
  rw [e, Real.sqrt_mul (sq_nonneg c), Real.sqrt_sq_eq_abs] at hr'
  exact hr'

example {t : Tensor ℝ} (h : Rep t [2, 2] [3, 0, -4, 0]) : ∃ u, reduceHypot .real t = .ok u ∧ Rep u [] [5] := by
  obtain ⟨u, hu, hr⟩ := C76_hypot h
  refine ⟨u, hu, ?_⟩
  have : (([3, 0, -4, 0] : List ℝ).map (· ^ 2)).sum = 5 ^ 2 := by norm_num
  rwa [this, Real.sqrt_sq (by norm_num)] at hr

example : ∃ t : Tensor ℝ, Rep t [2, 2] [3, 0, -4, 0] := ⟨_, rep_fresh ⟨by simp, by simp⟩ (fits_of_pos (by simp) (by simp)) rfl⟩

/-- The columns of `[[100, 1], [100, 2]]` as `i8`: the first sum overflows. -/
example {t : Tensor Int} (h : Rep t [2, 2] [100, 1, 100, 2]) :
    ∃ lanes, IsLanes [] 2 [2] [100, 1, 100, 2] lanes ∧ ((¬ ∀ l ∈ lanes, PrefixesIn (-128) 127 List.sum l) →
      reduceOpAxis (checkedOp (-128) 127 (· + ·)) t (some 0) = .error .panic) := by
  obtain ⟨lanes, h1, -, h2⟩ := (C75_axis (lo := -128) (hi := 127) (pre := []) (post := [2]) h (by simp) (by simp) (a := 0) (by decide)).1
  exact ⟨lanes, h1, h2⟩

example {t t' : Tensor ℝ} (h : Rep t [3] [3, 0, -4]) (h' : Rep t' [3] [4, 3, 0]) :
    ∃ u u' v, reduceHypot .real t = .ok u ∧ Rep u [] [v] ∧ reduceHypot .real t' = .ok u' ∧ Rep u' [] [v] ∧ 0 ≤ v ∧
      (v = 0 ↔ ∀ x ∈ ([3, 0, -4] : List ℝ), x = 0) ∧ ∀ x ∈ ([3, 0, -4] : List ℝ), |x| ≤ v :=
  C76_norm h h' (by
    simp only [List.map_cons, List.map_nil, abs_neg]
    exact (List.perm_append_comm (l₁ := [|(3 : ℝ)|, |0|]) (l₂ := [|4|])))

example {t t' : Tensor ℝ} (h : Rep t [2] [3, 4]) (h' : Rep t' [2] [-6, -8]) :
    ∃ u u' v, reduceHypot .real t = .ok u ∧ Rep u [] [v] ∧ reduceHypot .real t' = .ok u' ∧ Rep u' [] [|-2| * v] :=
  C76_scale (-2) h (by convert h' using 1; norm_num)

end Essay
