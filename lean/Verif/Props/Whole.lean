import Verif.Spec.Whole
import Verif.Props.Library
import Verif.Props.Space
import Verif.Props.Rounding
import Verif.Props.Ops
import Verif.Props.Math

/-!
# Property C96: small whole numbers are computed without rounding errors

`f32` arithmetic is exact on whole numbers up to 2^24, and on multiples of a power of two within the same range of
multipliers. The theorems say which calls inherit this, and the last section what happens at the end of the range.
-/

set_option linter.unusedSectionVars false

namespace Essay

open Shape Stats Linalg

variable {K : Type} [Field K] [LinearOrder K] [IsStrictOrderedRing K] {rnd : K → K} {q : K} {N : Int}

/-! ## The formats -/

theorem exactOn_round [FloorRing K] {p : Nat} {emin e : Int} (hp : 1 ≤ p) (he : emin ≤ e) :
    ExactOn (Ieee.round p emin : K → K) ((2 : K) ^ e) (2 ^ p) := by
  intro n hn
  apply Ieee.round_fixed
  rcases hn.lt_or_eq with h | h
  · exact ⟨n, e, h, he, rfl⟩
  · have h2 : (2 : K) ≠ 0 := two_ne_zero
    have hz : Ieee.Representable p emin ((2 : K) ^ ((p : Int) + e)) := Ieee.rep_zpow hp (by omega)
    rw [zpow_add₀ h2, zpow_natCast] at hz
    rcases abs_eq (by positivity : (0 : Int) ≤ 2 ^ p) |>.1 h with rfl | rfl
    · simpa using hz
    · have := hz.neg
      simpa using this

/-- C96: `f32` is exact on the multiples of a power of two from 2^-149 up, up to 2^24 times that power: with `e = 0`, on
the whole numbers up to 2^24. -/
theorem C96_f32 [FloorRing K] {e : Int} (he : -149 ≤ e) : ExactOn (Ieee.f32 : K → K) ((2 : K) ^ e) (2 ^ 24) :=
  exactOn_round (by norm_num) he

/-- C96: the same for `f64`, up to 2^53. -/
theorem C96_f64 [FloorRing K] {e : Int} (he : -1074 ≤ e) : ExactOn (Ieee.f64 : K → K) ((2 : K) ^ e) (2 ^ 53) :=
  exactOn_round (by norm_num) he

/-- C96: with whole numbers, `q = 1`. -/
theorem C96_f32_whole [FloorRing K] : ExactOn (Ieee.f32 : K → K) 1 (2 ^ 24) := by
  simpa using C96_f32 (K := K) (e := 0) (by norm_num)

/-- C96: beyond that the range ends: 2^24 + 1 is not kept. -/
theorem C96_f32_limit [FloorRing K] : Ieee.f32 ((2 : K) ^ 24 + 1) ≠ 2 ^ 24 + 1 := by
  rw [show (Ieee.f32 : K → K) = Ieee.round 24 (-149) from rfl, Ieee.round_succ (by norm_num) (by norm_num)]
  simp

theorem ExactOn.mono (h : ExactOn rnd q N) {M : Int} (hM : M ≤ N) : ExactOn rnd q M := fun n hn => h n (hn.trans hM)

theorem ExactOn.int (h : ExactOn rnd 1 N) {n : Int} (hn : |n| ≤ N) : rnd (n : K) = n := by simpa using h n hn

theorem ExactOn.nat (h : ExactOn rnd 1 N) {n : Nat} (hn : (n : Int) ≤ N) : rnd (n : K) = n := by
  simpa using h n (by simpa using hn)

/-! ## Sums and products -/

theorem multiples_sum (q : K) (ns : List Int) : (multiples q ns).sum = (ns.sum : K) * q := by
  induction ns with
  | nil => simp [multiples]
  | cons n ns ih =>
    have : (multiples q (n :: ns)).sum = n * q + (multiples q ns).sum := by simp [multiples]
    rw [this, ih]; push_cast [List.sum_cons]; ring

theorem foldl_exact (hq : ExactOn rnd q N) (ns : List Int) (n : Int) (h : ∀ k, |n + (ns.take k).sum| ≤ N) :
    (multiples q ns).foldl (fun a b => rnd (a + b)) (n * q) = ((n + ns.sum : Int) : K) * q := by
  induction ns generalizing n with
  | nil => simp [multiples]
  | cons m ns ih =>
    have e : rnd ((n : K) * q + m * q) = ((n + m : Int) : K) * q := by
      have := hq (n + m) (by simpa using h 1)
      rw [← this]; congr 1; push_cast; ring
    rw [show multiples q (m :: ns) = (m : K) * q :: multiples q ns from rfl, List.foldl_cons, e, ih (n + m) fun k => by
      simpa [add_assoc] using h (k + 1)]
    simp [add_assoc]

theorem abs_take_le {ns : List Int} (h : (ns.map fun n => |n|).sum ≤ N) (k : Nat) : |(ns.take k).sum| ≤ N := by
  refine le_trans ?_ h
  induction ns generalizing k with
  | nil => simp
  | cons n ns ih =>
    cases k with
    | zero =>
      simp only [List.take_zero, List.sum_nil, abs_zero]
      exact List.sum_nonneg (by simp only [List.mem_map]; rintro _ ⟨x, _, rfl⟩; exact abs_nonneg x)
    | succ k =>
      simp only [List.take_succ_cons, List.sum_cons, List.map_cons]
      have := ih (le_trans (by simp) h) k
      exact (abs_add_le _ _).trans (by omega)

/-- C96 for `reduce_sum`: if the partial sums of the multipliers stay within the range, the sum has no error. -/
theorem C96_sum (hq : ExactOn rnd q N) (ln exp sqrt : K → K) (powf : K → K → K) {t : Tensor K} {ds : List Nat}
    {ns : List Int} (h : Rep t ds (multiples q ns)) (hne : ns ≠ []) (hN : ∀ k, |(ns.take k).sum| ≤ N) :
    ∃ r, reduceOp (fun x y => .ok ((FOps.rounded rnd ln exp sqrt powf).add x y)) t = .ok r ∧
      Rep r [] [(multiples q ns).sum] := by
  obtain ⟨n, ns, rfl⟩ := List.exists_cons_of_ne_nil hne
  obtain ⟨r, hr, hr'⟩ := reduce_pure h fun x y => rnd (x + y)
  refine ⟨r, hr, ?_⟩
  have e := foldl_exact hq ns n fun k => by simpa using hN (k + 1)
  rw [multiples_sum, List.sum_cons, ← e]
  exact hr'

/-- C96: within the range (the magnitudes add up to at most `N`) the order of the elements does not matter to
`reduce_sum`. -/
theorem C96_sum_order (hq : ExactOn rnd q N) (ln exp sqrt : K → K) (powf : K → K → K) {t u : Tensor K}
    {ds es : List Nat} {ns ms : List Int} (ht : Rep t ds (multiples q ns)) (hu : Rep u es (multiples q ms))
    (hp : ns.Perm ms) (hne : ns ≠ []) (hN : (ns.map fun n => |n|).sum ≤ N) :
    ∃ r s v, reduceOp (fun x y => .ok ((FOps.rounded rnd ln exp sqrt powf).add x y)) t = .ok r ∧
      reduceOp (fun x y => .ok ((FOps.rounded rnd ln exp sqrt powf).add x y)) u = .ok s ∧ Rep r [] [v] ∧ Rep s [] [v] := by
  obtain ⟨r, hr, hr'⟩ := C96_sum hq ln exp sqrt powf ht hne (abs_take_le hN)
  obtain ⟨s, hs, hs'⟩ := C96_sum hq ln exp sqrt powf hu (fun h => hne (by rw [h] at hp; exact hp.eq_nil))
    (abs_take_le (by rwa [← (hp.map _).sum_eq]))
  refine ⟨r, s, _, hr, hs, hr', ?_⟩
  rw [multiples_sum, hp.sum_eq, ← multiples_sum]
  exact hs'

/-- The lanes of multiples are multiples. -/
theorem lanes_multiples {pre post : List Nat} {d : Nat} {ns : List Int} {lanes : List (List K)}
    (hl : IsLanes pre d post (multiples q ns) lanes) {l : List K} (h : l ∈ lanes) :
    ∃ ms : List Int, l = multiples q ms ∧ ∀ m ∈ ms, m ∈ ns := by
  have hsub := hl.subset l h
  clear h hl
  induction l with
  | nil => exact ⟨[], rfl, by simp⟩
  | cons x l ih =>
    obtain ⟨n, hn, rfl⟩ := List.mem_map.1 (hsub x (by simp))
    obtain ⟨ms, rfl, hms⟩ := ih fun y hy => hsub y (by simp [hy])
    exact ⟨n :: ms, rfl, by simpa [hn] using hms⟩

theorem sum_take_bound {ms : List Int} {B : Int} (hB : ∀ m ∈ ms, |m| ≤ B) (h : (ms.length : Int) * B ≤ N) (k : Nat) :
    |(ms.take k).sum| ≤ N := by
  apply abs_take_le
  refine le_trans ?_ h
  clear h
  induction ms with
  | nil => simp
  | cons m ms ih =>
    have h1 := hB m (by simp)
    have h2 := ih fun x hx => hB x (by simp [hx])
    simp only [List.map_cons, List.sum_cons, List.length_cons, Nat.cast_add, Nat.cast_one]
    linarith

/-- C96 for `reduce_sum_axis`: with multipliers up to `B` and `d * B` within the range, every lane sum is exact. -/
theorem C96_sum_axis (hq : ExactOn rnd q N) (ln exp sqrt : K → K) (powf : K → K → K) {t : Tensor K}
    {pre post : List Nat} {d : Nat} {ns : List Int} (h : Rep t (pre ++ d :: post) (multiples q ns)) (hne : ns ≠ [])
    {a : Int} (ha : axisIndex (pre ++ d :: post).length a = some pre.length) {B : Int} (hB : ∀ n ∈ ns, |n| ≤ B)
    (hd : (d : Int) * B ≤ N) :
    ∃ lanes r, IsLanes pre d post (multiples q ns) lanes ∧
      reduceOpAxis (fun x y => .ok ((FOps.rounded rnd ln exp sqrt powf).add x y)) t (some a) = .ok r ∧
      Rep r (pre ++ post) (lanes.map List.sum) := by
  obtain ⟨lanes, r, hl, hn, hr, hr'⟩ := reduceAxis_pure h (by simpa [multiples] using hne) ha (fun x y => rnd (x + y))
    (g := fun l => l.tail.foldl (fun x y => rnd (x + y)) (l.headD 0)) (by intro x l; rfl)
  refine ⟨lanes, r, hl, hr, ?_⟩
  have : (lanes.map fun l => l.tail.foldl (fun x y => rnd (x + y)) (l.headD 0)) = lanes.map List.sum := by
    apply List.map_congr_left
    intro l hm
    obtain ⟨ms, rfl, hms⟩ := lanes_multiples hl hm
    have hlen := hl.length_of_mem _ hm
    have hne := hn _ hm
    match ms, hlen, hne, hms with
    | [], _, hne, _ => exact absurd rfl hne
    | m :: ms, hlen, _, hms =>
      have hb := sum_take_bound (ms := m :: ms) (N := N) (fun x hx => hB x (hms x hx)) (by
        rw [← hlen] at hd; simpa [multiples] using hd)
      have e := foldl_exact hq ms m fun k => by simpa using hb (k + 1)
      rw [multiples_sum, List.sum_cons, ← e]
      rfl
  rw [← this]
  exact hr'

/-- C96 for `reduce_product` of whole numbers whose partial products stay within the range. -/
theorem C96_product (h1 : ExactOn rnd 1 N) (ln exp sqrt : K → K) (powf : K → K → K) {t : Tensor K} {ds : List Nat}
    {ns : List Int} (h : Rep t ds (multiples 1 ns)) (hne : ns ≠ []) (hN : ∀ k, |(ns.take k).prod| ≤ N) :
    ∃ r, reduceOp (fun x y => .ok ((FOps.rounded rnd ln exp sqrt powf).mul x y)) t = .ok r ∧
      Rep r [] [(ns.prod : K)] := by
  obtain ⟨n, ns, rfl⟩ := List.exists_cons_of_ne_nil hne
  obtain ⟨r, hr, hr'⟩ := reduce_pure h fun x y => rnd (x * y)
  refine ⟨r, hr, ?_⟩
  have key : ∀ (ns : List Int) (n : Int), (∀ k, |n * (ns.take k).prod| ≤ N) →
      (multiples (1 : K) ns).foldl (fun a b => rnd (a * b)) (n : K) = ((n * ns.prod : Int) : K) := by
    intro ns
    induction ns with
    | nil => intro n _; simp [multiples]
    | cons m ns ih =>
      intro n h
      have e : rnd ((n : K) * ((m : K) * 1)) = ((n * m : Int) : K) := by
        have := h1.int (n := n * m) (by simpa using h 1)
        rw [← this]; congr 1; push_cast; ring
      rw [show multiples (1 : K) (m :: ns) = (m : K) * 1 :: multiples 1 ns from rfl, List.foldl_cons, e,
        ih (n * m) fun k => by simpa [mul_assoc] using h (k + 1)]
      simp [mul_assoc]
  have e := key ns n fun k => by simpa using hN (k + 1)
  rw [List.prod_cons, ← e]
  rw [show (n : K) = n * 1 by simp]
  exact hr'

/-- C96 for `reduce_mean`: the sum has no error, so the mean is the exact mean rounded once. -/
theorem C96_mean (hq : ExactOn rnd q N) (h1 : ExactOn rnd 1 N) (ln exp sqrt : K → K) (powf : K → K → K) {t : Tensor K}
    {ds : List Nat} {ns : List Int} (h : Rep t ds (multiples q ns)) (hne : ns ≠ []) (hlen : (ns.length : Int) ≤ N)
    (hN : ∀ k, |(ns.take k).sum| ≤ N) :
    ∃ r, reduceMean (.rounded rnd ln exp sqrt powf) t = .ok r ∧
      Rep r [] [rnd ((multiples q ns).sum / (ns.length : K))] := by
  obtain ⟨r, hr, hr'⟩ := fold_pure h (Mean.default (.rounded rnd ln exp sqrt powf))
    (Mean.update (.rounded rnd ln exp sqrt powf)) (Mean.intoResult (.rounded rnd ln exp sqrt powf))
  refine ⟨r, hr, ?_⟩
  rw [foldl_mean] at hr'
  have hpos : 1 ≤ ns.length := List.length_pos_of_ne_nil hne
  have e := foldl_exact hq ns 0 fun k => by simpa using hN k
  simp only [Int.cast_zero, zero_mul, zero_add] at e
  rw [multiples_sum, ← e]
  have hl : (multiples q ns).length = ns.length := by simp [multiples]
  simp only [Mean.intoResult, Mean.default, FOps.rounded, Nat.zero_add, hl, max_eq_left hpos, h1.nat hlen] at hr'
  exact hr'

/-- C96 for `reduce_hypot`: the sum of the squares of whole numbers has no error, only the square root rounds. -/
theorem C96_hypot (h1 : ExactOn rnd 1 N) (ln exp sqrt : K → K) (powf : K → K → K) {t : Tensor K} {ds : List Nat}
    {ns : List Int} (h : Rep t ds (multiples 1 ns)) (hN : (ns.map fun n => n * n).sum ≤ N) :
    ∃ r, reduceHypot (.rounded rnd ln exp sqrt powf) t = .ok r ∧ Rep r [] [sqrt ((ns.map fun n => n * n).sum : Int)] := by
  obtain ⟨r, hr, hr'⟩ := fold_pure h (0 : K) (fun s v => rnd (s + rnd (v * v))) sqrt
  refine ⟨r, hr, ?_⟩
  have key : ∀ (ns : List Int) (s : Int), 0 ≤ s → s + (ns.map fun n => n * n).sum ≤ N →
      (multiples (1 : K) ns).foldl (fun s v => rnd (s + rnd (v * v))) (s : K) =
        ((s + (ns.map fun n => n * n).sum : Int) : K) := by
    intro ns
    induction ns with
    | nil => intro s _ _; simp [multiples]
    | cons m ns ih =>
      intro s hs h
      have hsum : 0 ≤ (ns.map fun n => n * n).sum :=
        List.sum_nonneg (by simp only [List.mem_map]; rintro _ ⟨x, _, rfl⟩; exact mul_self_nonneg x)
      simp only [List.map_cons, List.sum_cons] at h
      have hm := mul_self_nonneg m
      have e1 : rnd ((m : K) * 1 * ((m : K) * 1)) = ((m * m : Int) : K) := by
        have := h1.int (n := m * m) (by rw [abs_of_nonneg hm]; linarith)
        rw [← this]; congr 1; push_cast; ring
      have e2 : rnd ((s : K) + ((m * m : Int) : K)) = ((s + m * m : Int) : K) := by
        have := h1.int (n := s + m * m) (by rw [abs_of_nonneg (by linarith)]; linarith)
        rw [← this]; congr 1; push_cast; ring
      rw [show multiples (1 : K) (m :: ns) = (m : K) * 1 :: multiples 1 ns from rfl, List.foldl_cons, e1, e2,
        ih (s + m * m) (by linarith) (by linarith)]
      simp [add_assoc]
  have e := key ns 0 le_rfl (by simpa using hN)
  rw [Int.cast_zero, zero_add] at e
  rwa [e] at hr'

/-! ## Matrix products -/

/-- A sum of products of multiples in any order of evaluation, every intermediate value within the range. -/
theorem evaluates_whole {p : K} (h1 : ExactOn rnd (p * q) N) (ln exp sqrt : K → K) (powf : K → K → K)
    {ps : List (K × K)} {v : K} (h : Evaluates (.rounded rnd ln exp sqrt powf) (fun x y z => rnd (x * y + z)) ps v) :
    ∀ ms : List (Int × Int), ps = ms.map (fun m => ((m.1 : K) * p, (m.2 : K) * q)) →
      (ms.map fun m => |m.1 * m.2|).sum ≤ N → v = ((ms.map fun m => m.1 * m.2).sum : Int) * (p * q) := by
  have nonneg : ∀ ms : List (Int × Int), 0 ≤ (ms.map fun m => |m.1 * m.2|).sum := fun ms =>
    List.sum_nonneg (by simp only [List.mem_map]; rintro _ ⟨x, _, rfl⟩; exact abs_nonneg _)
  have abs_le : ∀ ms : List (Int × Int), |(ms.map fun m => m.1 * m.2).sum| ≤ (ms.map fun m => |m.1 * m.2|).sum := by
    intro ms
    induction ms with
    | nil => simp
    | cons m ms ih =>
      simp only [List.map_cons, List.sum_cons]
      exact (abs_add_le _ _).trans (by omega)
  induction h with
  | zero =>
    intro ms e _
    have : ms = [] := by simpa using e.symm
    simp [this, FOps.rounded]
  | mul x y =>
    intro ms e hN
    match ms, e with
    | [m], e =>
      simp only [List.map_cons, List.map_nil, List.cons.injEq, Prod.mk.injEq, and_true] at e
      obtain ⟨rfl, rfl⟩ := e
      have := h1 (m.1 * m.2) (by simpa using hN)
      simp only [FOps.rounded, List.map_cons, List.map_nil, List.sum_cons, List.sum_nil, add_zero]
      rw [← this]; congr 1; push_cast; ring
  | swapped x y =>
    intro ms e hN
    match ms, e with
    | [m], e =>
      simp only [List.map_cons, List.map_nil, List.cons.injEq, Prod.mk.injEq, and_true] at e
      obtain ⟨rfl, rfl⟩ := e
      have := h1 (m.1 * m.2) (by simpa using hN)
      simp only [FOps.rounded, List.map_cons, List.map_nil, List.sum_cons, List.sum_nil, add_zero]
      rw [← this]; congr 1; push_cast; ring
  | fused x y _ ih =>
    intro ms e hN
    match ms, e with
    | m :: ms, e =>
      simp only [List.map_cons, List.cons.injEq, Prod.mk.injEq] at e
      obtain ⟨⟨rfl, rfl⟩, rfl⟩ := e
      simp only [List.map_cons, List.sum_cons] at hN
      have h2 := abs_nonneg (m.1 * m.2)
      have h3 := abs_le ms
      rw [ih ms rfl (by omega)]
      have := h1 (m.1 * m.2 + (ms.map fun m => m.1 * m.2).sum) ((abs_add_le _ _).trans (by omega))
      simp only [List.map_cons, List.sum_cons]
      rw [← this]; congr 1; push_cast; ring
  | @add as bs v w _ _ ih1 ih2 =>
    intro ms e hN
    obtain ⟨m1, m2, rfl, rfl, rfl⟩ := List.append_eq_map_iff.1 e
    simp only [List.map_append, List.sum_append] at hN
    have h2 := nonneg m1
    have h3 := nonneg m2
    have h4 := abs_le m1
    have h5 := abs_le m2
    rw [ih1 m1 rfl (by omega), ih2 m2 rfl (by omega)]
    have := h1 ((m1.map fun m => m.1 * m.2).sum + (m2.map fun m => m.1 * m.2).sum) ((abs_add_le _ _).trans (by omega))
    simp only [FOps.rounded, List.map_append, List.sum_append]
    rw [← this]; congr 1; push_cast; ring
  | scale _ ih =>
    intro ms e hN
    rw [ih ms e hN]
    have := h1 _ ((abs_le ms).trans hN)
    simpa [FOps.rounded] using this
  | @fusedScale as bs v w _ _ ih1 ih2 =>
    intro ms e hN
    obtain ⟨m1, m2, rfl, rfl, rfl⟩ := List.append_eq_map_iff.1 e
    simp only [List.map_append, List.sum_append] at hN
    have h2 := nonneg m1
    have h3 := nonneg m2
    have h4 := abs_le m1
    have h5 := abs_le m2
    rw [ih1 m1 rfl (by omega), ih2 m2 rfl (by omega)]
    have := h1 ((m1.map fun m => m.1 * m.2).sum + (m2.map fun m => m.1 * m.2).sum) ((abs_add_le _ _).trans (by omega))
    simp only [FOps.rounded, List.map_append, List.sum_append]
    rw [← this]; congr 1; push_cast; ring
  | @perm as bs v hp _ ih =>
    intro ms e hN
    have hp' : (ms.map fun m => ((m.1 : K) * p, (m.2 : K) * q)).Perm as := by rw [← e]; exact hp.symm
    obtain ⟨ms', hms, rfl⟩ : ∃ ms', ms.Perm ms' ∧ ms'.map (fun m => ((m.1 : K) * p, (m.2 : K) * q)) = as := by
      have : Relation.Comp List.Perm (List.Forall₂ fun (m : Int × Int) b => ((m.1 : K) * p, (m.2 : K) * q) = b) ms as := by
        rw [← List.forall₂_comp_perm_eq_perm_comp_forall₂]
        refine ⟨_, ?_, hp'⟩
        rw [List.forall₂_map_right_iff]
        exact List.forall₂_same.2 fun _ _ => rfl
      obtain ⟨ms', h1, h2⟩ := this
      refine ⟨ms', h1, ?_⟩
      have := List.forall₂_map_left_iff.2 h2
      exact List.forall₂_eq_eq_eq ▸ this
    rw [ih ms' rfl (by rwa [← (hms.map _).sum_eq]), (hms.map _).sum_eq]

theorem at_multiples (q : K) {ds : List Nat} {ns : List Int} {is : List Nat} {n : Int} (h : at? ds ns is = some n) :
    at? ds (multiples q ns) is = some ((n : K) * q) := by
  unfold at? at h ⊢
  obtain ⟨o, ho, hx⟩ := Option.bind_eq_some_iff.1 h
  rw [ho, Option.bind_some, multiples, List.getElem?_map, hx]
  rfl

theorem list_range_sum (f : Nat → Int) (k : Nat) : ((List.range k).map f).sum = ∑ l ∈ Finset.range k, f l := by
  induction k with
  | zero => rfl
  | succ k ih => rw [List.range_succ, List.map_append, List.sum_append, ih, Finset.sum_range_succ]; simp

/-- C96 for `matmul`, whatever the order of additions of the library and with or without fused multiply-adds: where the
factors of an entry are whole multiples (of `p` in `a`, of `q` in `b`) and the magnitudes of the products of multipliers
add up to at most `N`, the entry is exactly the sum of the products. -/
theorem C96_matmul {p : K} (hq : ExactOn rnd (p * q) N) (ln exp sqrt : K → K) (powf : K → K → K) {bl : Blas K}
    (hbl : bl.Sums (.rounded rnd ln exp sqrt powf) fun x y z => rnd (x * y + z)) (tr : Transpose) {a b : Tensor K}
    {A : List Nat} {m k n : Nat} {xs ys : List Int} (ha : Rep a (A ++ flip tr.left m k) (multiples p xs))
    (hb : Rep b (A ++ flip tr.right k n) (multiples q ys)) (hfA : Fits A) (hfO : Fits (A ++ [n, m])) :
    ∃ t zs, matmulT bl a b tr = .ok t ∧ Rep t (A ++ [n, m]) zs ∧
      ∀ is i j, (f g : Nat → Int) → i < m → j < n → (ravel A is).isSome →
        (∀ l, l < k → at? (A ++ flip tr.left m k) xs (is ++ flip tr.left i l) = some (f l) ∧
          at? (A ++ flip tr.right k n) ys (is ++ flip tr.right l j) = some (g l)) →
        ∑ l ∈ Finset.range k, |f l * g l| ≤ N →
        at? (A ++ [m, n]) zs (is ++ [i, j]) = some (((∑ l ∈ Finset.range k, f l * g l : Int) : K) * (p * q)) := by
  obtain ⟨t, zs, e, ht, h⟩ := C39_any_order_partial hbl tr ha hb rfl hfA hfO
  refine ⟨t, zs, e, ht, fun is i j f g hi hj hs hfg hN => ?_⟩
  obtain ⟨v, hv, hev⟩ := h is is i j (fun l => (f l : K) * p) (fun l => (g l : K) * q) rfl hi hj hs fun l hl =>
    ⟨at_multiples p (hfg l hl).1, at_multiples q (hfg l hl).2⟩
  rw [hv, evaluates_whole hq ln exp sqrt powf hev ((List.range k).map fun l => (f l, g l)) (by simp [Function.comp_def])
    (by rw [List.map_map, list_range_sum]; exact hN), List.map_map, list_range_sum]
  rfl

/-- C96 for `matvec`, with any order of additions. -/
theorem C96_matvec {p : K} (hq : ExactOn rnd (q * p) N) (ln exp sqrt : K → K) (powf : K → K → K) {bl : Blas K}
    (hbl : bl.Sums (.rounded rnd ln exp sqrt powf) fun x y z => rnd (x * y + z)) {tr : Transpose}
    (htr : tr = .none ∨ tr = .transposeA) {a x : Tensor K} {P A R : List Nat} {m k : Nat} {xs ys : List Int}
    (ha : Rep a (A ++ flip tr.left m k) (multiples p xs)) (hx : Rep x (P ++ A ++ R ++ [k]) (multiples q ys))
    (hR : R.length ≤ 1) (hP : R = [] → P ++ A = []) (hpos : 0 < xs.length ∧ 0 < ys.length)
    (hfO : Fits (P ++ A ++ R ++ [m])) :
    ∃ t zs, matvecT bl a x tr = .ok t ∧ Rep t (P ++ A ++ R ++ [m]) zs ∧
      ∀ pi ai ri j, (f g : Nat → Int) → (ravel P pi).isSome → (ravel A ai).isSome → (ravel R ri).isSome → j < m →
        (∀ l, l < k → at? (P ++ A ++ R ++ [k]) ys (pi ++ ai ++ ri ++ [l]) = some (f l) ∧
          at? (A ++ flip tr.left m k) xs (ai ++ flip tr.left j l) = some (g l)) →
        ∑ l ∈ Finset.range k, |f l * g l| ≤ N →
        at? (P ++ A ++ R ++ [m]) zs (pi ++ ai ++ ri ++ [j]) =
          some (((∑ l ∈ Finset.range k, f l * g l : Int) : K) * (q * p)) := by
  obtain ⟨t, zs, e, ht, h⟩ := C41_any_order_partial hbl htr ha hx hR hP (by simpa [multiples] using hpos) hfO
  refine ⟨t, zs, e, ht, fun pi ai ri j f g h1 h2 h3 hj hfg hN => ?_⟩
  obtain ⟨v, hv, hev⟩ := h pi ai ri j (fun l => (f l : K) * q) (fun l => (g l : K) * p) h1 h2 h3 hj fun l hl =>
    ⟨at_multiples q (hfg l hl).1, at_multiples p (hfg l hl).2⟩
  rw [hv, evaluates_whole hq ln exp sqrt powf hev ((List.range k).map fun l => (f l, g l)) (by simp [Function.comp_def])
    (by rw [List.map_map, list_range_sum]; exact hN), List.map_map, list_range_sum]
  rfl

/-! ## Elementwise operators -/

theorem whole_operator (ar : Arith K K K) (op : Tensor.OpName) {p r : K} (f : K → K → K) (g : Int → Int → Int)
    (hop : ∀ x y, meaning ar op x y = .ok (f x y)) (hfg : ∀ x y : Int, |g x y| ≤ N → f (x * p) (y * q) = g x y * r)
    {a b : Tensor K} {ds es big : List Nat} {xs ys : List Int} (ha : Rep a ds (multiples p xs))
    (hb : Rep b es (multiples q ys)) (hd : ds <:+ big) (he : es <:+ big) (hbig : big = ds ∨ big = es)
    (hne : 0 < big.prod) :
    ∃ t zs, Tensor.binary ar op a b = .ok t ∧ Rep t big zs ∧ ∀ idx x y, (ravel big idx).isSome →
      at? ds xs (idx.drop (big.length - ds.length)) = some x → at? es ys (idx.drop (big.length - es.length)) = some y →
      |g x y| ≤ N → at? big zs idx = some ((g x y : K) * r) := by
  obtain ⟨t, e, zs, ht, h⟩ := map2Method_pointwise f ha hb hd he hbig hne
  refine ⟨t, zs, ?_, ht, ?_⟩
  · rw [← e]
    unfold Tensor.binary Tensor.map2Method
    congr 1
    funext x y
    rw [meaning_eq]
    exact hop x y
  · intro idx x y hi hx hy hN
    obtain ⟨o, ho⟩ := Option.isSome_iff_exists.1 hi
    obtain ⟨x', y', hx', hy', hz⟩ := h idx o ho
    rw [at_multiples p hx] at hx'
    rw [at_multiples q hy] at hy'
    cases hx'; cases hy'
    rw [hz, hfg x y hN]

/-- C96 for `+` with broadcasting. -/
theorem C96_add (hq : ExactOn rnd q N) (ar : Arith K K K) (har : ∀ x y, ar.add x y = .ok (rnd (x + y)))
    {a b : Tensor K} {ds es big : List Nat} {xs ys : List Int} (ha : Rep a ds (multiples q xs))
    (hb : Rep b es (multiples q ys)) (hd : ds <:+ big) (he : es <:+ big) (hbig : big = ds ∨ big = es)
    (hne : 0 < big.prod) :
    ∃ t zs, Tensor.binary ar .add a b = .ok t ∧ Rep t big zs ∧ ∀ idx x y, (ravel big idx).isSome →
      at? ds xs (idx.drop (big.length - ds.length)) = some x → at? es ys (idx.drop (big.length - es.length)) = some y →
      |x + y| ≤ N → at? big zs idx = some (((x + y : Int) : K) * q) :=
  whole_operator ar .add (fun x y => rnd (x + y)) (fun x y => x + y) har (fun x y h => by
    rw [← hq _ h]; congr 1; push_cast; ring) ha hb hd he hbig hne

/-- C96 for `-` with broadcasting. -/
theorem C96_sub (hq : ExactOn rnd q N) (ar : Arith K K K) (har : ∀ x y, ar.sub x y = .ok (rnd (x - y)))
    {a b : Tensor K} {ds es big : List Nat} {xs ys : List Int} (ha : Rep a ds (multiples q xs))
    (hb : Rep b es (multiples q ys)) (hd : ds <:+ big) (he : es <:+ big) (hbig : big = ds ∨ big = es)
    (hne : 0 < big.prod) :
    ∃ t zs, Tensor.binary ar .sub a b = .ok t ∧ Rep t big zs ∧ ∀ idx x y, (ravel big idx).isSome →
      at? ds xs (idx.drop (big.length - ds.length)) = some x → at? es ys (idx.drop (big.length - es.length)) = some y →
      |x - y| ≤ N → at? big zs idx = some (((x - y : Int) : K) * q) :=
  whole_operator ar .sub (fun x y => rnd (x - y)) (fun x y => x - y) har (fun x y h => by
    rw [← hq _ h]; congr 1; push_cast; ring) ha hb hd he hbig hne

/-- C96 for `*` with broadcasting. -/
theorem C96_mul {p : K} (hq : ExactOn rnd (p * q) N) (ar : Arith K K K) (har : ∀ x y, ar.mul x y = .ok (rnd (x * y)))
    {a b : Tensor K} {ds es big : List Nat} {xs ys : List Int} (ha : Rep a ds (multiples p xs))
    (hb : Rep b es (multiples q ys)) (hd : ds <:+ big) (he : es <:+ big) (hbig : big = ds ∨ big = es)
    (hne : 0 < big.prod) :
    ∃ t zs, Tensor.binary ar .mul a b = .ok t ∧ Rep t big zs ∧ ∀ idx x y, (ravel big idx).isSome →
      at? ds xs (idx.drop (big.length - ds.length)) = some x → at? es ys (idx.drop (big.length - es.length)) = some y →
      |x * y| ≤ N → at? big zs idx = some (((x * y : Int) : K) * (p * q)) :=
  whole_operator ar .mul (fun x y => rnd (x * y)) (fun x y => x * y) har (fun x y h => by
    rw [← hq _ h]; congr 1; push_cast; ring) ha hb hd he hbig hne

/-! ## Ranges -/

/-- C96 for `linspace`: if the ends of a lane are `x * q` and `y * q` and `len - 1` divides `y - x`, the entries of the
lane are exactly `x * q`, `(x + s) * q`, ..., `y * q` with `s = (y - x) / (len - 1)`. -/
theorem C96_linspace (hq : ExactOn rnd q N) (h1 : ExactOn rnd 1 N) (hq0 : 0 < q) (ln exp sqrt : K → K)
    (powf : K → K → K) {a b : Tensor K} {ds : List Nat} {xs ys : List Int} {len : Nat} (ha : Rep a ds (multiples q xs))
    (hb : Rep b ds (multiples q ys)) (hr : ds.length < 5) (hne : 0 < ds.prod)
    (hle : ∀ (i : Nat) x y, xs[i]? = some x → ys[i]? = some y → x ≤ y) (hfit : Fits (len :: ds))
    (hlen : (len : Int) ≤ N) :
    ∃ t zs, Init.linspace (.rounded rnd ln exp sqrt powf) a b len = .ok t ∧ Rep t (len :: ds) zs ∧
      ∀ (k : Nat) is x y (s : Int), k < len → at? ds xs is = some x → at? ds ys is = some y →
        |x| ≤ N → |y| ≤ N → y - x ≤ N → y - x = s * ((len : Int) - 1) →
        at? (len :: ds) zs (k :: is) = some (((x + s * k : Int) : K) * q) := by
  obtain ⟨t, zs, e, ht, h⟩ := C35_linspace_partial (.rounded rnd ln exp sqrt powf) ha hb hr hne (by
    intro i x y hx hy
    rw [multiples, List.getElem?_map] at hx hy
    obtain ⟨x, hx', rfl⟩ := Option.map_eq_some_iff.1 hx
    obtain ⟨y, hy', rfl⟩ := Option.map_eq_some_iff.1 hy
    have : (x : K) ≤ y := by exact_mod_cast hle i x y hx' hy'
    simpa [FOps.rounded] using mul_le_mul_of_nonneg_right this hq0.le) hfit
  refine ⟨t, zs, e, ht, ?_⟩
  intro k is x y s hk hx hy hxN hyN hd hs
  rw [h k is _ _ hk (at_multiples q hx) (at_multiples q hy)]
  have hkN : rnd (k : K) = k := h1.nat (by omega)
  simp only [FOps.rounded, hkN, Option.some.injEq]
  by_cases hl : 1 < len
  · have hxy : x ≤ y := by
      obtain ⟨o, ho, hx'⟩ := Option.bind_eq_some_iff.1 hx
      obtain ⟨o', ho', hy'⟩ := Option.bind_eq_some_iff.1 hy
      rw [ho] at ho'; cases ho'
      exact hle o x y hx' hy'
    have hs0 : 0 ≤ s := by nlinarith
    have hsk : s * k ≤ y - x := by rw [hs]; exact mul_le_mul_of_nonneg_left (by omega) hs0
    have hs1 : s ≤ y - x := by rw [hs]; nlinarith
    have hn0 : ((len - 1 : Nat) : K) ≠ 0 := Nat.cast_ne_zero.2 (by omega)
    have e1 : rnd ((y : K) * q - x * q) = ((y - x : Int) : K) * q := by
      rw [← hq (y - x) (by rw [abs_of_nonneg (by omega)]; exact hd)]; congr 1; push_cast; ring
    have e2 : rnd (((y - x : Int) : K) * q / ((len - 1 : Nat) : K)) = (s : K) * q := by
      rw [← hq s (by rw [abs_of_nonneg hs0]; omega)]; congr 1
      rw [hs, show ((len : Int) - 1) = ((len - 1 : Nat) : Int) by omega]
      push_cast
      field_simp
    have e3 : rnd ((s : K) * q * k) = ((s * k : Int) : K) * q := by
      rw [← hq (s * k) (by rw [abs_of_nonneg (by positivity)]; omega)]; congr 1; push_cast; ring
    have e4 : rnd ((x : K) * q + ((s * k : Int) : K) * q) = ((x + s * k : Int) : K) * q := by
      have : 0 ≤ s * (k : Int) := by positivity
      rw [← hq (x + s * k) (by rw [abs_le] at hxN hyN ⊢; constructor <;> omega)]; congr 1; push_cast; ring
    rw [if_pos hl, h1.nat (n := len - 1) (by omega), e1, e2, e3, e4]
  · have hk0 : k = 0 := by omega
    subst hk0
    have := hq x hxN
    have h0 : rnd (0 : K) = 0 := by simpa using h1.int (n := 0) (by rw [abs_zero]; exact (abs_nonneg x).trans hxN)
    rw [if_neg hl]
    simpa [h0] using this

/-- C96 for `mgrid`: the coordinate matrices are exact for grids of up to `N` by `N`. -/
theorem C96_mgrid (h1 : ExactOn rnd 1 N) (ln exp sqrt : K → K) (powf : K → K → K) {w h : Nat} (hw : 0 < w) (hh : 0 < h)
    (h32 : w * h < 2 ^ 32) (hwN : (w : Int) ≤ N) (hhN : (h : Int) ≤ N) :
    ∃ x y xs ys, Init.mgrid (.rounded rnd ln exp sqrt powf) w h = .ok [x, y] ∧ Rep x [h, w] xs ∧ Rep y [h, w] ys ∧
      ∀ i j, i < h → j < w → at? [h, w] xs [i, j] = some (j : K) ∧ at? [h, w] ys [i, j] = some (i : K) := by
  have hw32 : w < 2 ^ 32 := lt_of_le_of_lt (by simpa using Nat.mul_le_mul_left w hh) h32
  have hh32 : h < 2 ^ 32 := lt_of_le_of_lt (by simpa using Nat.mul_le_mul_right h hw) h32
  obtain ⟨z, ez, hz⟩ := C06_from_scalar (0 : K)
  have line : ∀ L : Nat, 0 < L → L < 2 ^ 32 → (L : Int) ≤ N → ∃ e t, Tensor.ofScalar (rnd (rnd (L : K) - 1)) = .ok e ∧
      Init.linspace (.rounded rnd ln exp sqrt powf) z e L = .ok t ∧
      Rep t [L] ((List.range L).map fun k : Nat => (k : K)) := by
    intro L hL hL32 hLN
    have eL : rnd (rnd (L : K) - 1) = ((L - 1 : Int) : K) := by
      rw [h1.nat hLN, ← h1.int (n := (L : Int) - 1) (by rw [abs_of_nonneg (by omega)]; omega)]
      congr 1; push_cast; ring
    obtain ⟨e, ee, he⟩ := C06_from_scalar ((L - 1 : Int) : K)
    obtain ⟨t, zs, et, ht, hat⟩ := C96_linspace h1 h1 one_pos ln exp sqrt powf (ds := []) (xs := [0]) (ys := [(L : Int) - 1])
      (len := L) (by simpa [multiples] using hz) (by simpa [multiples] using he) (by simp) (by simp)
      (by
        intro i x y hx hy
        match i with
        | 0 => simp at hx hy; omega
        | n + 1 => simp at hx)
      (fits_one hL32) hLN
    refine ⟨e, t, by rw [eL]; exact ee, et, ?_⟩
    have : zs = (List.range L).map fun k : Nat => (k : K) := by
      apply List.ext_getElem?
      intro k
      by_cases hk : k < L
      · have := hat k [] 0 ((L : Int) - 1) 1 hk (by simp [at?, ravel]) (by simp [at?, ravel]) (by simp; omega)
          (by rw [abs_of_nonneg (by omega)]; omega) (by omega) (by omega)
        rw [at_vec (by rw [ht.length]; simp)] at this
        rw [this, List.getElem?_map, List.getElem?_range hk]
        simp
      · rw [List.getElem?_eq_none (by rw [ht.length]; simpa using hk), List.getElem?_eq_none (by simpa using hk)]
    rw [← this]; exact ht
  obtain ⟨m, a, em, ea, ha⟩ := line w hw hw32 hwN
  obtain ⟨n, b, en, eb, hb⟩ := line h hh hh32 hhN
  obtain ⟨os, eo, hl, ho⟩ := C34_meshgrid (ts := [a, b])
    (A := [(List.range w).map fun k : Nat => (k : K), (List.range h).map fun k : Nat => (k : K)])
    (by simpa using RepAll.cons ha (.cons hb .nil)) (by simp)
    (by
      intro xs hxs
      rcases List.mem_cons.1 hxs with rfl | hxs
      · simp; omega
      · rw [List.mem_singleton.1 hxs]; simp; omega)
    (by simpa using h32)
  obtain ⟨x, xs, ex, hx, hxat⟩ := ho 0 _ rfl
  obtain ⟨y, ys, ey, hy, hyat⟩ := ho 1 _ rfl
  have hos : os = [x, y] := by
    match os, hl, ex, ey with
    | [_, _], _, ex, ey => simp at ex ey; rw [ex, ey]
  refine ⟨x, y, xs, ys, ?_, by simpa using hx, by simpa using hy, ?_⟩
  · unfold Init.mgrid
    have e1 : Tensor.ofScalar (FOps.rounded rnd ln exp sqrt powf).zero = .ok z := ez
    have e2 : Tensor.ofScalar ((FOps.rounded rnd ln exp sqrt powf).sub ((FOps.rounded rnd ln exp sqrt powf).ofNat w)
      (FOps.rounded rnd ln exp sqrt powf).one) = .ok m := em
    have e3 : Tensor.ofScalar ((FOps.rounded rnd ln exp sqrt powf).sub ((FOps.rounded rnd ln exp sqrt powf).ofNat h)
      (FOps.rounded rnd ln exp sqrt powf).one) = .ok n := en
    rw [e1, ok_bind, e2, ok_bind, e3, ok_bind, ea, ok_bind, eb, ok_bind, eo, hos]
  · intro i j hi hj
    have h1 := hxat [i, j] j (by simp [ravel, hi, hj]) rfl
    have h2 := hyat [i, j] i (by simp [ravel, hi, hj]) rfl
    simp only [List.map_cons, List.map_nil, List.length_map, List.length_range, List.reverse_cons, List.reverse_nil,
      List.nil_append, List.singleton_append] at h1 h2
    rw [h1, h2]
    simp [hi, hj]

/-- C96 for `arange` from `x * q` below `y * q` in steps of `s * q`: exactly the multiples `x + k * s` below `y`, as
long as the first multiple not below `y` is still within the range. -/
theorem C96_arange (hq : ExactOn rnd q N) (hq0 : 0 < q) (ln exp sqrt : K → K) (powf : K → K → K) {x y s : Int}
    (hxy : x ≤ y) (hs : 0 < s) (hx : |x| ≤ N) (hy : y + s ≤ N + 1) (h32 : y - x < 2 ^ 32) :
    ∃ (n : Nat) (t : Tensor K), Rep t [n] ((List.range n).map fun k : Nat => ((x + k * s : Int) : K) * q) ∧
      (∀ k : Nat, k < n ↔ x + k * s < y) ∧
      ∀ fuel, n < fuel →
        Init.arange (.rounded rnd ln exp sqrt powf) fuel (x * q) (y * q) (s * q) = some (.ok t) := by
  classical
  have hex : ∃ n : Nat, ¬ x + (n : Int) * s < y := ⟨(y - x).toNat, by
    have : ((y - x).toNat : Int) = y - x := by omega
    rw [this]; nlinarith⟩
  have hbelow : ∀ k : Nat, k < Nat.find hex ↔ x + (k : Int) * s < y := by
    intro k
    constructor
    · intro h
      exact not_not.1 (Nat.find_min hex h)
    · intro h
      by_contra hc
      have h2 := Nat.find_spec hex
      have : ((Nat.find hex : Nat) : Int) ≤ k := by exact_mod_cast not_lt.1 hc
      nlinarith
  have hrun : ∀ k : Nat, k ≤ Nat.find hex →
      runningSum (.rounded rnd ln exp sqrt powf) ((x : K) * q) (s * q) k = ((x + k * s : Int) : K) * q := by
    intro k
    induction k with
    | zero => intro _; simp [runningSum]
    | succ k ih =>
      intro hk
      have h1 := (hbelow k).1 (by omega)
      rw [runningSum, ih (by omega)]
      have h2 : 0 ≤ (k : Int) * s := by positivity
      have := hq (x + (k + 1 : Nat) * s) (by
        rw [abs_le] at hx ⊢
        push_cast
        constructor <;> nlinarith)
      rw [← this]
      simp only [FOps.rounded]
      congr 1; push_cast; ring
  have hn32 : Nat.find hex < 2 ^ 32 := by
    refine lt_of_le_of_lt (Nat.find_min' hex (m := (y - x).toNat) ?_) (by omega)
    have : ((y - x).toNat : Int) = y - x := by omega
    rw [this]; nlinarith
  have hlt : ∀ u v : Int, ((u : K) * q < v * q ↔ u < v) := fun u v => by
    rw [mul_lt_mul_iff_left₀ hq0]; exact_mod_cast Iff.rfl
  obtain ⟨t, ht, h⟩ := C37_ascending_any (.rounded rnd ln exp sqrt powf) (start := (x : K) * q) (stop := y * q)
    (step := s * q) (n := Nat.find hex)
    (by simp [FOps.rounded, hq0.ne', hs.ne'])
    (by simpa [FOps.rounded] using mul_le_mul_of_nonneg_right (by exact_mod_cast hxy : (x : K) ≤ y) hq0.le)
    (by simpa [FOps.rounded] using mul_pos (by exact_mod_cast hs : (0 : K) < s) hq0) hn32
    (by
      intro k hk
      rw [hrun k hk.le]
      simpa only [FOps.rounded, decide_eq_true_eq, hlt] using (hbelow k).1 hk)
    (by
      rw [hrun _ le_rfl]
      simpa only [FOps.rounded, decide_eq_false_iff_not, hlt] using Nat.find_spec hex)
  refine ⟨Nat.find hex, t, ?_, hbelow, h⟩
  have : ((List.range (Nat.find hex)).map fun k : Nat => ((x + k * s : Int) : K) * q) =
      (List.range (Nat.find hex)).map (runningSum (.rounded rnd ln exp sqrt powf) ((x : K) * q) (s * q)) :=
    List.map_congr_left fun k hk => (hrun k (List.mem_range.1 hk).le).symm
  rw [this]
  exact ht

/-- C96: at the end of the range `arange` in steps of one stands still: in `f32` a call `arange(0., end, 1.)` with `end`
above 2^24 never returns, and its list grows until the memory is used up. -/
theorem C96_arange_violates [FloorRing K] (ln exp sqrt : K → K) (powf : K → K → K) {stop : K} (h : 2 ^ 24 < stop) :
    ∀ fuel, Init.arange (.rounded Ieee.f32 ln exp sqrt powf) fuel 0 stop 1 = none := by
  have h0 : (0 : K) < 2 ^ 24 := by positivity
  refine C37_stuck_violates (.rounded Ieee.f32 ln exp sqrt powf) (start := 0) (step := 1) (by simp [FOps.rounded])
    (by simpa [FOps.rounded] using (h0.trans h).le) (by simp [FOps.rounded]) fun k => ?_
  have hrun : runningSum (.rounded Ieee.f32 ln exp sqrt powf) (0 : K) 1 k = ((min k (2 ^ 24) : Nat) : K) := by
    induction k with
    | zero => simp [runningSum]
    | succ k ih =>
      rw [runningSum, ih]
      simp only [FOps.rounded]
      by_cases hk : k < 2 ^ 24
      · rw [min_eq_left hk.le, min_eq_left (by omega)]
        have := Ieee.round_nat (K := K) (p := 24) (emin := -149) (k := k + 1) (by omega) (by norm_num) (by norm_num)
        rw [← Nat.cast_one, ← Nat.cast_add]
        exact this
      · rw [min_eq_right (by omega), min_eq_right (by omega)]
        have := Ieee.round_succ (K := K) (p := 24) (emin := -149) (by norm_num) (by norm_num)
        rw [Nat.cast_pow, Nat.cast_ofNat]
        exact this
  rw [hrun]
  simp only [FOps.rounded, decide_eq_true_eq]
  refine lt_of_le_of_lt ?_ h
  have : min k (2 ^ 24) ≤ 2 ^ 24 := min_le_right _ _
  exact_mod_cast this

/-! ## Examples -/

/-- Dimensions [2, 3], the `f32` values -3, 0.5, 1, 2.5, 1000000, 4 as multiples of one half. -/
def exHalves : Tensor ℚ := { shape := ofDims [2, 3], offset := 0, size := 6, data := [-3, 1 / 2, 1, 5 / 2, 1000000, 4] }

theorem exHalves_rep : Rep exHalves [2, 3] (multiples (2 ^ (-1 : Int)) [-6, 1, 2, 5, 2000000, 8]) := by
  have : multiples ((2 : ℚ) ^ (-1 : Int)) [-6, 1, 2, 5, 2000000, 8] = [-3, 1 / 2, 1, 5 / 2, 1000000, 4] := by
    simp [multiples]; norm_num
  rw [this]
  exact ⟨⟨wf_ofDims ⟨by simp, by simp⟩, rfl, by simp [exHalves]⟩, rfl, rfl⟩

/-- Dimensions [3], the whole numbers 7, -2, 3. -/
def exWhole : Tensor ℚ := { shape := ofDims [3], offset := 0, size := 3, data := [7, -2, 3] }

theorem exWhole_rep : Rep exWhole [3] (multiples 1 [7, -2, 3]) := by
  have : multiples (1 : ℚ) [7, -2, 3] = [7, -2, 3] := by simp [multiples]
  rw [this]
  exact ⟨⟨wf_ofDims ⟨by simp, by simp⟩, rfl, by simp [exWhole]⟩, rfl, rfl⟩

/-- The `f32` sum of -3, 0.5, 1, 2.5, 1000000, 4 is exactly 1000005. -/
example : ∃ r, reduceOp (fun x y => .ok ((FOps.rounded Ieee.f32 id id id fun x _ => x : FOps ℚ).add x y)) exHalves = .ok r ∧
    Rep r [] [1000005] := by
  obtain ⟨r, h1, h2⟩ := C96_sum (C96_f32 (by norm_num)) id id id (fun x _ => x) exHalves_rep (by simp)
    (abs_take_le (by norm_num))
  refine ⟨r, h1, ?_⟩
  rw [multiples_sum] at h2
  norm_num at h2
  exact h2

/-- In any order, and likewise in `f64`. -/
example : ∃ r s v, reduceOp (fun x y => .ok ((FOps.rounded Ieee.f64 id id id fun x _ => x : FOps ℚ).add x y)) exWhole = .ok r ∧
    reduceOp (fun x y => .ok ((FOps.rounded Ieee.f64 id id id fun x _ => x : FOps ℚ).add x y))
      (⟨ofDims [3], 0, 3, [3, 7, -2]⟩ : Tensor ℚ) = .ok s ∧ Rep r [] [v] ∧ Rep s [] [v] := by
  refine C96_sum_order (q := 1) (N := 2 ^ 53) (ns := [7, -2, 3]) (ms := [3, 7, -2])
    (by simpa using C96_f64 (K := ℚ) (e := 0) (by norm_num)) id id id (fun x _ => x) exWhole_rep (es := [3]) ?_ (by decide)
    (by simp) (by norm_num)
  have : multiples (1 : ℚ) [3, 7, -2] = [3, 7, -2] := by simp [multiples]
  rw [this]
  exact ⟨⟨wf_ofDims ⟨by simp, by simp⟩, rfl, by simp⟩, rfl, rfl⟩

/-- And so are its column sums. -/
example := C96_sum_axis (C96_f32 (by norm_num)) id id id (fun x _ => x) (pre := []) (post := [3]) exHalves_rep (by simp)
  (a := 0) (by decide) (B := 2000000) (by simp) (by norm_num)

/-- The product of 7, -2, 3 is -42, their hypotenuse the root of 62, their mean 8 / 3 rounded once. -/
example : (∃ r, reduceOp (fun x y => .ok ((FOps.rounded Ieee.f32 id id id fun x _ => x : FOps ℚ).mul x y)) exWhole = .ok r ∧
      Rep r [] [-42]) ∧
    (∃ r, reduceHypot (.rounded Ieee.f32 id id id fun x _ => x) exWhole = .ok r ∧ Rep r [] [62]) ∧
    ∃ r, reduceMean (.rounded Ieee.f32 id id id fun x _ => x) exWhole = .ok r ∧ Rep r [] [Ieee.f32 (8 / 3)] := by
  obtain ⟨r, h1, h2⟩ := C96_product C96_f32_whole id id id (fun x _ => x) exWhole_rep (by simp) (by
    intro k
    match k with
    | 0 => simp
    | 1 => simp
    | 2 => simp
    | k + 3 => simp)
  obtain ⟨s, h3, h4⟩ := C96_hypot C96_f32_whole id id id (fun x _ => x) exWhole_rep (by norm_num)
  obtain ⟨m, h5, h6⟩ := C96_mean C96_f32_whole C96_f32_whole id id id (fun x _ => x) exWhole_rep (by simp) (by norm_num)
    (abs_take_le (by norm_num))
  refine ⟨⟨r, h1, by simpa using h2⟩, ⟨s, h3, by norm_num at h4; exact h4⟩, m, h5, ?_⟩
  rw [multiples_sum] at h6
  norm_num at h6
  exact h6

/-- A product of the two, for the simple loops and for any library: 7 * -3 + -2 * 0.5 + 3 * 1 = -19. -/
example {bl : Blas ℚ} (hbl : bl.Sums (.rounded Ieee.f32 id id id fun x _ => x) fun x y z => Ieee.f32 (x * y + z)) :
    ∃ t zs, matvecT bl exHalves exWhole .none = .ok t ∧ Rep t [2] zs ∧ at? [2] zs [0] = some (-19) := by
  obtain ⟨t, zs, e, ht, h⟩ := C96_matvec (p := 2 ^ (-1 : Int)) (q := 1) (N := 2 ^ 24)
    (by rw [one_mul]; exact C96_f32 (by norm_num)) id id id (fun x _ => x) hbl (tr := .none) (.inl rfl) (P := []) (A := [])
    (R := []) (m := 2) (k := 3) exHalves_rep exWhole_rep (by simp) (by simp) (by simp)
    (fits_of_pos (by simp) (by simp))
  refine ⟨t, zs, e, ht, ?_⟩
  have := h [] [] [] 0 (fun l => [7, -2, 3].getD l 0) (fun l => [-6, 1, 2].getD l 0) rfl rfl rfl (by norm_num) (by
    intro l hl
    match l, hl with
    | 0, _ => exact ⟨rfl, rfl⟩
    | 1, _ => exact ⟨rfl, rfl⟩
    | 2, _ => exact ⟨rfl, rfl⟩) (by simp [Finset.sum_range_succ])
  rw [show [] ++ [] ++ [] ++ [0] = [0] from rfl, show ([] : List Nat) ++ [] ++ [] ++ [2] = [2] from rfl] at this
  rw [this]
  simp [Finset.sum_range_succ]
  norm_num

/-- A matrix of whole numbers times a matrix of halves. -/
example := C96_matmul (p := (2 : ℚ) ^ (-1 : Int)) (q := 2 ^ (-1 : Int)) (N := 2 ^ 24)
  (by rw [← zpow_add₀ two_ne_zero]; exact C96_f32 (by norm_num)) id id id (fun x _ => x)
  (sums_naive (.rounded Ieee.f32 id id id fun x _ => x) fun x y z => Ieee.f32 (x * y + z)) .transposeB (A := []) (m := 2)
  (k := 3) (n := 2) exHalves_rep exHalves_rep fits_nil (fits_of_pos (by simp) (by simp))

def exF32Arith : Arith ℚ ℚ ℚ :=
  ⟨fun x y => .ok (Ieee.f32 (x + y)), fun x y => .ok (Ieee.f32 (x - y)), fun x y => .ok (Ieee.f32 (x * y)),
    fun _ _ => .error .panic, fun _ _ => .error .panic, fun _ _ => .error .panic, fun _ _ => .error .panic,
    fun _ _ => .error .panic, fun _ _ => .error .panic, fun _ _ => .error .panic⟩

example := C96_add (C96_f32 (by norm_num)) exF32Arith (fun _ _ => rfl) exHalves_rep exHalves_rep (big := [2, 3])
  (by simp) (by simp) (.inl rfl) (by simp)
example := C96_sub (C96_f32 (by norm_num)) exF32Arith (fun _ _ => rfl) exHalves_rep exHalves_rep (big := [2, 3])
  (by simp) (by simp) (.inl rfl) (by simp)
example := C96_mul (p := (2 : ℚ) ^ (-1 : Int)) (q := 1) (N := 2 ^ 24) (by rw [mul_one]; exact C96_f32 (by norm_num))
  exF32Arith (fun _ _ => rfl) exHalves_rep exWhole_rep (big := [2, 3]) (by simp) ⟨[2], rfl⟩ (.inl rfl) (by simp)

/-- `linspace(-3, 17, 11)` in `f32` is -3, -1, 1, ..., 17 exactly, and its entry 7 is 11. -/
example : ∃ (a b t : Tensor ℚ) (zs : List ℚ), Init.linspace (.rounded Ieee.f32 id id id fun x _ => x) a b 11 = .ok t ∧
    Rep t [11] zs ∧ at? [11] zs [7] = some 11 := by
  obtain ⟨a, _, ha⟩ := C06_from_scalar (-3 : ℚ)
  obtain ⟨b, _, hb⟩ := C06_from_scalar (17 : ℚ)
  obtain ⟨t, zs, e, ht, h⟩ := C96_linspace (K := ℚ) (q := 1) (a := a) (b := b) (ds := []) (len := 11) C96_f32_whole C96_f32_whole one_pos id id id (fun x _ => x) (xs := [-3]) (ys := [17])
    (by simpa [multiples] using ha) (by simpa [multiples] using hb) (by simp) (by simp) (by
      intro i x y hx hy
      match i with
      | 0 => simp at hx hy; omega
      | n + 1 => simp at hx) (fits_one (by norm_num)) (by norm_num)
  refine ⟨a, b, t, zs, e, ht, ?_⟩
  have := h 7 [] (-3) 17 2 (by norm_num) rfl rfl (by norm_num) (by norm_num) (by norm_num) (by norm_num)
  rw [this]
  norm_num

example := C96_mgrid (K := ℚ) C96_f32_whole id id id (fun x _ => x) (w := 640) (h := 480) (by norm_num) (by norm_num)
  (by norm_num) (by norm_num) (by norm_num)

/-- `arange(0., 1000., 0.25)` in `f32` has exactly the 4000 quarters. -/
example := C96_arange (K := ℚ) (C96_f32 (e := -2) (by norm_num)) (by norm_num) id id id (fun x _ => x) (x := 0) (y := 4000)
  (s := 1) (by norm_num) (by norm_num) (by norm_num) (by norm_num) (by norm_num)

example := C96_arange_violates (K := ℚ) id id id (fun x _ => x) (stop := 16777217) (by norm_num)

end Essay
