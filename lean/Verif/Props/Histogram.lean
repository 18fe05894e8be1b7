import Verif.Props.Hist2d
import Verif.Props.Tile
import Verif.Props.Consistency

/-!
# C103: the laws of histograms
-/

namespace Essay

open Shape Stats Tensor

variable {K : Type}

/-! ### the histogram as two lists -/

section

variable [Field K] [LinearOrder K] [IsStrictOrderedRing K]

/-- Counts and edges of a histogram. -/
def HistIs (fs : FStat K) (data : Tensor K) (n : Nat) (cs es : List K) : Prop :=
  ∃ t e, histogram fs data n = .ok (t, e) ∧ Rep t [n] cs ∧ Rep e [n + 1] es

omit [IsStrictOrderedRing K] in
theorem hist_lists {rnd : K → K} (ln exp sqrt : K → K) (powf : K → K → K) (fs : FStat K)
    (hfs : fs.toFOps = .rounded rnd ln exp sqrt powf) {data : Tensor K} {xs : List K} {n : Nat}
    (h : Rep data [xs.length] xs) (hn : 0 < n) (hn2 : n + 1 < 2 ^ 32) {m M : K} (hm : m ∈ xs) (hm' : ∀ x ∈ xs, m ≤ x)
    (hM : M ∈ xs) (hM' : ∀ x ∈ xs, x ≤ M) :
    HistIs fs data n
      ((List.range n).map fun i => (fun v => rnd (v + 1))^[xs.countP fun y => binOf fs m (binWidth fs m M n) n y = i] 0)
      ((List.range (n + 1)).map fun k => fs.add m (fs.mul (fs.div (fs.sub M m) (fs.ofNat n)) (fs.ofNat k))) := by
  have hne : xs ≠ [] := List.ne_nil_of_mem hm
  have ho : IsFloatOrder fs.toFOps (some : K → Option K) := by rw [hfs]; exact rounded_order ..
  obtain ⟨x, xs, rfl⟩ := List.exists_cons_of_ne_nil hne
  have hmin : xs.foldl (fmin fs.toFOps) x = m := by
    obtain ⟨h1, h2⟩ := foldl_fmin ho x xs
    obtain ⟨j, hj, hjm⟩ := h2 m hm m rfl
    cases hj
    exact le_antisymm hjm (hm' _ h1)
  have hmax : xs.foldl (fmax fs.toFOps) x = M := by
    obtain ⟨h1, h2⟩ := foldl_fmax ho x xs
    obtain ⟨j, hj, hjm⟩ := h2 M hM M rfl
    cases hj
    exact le_antisymm (hM' _ h1) hjm
  obtain ⟨t, e, cs, es, e1, ht, he, hes, hc⟩ := histogram_eq fs h hn hn2
    (by rw [hmin, hmax, hfs]; simpa [FOps.rounded] using hm' M hM)
  rw [hmin, hmax] at hes hc
  refine ⟨t, e, e1, ?_, ?_⟩
  · have : cs = _ := list_eq_map_range (by rw [ht.length]; simp) hc
    have e1 : fs.zero = 0 := by rw [hfs]; rfl
    have e2 : (fun v => fs.add v fs.one) = fun v => rnd (v + 1) := by rw [hfs]; rfl
    rw [e1, e2] at this
    rwa [this] at ht
  · have : es = _ := list_eq_map_range (n := n + 1) (by rw [he.length]; simp) fun k hk => hes k (by omega)
    rwa [this] at he

omit [IsStrictOrderedRing K] in
theorem exists_least {xs : List K} (hne : xs ≠ []) :
    ∃ m M, (m ∈ xs ∧ ∀ x ∈ xs, m ≤ x) ∧ M ∈ xs ∧ ∀ x ∈ xs, x ≤ M := by
  induction xs with
  | nil => exact absurd rfl hne
  | cons x xs ih =>
    by_cases hx : xs = []
    · subst hx; exact ⟨x, x, by simp⟩
    · obtain ⟨m, M, ⟨h1, h2⟩, h3, h4⟩ := ih hx
      refine ⟨min x m, max x M, ⟨?_, ?_⟩, ?_, ?_⟩
      · rcases min_choice x m with e | e <;> rw [e] <;> simp [h1]
      · intro y hy
        rcases List.mem_cons.1 hy with rfl | hy
        · exact min_le_left ..
        · exact (min_le_right ..).trans (h2 y hy)
      · rcases max_choice x M with e | e <;> rw [e] <;> simp [h3]
      · intro y hy
        rcases List.mem_cons.1 hy with rfl | hy
        · exact le_max_left ..
        · exact (h4 y hy).trans (le_max_right ..)

omit [IsStrictOrderedRing K] in
/-- C103, with any rounding of the arithmetic: the order of the samples does not matter. -/
theorem C103_order {rnd : K → K} (ln exp sqrt : K → K) (powf : K → K → K) (fs : FStat K)
    (hfs : fs.toFOps = .rounded rnd ln exp sqrt powf) {data data' : Tensor K} {xs ys : List K} {n : Nat}
    (h : Rep data [xs.length] xs) (h' : Rep data' [ys.length] ys) (hp : xs.Perm ys) (hne : xs ≠ []) (hn : 0 < n)
    (hn2 : n + 1 < 2 ^ 32) : ∃ cs es, HistIs fs data n cs es ∧ HistIs fs data' n cs es := by
  obtain ⟨m, M, ⟨h1, h2⟩, h3, h4⟩ := exists_least hne
  refine ⟨_, _, hist_lists ln exp sqrt powf fs hfs h hn hn2 h1 h2 h3 h4, ?_⟩
  have := hist_lists ln exp sqrt powf fs hfs h' hn hn2 (hp.mem_iff.1 h1) (fun x hx => h2 x (hp.mem_iff.2 hx))
    (hp.mem_iff.1 h3) (fun x hx => h4 x (hp.mem_iff.2 hx))
  have e : ∀ i, (ys.countP fun y => binOf fs m (binWidth fs m M n) n y = i) =
      xs.countP fun y => binOf fs m (binWidth fs m M n) n y = i := fun i => (hp.countP_eq _).symm
  simpa only [e] using this

theorem iterate_one (k : Nat) : (fun v : K => v + 1)^[k] 0 = k := iterate_rounded (rnd := id) (N := k) (fun _ _ => rfl) k le_rfl

/-- In exact arithmetic. -/
theorem hist_exact (ln exp sqrt : K → K) (powf : K → K → K) (fs : FStat K) (hfs : fs.toFOps = .exact ln exp sqrt powf)
    {data : Tensor K} {xs : List K} {n : Nat} (h : Rep data [xs.length] xs) (hn : 0 < n) (hn2 : n + 1 < 2 ^ 32) {m M : K}
    (hm : m ∈ xs) (hm' : ∀ x ∈ xs, m ≤ x) (hM : M ∈ xs) (hM' : ∀ x ∈ xs, x ≤ M) :
    HistIs fs data n
      ((List.range n).map fun i => ((xs.countP fun y => binOf fs m (binWidth fs m M n) n y = i : Nat) : K))
      ((List.range (n + 1)).map fun k : Nat => m + (M - m) / n * k) := by
  have := hist_lists (rnd := id) ln exp sqrt powf fs (by rw [hfs]; rfl) h hn hn2 hm hm' hM hM'
  simp only [id, iterate_one] at this
  rw [hfs] at this
  exact this

theorem binOf_eq (ln exp sqrt : K → K) (powf : K → K → K) (fs : FStat K) (hfs : fs.toFOps = .exact ln exp sqrt powf)
    (m d x : K) (n : Nat) : binOf fs m d n x =
      if fs.floorUsize ((x - m) / d) < n then fs.floorUsize ((x - m) / d) else n - 1 := by
  unfold binOf; rw [hfs]; rfl

theorem binWidth_eq (ln exp sqrt : K → K) (powf : K → K → K) (fs : FStat K) (hfs : fs.toFOps = .exact ln exp sqrt powf)
    (m M : K) (n : Nat) : binWidth fs m M n = if m = M then fs.epsilon else (M - m) / n := by
  unfold binWidth; rw [hfs]; simp [FOps.exact]

/-- C103: scaling the samples by a positive factor and shifting them moves the edges along and keeps the counts. -/
theorem C103_affine (ln exp sqrt : K → K) (powf : K → K → K) (fs : FStat K) (hfs : fs.toFOps = .exact ln exp sqrt powf)
    {data : Tensor K} {xs : List K} {n : Nat} (h : Rep data [xs.length] xs) (hne : xs ≠ []) (hn : 0 < n)
    (hn2 : n + 1 < 2 ^ 32) {a : K} (ha : 0 < a) (b : K) :
    ∃ u cs es, mapped (fun x => a * x + b) data = .ok u ∧ HistIs fs data n cs es ∧
      HistIs fs u n cs (es.map fun x => a * x + b) := by
  obtain ⟨u, e, r⟩ := mapped_rep (fun x => a * x + b) h
  obtain ⟨m, M, ⟨h1, h2⟩, h3, h4⟩ := exists_least hne
  have k1 := hist_exact ln exp sqrt powf fs hfs h hn hn2 h1 h2 h3 h4
  have mono : ∀ x y : K, x ≤ y → a * x + b ≤ a * y + b := fun x y hxy => by
    have := mul_le_mul_of_nonneg_left hxy ha.le; linarith
  have k2 := hist_exact ln exp sqrt powf fs hfs (xs := xs.map fun x => a * x + b) (n := n) (by simpa using r) hn hn2
    (m := a * m + b) (M := a * M + b) (List.mem_map_of_mem h1)
    (by intro x hx; obtain ⟨y, hy, rfl⟩ := List.mem_map.1 hx; exact mono _ _ (h2 y hy)) (List.mem_map_of_mem h3)
    (by intro x hx; obtain ⟨y, hy, rfl⟩ := List.mem_map.1 hx; exact mono _ _ (h4 y hy))
  refine ⟨u, _, _, e, k1, ?_⟩
  convert k2 using 1
  · apply List.map_congr_left
    intro i _
    rw [List.countP_map]
    congr 1
    apply List.countP_congr
    intro y hy
    simp only [decide_eq_true_eq, Function.comp]
    rw [binOf_eq ln exp sqrt powf fs hfs, binOf_eq ln exp sqrt powf fs hfs, binWidth_eq ln exp sqrt powf fs hfs,
      binWidth_eq ln exp sqrt powf fs hfs]
    have : (a * y + b - (a * m + b)) / (if a * m + b = a * M + b then fs.epsilon else (a * M + b - (a * m + b)) / n) =
        (y - m) / (if m = M then fs.epsilon else (M - m) / n) := by
      by_cases hmM : m = M
      · subst hmM
        have : y = m := le_antisymm (h4 y hy) (h2 y hy)
        subst this
        simp
      · have : a * m + b ≠ a * M + b := fun hc => hmM (mul_left_cancel₀ ha.ne' (by linarith))
        rw [if_neg this, if_neg hmM]
        have e1 : a * y + b - (a * m + b) = a * (y - m) := by ring
        have e2 : (a * M + b - (a * m + b)) / n = a * ((M - m) / n) := by ring
        rw [e1, e2, mul_div_mul_left _ _ ha.ne']
    rw [this]
  · rw [List.map_map]
    apply List.map_congr_left
    intro k _
    simp only [Function.comp]
    ring

/-- C103: joining samples of the same range adds the counts. -/
theorem C103_joined (ln exp sqrt : K → K) (powf : K → K → K) (fs : FStat K) (hfs : fs.toFOps = .exact ln exp sqrt powf)
    {d1 d2 : Tensor K} {xs ys : List K} {n : Nat} (hx : Rep d1 [xs.length] xs) (hy : Rep d2 [ys.length] ys) (hn : 0 < n)
    (hn2 : n + 1 < 2 ^ 32) (hlen : xs.length + ys.length < 2 ^ 32) {m M : K} (hmx : m ∈ xs) (hmy : m ∈ ys)
    (hm : ∀ x ∈ xs ++ ys, m ≤ x) (hMx : M ∈ xs) (hMy : M ∈ ys) (hM : ∀ x ∈ xs ++ ys, x ≤ M) :
    ∃ u cs ds es, Tensor.concatenateAxis (some 0) [d1, d2] = .ok u ∧ HistIs fs d1 n cs es ∧ HistIs fs d2 n ds es ∧
      HistIs fs u n (List.zipWith (· + ·) cs ds) es := by
  have hnx : 0 < xs.length := List.length_pos_of_mem hmx
  obtain ⟨u, out, e, r, c⟩ := C27_concatenate_partial (pre := []) (post := []) (ps := [(xs.length, xs), (ys.length, ys)])
    (ts := [d1, d2]) (.cons hx (.cons hy .nil)) (by simp) (D := xs.length + ys.length) (by simp) hlen
    (fits_one hlen) fits_nil (by simp) (a := 0) (by simp [axisIndex])
  have hp : out.Perm (xs ++ ys) := by
    have := c.perm (D := xs.length + ys.length) (by simp) (by simpa using r.length) (by simp)
    simpa using this
  have hl : out.length = xs.length + ys.length := by rw [hp.length_eq]; simp
  have k1 := hist_exact ln exp sqrt powf fs hfs hx hn hn2 hmx (fun x h => hm x (by simp [h])) hMx
    (fun x h => hM x (by simp [h]))
  have k2 := hist_exact ln exp sqrt powf fs hfs hy hn hn2 hmy (fun x h => hm x (by simp [h])) hMy
    (fun x h => hM x (by simp [h]))
  have k3 := hist_exact ln exp sqrt powf fs hfs (xs := out) (n := n) (by rw [hl]; exact r) hn hn2
    (m := m) (M := M) (hp.mem_iff.2 (by simp [hmx])) (fun x h => hm x (hp.mem_iff.1 h)) (hp.mem_iff.2 (by simp [hMx]))
    (fun x h => hM x (hp.mem_iff.1 h))
  refine ⟨u, _, _, _, e, k1, k2, ?_⟩
  convert k3 using 1
  rw [List.zipWith_map, List.zipWith_self]
  apply List.map_congr_left
  intro i _
  rw [hp.countP_eq, List.countP_append]
  push_cast
  rfl

/-- C103: tiling the samples multiplies the counts. -/
theorem C103_tiled (ln exp sqrt : K → K) (powf : K → K → K) (fs : FStat K) (hfs : fs.toFOps = .exact ln exp sqrt powf)
    {data : Tensor K} {xs : List K} {n c : Nat} (h : Rep data [xs.length] xs) (hne : xs ≠ []) (hn : 0 < n)
    (hn2 : n + 1 < 2 ^ 32) (hc : 0 < c) (hlen : c * xs.length < 2 ^ 32) {mt : Tensor Nat} (hm : Rep mt [1] [c]) :
    ∃ u cs es, Tensor.tile data mt = .ok u ∧ HistIs fs data n cs es ∧ HistIs fs u n (cs.map (c * ·)) es := by
  obtain ⟨u, out, e, r, hp⟩ := C101_elements h hne (ms := [c]) hm (by simpa using hc) (by simp) (by simpa using hlen) (by simp)
  have hl : out.length = c * xs.length := by rw [hp.length_eq]; simp
  have r' : Rep u [out.length] out := by
    rw [hl]
    simpa [padLeft, mulDims] using r
  obtain ⟨m, M, ⟨h1, h2⟩, h3, h4⟩ := exists_least hne
  have mem : ∀ x, x ∈ out ↔ x ∈ xs := by
    intro x; rw [hp.mem_iff]; simp; omega
  have k1 := hist_exact ln exp sqrt powf fs hfs h hn hn2 h1 h2 h3 h4
  have k2 := hist_exact ln exp sqrt powf fs hfs r' hn hn2 ((mem m).2 h1) (fun x hx => h2 x ((mem x).1 hx)) ((mem M).2 h3)
    (fun x hx => h4 x ((mem x).1 hx))
  refine ⟨u, _, _, e, k1, ?_⟩
  convert k2 using 1
  rw [List.map_map]
  apply List.map_congr_left
  intro i _
  rw [hp.countP_eq, List.countP_flatten]
  simp

variable [FloorRing K]

/-- C103: the least sample is in the first bin and the greatest in the last, so neither is empty. -/
theorem C103_ends (ln exp sqrt : K → K) (powf : K → K → K) (fs : FStat K) (hfs : fs.toFOps = .exact ln exp sqrt powf)
    (hfl : ∀ x, 0 ≤ x → x < 2 ^ 64 → fs.floorUsize x = ⌊x⌋.toNat) {data : Tensor K} {xs : List K} {n : Nat}
    (h : Rep data [xs.length] xs) (hn : 0 < n) (hn2 : n + 1 < 2 ^ 32) {x y : K} (hx : x ∈ xs) (hy : y ∈ xs) (hxy : x ≠ y) :
    ∃ cs es c d, HistIs fs data n cs es ∧ cs[0]? = some c ∧ cs[n - 1]? = some d ∧ 1 ≤ c ∧ 1 ≤ d := by
  obtain ⟨m, M, ⟨h1, h2⟩, h3, h4⟩ := exists_least (List.ne_nil_of_mem hx)
  have hmM : m ≠ M := by
    rintro rfl
    exact hxy ((le_antisymm (h4 x hx) (h2 x hx)).trans (le_antisymm (h2 y hy) (h4 y hy)))
  have k1 := hist_exact ln exp sqrt powf fs hfs h hn hn2 h1 h2 h3 h4
  have hnK : (0 : K) < n := Nat.cast_pos.2 hn
  have hd : 0 ≤ (M - m) / n := div_nonneg (sub_nonneg.2 (h2 M h3)) hnK.le
  refine ⟨_, _, _, _, k1, by rw [List.getElem?_map, List.getElem?_range hn]; rfl,
    by rw [List.getElem?_map, List.getElem?_range (by omega)]; rfl, ?_, ?_⟩
  · have : 0 < xs.countP fun y => binOf fs m (binWidth fs m M n) n y = 0 := by
      rw [List.countP_pos_iff]
      refine ⟨m, h1, ?_⟩
      simp only [decide_eq_true_eq]
      rw [binOf_iff ln exp sqrt powf fs hfs hfl hn hn2 hmM le_rfl (h2 M h3) hn]
      refine ⟨by simp, .inl ?_⟩
      have : 0 < (M - m) / n := div_pos (sub_pos.2 (lt_of_le_of_ne (h2 M h3) hmM)) hnK
      push_cast; linarith
    dsimp only
    exact_mod_cast this
  · have : 0 < xs.countP fun y => binOf fs m (binWidth fs m M n) n y = n - 1 := by
      rw [List.countP_pos_iff]
      refine ⟨M, h3, ?_⟩
      simp only [decide_eq_true_eq]
      rw [binOf_iff ln exp sqrt powf fs hfs hfl hn hn2 hmM (h2 M h3) le_rfl (by omega)]
      refine ⟨?_, .inr (by omega)⟩
      have : ((n - 1 : Nat) : K) ≤ n := by exact_mod_cast Nat.sub_le n 1
      have := mul_le_mul_of_nonneg_left this hd
      rw [div_mul_cancel₀ _ hnK.ne'] at this
      linarith
    dsimp only
    exact_mod_cast this

theorem binOf_refine (ln exp sqrt : K → K) (powf : K → K → K) (fs : FStat K) (hfs : fs.toFOps = .exact ln exp sqrt powf)
    (hfl : ∀ x, 0 ≤ x → x < 2 ^ 64 → fs.floorUsize x = ⌊x⌋.toNat) {m M y : K} {n k : Nat} (hn : 0 < n) (hk : 0 < k)
    (hn2 : n * k + 1 < 2 ^ 32) (h1 : m ≤ y) (h2 : y ≤ M) :
    binOf fs m (binWidth fs m M n) n y = binOf fs m (binWidth fs m M (n * k)) (n * k) y / k := by
  rw [binOf_eq ln exp sqrt powf fs hfs, binOf_eq ln exp sqrt powf fs hfs, binWidth_eq ln exp sqrt powf fs hfs,
      binWidth_eq ln exp sqrt powf fs hfs]
  have hnk : 0 < n * k := Nat.mul_pos hn hk
  by_cases hmM : m = M
  · subst hmM
    obtain rfl : y = m := le_antisymm h2 h1
    have : fs.floorUsize 0 = 0 := by rw [hfl 0 le_rfl (by positivity)]; simp
    simp [this, hn, hnk]
  · rw [if_neg hmM, if_neg hmM]
    have hlt : m < M := lt_of_le_of_ne (h1.trans h2) hmM
    have hnK : (0 : K) < n := Nat.cast_pos.2 hn
    have hkK : (0 : K) < k := Nat.cast_pos.2 hk
    have hle : n ≤ n * k := Nat.le_mul_of_pos_right n hk
    have bound : ∀ N : Nat, 0 < N → N + 1 < 2 ^ 32 → 0 ≤ (y - m) / ((M - m) / N) ∧
        fs.floorUsize ((y - m) / ((M - m) / N)) = ⌊(y - m) / ((M - m) / N)⌋.toNat := by
      intro N hN hN2
      have hNK : (0 : K) < N := Nat.cast_pos.2 hN
      have hd : 0 < (M - m) / N := div_pos (sub_pos.2 hlt) hNK
      have q1 : 0 ≤ (y - m) / ((M - m) / N) := div_nonneg (sub_nonneg.2 h1) hd.le
      refine ⟨q1, hfl _ q1 (lt_of_le_of_lt (b := (N : K)) ?_ ?_)⟩
      · rw [div_le_iff₀ hd, mul_div_cancel₀ _ hNK.ne']
        linarith
      · have : N < 2 ^ 64 := by omega
        exact_mod_cast this
    obtain ⟨p1, p2⟩ := bound n hn (by omega)
    obtain ⟨q1, q2⟩ := bound (n * k) hnk hn2
    rw [p2, q2]
    have e : (y - m) / ((M - m) / n) = (y - m) / ((M - m) / ((n * k : Nat) : K)) / k := by
      have : (M - m) ≠ 0 := sub_ne_zero.2 (Ne.symm hmM)
      push_cast
      field_simp
    have e2 : ⌊(y - m) / ((M - m) / n)⌋.toNat = ⌊(y - m) / ((M - m) / ((n * k : Nat) : K))⌋.toNat / k := by
      rw [e, Int.floor_div_natCast]
      have := Int.floor_nonneg.2 q1
      generalize ⌊(y - m) / ((M - m) / ((n * k : Nat) : K))⌋ = z at this
      obtain ⟨z, rfl⟩ := Int.eq_ofNat_of_zero_le this
      rfl
    rw [e2]
    generalize ⌊(y - m) / ((M - m) / ((n * k : Nat) : K))⌋.toNat = f
    have := Nat.div_lt_iff_lt_mul (x := f) (y := n) hk
    by_cases hf : f < n * k
    · rw [if_pos (this.2 hf), if_pos hf]
    · rw [if_neg (fun hc => hf (this.1 hc)), if_neg hf]
      obtain ⟨j, rfl⟩ : ∃ j, n = j + 1 := ⟨n - 1, by omega⟩
      have : (j + 1) * k - 1 = k * j + (k - 1) := by rw [Nat.succ_mul, Nat.mul_comm]; omega
      rw [this, Nat.mul_add_div hk, Nat.div_eq_of_lt (by omega)]
      simp

theorem countP_div (f : K → Nat) (xs : List K) {k : Nat} (hk : 0 < k) (i : Nat) :
    (xs.countP fun y => f y / k = i) = ((List.range k).map fun j => xs.countP fun y => f y = i * k + j).sum := by
  induction xs with
  | nil => simp
  | cons x xs ih =>
    simp only [List.countP_cons, ih, decide_eq_true_eq, List.sum_map_add]
    congr 1
    by_cases h : f x / k = i
    · rw [if_pos h]
      have hx : f x = i * k + f x % k := by rw [← h, Nat.mul_comm]; exact (Nat.div_add_mod _ _).symm
      have hr : f x % k < k := Nat.mod_lt _ hk
      generalize f x % k = r at hx hr
      have : ((List.range k).map fun j => if f x = i * k + j then 1 else 0) = (List.range k).map fun j => if r = j then 1 else 0 := by
        apply List.map_congr_left
        intro j _
        congr 1
        simp only [eq_iff_iff]; omega
      rw [this]
      have key : ∀ k, ((List.range k).map fun j => if r = j then 1 else 0).sum = if r < k then 1 else 0 := by
        intro k
        induction k with
        | zero => rfl
        | succ k ih =>
          rw [List.range_succ, List.map_append, List.sum_append, ih]
          simp only [List.map_cons, List.map_nil, List.sum_cons, List.sum_nil]
          split <;> split <;> split <;> omega
      rw [key, if_pos hr]
    · rw [if_neg h]
      symm
      apply List.sum_eq_zero
      intro z hz
      obtain ⟨j, hj, rfl⟩ := List.mem_map.1 hz
      rw [if_neg]
      rintro hc
      apply h
      rw [hc, Nat.mul_comm, Nat.mul_add_div hk, Nat.div_eq_of_lt (List.mem_range.1 hj)]
      rfl

/-- C103: `n` bins are `n k` bins taken together `k` at a time. -/
theorem C103_refined (ln exp sqrt : K → K) (powf : K → K → K) (fs : FStat K) (hfs : fs.toFOps = .exact ln exp sqrt powf)
    (hfl : ∀ x, 0 ≤ x → x < 2 ^ 64 → fs.floorUsize x = ⌊x⌋.toNat) {data : Tensor K} {xs : List K} {n k : Nat}
    (h : Rep data [xs.length] xs) (hne : xs ≠ []) (hn : 0 < n) (hk : 0 < k) (hn2 : n * k + 1 < 2 ^ 32) :
    ∃ cs es cs' es', HistIs fs data n cs es ∧ HistIs fs data (n * k) cs' es' ∧
      (∀ i, i < n → cs[i]? = some ((cs'.drop (i * k)).take k).sum) ∧ ∀ i, i ≤ n → es[i]? = es'[i * k]? := by
  obtain ⟨m, M, ⟨h1, h2⟩, h3, h4⟩ := exists_least hne
  have hle : n ≤ n * k := Nat.le_mul_of_pos_right n hk
  have hnK : (0 : K) < n := Nat.cast_pos.2 hn
  have hkK : (0 : K) < k := Nat.cast_pos.2 hk
  refine ⟨_, _, _, _, hist_exact ln exp sqrt powf fs hfs h hn (by omega) h1 h2 h3 h4,
    hist_exact ln exp sqrt powf fs hfs h (Nat.mul_pos hn hk) hn2 h1 h2 h3 h4, ?_, ?_⟩
  · intro i hi
    rw [List.getElem?_map, List.getElem?_range hi, Option.map_some, ← List.map_drop, ← List.map_take]
    congr 1
    have hik : i * k + k ≤ n * k := by rw [← Nat.succ_mul]; exact Nat.mul_le_mul_right k hi
    have hr : ((List.range (n * k)).drop (i * k)).take k = (List.range k).map (i * k + ·) := by
      apply List.ext_getElem
      · simp; omega
      · intro j _ _; simp
    rw [hr, List.map_map]
    have : (xs.countP fun y => binOf fs m (binWidth fs m M n) n y = i) =
        xs.countP fun y => binOf fs m (binWidth fs m M (n * k)) (n * k) y / k = i := by
      apply List.countP_congr
      intro y hy
      simp only [decide_eq_true_eq]
      rw [binOf_refine ln exp sqrt powf fs hfs hfl hn hk hn2 (h2 y hy) (h4 y hy)]
    rw [this, countP_div _ _ hk, Nat.cast_list_sum, List.map_map]
    rfl
  · intro i hi
    have hik : i * k ≤ n * k := Nat.mul_le_mul_right k hi
    rw [List.getElem?_map, List.getElem?_map, List.getElem?_range (by omega), List.getElem?_range (by omega)]
    simp only [Option.map_some]
    congr 1
    push_cast
    field_simp

end

/-! ### examples -/

/-- Five samples. -/
def exSamples : Tensor ℚ := { shape := ofDims [5], offset := 0, size := 5, data := [0, 3, 1, 4, 2] }

theorem exSamples_rep : Rep exSamples [([0, 3, 1, 4, 2] : List ℚ).length] [0, 3, 1, 4, 2] :=
  ⟨⟨wf_ofDims ⟨by simp, by simp⟩, rfl, by simp [exSamples]⟩, rfl, rfl⟩

/-- The same samples, sorted. -/
def exSorted : Tensor ℚ := { shape := ofDims [5], offset := 0, size := 5, data := [0, 1, 2, 3, 4] }

theorem exSorted_rep : Rep exSorted [([0, 1, 2, 3, 4] : List ℚ).length] [0, 1, 2, 3, 4] :=
  ⟨⟨wf_ofDims ⟨by simp, by simp⟩, rfl, by simp [exSorted]⟩, rfl, rfl⟩

example : ∃ cs es, HistIs exStat exSamples 2 cs es ∧ HistIs exStat exSorted 2 cs es :=
  C103_order (rnd := id) id id id (fun x _ => x) exStat rfl exSamples_rep exSorted_rep (by decide) (by simp) (by simp) (by simp)

example : ∃ u cs es, mapped (fun x => 3 * x + 5) exSamples = .ok u ∧ HistIs exStat exSamples 2 cs es ∧
    HistIs exStat u 2 cs (es.map fun x => 3 * x + 5) :=
  C103_affine id id id (fun x _ => x) exStat rfl exSamples_rep (by simp) (by simp) (by simp) (by norm_num) 5

example : ∃ u cs ds es, Tensor.concatenateAxis (some 0) [exSamples, exSorted] = .ok u ∧ HistIs exStat exSamples 2 cs es ∧
    HistIs exStat exSorted 2 ds es ∧ HistIs exStat u 2 (List.zipWith (· + ·) cs ds) es :=
  C103_joined id id id (fun x _ => x) exStat rfl exSamples_rep exSorted_rep (by simp) (by simp) (by simp) (m := 0) (M := 4)
    (by simp) (by simp) (by simp) (by simp) (by simp) (by simp; norm_num)

example : ∃ u cs es, Tensor.tile exSamples (mulT [3]) = .ok u ∧ HistIs exStat exSamples 2 cs es ∧
    HistIs exStat u 2 (cs.map ((3 : Nat) * ·)) es :=
  C103_tiled id id id (fun x _ => x) exStat rfl exSamples_rep (by simp) (by simp) (by simp) (by simp) (by simp)
    (mulT_rep [3] (by simp))

example : ∃ cs es c d, HistIs exStat exSamples 2 cs es ∧ cs[0]? = some c ∧ cs[2 - 1]? = some d ∧ 1 ≤ c ∧ 1 ≤ d :=
  C103_ends id id id (fun x _ => x) exStat rfl (fun _ _ _ => rfl) exSamples_rep (by simp) (by simp) (x := 3) (y := 1)
    (by simp) (by simp) (by norm_num)

example : ∃ cs es cs' es', HistIs exStat exSamples 2 cs es ∧ HistIs exStat exSamples (2 * 3) cs' es' ∧
    (∀ i, i < 2 → cs[i]? = some ((cs'.drop (i * 3)).take 3).sum) ∧ ∀ i, i ≤ 2 → es[i]? = es'[i * 3]? :=
  C103_refined id id id (fun x _ => x) exStat rfl (fun _ _ _ => rfl) exSamples_rep (by simp) (by simp) (by simp) (by simp)

end Essay
