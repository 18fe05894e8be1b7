import Verif.Props.Stats

/-!
# Property C45 with rounding, and C46: `histogram2d` but for its minima and maxima

`C46_violates` shows that every call panics where the minima of the two columns are read. Here is what the rest of the
function does with the right minima and maxima.
-/

namespace Essay

open Shape Stats Tensor

variable {F K : Type}

/-- C45 with any monotone rounding: the bins respect the order of the samples, and the least sample is in the first bin. The
width of the bins must not be rounded to zero. -/
theorem C45_bins_in_order [Field K] [LinearOrder K] [IsStrictOrderedRing K] {rnd : K → K} (hmono : Monotone rnd) (h0 : rnd 0 = 0)
    (ln exp sqrt : K → K) (powf : K → K → K) (fs : FStat K) (hfs : fs.toFOps = .rounded rnd ln exp sqrt powf)
    (hfl : Monotone fs.floorUsize) (hfl0 : fs.floorUsize 0 = 0) {data : Tensor K} {xs : List K} {n : Nat}
    (h : Rep data [xs.length] xs) (hn : 0 < n) (hn2 : n + 1 < 2 ^ 32) (hr : ∀ k : Nat, k ≤ xs.length → rnd (k : K) = k)
    {m M : K} (hm : m ∈ xs) (hm' : ∀ x ∈ xs, m ≤ x) (hM : M ∈ xs) (hM' : ∀ x ∈ xs, x ≤ M) (heps : 0 < fs.epsilon)
    (hwidth : m ≠ M → 0 < rnd (rnd (M - m) / rnd n)) :
    ∃ t e cs es, ∃ bin : K → Nat, histogram fs data n = .ok (t, e) ∧ Rep t [n] cs ∧ Rep e [n + 1] es ∧
      (∀ x, bin x < n) ∧ (∀ i, i < n → cs[i]? = some ((xs.countP fun x => bin x = i : Nat) : K)) ∧
      cs.sum = xs.length ∧ Monotone bin ∧ bin m = 0 := by
  have hne : xs ≠ [] := List.ne_nil_of_mem hm
  obtain ⟨x, xs, rfl⟩ := List.exists_cons_of_ne_nil hne
  have ho : IsFloatOrder fs.toFOps (some : K → Option K) := by rw [hfs]; exact rounded_order ..
  have hmin : xs.foldl (fmin fs.toFOps) x = m := by
    obtain ⟨h1, h2⟩ := foldl_fmin ho x xs
    obtain ⟨j, hj, hjm⟩ := h2 m hm m rfl
    cases hj
    exact le_antisymm hjm (hm' _ h1)
  have hmax : xs.foldl (fmax fs.toFOps) x = M := by
    obtain ⟨h1, h2⟩ := foldl_fmax ho x xs
    obtain ⟨j, hj, hjm⟩ := h2 M hM M rfl
    cases hj
    exact le_antisymm (hM' _ h1) hjm
  obtain ⟨t, e, cs, es, e1, ht, he, -, hc⟩ := histogram_eq fs h hn hn2
    (by have := rounded_le ho x xs; rw [hfs] at this ⊢; simpa [FOps.rounded] using this)
  rw [hmin, hmax] at hc
  have hw : 0 < binWidth fs m M n := by
    unfold binWidth
    split
    · exact heps
    · next hne =>
      have hne : m ≠ M := fun e => hne (by rw [hfs, e]; simp [FOps.rounded])
      have := hwidth hne
      rw [hfs]
      exact this
  have hbin : ∀ x, binOf fs m (binWidth fs m M n) n x < n := fun y => binOf_lt _ _ _ hn y
  have hc' : ∀ i, i < n → cs[i]? = some (((x :: xs).countP fun y => binOf fs m (binWidth fs m M n) n y = i : Nat) : K) := by
    intro i hi
    rw [hc i hi]
    have e1 : fs.zero = 0 := by rw [hfs]; rfl
    have e2 : (fun v => fs.add v fs.one) = fun v => rnd (v + 1) := by rw [hfs]; rfl
    rw [e1, e2, iterate_rounded hr _ List.countP_le_length]
  refine ⟨t, e, cs, es, _, e1, ht, he, hbin, hc', ?_, ?_, ?_⟩
  · rw [list_eq_map_range (by rw [ht.length]; simp) hc', ← sum_countP _ hbin (x :: xs), Nat.cast_list_sum, List.map_map]
    rfl
  · intro a b hab
    have hq : fs.floorUsize (fs.div (fs.sub a m) (binWidth fs m M n)) ≤ fs.floorUsize (fs.div (fs.sub b m) (binWidth fs m M n)) := by
      apply hfl
      generalize binWidth fs m M n = w at hw
      rw [hfs]
      exact hmono (div_le_div_of_nonneg_right (hmono (sub_le_sub_right hab m)) hw.le)
    unfold binOf
    split <;> split <;> omega
  · have hz : fs.div (fs.sub m m) (binWidth fs m M n) = 0 := by
      generalize binWidth fs m M n = w
      rw [hfs]
      simp [FOps.rounded, h0]
    unfold binOf
    rw [hz, hfl0, if_pos hn]

/-- The cell a sample is counted in, from the place `binX`, `binY` of its coordinates. -/
theorem hist2dStep_eq (fs : FStat F) (mx my dx dy : F) {n : Nat} (hn : 0 < n) (x y : F) {vs : List F} (hl : vs.length = n * n) :
    hist2dStep fs mx my dx dy n [x, y] vs =
      .ok (vs.modify (binOf fs my dy n y * n + binOf fs mx dx n x) fun v => fs.add v fs.one) := by
  have e : ∀ m d z, min (fs.floorUsize (fs.div (fs.sub z m) d)) (n - 1) = binOf fs m d n z := by
    intro m d z
    unfold binOf
    split <;> omega
  have hx := binOf_lt fs mx dx hn x
  have hy := binOf_lt fs my dy hn y
  have hlt : binOf fs my dy n y * n + binOf fs mx dx n x < vs.length := by
    rw [hl]
    calc _ < binOf fs my dy n y * n + n := by omega
      _ = (binOf fs my dy n y + 1) * n := by rw [Nat.succ_mul]
      _ ≤ n * n := Nat.mul_le_mul_right _ hy
  unfold hist2dStep
  rw [show idx [x, y] 0 = .ok x from rfl, ok_bind, show idx [x, y] 1 = .ok y from rfl, ok_bind, usub_ok (by omega), ok_bind]
  dsimp only
  rw [e, e, idx_ok (List.getElem?_eq_getElem hlt), ok_bind, setIdx_ok hlt, List.modify_eq_set_getElem?,
    List.getElem?_eq_getElem hlt]
  rfl

theorem hist2d_loop (fs : FStat F) (mx my dx dy : F) {n : Nat} (hn : 0 < n) (ps : List (F × F)) {vs : List F}
    (hl : vs.length = n * n) :
    ∃ ws, forL (ps.map fun p => [p.1, p.2]) vs (fun item values => hist2dStep fs mx my dx dy n item values) = .ok ws ∧
      ws.length = n * n ∧ ∀ i v, vs[i]? = some v → ws[i]? = some ((fun v => fs.add v fs.one)^[ps.countP
        (fun p => binOf fs my dy n p.2 * n + binOf fs mx dx n p.1 = i)] v) := by
  induction ps generalizing vs with
  | nil => exact ⟨vs, rfl, hl, fun i v hv => by simpa using hv⟩
  | cons p ps ih =>
    obtain ⟨ws, e, hw, hat⟩ := ih (vs := vs.modify (binOf fs my dy n p.2 * n + binOf fs mx dx n p.1) fun v => fs.add v fs.one)
      (by simpa using hl)
    refine ⟨ws, ?_, hw, ?_⟩
    · unfold forL at *
      rw [List.map_cons, List.foldlM_cons]
      dsimp only
      rw [hist2dStep_eq fs mx my dx dy hn p.1 p.2 hl, ok_bind, e]
    · intro i v hv
      rw [List.countP_cons]
      by_cases hi : binOf fs my dy n p.2 * n + binOf fs mx dx n p.1 = i
      · rw [hat i (fs.add v fs.one) (by rw [List.getElem?_modify, hv, hi]; simp)]
        simp [hi]
      · rw [hat i v (by rw [List.getElem?_modify, hv]; simp [hi])]
        simp [hi]

section

variable [Field K] [LinearOrder K] [IsStrictOrderedRing K] [FloorRing K]

/-- Which samples are counted in a bin, for samples between the two ends. -/
theorem binOf_iff (ln exp sqrt : K → K) (powf : K → K → K) (fs : FStat K) (hfs : fs.toFOps = .exact ln exp sqrt powf)
    (hfl : ∀ x, 0 ≤ x → x < 2 ^ 64 → fs.floorUsize x = ⌊x⌋.toNat) {m M y : K} {n i : Nat} (hn : 0 < n) (hn2 : n + 1 < 2 ^ 32)
    (hmM : m ≠ M) (h1 : m ≤ y) (h2 : y ≤ M) (hi : i < n) :
    binOf fs m (binWidth fs m M n) n y = i ↔
      m + (M - m) / n * i ≤ y ∧ (y < m + (M - m) / n * ((i + 1 : Nat) : K) ∨ i + 1 = n) := by
  have hlt : m < M := lt_of_le_of_ne (h1.trans h2) hmM
  have hw : binWidth fs m M n = (M - m) / n := by
    unfold binWidth
    rw [hfs]
    simp [FOps.exact, hmM]
  have hnK : (0 : K) < n := Nat.cast_pos.2 hn
  have hd : 0 < (M - m) / n := div_pos (sub_pos.2 hlt) hnK
  have q1 : 0 ≤ (y - m) / ((M - m) / n) := div_nonneg (sub_nonneg.2 h1) hd.le
  have q2 : (y - m) / ((M - m) / n) ≤ n := by
    rw [div_le_iff₀ hd, mul_div_cancel₀ _ hnK.ne']
    linarith
  have hf : fs.floorUsize (fs.div (fs.sub y m) ((M - m) / n)) = ⌊(y - m) / ((M - m) / n)⌋.toNat := by
    have e : fs.div (fs.sub y m) ((M - m) / n) = (y - m) / ((M - m) / n) := by rw [hfs]; rfl
    rw [e]
    apply hfl _ q1
    refine lt_of_le_of_lt q2 ?_
    have : n < 2 ^ 64 := by omega
    exact_mod_cast this
  unfold binOf
  rw [hw, hf]
  have hb := fun i => floor_bin (x := y) hn hlt h1 i
  by_cases hlast : i + 1 = n
  · obtain rfl : i = n - 1 := by omega
    simp only [hlast, or_true, and_true]
    constructor
    · intro hyp
      split at hyp
      · exact ((hb _).1 hyp).1
      · next hge =>
        have := ((hb ⌊(y - m) / ((M - m) / n)⌋.toNat).1 rfl).1
        refine le_trans ?_ this
        have : ((n - 1 : Nat) : K) ≤ (⌊(y - m) / ((M - m) / n)⌋.toNat : K) := by exact_mod_cast (by omega)
        have := mul_le_mul_of_nonneg_left this hd.le
        linarith
    · intro hle
      split
      · next hl2 =>
        rw [hb]
        refine ⟨hle, ?_⟩
        have := ((hb ⌊(y - m) / ((M - m) / n)⌋.toNat).1 rfl).2
        refine lt_of_lt_of_le this ?_
        have : ((⌊(y - m) / ((M - m) / n)⌋.toNat + 1 : Nat) : K) ≤ ((n - 1 + 1 : Nat) : K) := by
          exact_mod_cast (by omega)
        have := mul_le_mul_of_nonneg_left this hd.le
        linarith
      · rfl
  · simp only [hlast, or_false]
    rw [← hb i]
    split
    · rfl
    · constructor <;> intro _ <;> omega

theorem pairs_of_flatten {ps : List (F × F)} : ∀ {rows : List (List F)}, (∀ r ∈ rows, r.length = 2) →
    rows.flatten = ps.flatMap (fun p => [p.1, p.2]) → rows = ps.map fun p => [p.1, p.2] := by
  induction ps with
  | nil =>
    intro rows h2 hf
    cases rows with
    | nil => rfl
    | cons r rows =>
      have := h2 r List.mem_cons_self
      simp at hf
      rw [hf.1] at this
      cases this
  | cons p ps ih =>
    intro rows h2 hf
    cases rows with
    | nil => simp at hf
    | cons r rows =>
      have hr := h2 r List.mem_cons_self
      match r, hr with
      | [a, b], _ =>
        simp only [List.flatten_cons, List.flatMap_cons, List.cons_append, List.nil_append, List.cons.injEq] at hf
        obtain ⟨rfl, rfl, hf⟩ := hf
        rw [ih (fun r hr => h2 r (List.mem_cons_of_mem _ hr)) hf]
        rfl

/-- C46, the part of `histogram2d` after the minima and maxima, in exact arithmetic: given those of the two columns, each
column having at least two different values, it returns the edges of the bins of both columns and a square of counts whose
element `[j, i]` is the number of samples in bin `i` of the first and bin `j` of the second column; the counts add up to the
number of samples. Missing: the function does not get there, `C46_violates`; and floating point. -/
theorem C46_rest_partial (ln exp sqrt : K → K) (powf : K → K → K) (fs : FStat K) (hfs : fs.toFOps = .exact ln exp sqrt powf)
    (hfl : ∀ x, 0 ≤ x → x < 2 ^ 64 → fs.floorUsize x = ⌊x⌋.toNat) {data : Tensor K} {ps : List (K × K)} {n : Nat}
    (h : Rep data [ps.length, 2] (ps.flatMap fun p => [p.1, p.2])) (hn : 0 < n) (hn2 : n + 1 < 2 ^ 32) (hn3 : n * n < 2 ^ 32)
    {mx Mx my My : K} (hx : ∀ p ∈ ps, mx ≤ p.1 ∧ p.1 ≤ Mx) (hy : ∀ p ∈ ps, my ≤ p.2 ∧ p.2 ≤ My) (hmx : mx < Mx) (hmy : my < My) :
    ∃ t ex ey cs, hist2dRest fs data mx my Mx My n = .ok (t, ex, ey) ∧ Rep t [n, n] cs ∧
      Rep ex [n + 1] ((List.range (n + 1)).map fun k : Nat => mx + (Mx - mx) / n * k) ∧
      Rep ey [n + 1] ((List.range (n + 1)).map fun k : Nat => my + (My - my) / n * k) ∧
      (∀ i j, i < n → j < n → at? [n, n] cs [j, i] = some ((ps.countP fun p =>
        (mx + (Mx - mx) / n * i ≤ p.1 ∧ (p.1 < mx + (Mx - mx) / n * ((i + 1 : Nat) : K) ∨ i + 1 = n)) ∧
        my + (My - my) / n * j ≤ p.2 ∧ (p.2 < my + (My - my) / n * ((j + 1 : Nat) : K) ∨ j + 1 = n) : Nat) : K)) ∧
      cs.sum = ps.length := by
  have edges : ∀ {m M : K}, m < M → ∃ a b e, Tensor.fromScalar m = .ok a ∧ Tensor.fromScalar M = .ok b ∧
      Init.linspace fs.toFOps a b (n + 1) = .ok e ∧ Rep e [n + 1] ((List.range (n + 1)).map fun k : Nat => m + (M - m) / n * k) := by
    intro m M hm
    obtain ⟨a, e3, ha⟩ := C06_from_scalar m
    obtain ⟨b, e4, hb⟩ := C06_from_scalar M
    obtain ⟨l, es, e5, hl, hat⟩ := C35_linspace_partial fs.toFOps (len := n + 1) ha hb (by simp) (by simp)
      (by rintro (_ | i) p q hp hq <;> simp at hp hq; subst hp; subst hq; rw [hfs]; simpa [FOps.exact] using hm.le) (fits_one hn2)
    refine ⟨a, b, l, e3, e4, e5, ?_⟩
    have : es = (List.range (n + 1)).map fun k : Nat => m + (M - m) / n * k := by
      apply list_eq_map_range (by rw [hl.length]; simp)
      intro k hk
      have := hat k [] _ _ hk rfl rfl
      rw [at_vec (by rw [hl.length]; simp), if_pos (by omega)] at this
      rw [this, hfs]
      rfl
    rw [← this]
    exact hl
  obtain ⟨ax, bx, ex, ex1, ex2, ex3, hex⟩ := edges hmx
  obtain ⟨ay, b_y, ey, ey1, ey2, ey3, hey⟩ := edges hmy
  obtain ⟨rows, er, -, hr2, hrf, -⟩ := C63_iter_row_partial (ds := [ps.length]) (c := 2) h (by simp) (by omega)
  obtain rfl := pairs_of_flatten hr2 hrf
  obtain ⟨ws, el, hw, hc⟩ := hist2d_loop fs mx my (binWidth fs mx Mx n) (binWidth fs my My n) hn ps
    (vs := List.replicate (n * n) fs.zero) (by simp)
  obtain ⟨u, eu, hu⟩ := C12_vec1 ws (by omega)
  have hadm : Adm [n, n] := ⟨by simp, by simp; omega⟩
  have hpos : 0 < n * n := Nat.mul_pos hn hn
  obtain ⟨t, et, ht⟩ := reshape_rep hu hadm (fits_of_pos (by simpa using hpos) (by simpa using hn3)) (by simpa using hw.symm)
  have hcount : ∀ k, k < n * n → ws[k]? = some ((ps.countP fun p =>
      binOf fs my (binWidth fs my My n) n p.2 * n + binOf fs mx (binWidth fs mx Mx n) n p.1 = k : Nat) : K) := by
    intro k hk
    rw [hc k fs.zero (by rw [List.getElem?_replicate, if_pos hk])]
    have e1 : fs.zero = 0 := by rw [hfs]; rfl
    have e2 : (fun v => fs.add v fs.one) = fun v => v + 1 := by rw [hfs]; rfl
    rw [e1, e2]
    have e3 := iterate_rounded (K := K) (rnd := id) (N := ps.countP fun p =>
      binOf fs my (binWidth fs my My n) n p.2 * n + binOf fs mx (binWidth fs mx Mx n) n p.1 = k) (fun k _ => rfl) _ (le_refl _)
    simp only [id] at e3
    rw [e3]
  refine ⟨t, ex, ey, ws, ?_, ht, hex, hey, ?_, ?_⟩
  · unfold hist2dRest
    dsimp only
    rw [ex1, ok_bind, ex2, ok_bind, ex3, ok_bind, ey1, ok_bind, ey2, ok_bind, ey3, ok_bind, er, ok_bind, el, ok_bind, eu,
      ok_bind, ofSlice_adm hadm, ok_bind, et]
    rfl
  · intro i j hi hj
    have hk : j * n + i < n * n := by
      calc _ < j * n + n := by omega
        _ = (j + 1) * n := by rw [Nat.succ_mul]
        _ ≤ n * n := Nat.mul_le_mul_right _ hj
    have : at? [n, n] ws [j, i] = ws[j * n + i]? := by simp [at?, ravel, hi, hj]
    rw [this, hcount _ hk]
    congr 2
    apply List.countP_congr
    intro p hp
    simp only [decide_eq_true_eq]
    rw [← binOf_iff ln exp sqrt powf fs hfs hfl hn hn2 hmx.ne (hx p hp).1 (hx p hp).2 hi,
      ← binOf_iff ln exp sqrt powf fs hfs hfl hn hn2 hmy.ne (hy p hp).1 (hy p hp).2 hj]
    have h1 := binOf_lt fs mx (binWidth fs mx Mx n) hn p.1
    constructor
    · intro he
      have ed := congrArg (fun k => k / n) he
      have em := congrArg (fun k => k % n) he
      rw [Nat.mul_comm, Nat.mul_add_div hn, Nat.div_eq_of_lt h1, Nat.mul_comm j, Nat.mul_add_div hn, Nat.div_eq_of_lt hi] at ed
      rw [Nat.mul_comm, Nat.mul_add_mod, Nat.mod_eq_of_lt h1, Nat.mul_comm j, Nat.mul_add_mod, Nat.mod_eq_of_lt hi] at em
      exact ⟨em, by omega⟩
    · rintro ⟨e1, e2⟩
      rw [e1, e2]
  · rw [list_eq_map_range hw hcount]
    have := sum_countP (fun p : K × K => binOf fs my (binWidth fs my My n) n p.2 * n + binOf fs mx (binWidth fs mx Mx n) n p.1)
      (n := n * n) (fun p => by
        have h1 := binOf_lt fs mx (binWidth fs mx Mx n) hn p.1
        have h2 := binOf_lt fs my (binWidth fs my My n) hn p.2
        calc _ < binOf fs my (binWidth fs my My n) n p.2 * n + n := by omega
          _ = (binOf fs my (binWidth fs my My n) n p.2 + 1) * n := by rw [Nat.succ_mul]
          _ ≤ n * n := Nat.mul_le_mul_right _ h2) ps
    rw [← this, Nat.cast_list_sum, List.map_map]
    rfl

end

example {data : Tensor ℚ} (h : Rep data [5] [0, 3, 1, 4, 2]) :
    ∃ t e cs es, ∃ bin : ℚ → Nat, histogram exStat data 2 = .ok (t, e) ∧ Rep t [2] cs ∧ Rep e [3] es ∧
      (∀ x, bin x < 2) ∧ (∀ i, i < 2 → cs[i]? = some (([0, 3, 1, 4, 2].countP fun x => bin x = i : Nat) : ℚ)) ∧
      cs.sum = (5 : Nat) ∧ Monotone bin ∧ bin 0 = 0 :=
  C45_bins_in_order (rnd := id) monotone_id rfl id id id (fun x _ => x) exStat rfl
    (fun a b hab => Int.toNat_le_toNat (Int.floor_le_floor hab)) (by simp [exStat]) (n := 2) (xs := [0, 3, 1, 4, 2]) h (by simp)
    (by simp) (fun _ _ => rfl) (m := 0) (M := 4) (by simp) (by simp) (by simp) (by simp; norm_num) (by norm_num [exStat])
    (fun _ => by norm_num)

/-- Four samples in a square of two by two bins. -/
example {data : Tensor ℚ} (h : Rep data [4, 2] [0, 0, 4, 0, 4, 4, 3, 1]) :
    ∃ t ex ey, hist2dRest exStat data 0 0 4 4 2 = .ok (t, ex, ey) ∧ Rep t [2, 2] [1, 2, 0, 1] := by
  obtain ⟨t, ex, ey, cs, e, ht, -, -, hc, -⟩ := C46_rest_partial id id id (fun x _ => x) exStat rfl (fun _ _ _ => rfl) (n := 2)
    (ps := [(0, 0), (4, 0), (4, 4), (3, 1)]) h (by norm_num) (by norm_num) (by norm_num) (mx := 0) (Mx := 4) (my := 0) (My := 4)
    (by simp; norm_num) (by norm_num) (by norm_num) (by norm_num)
  have hl : cs.length = 4 := by rw [ht.length]; rfl
  refine ⟨t, ex, ey, e, ?_⟩
  have c0 := hc 0 0 (by omega) (by omega)
  have c1 := hc 1 0 (by omega) (by omega)
  have c2 := hc 0 1 (by omega) (by omega)
  have c3 := hc 1 1 (by omega) (by omega)
  norm_num [at?, ravel, List.countP_cons] at c0 c1 c2 c3
  convert ht using 1
  apply List.ext_getElem?
  rintro (_ | _ | _ | _ | i)
  · simp [c0]
  · simp [c1]
  · simp [c2]
  · simp [c3]
  · rw [List.getElem?_eq_none (by simp), List.getElem?_eq_none (by omega)]

end Essay
