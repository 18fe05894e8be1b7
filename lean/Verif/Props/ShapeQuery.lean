import Verif.Props.Shape
import Verif.Lemmas.Matvec
import Verif.Spec.Map

/-!
# Property C87: the queries of a shape (`idim`, `sublen`, `rsublen`, `batch_len`, `broadcast`, `check_broadcast`,
`broadcast_to`, `broadcast_min`, `reduce`)

As in C01 and C02 the observer is `as_vec`. `Fits` says that no product of a suffix of the list reaches 2^32: the
products are taken in `u32` from the inside out.
-/

namespace Essay

open Shape

section C87

variable {s t : Shape} {ds es : List Nat}

/-- Multiplying from the inside out in `u32`: the product if no partial product reaches 2^32, else a panic. -/
theorem product_inside_out (l : List Nat) :
    (Fits l → l.reverse.foldlM mulU32 1 = .ok l.prod) ∧ (¬ Fits l → l.reverse.foldlM mulU32 1 = .error .panic) := by
  have key : ∀ n, l.reverse.foldlM mulU32 1 = Except.ok n ↔ Fits l ∧ n = l.prod := by
    intro n
    rw [foldlM_mul_eq_ok (by omega), List.prod_reverse, Nat.one_mul]
    simp only [Nat.one_mul, prod_take_reverse, List.length_reverse]
    constructor
    · rintro ⟨h1, h2⟩
      refine ⟨fun k => ?_, h2⟩
      by_cases hk : k ≤ l.length
      · have := h1 (l.length - k) (by omega)
        rw [show l.length - (l.length - k) = k by omega] at this
        exact this
      · rw [List.drop_of_length_le (by omega)]; simp
    · rintro ⟨h1, h2⟩
      exact ⟨fun k _ => h1 _, h2⟩
  refine ⟨fun h => (key _).2 ⟨h, rfl⟩, fun h => ?_⟩
  cases e : l.reverse.foldlM mulU32 1 with
  | ok n => exact absurd ((key n).1 e).1 h
  | error e' =>
    cases e' with
    | panic => rfl
    | ub => exact absurd e (noUB_foldlM_mul _ _)

/-- C87: `idim` reads the dimension of a signed axis, counted from the end if negative. -/
theorem C87_idim (hs : s.WF) (hds : s.asVec = .ok ds) {a : Int} {k d : Nat} (ha : axisIndex ds.length a = some k)
    (hd : ds[k]? = some d) : s.idim a = .ok d := by
  obtain ⟨rfl, hadm⟩ := toDims_of_asVec hs hds
  have hlen := hadm.len
  unfold Shape.idim
  have hdim := dim_eq (s := ofDims ds) hs (i := k) (d := d) (by rw [toDims_ofDims]; exact hd)
  rw [rank_ofDims]
  unfold axisIndex at ha
  split at ha
  · next h =>
    cases ha
    rw [iadd_ok (by omega) (by omega), ok_bind, isizeAsUsize_nonneg (by omega) (by omega), umod_ok (by omega), ok_bind]
    rw [show (a + (ds.length : Int)).toNat = a.toNat + ds.length by omega, Nat.add_mod_right, Nat.mod_eq_of_lt (by omega)]
    exact hdim
  · split at ha
    · next h =>
      cases ha
      rw [iadd_ok (by omega) (by omega), ok_bind, isizeAsUsize_nonneg (by omega) (by omega), umod_ok (by omega), ok_bind]
      rw [Nat.mod_eq_of_lt (by omega)]
      exact hdim
    · cases ha

/-- `idim` does not reject axes out of range: from the rank on it starts over at the outermost axis, and for axes below
`-rank` it wraps around 2^64 first, so that -4 of a shape with three dimensions is axis 0 (not axis 2). -/
theorem C87_idim_out_of_range_violates :
    (ofDims [2, 3, 4]).idim 3 = .ok 2 ∧ (ofDims [2, 3, 4]).idim (-4) = .ok 2 ∧ axisIndex 3 3 = none ∧
    axisIndex 3 (-4) = none := by
  have h3 : (ofDims [2, 3, 4]).rank = 3 := rfl
  refine ⟨?_, ?_, rfl, rfl⟩
  · unfold Shape.idim
    rw [h3, iadd_ok (by omega) (by omega), ok_bind, isizeAsUsize_nonneg (by omega) (by omega), umod_ok (by omega)]; rfl
  · unfold Shape.idim
    have : isizeAsUsize (-4 + (3 : Nat)) % 3 = 0 := by decide +kernel
    rw [h3, iadd_ok (by omega) (by omega), ok_bind, umod_ok (by omega), this]; rfl

/-- C87: `idim` of a scalar panics. -/
theorem C87_idim_scalar (a : Int) : Shape.scalar.idim a = .error .panic := by
  unfold Shape.idim
  cases e : iadd a ((Shape.scalar.rank : Nat) : Int) with
  | ok x => rfl
  | error e' =>
    unfold iadd at e
    split at e
    · cases e
    · cases e; rfl

example : Shape.scalar.idim (-1) = .error .panic := C87_idim_scalar (-1)

/-- C87: `sublen(i, j)` is the product of the dimensions `i..j`, or panics if it reaches 2^32 on the way from the inside
out; it panics if `i` or `j` is beyond the rank. -/
theorem C87_sublen (hs : s.WF) (hds : s.asVec = .ok ds) (i j : Nat) :
    (i ≤ j → j ≤ ds.length → Fits ((ds.take j).drop i) → s.sublen i j = .ok ((ds.take j).drop i).prod) ∧
    (i ≤ j → j ≤ ds.length → ¬ Fits ((ds.take j).drop i) → s.sublen i j = .error .panic) ∧
    (j < i → i ≤ ds.length → s.sublen i j = .ok 1) ∧
    (ds.length < i ∨ ds.length < j → s.sublen i j = .error .panic) := by
  obtain ⟨rfl, ha⟩ := toDims_of_asVec hs hds
  have e : (ds.take j).drop i = (ds.drop i).take (j - i) := by rw [List.drop_take]
  refine ⟨fun h1 h2 hf => ?_, fun h1 h2 hf => ?_, fun h1 h2 => ?_, fun h => ?_⟩
  · rw [sublen_ofDims ha.len h1 h2, ← e, (product_inside_out _).1 hf]
  · rw [sublen_ofDims ha.len h1 h2, ← e, (product_inside_out _).2 hf]
  · unfold Shape.sublen
    rw [rank_ofDims, usub_ok (by omega), ok_bind, usub_ok (by omega), ok_bind]
    unfold Shape.rsublen
    rw [forR_stop (by omega)]; rfl
  · unfold Shape.sublen
    rw [rank_ofDims]
    by_cases hj : ds.length < j
    · unfold usub; rw [if_neg (by omega)]; rfl
    · rw [usub_ok (by omega), ok_bind]; unfold usub; rw [if_neg (by omega)]; rfl

/-- C87: `rsublen(i, j)` is the product of the dimensions `i..j` counted from the innermost one. -/
theorem C87_rsublen (hs : s.WF) (hds : s.asVec = .ok ds) (i j : Nat) (h1 : i ≤ j) (h2 : j ≤ ds.length) :
    (Fits ((ds.take (ds.length - i)).drop (ds.length - j)) →
      s.rsublen i j = .ok ((ds.take (ds.length - i)).drop (ds.length - j)).prod) ∧
    (¬ Fits ((ds.take (ds.length - i)).drop (ds.length - j)) → s.rsublen i j = .error .panic) := by
  have e : s.rsublen i j = s.sublen (ds.length - j) (ds.length - i) := by
    obtain ⟨rfl, ha⟩ := toDims_of_asVec hs hds
    unfold Shape.sublen
    rw [rank_ofDims, usub_ok (by omega), ok_bind, usub_ok (by omega), ok_bind]
    congr 1 <;> omega
  rw [e]
  obtain ⟨a, b, -, -⟩ := C87_sublen hs hds (ds.length - j) (ds.length - i)
  exact ⟨a (by omega) (by omega), b (by omega) (by omega)⟩

/-- `rsublen` does not reject a range that ends beyond the rank: the unused slots count as zeros. -/
theorem C87_rsublen_beyond_rank : (ofDims [2, 3]).rsublen 0 3 = .ok 0 := rfl

/-- C87: what `batch_len(k)` computes: for `k` up to the rank it is the product of the innermost `rank - k` dimensions
(not of the outermost ones, the batches in front of the inner `k` dimensions); beyond the rank it is 1. -/
theorem C87_batch_len_actual (hs : s.WF) (hds : s.asVec = .ok ds) (k : Nat) :
    (Fits (ds.drop k) → s.batchLen k = .ok (ds.drop k).prod) ∧
    (¬ Fits (ds.drop k) → s.batchLen k = .error .panic) := by
  obtain ⟨rfl, ha⟩ := toDims_of_asVec hs hds
  unfold Shape.batchLen
  rw [rank_ofDims]
  split
  · next h =>
    have e : productTo (ofDims ds).dims (ds.length - k) = (ds.drop k).reverse.foldlM mulU32 1 := by
      unfold productTo
      have h6 : (ofDims ds).dims.length = 6 := dims_ofRev_length (l := ds.reverse) (by simpa using ha.len)
      have := ha.len
      rw [ensure_true (by omega), ok_bind]
      congr 1
      unfold ofDims ofRev
      simp only
      rw [List.take_append_of_le_length (by simp), List.take_reverse, show ds.length - (ds.length - k) = k by omega]
    rw [e]
    exact product_inside_out _
  · rw [List.drop_of_length_le (by omega)]
    exact ⟨fun _ => rfl, fun h => absurd fits_nil h⟩

/-- `batch_len(2)` of a batch of four 2 x 3 matrices is 3. -/
theorem C87_batch_len_violates : (ofDims [4, 2, 3]).batchLen 2 = .ok 3 := rfl

/-- C87: `broadcast_to`, `broadcast` and `check_broadcast` accept two shapes exactly if the dimensions of one are a suffix
of the other's; the result is the longer shape (its size, for `broadcast`). -/
theorem C87_broadcast (hs : s.WF) (hds : s.asVec = .ok ds) (ht : t.WF) (hes : t.asVec = .ok es) :
    (ds <:+ es → s.checkBroadcast t = .ok () ∧ s.broadcastTo t = .ok t ∧ s.broadcast t = t.size) ∧
    (es <:+ ds → s.checkBroadcast t = .ok () ∧ s.broadcastTo t = .ok s ∧ s.broadcast t = s.size) ∧
    (¬ (ds <:+ es ∨ es <:+ ds) →
      s.checkBroadcast t = .error .panic ∧ s.broadcastTo t = .error .panic ∧ s.broadcast t = .error .panic) := by
  obtain ⟨rfl, ha⟩ := toDims_of_asVec hs hds
  obtain ⟨rfl, hb⟩ := toDims_of_asVec ht hes
  have hc := checkBroadcast_ofDims ha.len hb.len
  refine ⟨fun h => ?_, fun h => ?_, fun h => ?_⟩
  · rw [if_pos (Or.inl h)] at hc
    refine ⟨hc, broadcastTo_left ha.len hb.len h, ?_⟩
    unfold Shape.broadcast
    rw [hc, ok_bind, rank_ofDims, rank_ofDims]
    split
    · rfl
    · have : ds = es := h.eq_of_length (by have := h.length_le; omega)
      rw [this]
  · rw [if_pos (Or.inr h)] at hc
    refine ⟨hc, broadcastTo_right ha.len hb.len h, ?_⟩
    unfold Shape.broadcast
    have := h.length_le
    rw [hc, ok_bind, rank_ofDims, rank_ofDims, if_neg (by omega)]
  · rw [if_neg h] at hc
    refine ⟨hc, broadcastTo_panic ha.len hb.len h, ?_⟩
    unfold Shape.broadcast
    rw [hc]; rfl

/-- C87: `broadcast_min(i, t, j)` compares the dimensions without the inner `i` of the one and the inner `j` of the other
shape, in the same way, and returns the product of the longer list. It panics if a shape has fewer dimensions than are
to be left out. -/
theorem C87_broadcast_min (hs : s.WF) (hds : s.asVec = .ok ds) (ht : t.WF) (hes : t.asVec = .ok es) (i j : Nat) :
    (i ≤ ds.length → j ≤ es.length → ∀ A X, A = ds.take (ds.length - i) → X = es.take (es.length - j) →
      (A <:+ X → Fits X → s.broadcastMin i t j = .ok X.prod) ∧
      (X <:+ A → Fits A → s.broadcastMin i t j = .ok A.prod) ∧
      (¬ (A <:+ X ∨ X <:+ A) → s.broadcastMin i t j = .error .panic)) ∧
    (ds.length < i ∨ es.length < j → s.broadcastMin i t j = .error .panic) := by
  obtain ⟨rfl, ha⟩ := toDims_of_asVec hs hds
  obtain ⟨rfl, hb⟩ := toDims_of_asVec ht hes
  refine ⟨?_, fun h => ?_⟩
  · rintro hi hj A X rfl rfl
    have h1 := ha.len
    have h2 := hb.len
    have key := Linalg.broadcastMin_ofDims (A := ds.take (ds.length - i)) (E := ds.drop (ds.length - i))
      (X := es.take (es.length - j)) (G := es.drop (es.length - j)) (by simpa using h1) (by simpa using h2)
    rw [List.take_append_drop, List.take_append_drop, List.length_drop, List.length_drop,
      show ds.length - (ds.length - i) = i by omega, show es.length - (es.length - j) = j by omega] at key
    rw [key]
    refine ⟨fun h hf => ?_, fun h hf => ?_, fun h => if_neg h⟩
    · rw [if_pos (Or.inl h)]
      split
      · exact (product_inside_out _).1 hf
      · have := h.eq_of_length (by have := h.length_le; omega)
        rw [this]; exact (product_inside_out _).1 hf
    · rw [if_pos (Or.inr h)]
      have := h.length_le
      rw [if_neg (by omega)]
      exact (product_inside_out _).1 hf
  · unfold Shape.broadcastMin
    rw [rank_ofDims, rank_ofDims]
    by_cases hi : ds.length < i
    · unfold usub; rw [if_neg (by omega)]; rfl
    · rw [usub_ok (by omega), ok_bind]; unfold usub; rw [if_neg (by omega)]; rfl

/-- C87: `reduce` drops the innermost dimension of a shape with at least two, and turns a vector into one of length 1. -/
theorem C87_reduce (hs : s.WF) (hds : s.asVec = .ok ds) :
    (2 ≤ ds.length → ∃ s', s.reduce = .ok s' ∧ s'.WF ∧ s'.asVec = .ok ds.dropLast) ∧
    (ds.length = 1 → ∃ s', s.reduce = .ok s' ∧ s'.WF ∧ s'.asVec = .ok [1]) := by
  have hr : s.rank = ds.length := by
    obtain ⟨rfl, -⟩ := toDims_of_asVec hs hds; rw [rank_ofDims]
  unfold Shape.reduce
  rw [hr]
  refine ⟨fun h => ?_, fun h => ?_⟩
  · rw [if_pos (by omega)]
    obtain ⟨s', e, hw, hv⟩ := (C02_rremove hs hds 0).1 (by omega)
    refine ⟨s', e, hw, ?_⟩
    rw [hv, List.dropLast_eq_take, Nat.sub_zero, List.eraseIdx_eq_take_drop_succ,
      List.drop_of_length_le (by omega), List.append_nil]
  · rw [if_neg (by omega)]
    obtain ⟨s', e, hw, hv⟩ := (C02_with_cols_rows hs hds 1 (by omega)).1 (by omega)
    refine ⟨s', e, hw, ?_⟩
    obtain ⟨d, rfl⟩ := List.length_eq_one_iff.1 h
    exact hv

end C87

example : (ofDims [2, 3, 4]).idim (-1) = .ok 4 :=
  C87_idim (ds := [2, 3, 4]) (wf_ofDims ⟨by simp, by simp⟩) rfl (k := 2) (by decide) rfl

example : (ofDims [2, 3, 4]).sublen 1 3 = .ok 12 :=
  (C87_sublen (ds := [2, 3, 4]) (wf_ofDims ⟨by simp, by simp⟩) rfl 1 3).1 (by simp) (by simp)
    (fits_of_pos (by simp) (by simp))

example : (ofDims [2, 3, 4]).rsublen 1 3 = .ok 6 :=
  (C87_rsublen (ds := [2, 3, 4]) (wf_ofDims ⟨by simp, by simp⟩) rfl 1 3 (by simp) (by simp)).1
    (fits_of_pos (by simp) (by simp))

example : (ofDims [5, 2, 3]).batchLen 1 = .ok 6 :=
  (C87_batch_len_actual (ds := [5, 2, 3]) (wf_ofDims ⟨by simp, by simp⟩) rfl 1).1 (fits_of_pos (by simp) (by simp))

example : (ofDims [3]).broadcastTo (ofDims [2, 3]) = .ok (ofDims [2, 3]) :=
  ((C87_broadcast (ds := [3]) (es := [2, 3]) (wf_ofDims ⟨by simp, by simp⟩) rfl (wf_ofDims ⟨by simp, by simp⟩) rfl).1
    ⟨[2], rfl⟩).2.1

example : (ofDims [5, 3, 4]).broadcastMin 2 (ofDims [7, 5, 4]) 1 = .ok 35 :=
  (((C87_broadcast_min (ds := [5, 3, 4]) (es := [7, 5, 4]) (wf_ofDims ⟨by simp, by simp⟩) rfl
    (wf_ofDims ⟨by simp, by simp⟩) rfl 2 1).1 (by simp) (by simp)) [5] [7, 5] rfl rfl).1 ⟨[7], rfl⟩
    (fits_of_pos (by simp) (by simp))

example : ∃ s', (ofDims [4, 3]).reduce = .ok s' ∧ s'.WF ∧ s'.asVec = .ok [4] :=
  (C87_reduce (ds := [4, 3]) (wf_ofDims ⟨by simp, by simp⟩) rfl).1 (by simp)

theorem forR_ok_inv {β : Type} {lo hi : Nat} {s s' : β} {body : Nat → β → Res β} {P : β → Prop} (h0 : P s)
    (hP : ∀ i a b, P a → body i a = Except.ok b → P b) (h : forR lo hi s body = Except.ok s') :
    ∀ i, lo ≤ i → i < hi → ∃ a b, P a ∧ body i a = Except.ok b := by
  by_cases hle : lo ≤ hi
  · obtain ⟨n, rfl⟩ : ∃ n, hi = lo + n := ⟨hi - lo, by omega⟩
    clear hle
    suffices H : P s' ∧ ∀ i, lo ≤ i → i < lo + n → ∃ a b, P a ∧ body i a = Except.ok b from H.2
    induction n generalizing s' with
    | zero =>
      rw [forR_stop (by omega)] at h
      cases h
      exact ⟨h0, fun i h1 h2 => by omega⟩
    | succ n ih =>
      rw [← Nat.add_assoc, forR_snoc (by omega)] at h
      obtain ⟨a, ha, hb⟩ := bind_eq_ok.1 h
      obtain ⟨hp, H⟩ := ih ha
      refine ⟨hP _ _ _ hp hb, fun i h1 h2 => ?_⟩
      by_cases hi : i < lo + n
      · exact H i h1 hi
      · have : i = lo + n := by omega
        subst this; exact ⟨_, _, hp, hb⟩
  · intro i h1 h2; omega

/-- What `append` does: the new dimensions go, in reverse order, in front of the old ones instead of behind them, and the
rank grows by six instead of by their number. More than six dimensions panic. -/
theorem C02_append_actual {s : Shape} {ds : List Nat} (hs : s.WF) (hds : s.asVec = .ok ds) (tail : List Nat)
    (ht : ∀ d ∈ tail, d < 2 ^ 32) :
    (ds.length + tail.length ≤ 6 → ∃ s', s.append tail = .ok s' ∧ s'.rank = ds.length + 6 ∧
      (∀ i, i < ds.length + tail.length → s'.rdim i = (ofDims (tail.reverse ++ ds)).rdim i) ∧
      (∀ i, ds.length + tail.length ≤ i → i < 6 → s'.rdim i = .ok 0)) ∧
    (6 < ds.length + tail.length → s.append tail = .error .panic) := by
  obtain ⟨rfl, ha⟩ := toDims_of_asVec hs hds
  have hlen : (ofDims ds).dims.length = 6 := hs.len
  have hrank : (ofDims ds).rank = ds.length := by simp [ofDims, ofRev]
  constructor
  · intro h6
    obtain ⟨dims, e, hd⟩ := forR_inv (Nat.zero_le tail.length)
      (fun k (dims : List Nat) => dims = ds.reverse ++ tail.take k ++ List.replicate (6 - ds.length - k) 0)
      (s := (ofDims ds).dims)
      (body := fun i dims => do
        let d ← idx tail i
        setIdx dims (i + (ofDims ds).rank) (asU32 d))
      (by simp [ofDims, ofRev])
      (fun k dims _ hk hinv => by
        have hl : dims.length = 6 := by rw [hinv]; simp; omega
        refine ⟨dims.set (k + ds.length) tail[k], ?_, ?_⟩
        · rw [idx_ok (List.getElem?_eq_getElem hk), ok_bind, hrank, asU32_of_lt (ht _ (List.getElem_mem hk))]
          exact setIdx_ok (by omega)
        · rw [hinv, show 6 - ds.length - k = (6 - ds.length - (k + 1)) + 1 by omega, List.replicate_succ,
            List.set_append_right _ _ (by simp; omega), List.take_succ_eq_append_getElem hk]
          simp [Nat.min_eq_left (Nat.le_of_lt hk), Nat.add_comm ds.length k, -List.take_append_getElem])
    rw [List.take_length] at hd
    refine ⟨⟨dims, ds.length + 6⟩, ?_, rfl, fun i hi => ?_, fun i hi hi6 => ?_⟩
    · unfold Shape.append
      rw [e, ok_bind, hrank, show dims.length = 6 by rw [hd]; simp; omega]; rfl
    · unfold Shape.rdim idx
      simp only [ofDims, ofRev, List.reverse_append, List.reverse_reverse, hd]
      rw [List.getElem?_append_left (l₁ := ds.reverse ++ tail) (by simp; omega),
        List.getElem?_append_left (l₁ := ds.reverse ++ tail) (by simp; omega)]
    · unfold Shape.rdim idx
      simp only [hd]
      rw [List.getElem?_append_right (by simp; omega), List.getElem?_replicate, if_pos (by simp; omega)]
  · intro h6
    have hl6 := ha.len
    have hn : NoUB ((ofDims ds).append tail) := by
      unfold Shape.append
      exact noUB_bind (forR_noUB' fun i s => noUB_bind (noUB_idx _ _) fun _ _ => noUB_setIdx _ _ _) fun _ _ => by simp
    cases e : (ofDims ds).append tail with
    | error x =>
      cases x with
      | panic => rfl
      | ub => exact absurd e hn
    | ok s' =>
      exfalso
      unfold Shape.append at e
      obtain ⟨dims, e1, _⟩ := bind_eq_ok.1 e
      obtain ⟨a, b, ha6, hb⟩ := forR_ok_inv (P := fun d : List Nat => d.length = 6) hlen (fun i a b ha hb => by
        obtain ⟨d, _, hb⟩ := bind_eq_ok.1 hb
        rw [← ha, (setIdx_eq_ok.1 hb).2, List.length_set]) e1 (6 - ds.length) (Nat.zero_le _) (by omega)
      obtain ⟨d, _, hb⟩ := bind_eq_ok.1 hb
      have := (setIdx_eq_ok.1 hb).1
      rw [hrank] at this
      have := ha.len
      omega

example : ∃ s', (ofDims [2, 3]).append [5, 7] = .ok s' ∧ s'.rank = 8 ∧ s'.rdim 2 = .ok 5 := by
  obtain ⟨s', e, r, h, _⟩ := (C02_append_actual (s := ofDims [2, 3]) (ds := [2, 3]) (wf_ofDims ⟨by simp, by simp⟩) rfl [5, 7]
    (by simp)).1 (by simp)
  exact ⟨s', e, r, h 2 (by simp)⟩

/-- What `rinsert` does at a position beyond the rank: it adds an outermost dimension 0, and the length asked for is lost. -/
theorem C02_rinsert_beyond_rank_actual {s : Shape} {ds : List Nat} (hs : s.WF) (hds : s.asVec = .ok ds) {axis : Nat}
    (h1 : ds.length < axis) (h2 : axis < 5) (n : Nat) :
    ∃ s', s.rinsert axis n = .ok s' ∧ s'.asVec = .ok (0 :: ds) := by
  obtain ⟨rfl, ha⟩ := toDims_of_asVec hs hds
  have hlen : (ofDims ds).dims.length = 6 := hs.len
  have hrank : (ofDims ds).rank = ds.length := by simp [ofDims, ofRev]
  have hA : Adm (0 :: ds) := ⟨by simp; omega, by simpa using ha.lt⟩
  have hd : (ofDims (0 :: ds)).dims = (ofDims ds).dims := by
    simp only [ofDims, ofRev, List.reverse_cons, List.append_assoc, List.length_append, List.length_reverse]
    rw [show 6 - ds.length = (6 - (ds.length + 1)) + 1 by omega, List.replicate_succ]
    rfl
  refine ⟨⟨(ofDims ds).dims.set axis (asU32 n), ds.length + 1⟩, ?_, ?_⟩
  · unfold Shape.rinsert
    rw [ensure_true (by unfold MAX_RANK; omega), ok_bind, hrank, forR_stop (by omega), pure_eq_ok, ok_bind, setIdx_ok (by omega)]
    rfl
  · rw [← asVec_ofDims hA]
    unfold Shape.asVec
    have hr : (ofDims (0 :: ds)).rank = ds.length + 1 := by simp [ofDims, ofRev]
    rw [hr]
    apply forR_congr
    intro i v _ hi
    simp only at hi
    have e : (⟨(ofDims ds).dims.set axis (asU32 n), ds.length + 1⟩ : Shape).dim i = (ofDims (0 :: ds)).dim i := by
      unfold Shape.dim
      simp only [hr, usub_ok (show 1 ≤ ds.length + 1 by omega), usub_ok (show i ≤ ds.length + 1 - 1 by omega), ok_bind, hd]
      unfold idx
      rw [List.getElem?_set_ne (by omega)]
    rw [e]

example : ∃ s', (ofDims [2, 3]).rinsert 4 7 = .ok s' ∧ s'.asVec = .ok [0, 2, 3] :=
  C02_rinsert_beyond_rank_actual (ds := [2, 3]) (wf_ofDims ⟨by simp, by simp⟩) rfl (by simp) (by simp) 7

end Essay
