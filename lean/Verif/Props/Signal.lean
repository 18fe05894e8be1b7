import Verif.Lemmas.Signal

/-!
# Properties of the signal functions and of `slice`: C55, C66, C67
-/

namespace Essay

open Shape Signal

variable {α F : Type}

/-! ## C55 rfft keeps batches apart -/

/-- C55 for a vector: `rfft_norm` of `n ≥ 1` samples is the vector of the first `fft_length` (by default `n / 2 + 1`)
absolute values of the spectrum of the windowed samples, whatever the float arithmetic and the transform are. -/
theorem C55_vector {fo : FFft F} (hfft : ∀ l, (fo.fft l).length = l.length) {t : Tensor F} {c : Nat} {xs : List F}
    (h : Rep t [c] xs) (hc : 0 < c) (fl : Option Nat) (hfl : fl.getD (c / 2 + 1) < 4294967296) :
    ∃ r, rfftNorm fo t fl = .ok r ∧ Rep r [fl.getD (c / 2 + 1)] (spectrum fo (fl.getD (c / 2 + 1)) xs) := by
  have hlen : xs.length = c := by simpa using h.length
  have e := rfftNorm_eq hfft (outer := []) h (by omega) fl
  have ha : Adm [fl.getD (c / 2 + 1)] := ⟨by simp, by simpa using hfl⟩
  simp only [List.nil_append, List.headD_cons, Nat.div_self hc, asU32_of_lt hfl] at e
  rw [e]
  have hx : (List.range 1).flatMap (fun n => spectrum fo (fl.getD (c / 2 + 1)) (rowAt xs c n)) =
      spectrum fo (fl.getD (c / 2 + 1)) xs := by
    have : rowAt xs c 0 = xs := by
      rw [rowAt_eq (m := 1) (by omega) (by omega) hc, Nat.zero_mul, List.drop_zero, List.take_of_length_le (by omega)]
    simp [List.range_succ, this]
  rw [hx, new_ok ha (fits_one hfl) (by simp [spectrum_length])]
  exact ⟨_, rfl, rep_fresh ha (fits_one hfl) (by simp [spectrum_length])⟩

/-- C55, the part the code satisfies: when the length of the first dimension divided by the length of a row is the number
of rows, the result has shape `[.., n / 2 + 1]` (or the asked length) and its rows are the spectra of the rows of the
argument. Missing: this condition, which the code needs because it computes the number of rows as `len() / cols()`; the
property asks for the result for every tensor (see `C55_batch_violates`). -/
theorem C55_rows_partial {fo : FFft F} (hfft : ∀ l, (fo.fft l).length = l.length) {t : Tensor F} {outer : List Nat}
    {c : Nat} {xs : List F} (h : Rep t (outer ++ [c]) xs) (hc : 0 < c) (fl : Option Nat)
    (hb : (outer ++ [c]).headD 0 / c = outer.prod)
    (ha : Adm (outer ++ [fl.getD (c / 2 + 1)])) (hf : Fits (outer ++ [fl.getD (c / 2 + 1)])) :
    ∃ r, rfftNorm fo t fl = .ok r ∧ Rep r (outer ++ [fl.getD (c / 2 + 1)])
      ((List.range outer.prod).flatMap fun n => spectrum fo (fl.getD (c / 2 + 1)) ((xs.drop (n * c)).take c)) := by
  have hlen : xs.length = outer.prod * c := by rw [h.length]; simp
  have hfl : fl.getD (c / 2 + 1) < 4294967296 := ha.lt _ (by simp)
  have hl2 : ((List.range outer.prod).flatMap fun n =>
      spectrum fo (fl.getD (c / 2 + 1)) ((xs.drop (n * c)).take c)).length = (outer ++ [fl.getD (c / 2 + 1)]).prod := by
    rw [length_flatMap_const (N := fl.getD (c / 2 + 1)) (fun b _ => spectrum_length), List.length_range]; simp
  have key : rfftNorm fo t fl = Tensor.new ((List.range outer.prod).flatMap fun n =>
      spectrum fo (fl.getD (c / 2 + 1)) ((xs.drop (n * c)).take c)) (ofDims (outer ++ [fl.getD (c / 2 + 1)])) := by
    rcases Nat.eq_zero_or_pos outer.prod with h0 | h0
    · rw [rfftNorm_zero h hc (by rw [hb, h0]), asU32_of_lt hfl, h0]; rfl
    · rw [rfftNorm_eq hfft h (by rw [hlen]; exact Nat.mul_pos h0 hc), asU32_of_lt hfl, hb]
      congr 1
      have : ∀ n ∈ List.range outer.prod, spectrum fo (fl.getD (c / 2 + 1)) (rowAt xs c n) =
          spectrum fo (fl.getD (c / 2 + 1)) ((xs.drop (n * c)).take c) := fun n hn => by
        rw [rowAt_eq hlen (List.mem_range.1 hn) hc]
      rw [List.flatMap_congr this]
  rw [key, new_ok ha hf hl2]
  exact ⟨_, rfl, rep_fresh ha hf hl2⟩

/-- C55 is false in the code for batches: with at least two dimensions, rows of at least two samples and no empty
dimension, `rfft_norm` always panics (for every requested length but 0). -/
theorem C55_batch_violates {fo : FFft F} (hfft : ∀ l, (fo.fft l).length = l.length) {t : Tensor F} {d : Nat}
    {outer : List Nat} {c : Nat} {xs : List F} (h : Rep t (d :: outer ++ [c]) xs) (hpos : ∀ e ∈ d :: outer, 0 < e)
    (hc : 2 ≤ c) (fl : Option Nat) (h0 : 0 < fl.getD (c / 2 + 1)) (hfl : fl.getD (c / 2 + 1) < 4294967296) :
    rfftNorm fo t fl = .error .panic := by
  have hop : 0 < (d :: outer).prod := prod_pos hpos
  have hlen : xs.length = (d :: outer).prod * c := by rw [h.length, List.prod_append]; simp
  rw [rfftNorm_eq hfft h (by rw [hlen]; exact Nat.mul_pos hop (by omega)), asU32_of_lt hfl]
  generalize fl.getD (c / 2 + 1) = L at *
  apply new_panic
  intro hs
  have ha : Adm (d :: outer ++ [L]) := by
    have h1 := h.adm
    refine ⟨by simpa using h1.len, fun e he => ?_⟩
    rcases List.mem_append.1 he with h2 | h2
    · exact h1.lt e (List.mem_append_left _ h2)
    · rw [List.mem_singleton.1 h2]; exact hfl
  rw [length_flatMap_const (N := L) (fun b _ => spectrum_length), List.length_range] at hs
  have := ((size_ofDims_iff ha).1 hs).2
  rw [List.prod_append, List.prod_singleton] at this
  have h2 : (d :: outer ++ [c]).headD 0 / c < (d :: outer).prod := by
    have hd : 0 < d := hpos d (by simp)
    have ho : 0 < outer.prod := prod_pos fun e he => hpos e (by simp [he])
    have h3 : (d :: outer ++ [c]).headD 0 / c < d := Nat.div_lt_self hd (by omega)
    rw [List.prod_cons]
    exact Nat.lt_of_lt_of_le h3 (Nat.le_mul_of_pos_right _ ho)
  have := Nat.mul_lt_mul_of_pos_right h2 h0
  omega

/-- C55: `rfft_norm` of a tensor without dimensions or with rows of length 0 panics. -/
theorem C55_rejects (fo : FFft F) {t : Tensor F} {ds : List Nat} {xs : List F} (h : Rep t ds xs)
    (hds : ds = [] ∨ ds.getLast? = some 0) (fl : Option Nat) : rfftNorm fo t fl = .error .panic := by
  rcases hds with rfl | h0
  · unfold rfftNorm
    rw [cols_eq h.wf.shape, ok_bind]
    have : t.shape.len = .error .panic := by rw [h.shape]; rfl
    rw [this]; rfl
  · obtain ⟨outer, rfl⟩ : ∃ outer, ds = outer ++ [0] := by
      refine ⟨ds.dropLast, ?_⟩
      rw [List.getLast?_eq_some_iff] at h0
      obtain ⟨ys, rfl⟩ := h0; simp
    unfold rfftNorm
    rw [(rfft_head h).1, ok_bind, (rfft_head h).2, ok_bind]
    rfl

/-- C55: for every tensor `rfft_norm` returns or panics; its raw writes stay inside the new buffer and fill it. -/
theorem C55_safe {fo : FFft F} (hfft : ∀ l, (fo.fft l).length = l.length) {t : Tensor F} (h : t.WF) (fl : Option Nat) :
    NoUB (rfftNorm fo t fl) := by
  have hr := h.rep
  rcases List.eq_nil_or_concat t.shape.toDims with h0 | ⟨outer, c, hoc⟩
  · rw [C55_rejects fo hr (Or.inl h0)]; simp
  · rw [List.concat_eq_append] at hoc
    rw [hoc] at hr
    rcases Nat.eq_zero_or_pos c with rfl | hc
    · rw [C55_rejects fo hr (Or.inr (by simp))]; simp
    · rcases Nat.eq_zero_or_pos t.elems.length with hx | hx
      · by_cases hb : (outer ++ [c]).headD 0 / c = 0
        · rw [rfftNorm_zero hr hc hb]; exact new_noUB _ _
        · rw [rfftNorm_panic_empty hr hc hb hx]; simp
      · rw [rfftNorm_eq hfft hr hx]; exact new_noUB _ _

/-- A toy arithmetic on integers with `sin x = x`, `pi / n = 1` and the "transform" reversing the list. -/
def exFft : FFft Int where
  zero := 0
  one := 1
  add := (· + ·)
  sub := (· - ·)
  mul := (· * ·)
  div := (· / ·)
  ofNat := fun n => n
  eq := fun x y => decide (x = y)
  lt := fun x y => decide (x < y)
  le := fun x y => decide (x ≤ y)
  ln := id
  exp := id
  sqrt := id
  powf := fun x _ => x
  pi := 4
  sin := id
  fft := List.reverse
  norm := fun z => z.1

/-- A view of shape `[4]` at offset 1. -/
def exSignal : Tensor Int := ⟨ofDims [4], 1, 4, [9, 5, 6, 7, 8, 9]⟩

theorem exSignal_rep : Rep exSignal [4] [5, 6, 7, 8] :=
  ⟨⟨wf_ofDims ⟨by simp, by simp⟩, by decide +kernel, by decide +kernel⟩, by decide +kernel, by decide +kernel⟩

example : ∃ r, rfftNorm exFft exSignal none = .ok r ∧ Rep r [3] [72, 28, 6] :=
  C55_vector (fun l => List.length_reverse) exSignal_rep (by omega) none (by decide)

example : ∃ r, rfftNorm exFft exSignal (some 5) = .ok r ∧ Rep r [5] [72, 28, 6, 0, 0] :=
  C55_vector (fun l => List.length_reverse) exSignal_rep (by omega) (some 5) (by decide)

/-- A 4 × 1 × 1 tensor: the condition of `C55_rows_partial` holds with four rows. -/
def exColumn : Tensor Int := ⟨ofDims [4, 1, 1], 1, 4, [9, 5, 6, 7, 8, 9]⟩

example : ∃ r, rfftNorm exFft exColumn none = .ok r ∧ Rep r [4, 1, 1] [0, 0, 0, 0] :=
  C55_rows_partial (outer := [4, 1]) (c := 1) (fun l => List.length_reverse)
    (⟨⟨wf_ofDims ⟨by simp, by simp⟩, by decide +kernel, by decide +kernel⟩, by decide +kernel, by decide +kernel⟩ :
      Rep exColumn ([4, 1] ++ [1]) [5, 6, 7, 8])
    (by omega) none (by decide) ⟨by simp, by simp⟩ (fits_of_pos (by simp) (by simp))

/-- The crate's own test `test_fft_shape` takes a `[2, 4]` tensor: it panics. -/
example : rfftNorm exFft ⟨ofDims [2, 4], 0, 8, [0, 0, 1, 1, 0, 0, 1, 1]⟩ none = .error .panic :=
  C55_batch_violates (d := 2) (outer := []) (c := 4) (xs := [0, 0, 1, 1, 0, 0, 1, 1]) (fun l => List.length_reverse)
    ⟨⟨wf_ofDims ⟨by simp, by simp⟩, by decide +kernel, by decide +kernel⟩, by decide +kernel, by decide +kernel⟩
    (by simp) (by omega) none (by decide) (by decide)

/-! ## C66 slice selects sub-tensors -/

/-- C66 is false in the code: `slice(i)` and `slice((i, j))` never return; every call panics. -/
theorem C66_slice_violates (t : Tensor α) (i j : Nat) :
    sliceUsize i t = .error .panic ∧ slicePair i j t = .error .panic := by
  constructor
  · unfold sliceUsize
    by_cases h1 : t.shape.rank > 0
    · rw [ensure_true h1, ok_bind]
      have hn := noUB_dim t.shape 0
      cases hd : t.shape.dim 0 with
      | error e => cases e with | panic => rfl | ub => exact absurd hd hn
      | ok d =>
        by_cases h2 : i < d
        · rw [ok_bind, ensure_true h2]; rfl
        · rw [ok_bind, ensure_false h2]; rfl
    · rw [ensure_false h1]; rfl
  · unfold slicePair
    by_cases h1 : t.shape.rank > 1
    · rw [ensure_true h1, ok_bind]
      have hn := noUB_dim t.shape 0
      cases hd : t.shape.dim 0 with
      | error e => cases e with | panic => rfl | ub => exact absurd hd hn
      | ok d =>
        by_cases h2 : i < d
        · rw [ok_bind, ensure_true h2, ok_bind]
          have hn := noUB_dim t.shape 1
          cases hd : t.shape.dim 1 with
          | error e => cases e with | panic => rfl | ub => exact absurd hd hn
          | ok d1 =>
            by_cases h3 : j < d1
            · rw [ok_bind, ensure_true h3]; rfl
            · rw [ok_bind, ensure_false h3]; rfl
        · rw [ok_bind, ensure_false h2]; rfl
    · rw [ensure_false h1]; rfl

example : sliceUsize 1 exView = .error .panic := (C66_slice_violates exView 1 2).1

/-! ## C67 frame cuts overlapping windows -/

/-- C67 is false in the code: `frame` never returns; every call panics, for every signal, length and step. -/
theorem C67_frame_violates (x : Tensor α) (len step : Nat) : frame x len step = .error .panic := by
  have hu : NoUB (frame x len step) := by
    unfold frame
    refine noUB_bind (noUB_dim _ _) fun _ _ => noUB_bind (by simp) fun _ _ => noUB_bind ?_ fun _ _ =>
      noUB_bind (by simp) fun _ _ => ?_
    · unfold idiv; split <;> simp
    · dsimp only
      exact noUB_bind (forR_noUB (fun _ _ => True) trivial fun _ _ _ _ _ =>
        ⟨noUB_bind (noUB_subslice _ _) fun _ _ => by simp, fun _ _ => trivial⟩).1 fun _ _ => by simp
  cases hf : frame x len step with
  | error e => cases e with | panic => rfl | ub => exact absurd hf hu
  | ok r =>
    exfalso
    unfold frame at hf
    simp only [bind_eq_ok, panicked] at hf
    obtain ⟨_, _, _, _, _, _, _, _, _, _, h⟩ := hf
    cases h

example : frame exSignal 2 1 = .error .panic := C67_frame_violates _ _ _

example : rfftNorm exFft (⟨ofDims [], 0, 1, [3]⟩ : Tensor Int) (some 4) = .error .panic :=
  C55_rejects exFft (rep_fresh (ds := []) (xs := [3]) ⟨by simp, by simp⟩ fits_nil rfl) (.inl rfl) _

example : NoUB (rfftNorm exFft exSignal (some 7)) := C55_safe (fun l => List.length_reverse) exSignal_rep.wf _

end Essay
