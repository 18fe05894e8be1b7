import Verif.Spec.Signal
import Verif.Lemmas.Init
import Verif.Lemmas.Split
import Verif.Props.Tensor
import Verif.Lemmas.From

/-! # Helper lemmas for the signal functions (no claims here) -/

namespace Essay

open Shape Signal

variable {α F : Type}

/-- A loop with a scratch value that each step overwrites is a loop without it. -/
theorem forR_scratch {β γ : Type} {lo hi : Nat} {o : β} {b : γ} (P : γ → Prop) {body : Nat → β × γ → Res (β × γ)}
    {rb : Nat → β → Res β} (g : Nat → γ) (hb : P b)
    (h : ∀ n o b, lo ≤ n → n < hi → P b → P (g n) ∧ body n (o, b) = rb n o >>= fun o' => Except.ok (o', g n)) :
    (forR lo hi (o, b) body >>= fun st => Except.ok st.1) = forR lo hi o rb := by
  by_cases hle : lo ≤ hi
  · obtain ⟨k, rfl⟩ : ∃ k, hi = lo + k := ⟨hi - lo, by omega⟩
    clear hle
    induction k generalizing lo o b with
    | zero => rw [forR_stop (by omega), forR_stop (by omega)]; rfl
    | succ k ih =>
      obtain ⟨hp, e⟩ := h lo o b (by omega) (by omega) hb
      rw [forR_cons (by omega), forR_cons (by omega), e]
      cases hr : rb lo o with
      | error e => rfl
      | ok o' =>
        simp only [ok_bind]
        rw [show lo + (k + 1) = (lo + 1) + k by omega] at h ⊢
        exact ih hp (fun n o b h1 h2 => h n o b (by omega) h2)
  · rw [forR_stop (by omega), forR_stop (by omega)]; rfl

theorem hannWindow_rep (fo : FFft F) {c : Nat} (hc : c < 4294967296) :
    ∃ w, hannWindow fo c = .ok w ∧ Rep w [c] ((List.range c).map (hannWeight fo c)) := by
  have ha : Adm [c] := ⟨by simp, by simpa using hc⟩
  obtain ⟨t, xs, e, hr, hx⟩ := initRindexed_fun ha (fits_one hc) (f := fun index => do
    let i ← idx index 0
    let tmp := fo.sin (fo.mul (fo.div fo.pi (fo.ofNat c)) (fo.ofNat i))
    return fo.mul tmp tmp) (g := fun is => hannWeight fo c (is.reverse[0]?.getD 0)) (by
      intro is his
      match is, his with
      | [i], _ => rfl
      | [], h => simp [ravel] at h
      | _ :: _ :: _, h =>
        obtain ⟨p, hp⟩ := Option.isSome_iff_exists.1 h
        have := ravel_length hp; simp at this)
  refine ⟨t, ?_, ?_⟩
  · unfold hannWindow
    simp only [ofSlice_adm ha, ok_bind]
    exact e
  · have hxs : xs = (List.range c).map (hannWeight fo c) := by
      apply List.ext_getElem?
      intro p
      by_cases hp : p < c
      · have hrv : ravel [c] [p] = some p := by simp [ravel, hp]
        have := hx [p] (by rw [hrv]; rfl)
        simp only [at?, hrv] at this
        simp only [Option.bind_some] at this
        rw [this]; simp [hp]
      · rw [List.getElem?_eq_none (by rw [hr.length]; simp; omega), List.getElem?_eq_none (by simp; omega)]
    rw [← hxs]; exact hr

theorem windowed_length (fo : FFft F) (row : List F) : (windowed fo row).length = row.length := by simp [windowed]

theorem fillBuffer_eq {fo : FFft F} {w : Tensor F} {x : List F} {c : Nat} {b : List (F × F)}
    (hw : Rep w [c] ((List.range c).map (hannWeight fo c))) (hx : c ≤ x.length) (hb : b.length = c) :
    fillBuffer fo w x c b = .ok (windowed fo (x.take c)) := by
  unfold fillBuffer
  obtain ⟨b', e, hl, hg⟩ := forR_inv (lo := 0) (hi := c) (by omega) (s := b)
    (body := fun i buffer => do
      let xi ← idx x i
      let w ← w.index1 i
      setIdx buffer i (fo.mul xi w, fo.zero))
    (fun k b' => b'.length = c ∧ ∀ i, i < k → b'[i]? = (windowed fo (x.take c))[i]?)
    ⟨hb, fun i hi => by omega⟩ (by
      rintro i b' _ hi ⟨hl, hg⟩
      refine ⟨b'.set i (fo.mul x[i] (hannWeight fo c i), fo.zero), ?_, by simpa using hl, ?_⟩
      · rw [idx_lt (by omega), ok_bind, index1_eq hw]
        simp only [List.getElem?_map, List.getElem?_range hi, Option.map_some, ok_bind]
        rw [setIdx_ok (by omega)]
      · intro j hj
        by_cases hji : j = i
        · subst hji
          rw [List.getElem?_set_self (by omega)]
          simp [windowed, hi, Nat.min_eq_left hx]
        · rw [List.getElem?_set_ne (by omega)]; exact hg j (by omega))
  rw [e]
  congr 1
  apply List.ext_getElem?
  intro i
  by_cases hi : i < c
  · exact hg i hi
  · rw [List.getElem?_eq_none (by omega), List.getElem?_eq_none (by rw [windowed_length]; simp; omega)]

theorem spectrum_length {fo : FFft F} {n : Nat} {row : List F} : (spectrum fo n row).length = n := by
  simp [spectrum]

theorem spectrum_get {fo : FFft F} (hfft : ∀ l, (fo.fft l).length = l.length) {n : Nat} {row : List F} {c : Nat}
    (hc : row.length = c) (h0 : 0 < c) {i : Nat} (hi : i < n) :
    (∀ v, i < c / 2 + 1 → (fo.fft (windowed fo row))[i]? = some v → (spectrum fo n row)[i]? = some (fo.norm v)) ∧
    (c / 2 + 1 ≤ i → (spectrum fo n row)[i]? = some fo.zero) := by
  subst hc
  unfold spectrum
  have hl : ((fo.fft (windowed fo row)).take (row.length / 2 + 1)).length = row.length / 2 + 1 ∨
      ((fo.fft (windowed fo row)).take (row.length / 2 + 1)).length = row.length ∧ row.length < row.length / 2 + 1 := by
    simp only [List.length_take, hfft, windowed_length]; omega
  have hl' : ((fo.fft (windowed fo row)).take (row.length / 2 + 1)).length ≤ row.length / 2 + 1 := by
    simp only [List.length_take]; omega
  refine ⟨fun v h hv => ?_, fun h => ?_⟩
  · rw [List.getElem?_take_of_lt hi, List.getElem?_append_left (by rw [List.length_map]; omega), List.getElem?_map,
      List.getElem?_take_of_lt h, hv]
    rfl
  · rw [List.getElem?_take_of_lt hi, List.getElem?_append_right (by rw [List.length_map]; omega)]
    rw [List.getElem?_replicate, if_pos (by omega)]

/-- Writing one row of the result. -/
theorem writeNorms_puts {fo : FFft F} (hfft : ∀ l, (fo.fft l).length = l.length) {row : List F} {c lenOut off : Nat}
    (hc : row.length = c) (h0 : 0 < c) {ys : List F}
    (hy : ∀ i, i < lenOut → ys[off + i]? = (spectrum fo lenOut row)[i]?) :
    Puts ys (fun p => off ≤ p ∧ p < off + lenOut)
      (writeNorms fo (fo.fft (windowed fo row)) off (c / 2 + 1) lenOut) := by
  have hln : (fo.fft (windowed fo row)).length = c := by rw [hfft, windowed_length, hc]
  have h1 := puts_loop (ys := ys) (lo := 0) (hi := min (c / 2 + 1) lenOut) (P := fun i p => p = off + i)
    (body := fun i o => do
      let v ← idx (fo.fft (windowed fo row)) i
      o.write (off + i) (fo.norm v)) (by
    intro i _ hi b hb
    have hic : i < (fo.fft (windowed fo row)).length := by omega
    have := hy i (by omega)
    rw [(spectrum_get hfft hc h0 (by omega)).1 _ (by omega) (List.getElem?_eq_getElem hic)] at this
    simp only [idx_lt hic, ok_bind]
    exact puts_write this b hb)
  have h2 := puts_loop (ys := ys) (lo := c / 2 + 1) (hi := lenOut) (P := fun i p => p = off + i)
    (body := fun i o => Buf.write o (off + i) fo.zero) (by
    intro i h1 hi b hb
    have := hy i (by omega)
    rw [(spectrum_get hfft hc h0 (by omega)).2 h1] at this
    exact puts_write this b hb)
  intro b hb
  obtain ⟨b1, e1, hl1, hw1⟩ := h1 b hb
  obtain ⟨b2, e2, hl2, hw2⟩ := h2 b1 hl1
  refine ⟨b2, ?_, hl2, fun p hp => ⟨?_, ?_⟩⟩
  · unfold writeNorms
    rw [show forR 0 (min (c / 2 + 1) lenOut) b _ = _ from e1, ok_bind]
    exact e2
  · rintro ⟨h3, h4⟩
    by_cases hq : ∃ i, c / 2 + 1 ≤ i ∧ i < lenOut ∧ p = off + i
    · exact (hw2 p hp).1 hq
    · rw [(hw2 p hp).2 hq]
      refine (hw1 p hp).1 ⟨p - off, by omega, ?_, by omega⟩
      by_contra hcon
      exact hq ⟨p - off, by omega, by omega, by omega⟩
  · intro hn
    rw [(hw2 p hp).2 (by rintro ⟨i, _, _, rfl⟩; exact hn ⟨by omega, by omega⟩),
      (hw1 p hp).2 (by rintro ⟨i, _, _, rfl⟩; exact hn ⟨by omega, by omega⟩)]

theorem flatMap_range_get {g : Nat → List α} {L : Nat} (hg : ∀ n, (g n).length = L) {B n i : Nat} (hn : n < B) (hi : i < L) :
    ((List.range B).flatMap g)[n * L + i]? = (g n)[i]? := by
  induction B with
  | zero => omega
  | succ B ih =>
    have hl : ((List.range B).flatMap g).length = B * L := by
      rw [length_flatMap_const (N := L) (fun b _ => hg b), List.length_range]
    rw [List.range_succ, List.flatMap_append]
    by_cases h : n < B
    · rw [List.getElem?_append_left, ih h]
      rw [hl]
      calc n * L + i < n * L + L := by omega
        _ = (n + 1) * L := by rw [Nat.add_mul, Nat.one_mul]
        _ ≤ B * L := Nat.mul_le_mul_right _ h
    · have : n = B := by omega
      subst this
      rw [List.getElem?_append_right (by rw [hl]; omega), hl, Nat.add_sub_cancel_left]
      simp

/-- The rows of a flat list. -/
def rowAt (xs : List α) (c n : Nat) : List α := (xs.drop (n * c % xs.length)).take c

theorem rowAt_length {xs : List α} {c m n : Nat} (h : xs.length = m * c) (h0 : 0 < xs.length) : (rowAt xs c n).length = c := by
  have hc : 0 < c := by
    rcases Nat.eq_zero_or_pos c with h' | h'
    · subst h'; rw [Nat.mul_zero] at h; omega
    · exact h'
  have : n * c % xs.length + c ≤ xs.length := by
    rw [h, Nat.mul_mod_mul_right]
    have hm : 0 < m := by
      rcases Nat.eq_zero_or_pos m with h' | h'
      · subst h'; rw [Nat.zero_mul] at h; omega
      · exact h'
    have := Nat.mod_lt n hm
    calc n % m * c + c = (n % m + 1) * c := by rw [Nat.add_mul, Nat.one_mul]
      _ ≤ m * c := Nat.mul_le_mul_right _ this
  simp [rowAt]; omega

theorem withCols_snoc {outer : List Nat} {c v : Nat} (ha : Adm (outer ++ [c])) :
    (ofDims (outer ++ [c])).withCols v = .ok (ofDims (outer ++ [asU32 v])) := by
  unfold ofDims
  rw [withCols_ofRev (by simpa using ha.len) (by simp)]
  simp

theorem rfft_head {t : Tensor F} {outer : List Nat} {c : Nat} {xs : List F} (h : Rep t (outer ++ [c]) xs) :
    t.shape.cols = .ok c ∧ t.shape.len = .ok ((outer ++ [c]).headD 0) := by
  constructor
  · rw [cols_eq h.wf.shape, h.toDims]; simp
  · refine dim_eq h.wf.shape ?_
    rw [h.toDims]
    cases outer <;> rfl

/-- The whole of `rfft_norm` for a tensor with elements and rows. -/
theorem rfftNorm_eq {fo : FFft F} (hfft : ∀ l, (fo.fft l).length = l.length) {t : Tensor F} {outer : List Nat} {c : Nat}
    {xs : List F} (h : Rep t (outer ++ [c]) xs) (h0 : 0 < xs.length) (fl : Option Nat) :
    rfftNorm fo t fl = Tensor.new
      ((List.range ((outer ++ [c]).headD 0 / c)).flatMap fun n => spectrum fo (fl.getD (c / 2 + 1)) (rowAt xs c n))
      (ofDims (outer ++ [asU32 (fl.getD (c / 2 + 1))])) := by
  have hlen : xs.length = outer.prod * c := by rw [h.length]; simp
  have hc : 0 < c := by
    rcases Nat.eq_zero_or_pos c with h' | h'
    · subst h'; rw [Nat.mul_zero] at hlen; omega
    · exact h'
  have hclt : c < 4294967296 := h.adm.lt c (by simp)
  obtain ⟨w, ew, hw⟩ := hannWindow_rep fo hclt
  unfold rfftNorm
  rw [(rfft_head h).1, ok_bind, (rfft_head h).2, ok_bind, udiv_ok (by omega), ok_bind]
  simp only [ew, ok_bind]
  rw [h.shape, withCols_snoc h.adm, ok_bind]
  generalize fl.getD (c / 2 + 1) = lenOut
  generalize (outer ++ [c]).headD 0 / c = batch
  set ys := (List.range batch).flatMap fun n => spectrum fo lenOut (rowAt xs c n) with hys
  have hl : ys.length = batch * lenOut := by
    rw [hys, length_flatMap_const (N := lenOut) (fun b _ => spectrum_length), List.length_range]
  have hp := puts_loop (ys := ys) (lo := 0) (hi := batch) (P := fun n p => n * lenOut ≤ p ∧ p < n * lenOut + lenOut)
    (body := fun n => writeNorms fo (fo.fft (windowed fo (rowAt xs c n))) (n * lenOut) (c / 2 + 1) lenOut)
    (fun n _ hn => writeNorms_puts hfft (rowAt_length hlen h0) hc
      (fun i hi => flatMap_range_get (fun n => spectrum_length) hn hi))
  refine unsafeInit_puts hl.symm (hp.congr (Q := fun _ => True) ?_ ?_) (fun _ _ => trivial)
  · intro p hp
    refine ⟨fun _ => trivial, fun _ => ?_⟩
    have hlo : 0 < lenOut := by
      rcases Nat.eq_zero_or_pos lenOut with h' | h'
      · rw [h'] at hl; omega
      · exact h'
    refine ⟨p / lenOut, Nat.zero_le _, Nat.div_lt_of_lt_mul (by rw [Nat.mul_comm]; omega), ?_⟩
    have h1 := Nat.div_add_mod p lenOut
    have h2 := Nat.mod_lt p hlo
    rw [Nat.mul_comm] at h1
    omega
  · intro o
    refine forR_scratch (fun b => b.length = c) (fun n => fo.fft (windowed fo (rowAt xs c n))) (by simp) ?_
    intro n o b _ _ hb
    have hr := rowAt_length (n := n) hlen h0
    refine ⟨by rw [hfft, windowed_length, hr], ?_⟩
    have hx : c ≤ (xs.drop (n * c % xs.length)).length := by
      have := hr; simp only [rowAt, List.length_take] at this; omega
    simp only [asWrapSlice_eq h h0, ok_bind, fillBuffer_eq hw hx hb]
    rfl

theorem rfftNorm_zero {fo : FFft F} {t : Tensor F} {outer : List Nat} {c : Nat}
    {xs : List F} (h : Rep t (outer ++ [c]) xs) (hc : 0 < c) (hb : (outer ++ [c]).headD 0 / c = 0) (fl : Option Nat) :
    rfftNorm fo t fl = Tensor.new [] (ofDims (outer ++ [asU32 (fl.getD (c / 2 + 1))])) := by
  have hclt : c < 4294967296 := h.adm.lt c (by simp)
  obtain ⟨w, ew, hw⟩ := hannWindow_rep fo hclt
  unfold rfftNorm
  rw [(rfft_head h).1, ok_bind, (rfft_head h).2, ok_bind, udiv_ok (by omega), ok_bind]
  simp only [ew, ok_bind]
  rw [h.shape, withCols_snoc h.adm, ok_bind, hb]
  unfold Tensor.unsafeInit
  dsimp only
  rw [forR_stop (by omega)]
  simp [Buf.uninit, Tensor.finish, Buf.complete, pure, Except.pure]

theorem rfftNorm_panic_empty {fo : FFft F} {t : Tensor F} {outer : List Nat} {c : Nat}
    {xs : List F} (h : Rep t (outer ++ [c]) xs) (hc : 0 < c) (hb : (outer ++ [c]).headD 0 / c ≠ 0) (hx : xs.length = 0)
    (fl : Option Nat) : rfftNorm fo t fl = .error .panic := by
  have hclt : c < 4294967296 := h.adm.lt c (by simp)
  obtain ⟨w, ew, hw⟩ := hannWindow_rep fo hclt
  unfold rfftNorm
  rw [(rfft_head h).1, ok_bind, (rfft_head h).2, ok_bind, udiv_ok (by omega), ok_bind]
  simp only [ew, ok_bind]
  rw [h.shape, withCols_snoc h.adm, ok_bind]
  unfold Tensor.unsafeInit
  dsimp only
  rw [forR_cons (Nat.pos_of_ne_zero hb)]
  have : t.asWrapSlice (0 * c) = .error .panic := by
    unfold Tensor.asWrapSlice
    rw [h.size, hx, if_neg (by omega)]
    rfl
  rw [this]; rfl

theorem new_noUB (xs : List α) (s : Shape) : NoUB (Tensor.new xs s) := by
  by_cases h : s.size = .ok xs.length
  · unfold Tensor.new
    rw [h]
    exact noUB_bind (by simp) fun _ _ => noUB_bind (by simp) fun _ _ => by simp
  · rw [new_panic h]; simp

theorem rowAt_eq {xs : List α} {c m n : Nat} (h : xs.length = m * c) (hn : n < m) (hc : 0 < c) :
    rowAt xs c n = (xs.drop (n * c)).take c := by
  unfold rowAt
  rw [Nat.mod_eq_of_lt]
  rw [h]; exact Nat.mul_lt_mul_of_pos_right hn hc

end Essay
