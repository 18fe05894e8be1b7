import Verif.Lemmas.Io
import Verif.Props.From
import Verif.Spec.Float

/-!
# Properties C53, C54, C68: files
-/

namespace Essay

open Shape Io

variable {F K : Type}

/-! ## C53, C54 WAV files -/

theorem ascii_riff : ascii "RIFF" = (leBytes 4 0x52494646).reverse := by decide
theorem ascii_wave : ascii "WAVE" = (leBytes 4 0x57415645).reverse := by decide
theorem ascii_fmt : ascii "fmt " = (leBytes 4 0x666d7420).reverse := by decide
theorem ascii_data : ascii "data" = (leBytes 4 0x64617461).reverse := by decide

theorem leBytes_mod {n : Nat} : leBytes 4 (n % 4294967296) = leBytes 4 n := by
  simp only [leBytes, List.cons.injEq, and_true]
  refine ⟨?_, ?_, ?_, ?_⟩ <;> (apply BitVec.eq_of_toNat_eq; simp only [BitVec.toNat_ofNat]; omega)

theorem parse_fwd (fo : FOps F) (ofInt : Int → F) {bytes : List (BitVec 8)} {channels rate size : Nat} {samples : List Int}
    {byteRate blockAlign rest : List (BitVec 8)} (h : IsWav bytes channels rate size samples byteRate blockAlign rest) :
    ∃ j, (parseWav fo ofInt bytes).run 0 =
      .ok ((channels, rate, samples.map fun x => fo.div (ofInt x) (ofInt 0x8000)), j) := by
  have hl : 8 ≤ bytes.length := by
    rw [h.layout]; simp [ascii, leBytes]
  have h0 : bytes.drop 0 = (leBytes 4 0x52494646).reverse ++ (leBytes 4 (asU32 (bytes.length - 8)) ++
      ((leBytes 4 0x57415645).reverse ++ ((leBytes 4 0x666d7420).reverse ++ (leBytes 4 16 ++ (leBytes 2 1 ++
      (leBytes 2 channels ++ (leBytes 4 rate ++ (byteRate ++ (blockAlign ++ (leBytes 2 16 ++
      ((leBytes 4 0x64617461).reverse ++ (leBytes 4 size ++ (samples.flatMap sampleBytes ++ rest))))))))))))) := by
    rw [asU32, leBytes_mod, ← ascii_riff, ← ascii_wave, ← ascii_fmt, ← ascii_data]
    conv_lhs => rw [List.drop_zero, h.layout]
    simp only [List.append_assoc]
  obtain ⟨i1, e1, h1⟩ := reads_big.step (v := 0x52494646) (by norm_num) h0
  obtain ⟨i2, e2, h2⟩ := reads_u32.step (asU32_lt _) h1
  obtain ⟨i3, e3, h3⟩ := reads_big.step (v := 0x57415645) (by norm_num) h2
  obtain ⟨i4, e4, h4⟩ := reads_big.step (v := 0x666d7420) (by norm_num) h3
  obtain ⟨i5, e5, h5⟩ := reads_u32.step (v := 16) (by norm_num) h4
  obtain ⟨i6, e6, h6⟩ := reads_u16.step (v := 1) (by norm_num) h5
  obtain ⟨i7, e7, h7⟩ := reads_u16.step h.channels_lt h6
  obtain ⟨i8, e8, h8⟩ := reads_u32.step h.rate_lt h7
  obtain ⟨br, hbr, rfl⟩ : ∃ v, v < 2 ^ 32 ∧ leBytes 4 v = byteRate := by
    have := h.byteRate_len
    match byteRate, this with
    | [b0, b1, b2, b3], _ =>
      have := b0.isLt; have := b1.isLt; have := b2.isLt; have := b3.isLt
      exact ⟨_, by omega, leBytes_four b0 b1 b2 b3⟩
  obtain ⟨ba, hba, rfl⟩ : ∃ v, v < 2 ^ 16 ∧ leBytes 2 v = blockAlign := by
    have := h.blockAlign_len
    match blockAlign, this with
    | [b0, b1], _ =>
      have := b0.isLt; have := b1.isLt
      exact ⟨_, by omega, leBytes_two b0 b1⟩
  obtain ⟨i9, e9, h9⟩ := reads_u32.step hbr h8
  obtain ⟨i10, e10, h10⟩ := reads_u16.step hba h9
  obtain ⟨i11, e11, h11⟩ := reads_u16.step (v := 16) (by norm_num) h10
  obtain ⟨i12, e12, h12⟩ := reads_big.step (v := 0x64617461) (by norm_num) h11
  obtain ⟨i13, e13, h13⟩ := reads_u32.step h.size_lt h12
  obtain ⟨i14, e14, _⟩ := sampleLoop_fwd (fun x => fo.div (ofInt x) (ofInt 0x8000)) h.range (lo := 0) (acc := []) h13
  refine ⟨i14, ?_⟩
  have e14' : StateT.run (forR 0 (size / 2) [] fun _ data => do
      let item ← readI16Little bytes
      return data ++ [fo.div (ofInt item) (ofInt 0x8000)] : Exec Nat (List F)) i13 =
      .ok (samples.map fun x => fo.div (ofInt x) (ofInt 0x8000), i14) := by
    have := e14
    unfold sampleLoop at this
    rw [Nat.zero_add, h.count] at this
    exact this
  unfold parseWav
  rw [StateT.run_bind, e1, ok_bind, lift_bind_run, ensure_true rfl, ok_bind, StateT.run_bind, e2, ok_bind, lift_bind_run,
    usub_ok hl, ok_bind, lift_bind_run, ensure_true rfl, ok_bind, StateT.run_bind, e3, ok_bind, lift_bind_run,
    ensure_true rfl, ok_bind, StateT.run_bind, e4, ok_bind, lift_bind_run, ensure_true rfl, ok_bind, StateT.run_bind, e5,
    ok_bind, lift_bind_run, ensure_true rfl, ok_bind, StateT.run_bind, e6, ok_bind, StateT.run_bind, e7, ok_bind,
    StateT.run_bind, e8, ok_bind, StateT.run_bind, e9, ok_bind, StateT.run_bind, e10, ok_bind, StateT.run_bind, e11,
    ok_bind, lift_bind_run, ensure_true rfl, ok_bind, lift_bind_run, ensure_true rfl, ok_bind, StateT.run_bind, e12,
    ok_bind, lift_bind_run, ensure_true rfl, ok_bind, StateT.run_bind, e13, ok_bind]
  dsimp only
  rw [StateT.run_bind, e14', ok_bind]
  rfl

theorem parse_inv (fo : FOps F) (ofInt : Int → F) {bytes : List (BitVec 8)} {channels rate j : Nat} {data : List F}
    (h : (parseWav fo ofInt bytes).run 0 = .ok ((channels, rate, data), j)) :
    ∃ size samples byteRate blockAlign rest, IsWav bytes channels rate size samples byteRate blockAlign rest ∧
      data = samples.map fun x => fo.div (ofInt x) (ofInt 0x8000) := by
  unfold parseWav at h
  rw [StateT.run_bind, bind_eq_ok] at h
  obtain ⟨⟨v1, i1⟩, e1, h⟩ := h
  obtain ⟨-, h0, -⟩ := reads_big.inv e1
  rw [lift_bind_run, bind_eq_ok] at h
  obtain ⟨_, c, h⟩ := h
  obtain rfl := ensure_eq_ok.1 c
  rw [StateT.run_bind, bind_eq_ok] at h
  obtain ⟨⟨v2, i2⟩, e2, h⟩ := h
  obtain ⟨-, h1, -⟩ := reads_u32.inv e2
  rw [lift_bind_run, bind_eq_ok] at h
  obtain ⟨n, c, h⟩ := h
  obtain ⟨hl, rfl⟩ := usub_eq_ok.1 c
  rw [lift_bind_run, bind_eq_ok] at h
  obtain ⟨_, c, h⟩ := h
  obtain rfl := ensure_eq_ok.1 c
  rw [StateT.run_bind, bind_eq_ok] at h
  obtain ⟨⟨v3, i3⟩, e3, h⟩ := h
  obtain ⟨-, h2, -⟩ := reads_big.inv e3
  rw [lift_bind_run, bind_eq_ok] at h
  obtain ⟨_, c, h⟩ := h
  obtain rfl := ensure_eq_ok.1 c
  rw [StateT.run_bind, bind_eq_ok] at h
  obtain ⟨⟨v4, i4⟩, e4, h⟩ := h
  obtain ⟨-, h3, -⟩ := reads_big.inv e4
  rw [lift_bind_run, bind_eq_ok] at h
  obtain ⟨_, c, h⟩ := h
  obtain rfl := ensure_eq_ok.1 c
  rw [StateT.run_bind, bind_eq_ok] at h
  obtain ⟨⟨v5, i5⟩, e5, h⟩ := h
  obtain ⟨-, h4, -⟩ := reads_u32.inv e5
  rw [lift_bind_run, bind_eq_ok] at h
  obtain ⟨_, c, h⟩ := h
  obtain rfl := ensure_eq_ok.1 c
  rw [StateT.run_bind, bind_eq_ok] at h
  obtain ⟨⟨v6, i6⟩, e6, h⟩ := h
  obtain ⟨-, h5, -⟩ := reads_u16.inv e6
  rw [StateT.run_bind, bind_eq_ok] at h
  obtain ⟨⟨v7, i7⟩, e7, h⟩ := h
  obtain ⟨hch, h6, -⟩ := reads_u16.inv e7
  rw [StateT.run_bind, bind_eq_ok] at h
  obtain ⟨⟨v8, i8⟩, e8, h⟩ := h
  obtain ⟨hrate, h7, -⟩ := reads_u32.inv e8
  rw [StateT.run_bind, bind_eq_ok] at h
  obtain ⟨⟨v9, i9⟩, e9, h⟩ := h
  obtain ⟨-, h8, -⟩ := reads_u32.inv e9
  rw [StateT.run_bind, bind_eq_ok] at h
  obtain ⟨⟨v10, i10⟩, e10, h⟩ := h
  obtain ⟨-, h9, -⟩ := reads_u16.inv e10
  rw [StateT.run_bind, bind_eq_ok] at h
  obtain ⟨⟨v11, i11⟩, e11, h⟩ := h
  obtain ⟨-, h10, -⟩ := reads_u16.inv e11
  rw [lift_bind_run, bind_eq_ok] at h
  obtain ⟨_, c, h⟩ := h
  obtain rfl := ensure_eq_ok.1 c
  rw [lift_bind_run, bind_eq_ok] at h
  obtain ⟨_, c, h⟩ := h
  obtain rfl := ensure_eq_ok.1 c
  rw [StateT.run_bind, bind_eq_ok] at h
  obtain ⟨⟨v12, i12⟩, e12, h⟩ := h
  obtain ⟨-, h11, -⟩ := reads_big.inv e12
  rw [lift_bind_run, bind_eq_ok] at h
  obtain ⟨_, c, h⟩ := h
  obtain rfl := ensure_eq_ok.1 c
  rw [StateT.run_bind, bind_eq_ok] at h
  obtain ⟨⟨v13, i13⟩, e13, h⟩ := h
  obtain ⟨hsize, h12, -⟩ := reads_u32.inv e13
  dsimp only at h
  rw [StateT.run_bind, bind_eq_ok] at h
  obtain ⟨⟨out, i14⟩, e14, h⟩ := h
  obtain ⟨samples, hlen, hrange, hout, h13⟩ :=
    sampleLoop_inv (fun x => fo.div (ofInt x) (ofInt 0x8000)) (lo := 0) (n := v13 / 2) (by
      unfold sampleLoop; rw [Nat.zero_add]; exact e14)
  cases h
  refine ⟨v13, samples, leBytes 4 v9, leBytes 2 v10, bytes.drop i14, ⟨?_, leBytes_length _ _, leBytes_length _ _, hch, hrate,
    hsize, hlen, hrange⟩, by simpa using hout⟩
  rw [List.drop_zero, h1, h2, h3, h4, h5, h6, h7, h8, h9, h10, h11, h12, h13, asU32, leBytes_mod] at h0
  rw [ascii_riff, ascii_wave, ascii_fmt, ascii_data]
  simp only [List.append_assoc]
  exact h0

theorem parse_noUB (fo : FOps F) (ofInt : Int → F) (bytes : List (BitVec 8)) : NoUB ((parseWav fo ofInt bytes).run 0) := by
  have hloop : ∀ n i, NoUB (StateT.run (forR 0 n [] fun _ data => do
      let item ← readI16Little bytes
      return data ++ [fo.div (ofInt item) (ofInt 0x8000)] : Exec Nat (List F)) i) := by
    intro n i
    have := sampleLoop_noUB (slice := bytes) (fun x => fo.div (ofInt x) (ofInt 0x8000)) n 0 [] i
    unfold sampleLoop at this
    rw [Nat.zero_add] at this
    exact this
  unfold parseWav
  rw [StateT.run_bind]; refine noUB_bind (reads_big.noUB _) fun _ _ => ?_
  rw [lift_bind_run]; refine noUB_bind (noUB_ensure _) fun _ _ => ?_
  rw [StateT.run_bind]; refine noUB_bind (reads_u32.noUB _) fun _ _ => ?_
  rw [lift_bind_run]; refine noUB_bind (noUB_usub _ _) fun _ _ => ?_
  rw [lift_bind_run]; refine noUB_bind (noUB_ensure _) fun _ _ => ?_
  rw [StateT.run_bind]; refine noUB_bind (reads_big.noUB _) fun _ _ => ?_
  rw [lift_bind_run]; refine noUB_bind (noUB_ensure _) fun _ _ => ?_
  rw [StateT.run_bind]; refine noUB_bind (reads_big.noUB _) fun _ _ => ?_
  rw [lift_bind_run]; refine noUB_bind (noUB_ensure _) fun _ _ => ?_
  rw [StateT.run_bind]; refine noUB_bind (reads_u32.noUB _) fun _ _ => ?_
  rw [lift_bind_run]; refine noUB_bind (noUB_ensure _) fun _ _ => ?_
  rw [StateT.run_bind]; refine noUB_bind (reads_u16.noUB _) fun _ _ => ?_
  rw [StateT.run_bind]; refine noUB_bind (reads_u16.noUB _) fun _ _ => ?_
  rw [StateT.run_bind]; refine noUB_bind (reads_u32.noUB _) fun _ _ => ?_
  rw [StateT.run_bind]; refine noUB_bind (reads_u32.noUB _) fun _ _ => ?_
  rw [StateT.run_bind]; refine noUB_bind (reads_u16.noUB _) fun _ _ => ?_
  rw [StateT.run_bind]; refine noUB_bind (reads_u16.noUB _) fun _ _ => ?_
  rw [lift_bind_run]; refine noUB_bind (noUB_ensure _) fun _ _ => ?_
  rw [lift_bind_run]; refine noUB_bind (noUB_ensure _) fun _ _ => ?_
  rw [StateT.run_bind]; refine noUB_bind (reads_big.noUB _) fun _ _ => ?_
  rw [lift_bind_run]; refine noUB_bind (noUB_ensure _) fun _ _ => ?_
  rw [StateT.run_bind]; refine noUB_bind (reads_u32.noUB _) fun _ _ => ?_
  dsimp only
  rw [StateT.run_bind]
  exact noUB_bind (hloop _ _) fun _ _ => noUB_ok _

/-- C53: `decode_wav` of a canonical 16-bit PCM file with any number of channels, any rate, any samples (a whole number of
frames), returns the samples in file order, divided by 32768, with dimensions [frames, channels], and the rate. -/
theorem C53_decode (fo : FOps F) (ofInt : Int → F) {t : Tensor (BitVec 8)} {ds : List Nat} {bytes : List (BitVec 8)}
    (ht : Rep t ds bytes) {channels rate size : Nat} {samples : List Int} {byteRate blockAlign rest : List (BitVec 8)}
    (h : IsWav bytes channels rate size samples byteRate blockAlign rest) (hc : 0 < channels)
    {frames : Nat} (hf : samples.length = frames * channels) :
    ∃ audio r, decodeWav fo ofInt t = .ok (audio, r) ∧
      Rep audio [frames, channels] (samples.map fun x => fo.div (ofInt x) (ofInt 0x8000)) ∧ Rep r [] [rate] := by
  obtain ⟨j, hp⟩ := parse_fwd fo ofInt h
  have hsz := h.size_lt
  have hcount := h.count
  have hch := h.channels_lt
  have hfit : Fits [frames, channels] := by
    rw [fits_cons, fits_cons]
    refine ⟨?_, ?_, fits_nil⟩
    · simp only [List.prod_cons, List.prod_nil, mul_one]; omega
    · simp only [List.prod_nil, mul_one]; omega
  have hfr : frames < 2 ^ 32 := by
    have : frames ≤ frames * channels := Nat.le_mul_of_pos_right _ hc
    omega
  have ha : Adm [frames, channels] := ⟨by simp, by simp; omega⟩
  obtain ⟨audio, ea, ra⟩ := (fromVec_ofSlice ha (samples.map fun x => fo.div (ofInt x) (ofInt 0x8000))
    (by simpa using hf)).1 hfit
  obtain ⟨r, er, rr⟩ := (C12_scalar rate).1
  refine ⟨audio, r, ?_, ra, rr⟩
  unfold decodeWav
  rw [ht.elems, ok_bind, hp, ok_bind]
  dsimp only
  rw [List.length_map, hf, udiv_ok (by omega), ok_bind, Nat.mul_div_cancel _ hc]
  rw [bind_eq_ok] at ea
  obtain ⟨s, es, ea⟩ := ea
  rw [es, ok_bind, ea, ok_bind, er, ok_bind]
  rfl

/-- C54: on any bytes `decode_wav` panics or the bytes are a canonical 16-bit PCM file with all its samples present, at
least one channel and a whole number of frames, and the result is the one of C53. It never reads past the end. -/
theorem C54_rejects (fo : FOps F) (ofInt : Int → F) {t : Tensor (BitVec 8)} {ds : List Nat} {bytes : List (BitVec 8)}
    (ht : Rep t ds bytes) :
    decodeWav fo ofInt t = .error .panic ∨
    ∃ channels rate size samples byteRate blockAlign rest frames audio r,
      IsWav bytes channels rate size samples byteRate blockAlign rest ∧ 0 < channels ∧
      samples.length = frames * channels ∧ decodeWav fo ofInt t = .ok (audio, r) ∧
      Rep audio [frames, channels] (samples.map fun x => fo.div (ofInt x) (ofInt 0x8000)) ∧ Rep r [] [rate] := by
  cases hp : (parseWav fo ofInt bytes).run 0 with
  | error e =>
    left
    have := parse_noUB fo ofInt bytes
    rw [hp] at this
    cases e with
    | ub => exact absurd rfl this
    | panic => unfold decodeWav; rw [ht.elems, ok_bind, hp, error_bind]
  | ok p =>
    obtain ⟨⟨channels, rate, data⟩, j⟩ := p
    obtain ⟨size, samples, byteRate, blockAlign, rest, h, rfl⟩ := parse_inv fo ofInt hp
    by_cases hc : channels = 0
    · left
      unfold decodeWav
      rw [ht.elems, ok_bind, hp, ok_bind]
      dsimp only
      rw [hc]; rfl
    · by_cases hf : samples.length = samples.length / channels * channels
      · right
        obtain ⟨audio, r, h1, h2, h3⟩ := C53_decode fo ofInt ht h (by omega) hf
        exact ⟨_, _, _, _, _, _, _, _, _, _, h, by omega, hf, h1, h2, h3⟩
      · left
        unfold decodeWav
        rw [ht.elems, ok_bind, hp, ok_bind]
        dsimp only
        rw [List.length_map, udiv_ok hc, ok_bind]
        have hch := h.channels_lt
        have : samples.length / channels ≤ samples.length := Nat.div_le_self _ _
        have hsz := h.size_lt
        have hcount := h.count
        have ha : Adm [samples.length / channels, channels] := ⟨by simp, by simp; omega⟩
        rw [ofSlice_adm ha, ok_bind]
        rw [(C06_from_vec (wf_ofDims ha) (by rw [asVec_eq (wf_ofDims ha), toDims_ofDims]) _).2 (by simp; omega), error_bind]

/-- C53 with the values of exact arithmetic: in any arithmetic with rounding that represents the integers of 16 bits and
their 32768ths (`f32` does), the values are exactly sample / 32768. -/
theorem C53_exact [Field K] [LinearOrder K] [IsStrictOrderedRing K] {representable : K → Prop} {rnd : K → K}
    (hr : IsRounding representable rnd) (hint : ∀ n : Int, -32768 ≤ n → n ≤ 32768 → representable (n : K))
    (hrep : ∀ n : Int, -32768 ≤ n → n < 32768 → representable ((n : K) / 32768))
    (ln exp sqrt : K → K) (powf : K → K → K) {t : Tensor (BitVec 8)} {ds : List Nat} {bytes : List (BitVec 8)}
    (ht : Rep t ds bytes) {channels rate size : Nat} {samples : List Int} {byteRate blockAlign rest : List (BitVec 8)}
    (h : IsWav bytes channels rate size samples byteRate blockAlign rest) (hc : 0 < channels)
    {frames : Nat} (hf : samples.length = frames * channels) :
    ∃ audio r, decodeWav (FOps.rounded rnd ln exp sqrt powf) (fun n : Int => rnd (n : K)) t = .ok (audio, r) ∧
      Rep audio [frames, channels] (samples.map fun x : Int => (x : K) / 32768) ∧ Rep r [] [rate] := by
  obtain ⟨audio, r, h1, h2, h3⟩ :=
    C53_decode (FOps.rounded rnd ln exp sqrt powf) (fun n : Int => rnd (n : K)) ht h hc hf
  refine ⟨audio, r, h1, ?_, h3⟩
  convert h2 using 1
  apply List.map_congr_left
  intro x hx
  have hx := h.range x hx
  have e0 := hr.fixed _ (hint 32768 (by omega) (by omega))
  have e1 := hr.fixed _ (hint x (by omega) (by omega))
  have e2 := hr.fixed _ (hrep x hx.1 hx.2)
  simp only [FOps.rounded]
  rw [e0, e1]
  simpa using e2.symm

/-- Two frames of two channels. -/
theorem exWav : IsWav ([0x52, 0x49, 0x46, 0x46, 44, 0, 0, 0, 0x57, 0x41, 0x56, 0x45, 0x66, 0x6d, 0x74, 0x20, 16, 0, 0, 0, 1, 0,
    2, 0, 0x40, 0x1f, 0, 0, 0, 0x7d, 0, 0, 4, 0, 16, 0, 0x64, 0x61, 0x74, 0x61, 8, 0, 0, 0, 1, 0, 0xff, 0xff, 0, 0x80, 0xff,
    0x7f]) 2 8000 8 [1, -1, -32768, 32767] [0, 0x7d, 0, 0] [4, 0] [] := by
  refine ⟨by decide, rfl, rfl, by decide, by decide, by decide, rfl, by decide⟩

example : ∃ audio r, decodeWav (.exact id id id (fun x _ => x) : FOps ℚ) (fun n : Int => (n : ℚ)) (Tensor.mk (ofDims [52]) 0 52
    [0x52, 0x49, 0x46, 0x46, 44, 0, 0, 0, 0x57, 0x41, 0x56, 0x45, 0x66, 0x6d, 0x74, 0x20, 16, 0, 0, 0, 1, 0,
    2, 0, 0x40, 0x1f, 0, 0, 0, 0x7d, 0, 0, 4, 0, 16, 0, 0x64, 0x61, 0x74, 0x61, 8, 0, 0, 0, 1, 0, 0xff, 0xff, 0, 0x80, 0xff,
    0x7f]) = .ok (audio, r) ∧ Rep audio [2, 2] [1 / 32768, -1 / 32768, -1, 32767 / 32768] ∧ Rep r [] [8000] := by
  obtain ⟨audio, r, h1, h2, h3⟩ := C53_decode (.exact id id id (fun x _ => x) : FOps ℚ) (fun n : Int => (n : ℚ))
    (rep_fresh (ds := [52]) ⟨by simp, by simp⟩ (fits_one (by simp)) (by simp)) exWav (by decide) (frames := 2) rfl
  refine ⟨audio, r, h1, ?_, h3⟩
  convert h2 using 1
  norm_num [FOps.exact]

/-! ## C68 reading a file -/

/-- C68 as far as it holds: when the single `read` call delivers the whole file, and the reported length is right, the
result is exactly the bytes of the file. -/
theorem C68_whole_partial {fs : String → Except Unit OpenFile} {filename : Tensor String} {ds : List Nat} {name : String}
    {names : List String} (hn : Rep filename ds (name :: names)) {f : OpenFile} (hf : fs name = .ok f)
    (hm : f.metaLen = .ok f.contents.length) (hd : f.deliver f.contents.length = .ok f.contents.length)
    (hl : f.contents.length < 2 ^ 32) :
    ∃ t, readFile fs filename = .ok (.ok t) ∧ Rep t [f.contents.length] f.contents := by
  obtain ⟨t, e, ht⟩ := C12_vec1 f.contents hl
  refine ⟨t, ?_, ht⟩
  unfold readFile
  rw [index1_eq hn]
  simp [hf, hm, hd, e]

/-- C68 fails when the operating system delivers less (signals, pipes, more than 0x7ffff000 bytes on Linux): `read_file`
returns successfully, with zeros in place of the rest of the file. -/
theorem C68_short_read_violates {fs : String → Except Unit OpenFile} {filename : Tensor String} {ds : List Nat}
    {name : String} {names : List String} (hn : Rep filename ds (name :: names)) {f : OpenFile} (hf : fs name = .ok f)
    (hm : f.metaLen = .ok f.contents.length) {n : Nat} (hd : f.deliver f.contents.length = .ok n)
    (hlt : n < f.contents.length) (hl : f.contents.length < 2 ^ 32) :
    ∃ t, readFile fs filename = .ok (.ok t) ∧
      Rep t [f.contents.length] (f.contents.take n ++ List.replicate (f.contents.length - n) 0) := by
  have hlen : (f.contents.take n ++ List.replicate (f.contents.length - n) (0 : BitVec 8)).length = f.contents.length := by
    simp; omega
  obtain ⟨t, e, ht⟩ := C12_vec1 (f.contents.take n ++ List.replicate (f.contents.length - n) (0 : BitVec 8)) (by omega)
  rw [hlen] at ht
  refine ⟨t, ?_, ht⟩
  unfold readFile
  rw [index1_eq hn]
  simp only [List.getElem?_cons_zero, ok_bind, hf, hm, List.length_replicate, hd, List.drop_replicate, e]
  rfl

/-- C68: errors of the operating system are passed on, and nothing is undefined. -/
theorem C68_errors {fs : String → Except Unit OpenFile} {filename : Tensor String} {ds : List Nat}
    {name : String} {names : List String} (hn : Rep filename ds (name :: names)) :
    (fs name = .error () → readFile fs filename = .ok (.error ())) ∧
    (∀ f, fs name = .ok f → f.metaLen = .error () → readFile fs filename = .ok (.error ())) ∧
    (∀ f len, fs name = .ok f → f.metaLen = .ok len → f.deliver len = .error () → readFile fs filename = .ok (.error ())) := by
  refine ⟨?_, ?_, ?_⟩
  · intro h; unfold readFile; rw [index1_eq hn]; simp [h]
  · intro f h h2; unfold readFile; rw [index1_eq hn]; simp [h, h2]
  · intro f len h h2 h3; unfold readFile; rw [index1_eq hn]; simp [h, h2, h3]

/-- A file of three bytes of which only two arrive. -/
example : ∃ t, readFile (fun _ => .ok ⟨[1, 2, 3], .ok 3, fun _ => .ok 2⟩)
    { shape := ofDims [], offset := 0, size := 1, data := ["a.txt"] } = .ok (.ok t) ∧ Rep t [3] [1, 2, 0] :=
  C68_short_read_violates (fs := fun _ => .ok ⟨[1, 2, 3], .ok 3, fun _ => .ok 2⟩) (name := "a.txt") (names := [])
    (f := ⟨[1, 2, 3], .ok 3, fun _ => .ok 2⟩) (rep_fresh (ds := []) adm_nil fits_nil rfl) rfl rfl
    rfl (by decide) (by decide)

example : ∃ t, readFile (fun _ => .ok ⟨[1, 2, 3], .ok 3, fun n => .ok n⟩)
    { shape := ofDims [], offset := 0, size := 1, data := ["a.txt"] } = .ok (.ok t) ∧ Rep t [3] [1, 2, 3] :=
  C68_whole_partial (fs := fun _ => .ok ⟨[1, 2, 3], .ok 3, fun n => .ok n⟩) (name := "a.txt") (names := [])
    (f := ⟨[1, 2, 3], .ok 3, fun n => .ok n⟩) (rep_fresh (ds := []) adm_nil fits_nil rfl) rfl rfl rfl (by decide)

example : readFile (fun _ => .error ()) { shape := ofDims [], offset := 0, size := 1, data := ["a.txt"] } = .ok (.error ()) :=
  (C68_errors (name := "a.txt") (names := []) (rep_fresh (ds := []) adm_nil fits_nil rfl)).1 rfl

/-- Three bytes are not a WAV file. -/
example : decodeWav (.exact id id id (fun x _ => x) : FOps ℚ) (fun n : Int => (n : ℚ)) (Tensor.mk (ofDims [3]) 0 3
    [0x52, 0x49, 0x46]) = .error .panic := by
  rcases C54_rejects (.exact id id id (fun x _ => x) : FOps ℚ) (fun n : Int => (n : ℚ))
    (rep_fresh (ds := [3]) (xs := [0x52#8, 0x49#8, 0x46#8]) ⟨by simp, by simp⟩ (fits_one (by simp)) (by simp)) with
    h | ⟨_, _, _, _, _, _, _, _, _, _, h, _⟩
  · exact h
  · have := congrArg List.length h.layout
    simp [show (ascii "RIFF").length = 4 from rfl] at this
    omega

example : ∃ audio r, decodeWav (FOps.rounded id id id id (fun x _ => x) : FOps ℚ) (fun n : Int => (n : ℚ)) (Tensor.mk (ofDims [52]) 0 52
    [0x52, 0x49, 0x46, 0x46, 44, 0, 0, 0, 0x57, 0x41, 0x56, 0x45, 0x66, 0x6d, 0x74, 0x20, 16, 0, 0, 0, 1, 0,
    2, 0, 0x40, 0x1f, 0, 0, 0, 0x7d, 0, 0, 4, 0, 16, 0, 0x64, 0x61, 0x74, 0x61, 8, 0, 0, 0, 1, 0, 0xff, 0xff, 0, 0x80, 0xff,
    0x7f]) = .ok (audio, r) ∧ Rep audio [2, 2] ([1, -1, -32768, 32767].map fun x : Int => (x : ℚ) / 32768) ∧ Rep r [] [8000] :=
  C53_exact (representable := fun _ => True) (rnd := id) ⟨fun _ _ h => h, fun _ _ => rfl, fun _ => trivial⟩
    (fun _ _ _ => trivial) (fun _ _ _ => trivial) id id id (fun x _ => x)
    (rep_fresh (ds := [52]) ⟨by simp, by simp⟩ (fits_one (by simp)) (by simp)) exWav (by decide) (frames := 2) rfl

end Essay
