import Verif.Lemmas.From
import Verif.Spec.Io

/-!
# Helper lemmas for files
-/

namespace Essay.Io

/-! ### bytes -/

theorem leBytes_length (n v : Nat) : (leBytes n v).length = n := by
  induction n generalizing v with
  | zero => rfl
  | succ n ih => simp [leBytes, ih]

theorem byte_ofNat (b : BitVec 8) (k : Nat) : BitVec.ofNat 8 (b.toNat + 256 * k) = b := by
  apply BitVec.eq_of_toNat_eq
  have := b.isLt
  rw [BitVec.toNat_ofNat]; omega

theorem leBytes_cons (n : Nat) (b : BitVec 8) (k : Nat) : leBytes (n + 1) (b.toNat + 256 * k) = b :: leBytes n k := by
  rw [leBytes, byte_ofNat]
  congr 2
  have := b.isLt
  omega

theorem leBytes_one (b : BitVec 8) : leBytes 1 b.toNat = [b] := by simp [leBytes]

theorem leBytes_two (b0 b1 : BitVec 8) : leBytes 2 (b0.toNat + 0x100 * b1.toNat) = [b0, b1] := by
  rw [leBytes_cons, leBytes_one]

theorem leBytes_four (b0 b1 b2 b3 : BitVec 8) :
    leBytes 4 (b0.toNat + 0x100 * b1.toNat + 0x10000 * b2.toNat + 0x1000000 * b3.toNat) = [b0, b1, b2, b3] := by
  rw [show b0.toNat + 0x100 * b1.toNat + 0x10000 * b2.toNat + 0x1000000 * b3.toNat =
    b0.toNat + 256 * (b1.toNat + 256 * (b2.toNat + 256 * b3.toNat)) by omega, leBytes_cons, leBytes_cons, leBytes_cons,
    leBytes_one]

theorem le_two {v : Nat} (h : v < 2 ^ 16) : ∃ b0 b1 : BitVec 8, leBytes 2 v = [b0, b1] ∧ v = b0.toNat + 0x100 * b1.toNat := by
  refine ⟨_, _, rfl, ?_⟩
  simp only [BitVec.toNat_ofNat]; omega

theorem le_four {v : Nat} (h : v < 2 ^ 32) : ∃ b0 b1 b2 b3 : BitVec 8, leBytes 4 v = [b0, b1, b2, b3] ∧
    v = b0.toNat + 0x100 * b1.toNat + 0x10000 * b2.toNat + 0x1000000 * b3.toNat := by
  refine ⟨_, _, _, _, rfl, ?_⟩
  simp only [BitVec.toNat_ofNat]; omega

theorem sampleBytes_eq (b0 b1 : BitVec 8) : sampleBytes (asI16 (b0.toNat + 0x100 * b1.toNat)) = [b0, b1] := by
  have h0 := b0.isLt
  have h1 := b1.isLt
  rw [← leBytes_two b0 b1]
  unfold sampleBytes asI16
  congr 1
  split <;> omega

theorem sample_inv {x : Int} (h : -32768 ≤ x ∧ x < 32768) :
    ∃ b0 b1 : BitVec 8, sampleBytes x = [b0, b1] ∧ x = asI16 (b0.toNat + 0x100 * b1.toNat) := by
  obtain ⟨b0, b1, e, hv⟩ := le_two (v := (x % 65536).toNat) (by omega)
  refine ⟨b0, b1, e, ?_⟩
  rw [← hv]
  unfold asI16
  split <;> omega

theorem asI16_range (b0 b1 : BitVec 8) :
    -32768 ≤ asI16 (b0.toNat + 0x100 * b1.toNat) ∧ asI16 (b0.toNat + 0x100 * b1.toNat) < 32768 := by
  have h0 := b0.isLt
  have h1 := b1.isLt
  unfold asI16
  split <;> omega

/-! ### the cursor -/

variable {slice : List (BitVec 8)} {i j : Nat}

theorem drop_succ {b : BitVec 8} {l : List (BitVec 8)} (h : slice.drop i = b :: l) : slice.drop (i + 1) = l := by
  rw [← List.drop_drop, h]; rfl

theorem chk_ok {w n : Nat} (h : n < 2 ^ w) : chk w n = .ok n := if_pos h

theorem read_cons {b : BitVec 8} {l : List (BitVec 8)} (h : slice.drop i = b :: l) :
    (read slice).run i = .ok (b.toNat, i + 1) := by
  have hb : slice[i]? = some b := by
    have := congrArg (·[0]?) h
    simpa using this
  unfold read
  simp [StateT.run_bind, idx_ok hb]

theorem read_nil (h : slice.drop i = []) : (read slice).run i = .error .panic := by
  have : slice.length ≤ i := by simpa using h
  unfold read
  simp [StateT.run_bind, idx_ge this]

theorem lift_run {σ α : Type} (x : Res α) (s : σ) : (liftM x : Exec σ α).run s = x.map fun a => (a, s) := by
  cases x <;> rfl

theorem readU16Little_eq : (readU16Little slice).run i = match slice.drop i with
    | b0 :: b1 :: _ => .ok (b0.toNat + 0x100 * b1.toNat, i + 2)
    | _ => .error .panic := by
  unfold readU16Little
  rcases hd : slice.drop i with _ | ⟨b0, _ | ⟨b1, l⟩⟩
  · simp [StateT.run_bind, read_nil hd]
  · simp [StateT.run_bind, read_cons hd, read_nil (drop_succ hd)]
  · have h0 := b0.isLt
    have h1 := b1.isLt
    simp [StateT.run_bind, read_cons hd, read_cons (drop_succ hd)]
    rw [chk_ok (by omega), ok_bind, chk_ok (by omega), ok_bind]

theorem readI16Little_eq : (readI16Little slice).run i = match slice.drop i with
    | b0 :: b1 :: _ => .ok (asI16 (b0.toNat + 0x100 * b1.toNat), i + 2)
    | _ => .error .panic := by
  unfold readI16Little
  rcases hd : slice.drop i with _ | ⟨b0, _ | ⟨b1, l⟩⟩
  · simp [StateT.run_bind, read_nil hd]
  · simp [StateT.run_bind, read_cons hd, read_nil (drop_succ hd)]
  · have h0 := b0.isLt
    have h1 := b1.isLt
    simp [StateT.run_bind, read_cons hd, read_cons (drop_succ hd)]
    rw [chk_ok (by omega), ok_bind, chk_ok (by omega), ok_bind]

theorem readU32Little_eq : (readU32Little slice).run i = match slice.drop i with
    | b0 :: b1 :: b2 :: b3 :: _ =>
      .ok (b0.toNat + 0x100 * b1.toNat + 0x10000 * b2.toNat + 0x1000000 * b3.toNat, i + 4)
    | _ => .error .panic := by
  unfold readU32Little
  rcases hd : slice.drop i with _ | ⟨b0, _ | ⟨b1, _ | ⟨b2, _ | ⟨b3, l⟩⟩⟩⟩
  · simp [StateT.run_bind, read_nil hd]
  · simp [StateT.run_bind, read_cons hd, read_nil (drop_succ hd)]
  · have h0 := b0.isLt
    have h1 := b1.isLt
    simp [StateT.run_bind, read_cons hd, read_cons (drop_succ hd), read_nil (drop_succ (drop_succ hd))]
    rw [chk_ok (by omega), ok_bind, chk_ok (by omega), ok_bind]
  · have h0 := b0.isLt
    have h1 := b1.isLt
    have h2 := b2.isLt
    simp [StateT.run_bind, read_cons hd, read_cons (drop_succ hd), read_cons (drop_succ (drop_succ hd)),
      read_nil (drop_succ (drop_succ (drop_succ hd)))]
    rw [chk_ok (by omega), ok_bind, chk_ok (by omega), ok_bind, chk_ok (by omega), ok_bind, chk_ok (by omega), ok_bind]
  · have h0 := b0.isLt
    have h1 := b1.isLt
    have h2 := b2.isLt
    have h3 := b3.isLt
    simp [StateT.run_bind, read_cons hd, read_cons (drop_succ hd), read_cons (drop_succ (drop_succ hd)),
      read_cons (drop_succ (drop_succ (drop_succ hd)))]
    rw [chk_ok (by omega), ok_bind, chk_ok (by omega), ok_bind, chk_ok (by omega), ok_bind, chk_ok (by omega), ok_bind,
      chk_ok (by omega), ok_bind, chk_ok (by omega), ok_bind]

theorem readU32Big_eq : (readU32Big slice).run i = match slice.drop i with
    | b0 :: b1 :: b2 :: b3 :: _ =>
      .ok (b3.toNat + 0x100 * b2.toNat + 0x10000 * b1.toNat + 0x1000000 * b0.toNat, i + 4)
    | _ => .error .panic := by
  unfold readU32Big
  rcases hd : slice.drop i with _ | ⟨b0, _ | ⟨b1, _ | ⟨b2, _ | ⟨b3, l⟩⟩⟩⟩
  · simp [StateT.run_bind, read_nil hd]
  · have h0 := b0.isLt
    simp [StateT.run_bind, read_cons hd, read_nil (drop_succ hd)]
    rw [chk_ok (by omega), ok_bind]
  · have h0 := b0.isLt
    have h1 := b1.isLt
    simp [StateT.run_bind, read_cons hd, read_cons (drop_succ hd), read_nil (drop_succ (drop_succ hd))]
    rw [chk_ok (by omega), ok_bind, chk_ok (by omega), ok_bind, chk_ok (by omega), ok_bind]
  · have h0 := b0.isLt
    have h1 := b1.isLt
    have h2 := b2.isLt
    simp [StateT.run_bind, read_cons hd, read_cons (drop_succ hd), read_cons (drop_succ (drop_succ hd)),
      read_nil (drop_succ (drop_succ (drop_succ hd)))]
    rw [chk_ok (by omega), ok_bind, chk_ok (by omega), ok_bind, chk_ok (by omega), ok_bind, chk_ok (by omega), ok_bind,
      chk_ok (by omega), ok_bind]
  · have h0 := b0.isLt
    have h1 := b1.isLt
    have h2 := b2.isLt
    have h3 := b3.isLt
    simp [StateT.run_bind, read_cons hd, read_cons (drop_succ hd), read_cons (drop_succ (drop_succ hd)),
      read_cons (drop_succ (drop_succ (drop_succ hd)))]
    rw [chk_ok (by omega), ok_bind, chk_ok (by omega), ok_bind, chk_ok (by omega), ok_bind, chk_ok (by omega), ok_bind,
      chk_ok (by omega), ok_bind, chk_ok (by omega), ok_bind]
    simp; omega

/-- What reading a field means: `x` reads the bytes `enc v` of a value `v` with `ok v`, or panics. -/
structure Reads {α : Type} (slice : List (BitVec 8)) (x : Exec Nat α) (enc : α → List (BitVec 8)) (good : α → Prop) : Prop where
  fwd : ∀ {i v l}, good v → slice.drop i = enc v ++ l → x.run i = .ok (v, i + (enc v).length)
  inv : ∀ {i v j}, x.run i = .ok (v, j) → good v ∧ slice.drop i = enc v ++ slice.drop j ∧ j = i + (enc v).length
  noUB : ∀ i, NoUB (x.run i)

theorem drop_add {l m : List (BitVec 8)} (h : slice.drop i = l ++ m) : slice.drop (i + l.length) = m := by
  rw [← List.drop_drop, h, List.drop_left]

theorem reads_u16 : Reads slice (readU16Little slice) (leBytes 2) (· < 2 ^ 16) := by
  refine ⟨?_, ?_, ?_⟩
  · intro i v l hv h
    obtain ⟨b0, b1, e, hb⟩ := le_two hv
    rw [readU16Little_eq, h, e, hb]; rfl
  · intro i v j h
    rw [readU16Little_eq] at h
    rcases hd : slice.drop i with _ | ⟨b0, _ | ⟨b1, l⟩⟩ <;> rw [hd] at h <;> dsimp only at h
    · cases h
    · cases h
    · cases h
      have h0 := b0.isLt
      have h1 := b1.isLt
      rw [leBytes_two]
      refine ⟨by omega, ?_, rfl⟩
      rw [show i + 2 = i + [b0, b1].length from rfl, drop_add (l := [b0, b1]) hd]; rfl
  · intro i
    rw [readU16Little_eq]; split <;> simp

theorem reads_i16 : Reads slice (readI16Little slice) sampleBytes (fun x => -32768 ≤ x ∧ x < 32768) := by
  refine ⟨?_, ?_, ?_⟩
  · intro i v l hv h
    obtain ⟨b0, b1, e, hb⟩ := sample_inv hv
    rw [readI16Little_eq, h, e, hb]; rfl
  · intro i v j h
    rw [readI16Little_eq] at h
    rcases hd : slice.drop i with _ | ⟨b0, _ | ⟨b1, l⟩⟩ <;> rw [hd] at h <;> dsimp only at h
    · cases h
    · cases h
    · cases h
      rw [sampleBytes_eq]
      refine ⟨asI16_range b0 b1, ?_, rfl⟩
      rw [show i + 2 = i + [b0, b1].length from rfl, drop_add (l := [b0, b1]) hd]; rfl
  · intro i
    rw [readI16Little_eq]; split <;> simp

theorem reads_u32 : Reads slice (readU32Little slice) (leBytes 4) (· < 2 ^ 32) := by
  refine ⟨?_, ?_, ?_⟩
  · intro i v l hv h
    obtain ⟨b0, b1, b2, b3, e, hb⟩ := le_four hv
    rw [readU32Little_eq, h, e, hb]; rfl
  · intro i v j h
    rw [readU32Little_eq] at h
    rcases hd : slice.drop i with _ | ⟨b0, _ | ⟨b1, _ | ⟨b2, _ | ⟨b3, l⟩⟩⟩⟩ <;> rw [hd] at h <;> dsimp only at h
    iterate 4 cases h
    · cases h
      have h0 := b0.isLt
      have h1 := b1.isLt
      have h2 := b2.isLt
      have h3 := b3.isLt
      rw [leBytes_four]
      refine ⟨by omega, ?_, rfl⟩
      rw [show i + 4 = i + [b0, b1, b2, b3].length from rfl, drop_add (l := [b0, b1, b2, b3]) hd]; rfl
  · intro i
    rw [readU32Little_eq]; split <;> simp

theorem reads_big : Reads slice (readU32Big slice) (fun v => (leBytes 4 v).reverse) (· < 2 ^ 32) := by
  refine ⟨?_, ?_, ?_⟩
  · intro i v l hv h
    obtain ⟨b0, b1, b2, b3, e, hb⟩ := le_four hv
    rw [readU32Big_eq, h, e, hb]; rfl
  · intro i v j h
    rw [readU32Big_eq] at h
    rcases hd : slice.drop i with _ | ⟨b0, _ | ⟨b1, _ | ⟨b2, _ | ⟨b3, l⟩⟩⟩⟩ <;> rw [hd] at h <;> dsimp only at h
    iterate 4 cases h
    · cases h
      have h0 := b0.isLt
      have h1 := b1.isLt
      have h2 := b2.isLt
      have h3 := b3.isLt
      rw [leBytes_four]
      refine ⟨by omega, ?_, rfl⟩
      rw [show i + 4 = i + [b0, b1, b2, b3].length from rfl, drop_add (l := [b0, b1, b2, b3]) hd]; rfl
  · intro i
    rw [readU32Big_eq]; split <;> simp

theorem Reads.step {α : Type} {x : Exec Nat α} {enc : α → List (BitVec 8)} {good : α → Prop} (hx : Reads slice x enc good)
    {v : α} {l : List (BitVec 8)} (hv : good v) (h : slice.drop i = enc v ++ l) :
    ∃ j, x.run i = .ok (v, j) ∧ slice.drop j = l :=
  ⟨_, hx.fwd hv h, drop_add h⟩

theorem lift_bind_run {σ α β : Type} (x : Res α) (f : α → Exec σ β) (s : σ) :
    ((liftM x : Exec σ α) >>= f).run s = x >>= fun a => (f a).run s := by
  cases x <;> rfl

section loop

variable {F : Type} (f : Int → F)

/-- The loop over the samples. -/
def sampleLoop (slice : List (BitVec 8)) (lo n : Nat) (acc : List F) : Exec Nat (List F) :=
  forR lo (lo + n) acc fun _ data => do
    let item ← readI16Little slice
    return data ++ [f item]

theorem sampleLoop_zero (lo : Nat) (acc : List F) : sampleLoop f slice lo 0 acc = pure acc :=
  forR_stop (by omega) _ _

theorem sampleLoop_succ (lo n : Nat) (acc : List F) : sampleLoop f slice lo (n + 1) acc = (do
    let item ← readI16Little slice
    sampleLoop f slice (lo + 1) n (acc ++ [f item])) := by
  unfold sampleLoop
  rw [forR_cons (by omega)]
  simp only [bind_assoc, pure_bind]
  rw [show lo + (n + 1) = lo + 1 + n by omega]

theorem sampleLoop_fwd {samples : List Int} (hg : ∀ x ∈ samples, -32768 ≤ x ∧ x < 32768) {l : List (BitVec 8)} {lo : Nat}
    {acc : List F} (h : slice.drop i = samples.flatMap sampleBytes ++ l) :
    ∃ j, (sampleLoop f slice lo samples.length acc).run i = .ok (acc ++ samples.map f, j) ∧ slice.drop j = l := by
  induction samples generalizing lo acc i with
  | nil => exact ⟨i, by simp [sampleLoop_zero], by simpa using h⟩
  | cons x samples ih =>
    rw [List.flatMap_cons, List.append_assoc] at h
    obtain ⟨j, e, hj⟩ := reads_i16.step (hg x List.mem_cons_self) h
    obtain ⟨k, e', hk⟩ := ih (fun y hy => hg y (List.mem_cons_of_mem _ hy)) (lo := lo + 1) (acc := acc ++ [f x]) hj
    refine ⟨k, ?_, hk⟩
    rw [List.length_cons, sampleLoop_succ, StateT.run_bind, e, ok_bind]
    dsimp only
    rw [e']
    simp

theorem sampleLoop_inv {n lo : Nat} {acc out : List F} (h : (sampleLoop f slice lo n acc).run i = .ok (out, j)) :
    ∃ samples : List Int, samples.length = n ∧ (∀ x ∈ samples, -32768 ≤ x ∧ x < 32768) ∧ out = acc ++ samples.map f ∧
      slice.drop i = samples.flatMap sampleBytes ++ slice.drop j := by
  induction n generalizing lo acc i with
  | zero =>
    rw [sampleLoop_zero] at h
    cases h
    exact ⟨[], by simp⟩
  | succ n ih =>
    rw [sampleLoop_succ, StateT.run_bind, bind_eq_ok] at h
    obtain ⟨⟨x, k⟩, e, h⟩ := h
    obtain ⟨hg, hd, _⟩ := reads_i16.inv e
    obtain ⟨samples, hl, hr, ho, hd'⟩ := ih h
    refine ⟨x :: samples, by simp [hl], ?_, by simp [ho], ?_⟩
    · intro y hy
      rcases List.mem_cons.1 hy with rfl | hy
      · exact hg
      · exact hr y hy
    · rw [hd, hd', List.flatMap_cons, List.append_assoc]

theorem sampleLoop_noUB (n lo : Nat) (acc : List F) (i : Nat) : NoUB ((sampleLoop f slice lo n acc).run i) := by
  induction n generalizing lo acc i with
  | zero => rw [sampleLoop_zero]; exact noUB_ok _
  | succ n ih =>
    rw [sampleLoop_succ, StateT.run_bind]
    exact noUB_bind (reads_i16.noUB i) fun a _ => ih (lo + 1) (acc ++ [f a.1]) a.2

end loop

end Essay.Io
