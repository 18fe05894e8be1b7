import Verif.Lemmas.Perm
import Verif.Model.Array
import Verif.Spec.Array

/-! # Helper lemmas for the array operations (no claims here) -/

namespace Essay

open Shape

variable {α β : Type}

/-- `Puts ys P body`: on every block with as many slots as `ys` the code `body` succeeds, writes exactly the slots
satisfying `P`, and leaves in every written slot `p` the value `ys[p]`. -/
def Puts (ys : List α) (P : Nat → Prop) (body : Buf α → Res (Buf α)) : Prop :=
  ∀ b : Buf α, b.length = ys.length → ∃ b', body b = Except.ok b' ∧ b'.length = ys.length ∧
    ∀ p, p < ys.length → (P p → b'[p]? = some ys[p]?) ∧ (¬ P p → b'[p]? = b[p]?)

theorem puts_write {ys : List α} {i : Nat} {v : α} (h : ys[i]? = some v) :
    Puts ys (· = i) (fun b => b.write i v) := by
  intro b hb
  have hi := (List.getElem?_eq_some_iff.1 h).1
  refine ⟨b.set i (some v), Buf.write_ok (by omega), by simp [hb], ?_⟩
  intro p hp
  constructor
  · rintro rfl; rw [List.getElem?_set_self (by omega), h]
  · intro hne; rw [List.getElem?_set_ne (by omega)]

/-- Copying `x[s]` to slot `i`. -/
theorem puts_copy {ys x : List α} {i s : Nat} (hs : s < x.length) (h : ys[i]? = x[s]?) :
    Puts ys (· = i) (fun b => idx x s >>= fun v => b.write i v) := by
  intro b hb
  rw [List.getElem?_eq_getElem hs] at h
  simp only [idx_lt hs, ok_bind]
  exact puts_write h b hb

theorem Puts.congr {ys : List α} {P Q : Nat → Prop} {body body' : Buf α → Res (Buf α)}
    (h : Puts ys P body) (hP : ∀ p, p < ys.length → (P p ↔ Q p)) (hb : ∀ b, body' b = body b) : Puts ys Q body' := by
  intro b hl
  obtain ⟨b', e, hl', hw⟩ := h b hl
  refine ⟨b', by rw [hb, e], hl', fun p hp => ?_⟩
  rw [← hP p hp]; exact hw p hp

theorem puts_loop {ys : List α} {lo hi : Nat} {P : Nat → Nat → Prop}
    {body : Nat → Buf α → Res (Buf α)} (h : ∀ i, lo ≤ i → i < hi → Puts ys (P i) (body i)) :
    Puts ys (fun p => ∃ i, lo ≤ i ∧ i < hi ∧ P i p) (fun b => forR lo hi b body) := by
  intro b hb
  by_cases hle : lo ≤ hi
  · obtain ⟨s', e, hl, hw⟩ := forR_inv hle (s := b) (body := body)
      (fun k b' => b'.length = ys.length ∧ ∀ p, p < ys.length →
        ((∃ i, lo ≤ i ∧ i < k ∧ P i p) → b'[p]? = some ys[p]?) ∧
        ((¬ ∃ i, lo ≤ i ∧ i < k ∧ P i p) → b'[p]? = b[p]?))
      ⟨hb, fun p _ => ⟨fun ⟨i, h1, h2, _⟩ => by omega, fun _ => rfl⟩⟩
      (by
        rintro k b' hk1 hk2 ⟨hl, hw⟩
        obtain ⟨b'', e, hl'', hw''⟩ := h k hk1 hk2 b' hl
        refine ⟨b'', e, hl'', fun p hp => ⟨?_, ?_⟩⟩
        · rintro ⟨i, h1, h2, h3⟩
          by_cases hkp : P k p
          · exact (hw'' p hp).1 hkp
          · rw [(hw'' p hp).2 hkp]
            apply (hw p hp).1
            refine ⟨i, h1, ?_, h3⟩
            rcases Nat.lt_succ_iff_lt_or_eq.1 h2 with h | h
            · exact h
            · subst h; exact absurd h3 hkp
        · intro hn
          have hkp : ¬ P k p := fun hkp => hn ⟨k, hk1, by omega, hkp⟩
          rw [(hw'' p hp).2 hkp]
          apply (hw p hp).2
          rintro ⟨i, h1, h2, h3⟩
          exact hn ⟨i, h1, by omega, h3⟩)
    exact ⟨s', e, hl, hw⟩
  · refine ⟨b, by show forR lo hi b body = _; rw [forR_stop (by omega)]; rfl, hb,
      fun p _ => ⟨fun ⟨i, h1, h2, _⟩ => by omega, fun _ => rfl⟩⟩

theorem Puts.complete {ys : List α} {P : Nat → Prop} {body : Buf α → Res (Buf α)}
    (h : Puts ys P body) (hP : ∀ p, p < ys.length → P p) :
    body (Buf.uninit ys.length) = Except.ok (ys.map some) := by
  obtain ⟨b', e, hl, hw⟩ := h (Buf.uninit ys.length) (by simp [Buf.uninit])
  rw [e]
  congr 1
  apply List.ext_getElem?
  intro p
  by_cases hp : p < ys.length
  · rw [(hw p hp).1 (hP p hp)]; simp [hp]
  · rw [List.getElem?_eq_none (by omega), List.getElem?_eq_none (by simp; omega)]

theorem unsafeInit_puts {ys : List α} {P : Nat → Prop} {s : Shape} {body : Buf α → Res (Buf α)} {L : Nat}
    (hL : L = ys.length) (h : Puts ys P body) (hP : ∀ p, p < ys.length → P p) :
    Tensor.unsafeInit L s body = Tensor.new ys s := by
  subst hL
  unfold Tensor.unsafeInit
  rw [h.complete hP, ok_bind]
  unfold Tensor.finish
  rw [Buf.complete_map_some]

theorem unsafeInit_puts_rep {ys : List α} {P : Nat → Prop} {ds : List Nat} {body : Buf α → Res (Buf α)} {L : Nat}
    (hL : L = ys.length) (h : Puts ys P body) (hP : ∀ p, p < ys.length → P p) (ha : Adm ds) (hf : Fits ds)
    (hd : ys.length = ds.prod) :
    ∃ t, Tensor.unsafeInit L (ofDims ds) body = Except.ok t ∧ Rep t ds ys :=
  ⟨_, by rw [unsafeInit_puts hL h hP, new_ok ha hf hd], rep_fresh ha hf hd⟩

/-! ### arrays as functions of multi-indices -/

/-- Two flat arrays that agree at every multi-index are equal. -/
theorem at_ext {ds : List Nat} {xs ys : List α} (hx : xs.length = ds.prod) (hy : ys.length = ds.prod)
    (h : ∀ idx, at? ds xs idx = at? ds ys idx) : xs = ys := by
  apply List.ext_getElem?
  intro p
  by_cases hp : p < ds.prod
  · obtain ⟨is, his⟩ := ravel_surj ds hp
    have := h is
    simpa [at?, his] using this
  · rw [List.getElem?_eq_none (by omega), List.getElem?_eq_none (by omega)]

/-- The list of `xs[f p]` for `p < L`. -/
def gather (L : Nat) (f : Nat → Nat) (xs : List α) : List α := (List.range L).filterMap fun p => xs[f p]?

theorem gather_eq {L : Nat} {f : Nat → Nat} {xs : List α} (h : ∀ p, p < L → f p < xs.length) :
    (gather L f xs).map some = (List.range L).map fun p => xs[f p]? := by
  induction L with
  | zero => rfl
  | succ L ih =>
    have := ih (fun p hp => h p (by omega))
    unfold gather at *
    rw [List.range_succ, List.filterMap_append, List.map_append, this, List.map_append]
    simp [List.getElem?_eq_getElem (h L (by omega))]

theorem gather_length {L : Nat} {f : Nat → Nat} {xs : List α} (h : ∀ p, p < L → f p < xs.length) :
    (gather L f xs).length = L := by
  have := congrArg List.length (gather_eq h); simpa using this

theorem gather_get {L : Nat} {f : Nat → Nat} {xs : List α} (h : ∀ p, p < L → f p < xs.length) {p : Nat} (hp : p < L) :
    (gather L f xs)[p]? = xs[f p]? := by
  have := congrArg (fun l => l[p]?) (gather_eq h)
  simp [hp] at this
  rw [List.getElem?_eq_getElem (h p hp)] at this ⊢
  obtain ⟨a, h1, h2⟩ := this
  rw [h1, h2]

/-! ### transpose -/

/-- Source position of output position `p` in a transpose. -/
def trSrc (rows cols p : Nat) : Nat :=
  (p / (cols * rows)) * (cols * rows) + (p % rows) * cols + (p % (cols * rows)) / rows

theorem trSrc_lt {batch rows cols p : Nat} (hp : p < batch * (cols * rows)) :
    trSrc rows cols p < batch * (cols * rows) := by
  have hpos := pos_right_of_lt_mul hp
  have hr : 0 < rows := by rcases Nat.eq_zero_or_pos rows with h | h <;> simp_all
  have h1 : (p % (cols * rows)) / rows < cols := div_lt_of_lt_mul' (Nat.mod_lt _ hpos)
  have h2 : p % rows < rows := Nat.mod_lt _ hr
  unfold trSrc
  rw [Nat.add_assoc]
  apply lt_mul_add (div_lt_of_lt_mul' hp)
  have := lt_mul_add h2 h1
  rw [Nat.mul_comm rows cols] at this
  exact this

theorem trSrc_at {rows cols n i j : Nat} (hj : j < rows) (hi : i < cols) :
    trSrc rows cols (n * (cols * rows) + i * rows + j) = n * (cols * rows) + j * cols + i := by
  have h1 : i * rows + j < cols * rows := lt_mul_add hi hj
  unfold trSrc
  rw [Nat.add_assoc (n * (cols * rows)), mul_add_div' h1, mul_add_mod' h1, mul_add_div' hj]
  have : (n * (cols * rows) + (i * rows + j)) % rows = j := by
    rw [show n * (cols * rows) + (i * rows + j) = (n * cols + i) * rows + j by
      rw [Nat.add_mul, Nat.mul_assoc, Nat.add_assoc], mul_add_mod' hj]
  rw [this]

theorem transpose_puts {x : List α} {batch rows cols : Nat} (hx : x.length = batch * (cols * rows)) :
    Puts (gather (batch * (cols * rows)) (trSrc rows cols) x) (fun p => ∃ n, 0 ≤ n ∧ n < batch ∧ ∃ j, 0 ≤ j ∧ j < rows ∧
        ∃ i, 0 ≤ i ∧ i < cols ∧ p = n * (cols * rows) + i * rows + j)
      (fun o => forR 0 batch o fun n o => forR 0 rows o fun j o => forR 0 cols o fun i o =>
        idx x (n * (cols * rows) + j * cols + i) >>= fun v => o.write (n * (cols * rows) + i * rows + j) v) := by
  apply puts_loop
  intro n _ hn
  apply puts_loop
  intro j _ hj
  apply puts_loop
  intro i _ hi
  have hs : n * (cols * rows) + j * cols + i < x.length := by
    rw [hx, Nat.add_assoc]
    apply lt_mul_add hn
    rw [Nat.mul_comm cols rows]
    exact lt_mul_add hj hi
  have hd : n * (cols * rows) + i * rows + j < batch * (cols * rows) := by
    rw [Nat.add_assoc]
    exact lt_mul_add hn (lt_mul_add hi hj)
  apply puts_copy hs
  rw [gather_get (fun p hp => by rw [hx]; exact trSrc_lt hp) hd, trSrc_at hj hi]

theorem transpose_all {batch rows cols p : Nat} (hp : p < batch * (cols * rows)) :
    ∃ n, 0 ≤ n ∧ n < batch ∧ ∃ j, 0 ≤ j ∧ j < rows ∧ ∃ i, 0 ≤ i ∧ i < cols ∧ p = n * (cols * rows) + i * rows + j := by
  have hpos := pos_right_of_lt_mul hp
  have hr : 0 < rows := by rcases Nat.eq_zero_or_pos rows with h | h <;> simp_all
  refine ⟨p / (cols * rows), Nat.zero_le _, div_lt_of_lt_mul' hp, p % (cols * rows) % rows, Nat.zero_le _,
    Nat.mod_lt _ hr, p % (cols * rows) / rows, Nat.zero_le _, div_lt_of_lt_mul' (Nat.mod_lt _ hpos), ?_⟩
  have h1 := Nat.div_add_mod p (cols * rows)
  have h2 := Nat.div_add_mod (p % (cols * rows)) rows
  rw [Nat.mul_comm] at h1 h2
  omega

theorem transpose_at {pre : List Nat} {r c : Nat} {xs : List α} (hx : xs.length = (pre ++ [r, c]).prod)
    {i : List Nat} (hi : i.length = pre.length) (j k : Nat) :
    at? (pre ++ [c, r]) (gather (pre.prod * (c * r)) (trSrc r c) xs) (i ++ [j, k]) =
      at? (pre ++ [r, c]) xs (i ++ [k, j]) := by
  unfold at?
  rw [ravel_append hi, ravel_append hi]
  cases h : ravel pre i with
  | none => rfl
  | some n =>
    have hn := ravel_lt h
    simp only [Option.bind_some]
    by_cases hj : j < c
    · by_cases hk : k < r
      · have hp : n * (c * r) + (j * r + k) < pre.prod * (c * r) := lt_mul_add hn (lt_mul_add hj hk)
        have hx' : xs.length = pre.prod * (c * r) := by
          rw [hx, List.prod_append]; simp [Nat.mul_comm c r]
        have := gather_get (xs := xs) (f := trSrc r c) (fun p hp => by rw [hx']; exact trSrc_lt hp) hp
        rw [← Nat.add_assoc, trSrc_at hk hj] at this
        simp only [ravel, hj, hk, if_true, Option.map_some, Option.bind_some, List.prod_cons, List.prod_nil, Nat.mul_one,
          Nat.add_zero]
        rw [← Nat.add_assoc, this]
        congr 1
        rw [Nat.mul_comm c r, Nat.add_assoc]
      · simp [ravel, hk]
    · simp [ravel, hj]

/-! ### concatenate -/

theorem concat_part {ys x : List α} {nOuter d inner S off : Nat} (hx : x.length = nOuter * d * inner)
    (hS : off + d * inner ≤ S) (hl : ys.length = nOuter * S)
    (hy : ∀ j q, j < nOuter → q < d * inner → ys[j * S + off + q]? = x[j * (d * inner) + q]?) :
    Puts ys (fun p => off ≤ p % S ∧ p % S < off + d * inner)
      (fun o => forR 0 nOuter o fun j o => forR 0 d o fun k o => forR 0 inner o fun i o =>
        idx x (j * d * inner + k * inner + i) >>= fun v => o.write (j * S + off + k * inner + i) v) := by
  have base : Puts ys (fun p => ∃ j, 0 ≤ j ∧ j < nOuter ∧ ∃ k, 0 ≤ k ∧ k < d ∧ ∃ i, 0 ≤ i ∧ i < inner ∧
        p = j * S + off + k * inner + i)
      (fun o => forR 0 nOuter o fun j o => forR 0 d o fun k o => forR 0 inner o fun i o =>
        idx x (j * d * inner + k * inner + i) >>= fun v => o.write (j * S + off + k * inner + i) v) := by
    apply puts_loop
    intro j _ hj
    apply puts_loop
    intro k _ hk
    apply puts_loop
    intro i _ hi
    have hq := lt_mul_add hk hi
    have e : j * d * inner + k * inner + i = j * (d * inner) + (k * inner + i) := by
      rw [Nat.mul_assoc, Nat.add_assoc]
    apply puts_copy
    · rw [e, hx, Nat.mul_assoc]; exact lt_mul_add hj hq
    · rw [e, ← hy j _ hj hq, Nat.add_assoc (j * S + off)]
  apply base.congr _ fun _ => rfl
  intro p hp
  rw [hl] at hp
  have hSpos := pos_right_of_lt_mul hp
  constructor
  · rintro ⟨j, _, hj, k, _, hk, i, _, hi, rfl⟩
    have hq := lt_mul_add hk hi
    have : (j * S + off + k * inner + i) % S = off + (k * inner + i) := by
      rw [show j * S + off + k * inner + i = j * S + (off + (k * inner + i)) by omega, mul_add_mod' (by omega)]
    rw [this]; omega
  · rintro ⟨h1, h2⟩
    have hlt : p % S - off < d * inner := by omega
    have hi := pos_right_of_lt_mul hlt
    refine ⟨p / S, Nat.zero_le _, div_lt_of_lt_mul' hp, (p % S - off) / inner, Nat.zero_le _, div_lt_of_lt_mul' hlt,
      (p % S - off) % inner, Nat.zero_le _, Nat.mod_lt _ hi, ?_⟩
    have e1 := Nat.div_add_mod p S
    have e2 := Nat.div_add_mod (p % S - off) inner
    rw [Nat.mul_comm] at e1 e2
    omega

/-- Flat elements of the concatenation of parts `(d, xs)` along an axis with `outer` outer and `inner` inner indices. -/
def concatList (outer inner : Nat) (ps : List (Nat × List α)) : List α :=
  ((List.range outer).map fun j => (ps.map fun p => (p.2.drop (j * (p.1 * inner))).take (p.1 * inner)).flatten).flatten

theorem concat_row_length {outer inner : Nat} {ps : List (Nat × List α)}
    (h : ∀ p ∈ ps, p.2.length = outer * (p.1 * inner)) {j : Nat} (hj : j < outer) :
    ((ps.map fun p => (p.2.drop (j * (p.1 * inner))).take (p.1 * inner)).flatten).length =
      (ps.map (·.1)).sum * inner := by
  induction ps with
  | nil => simp
  | cons p ps ih =>
    have := h p List.mem_cons_self
    simp only [List.map_cons, List.flatten_cons, List.length_append, List.sum_cons, Nat.add_mul]
    rw [ih fun p' hp' => h p' (List.mem_cons_of_mem _ hp'), List.length_take, List.length_drop, this]
    have h2 : j * (p.1 * inner) + p.1 * inner ≤ outer * (p.1 * inner) := by
      rw [← Nat.succ_mul]; exact Nat.mul_le_mul_right _ hj
    omega

theorem concatList_length {outer inner : Nat} {ps : List (Nat × List α)}
    (h : ∀ p ∈ ps, p.2.length = outer * (p.1 * inner)) :
    (concatList outer inner ps).length = outer * ((ps.map (·.1)).sum * inner) := by
  unfold concatList
  rw [flatten_length_const (N := (ps.map (·.1)).sum * inner)]
  · simp
  · intro l hl
    obtain ⟨j, hj, rfl⟩ := List.mem_map.1 hl
    exact concat_row_length h (List.mem_range.1 hj)

theorem concatList_get {outer inner : Nat} {A B : List (Nat × List α)} {p : Nat × List α}
    (h : ∀ p' ∈ A ++ p :: B, p'.2.length = outer * (p'.1 * inner)) {j q : Nat} (hj : j < outer)
    (hq : q < p.1 * inner) :
    (concatList outer inner (A ++ p :: B))[j * (((A ++ p :: B).map (·.1)).sum * inner) + (A.map (·.1)).sum * inner + q]? =
      p.2[j * (p.1 * inner) + q]? := by
  have hA := concat_row_length (ps := A) (inner := inner) (fun p' hp' => h p' (List.mem_append_left _ hp')) hj
  have hp := h p (by simp)
  have h2 : j * (p.1 * inner) + p.1 * inner ≤ outer * (p.1 * inner) := by
    rw [← Nat.succ_mul]; exact Nat.mul_le_mul_right _ hj
  have hsum : (A.map (·.1)).sum * inner + q < ((A ++ p :: B).map (·.1)).sum * inner := by
    rw [List.map_append, List.sum_append, List.map_cons, List.sum_cons, Nat.add_mul, Nat.add_mul]; omega
  unfold concatList
  rw [Nat.add_assoc, flatten_get (N := ((A ++ p :: B).map (·.1)).sum * inner)]
  · rw [mul_add_div' hsum, mul_add_mod' hsum, List.getElem?_map, List.getElem?_range hj]
    simp only [Option.map_some, Option.bind_some, List.map_append, List.flatten_append, List.map_cons,
      List.flatten_cons]
    rw [List.getElem?_append_right (by omega), hA, Nat.add_sub_cancel_left,
      List.getElem?_append_left (by rw [List.length_take, List.length_drop]; omega), List.getElem?_take, if_pos hq,
      List.getElem?_drop]
  · intro l hl
    obtain ⟨j', hj', rfl⟩ := List.mem_map.1 hl
    exact concat_row_length h (List.mem_range.1 hj')
  · simp only [List.length_map, List.length_range]; exact lt_mul_add hj hsum

/-- The loop over the operands. -/
theorem concat_loop {outer inner D : Nat} {ys : List α} {pre post : List Nat} (ho : outer = pre.prod)
    (hi : inner = post.prod) (hl : ys.length = outer * (inner * D)) (A ps : List (Nat × List α)) (ts : List (Tensor α))
    (hrep : RepAll ts (ps.map fun p => (pre ++ p.1 :: post, p.2))) (hD : ((A ++ ps).map (·.1)).sum = D)
    (hy : ∀ A' p B, A ++ ps = A' ++ p :: B → ∀ j q, j < outer → q < p.1 * inner →
      ys[j * (inner * D) + (A'.map (·.1)).sum * inner + q]? = p.2[j * (p.1 * inner) + q]?)
    (b : Buf α) (hb : b.length = ys.length) :
    ∃ b', forL ts ((A.map (·.1)).sum * inner, b) (fun tensor st => do
        let nAxis ← tensor.shape.dim pre.length
        let x ← tensor.asSlice
        let o ← forR 0 outer st.2 fun j o =>
          forR 0 nAxis o fun k o =>
            forR 0 inner o fun i o => do
              let v ← idx x (j * nAxis * inner + k * inner + i)
              o.write (j * (inner * D) + st.1 + k * inner + i) v
        return (st.1 + nAxis * inner, o)) = Except.ok (((A ++ ps).map (·.1)).sum * inner, b') ∧ b'.length = ys.length ∧
      ∀ p, p < ys.length →
        ((A.map (·.1)).sum * inner ≤ p % (inner * D) → b'[p]? = some ys[p]?) ∧
        (p % (inner * D) < (A.map (·.1)).sum * inner → b'[p]? = b[p]?) := by
  induction ps generalizing A ts b with
  | nil =>
    simp only [List.map_nil] at hrep
    cases hrep
    refine ⟨b, by simp [forL], hb, fun p hp => ⟨fun h => ?_, fun _ => rfl⟩⟩
    rw [hl] at hp
    have h1 := Nat.mod_lt p (pos_right_of_lt_mul hp)
    rw [List.append_nil] at hD
    rw [hD, Nat.mul_comm] at h
    omega
  | cons p ps ih =>
    simp only [List.map_cons] at hrep
    cases hrep with
    | cons hr hrest =>
    rename_i t ts
    have hsumA : ((A ++ [p]).map (·.1)).sum * inner = (A.map (·.1)).sum * inner + p.1 * inner := by
      simp [Nat.add_mul]
    have hxl : p.2.length = outer * p.1 * inner := by
      rw [hr.length, List.prod_append, List.prod_cons, ho, hi, Nat.mul_assoc]
    have hle : (A.map (·.1)).sum * inner + p.1 * inner ≤ inner * D := by
      rw [← hD, Nat.mul_comm inner, ← Nat.add_mul]
      apply Nat.mul_le_mul_right
      simp
    obtain ⟨b1, e1, l1, w1⟩ := concat_part hxl hle hl
      (fun j q hj hq => hy A p ps rfl j q hj hq) b hb
    obtain ⟨b', e', l', w'⟩ := ih (A ++ [p]) ts hrest (by rw [← hD]; simp)
      (fun A' p' B h => hy A' p' B (by rw [← h]; simp)) b1 l1
    refine ⟨b', ?_, l', ?_⟩
    · unfold forL at e' ⊢
      rw [List.foldlM_cons]
      dsimp only at e1 e' ⊢
      rw [show t.shape.dim pre.length = Except.ok p.1 from dim_eq hr.wf.shape (by rw [hr.toDims]; simp), ok_bind,
        hr.elems, ok_bind]
      simp only [e1, ok_bind, pure_eq_ok]
      simp only [pure_eq_ok] at e'
      rw [hsumA] at e'
      rw [e']
      simp
    · intro q hq
      constructor
      · intro h
        by_cases hc : ((A ++ [p]).map (·.1)).sum * inner ≤ q % (inner * D)
        · exact (w' q hq).1 hc
        · rw [(w' q hq).2 (by omega)]
          rw [hsumA] at hc
          exact (w1 q hq).1 ⟨h, by omega⟩
      · intro h
        rw [(w' q hq).2 (by omega)]
        exact (w1 q hq).2 (by omega)

/-! ### checks of concatenate -/

theorem forR_ok_all {β : Type} {lo hi : Nat} {s s' : β} {body : Nat → β → Res β}
    (h : forR lo hi s body = Except.ok s') : ∀ i, lo ≤ i → i < hi → ∃ a b, body i a = Except.ok b := by
  by_cases hle : lo ≤ hi
  · obtain ⟨n, rfl⟩ : ∃ n, hi = lo + n := ⟨hi - lo, by omega⟩
    clear hle
    induction n generalizing s' with
    | zero => intro i h1 h2; omega
    | succ n ih =>
      rw [← Nat.add_assoc, forR_snoc (by omega)] at h
      obtain ⟨a, ha, hb⟩ := bind_eq_ok.1 h
      intro i h1 h2
      by_cases hi : i < lo + n
      · exact ih ha i h1 hi
      · have : i = lo + n := by omega
        subst this; exact ⟨_, _, hb⟩
  · intro i h1 h2; omega

theorem forL_ok_all {γ β : Type} {xs : List γ} {s s' : β} {body : γ → β → Res β}
    (h : forL xs s body = Except.ok s') : ∀ x ∈ xs, ∃ a b, body x a = Except.ok b := by
  unfold forL at h
  induction xs generalizing s with
  | nil => simp
  | cons x xs ih =>
    rw [List.foldlM_cons] at h
    obtain ⟨a, ha, hb⟩ := bind_eq_ok.1 h
    intro y hy
    rcases List.mem_cons.1 hy with rfl | hy
    · exact ⟨_, _, ha⟩
    · exact ih hb y hy

theorem forL_noUB {γ β : Type} {xs : List γ} {s : β} {body : γ → β → Res β}
    (h : ∀ x ∈ xs, ∀ s, NoUB (body x s)) : NoUB (forL xs s body) := by
  unfold forL
  induction xs generalizing s with
  | nil => simp
  | cons x xs ih =>
    rw [List.foldlM_cons]
    exact noUB_bind (h x List.mem_cons_self s) fun a _ => ih fun y hy => h y (List.mem_cons_of_mem _ hy)

theorem forR_noUB' {β : Type} {lo hi : Nat} {s : β} {body : Nat → β → Res β}
    (h : ∀ i s, NoUB (body i s)) : NoUB (forR lo hi s body) :=
  (forR_noUB (fun _ _ => True) trivial fun i s _ _ _ => ⟨h i s, fun _ _ => trivial⟩).1

theorem noUB_rsublen (s : Shape) (i j : Nat) : NoUB (s.rsublen i j) := by
  unfold Shape.rsublen
  exact forR_noUB' fun _ _ => noUB_bind (by simp) fun _ _ => by simp
theorem noUB_sublen (s : Shape) (i j : Nat) : NoUB (s.sublen i j) := by
  unfold Shape.sublen
  exact noUB_bind (by simp) fun _ _ => noUB_bind (by simp) fun _ _ => noUB_rsublen _ _ _

/-- One operand's check: equal rank and equal dimensions except along the axis adds its length. -/
theorem validate_one {s : Shape} {pre post : List Nat} {d e : Nat} (hs : s = ofDims (pre ++ e :: post))
    (hadm : Adm (pre ++ e :: post)) {x : Tensor α} {xs : List α} (hx : Rep x (pre ++ d :: post) xs) (acc : Nat) :
    (do
      ensure (s.rank = x.shape.rank)
      forR 0 s.rank acc fun i axisLen => do
        if i = pre.length then do
          let d ← x.shape.dim pre.length
          return axisLen + d
        else do
          let d ← x.shape.dim i
          let e ← s.dim i
          ensure (d = e)
          return axisLen : Res Nat) = Except.ok (acc + d) := by
  subst hs
  have hlen : (pre ++ e :: post).length = (pre ++ d :: post).length := by simp
  rw [rank_ofDims, hx.rank, ensure_true hlen, ok_bind]
  have hd : x.shape.dim pre.length = Except.ok d := dim_eq hx.wf.shape (by rw [hx.toDims]; simp)
  obtain ⟨s', es, hP⟩ := forR_inv (Nat.zero_le (pre ++ e :: post).length) (s := acc)
    (body := fun i axisLen => do
        if i = pre.length then do
          let d ← x.shape.dim pre.length
          return axisLen + d
        else do
          let d ← x.shape.dim i
          let e ← (ofDims (pre ++ e :: post)).dim i
          ensure (d = e)
          return axisLen)
    (fun i a => a = if i ≤ pre.length then acc else acc + d) (by simp)
    (by
      intro i a _ hi ha
      by_cases hc : i = pre.length
      · subst hc
        rw [if_pos rfl, hd, ok_bind]
        refine ⟨_, rfl, ?_⟩
        rw [ha, if_pos (Nat.le_refl _), if_neg (by omega)]
      · rw [if_neg hc]
        have hi' : i < (pre ++ d :: post).length := by rw [← hlen]; exact hi
        have heq : (pre ++ d :: post)[i]? = (pre ++ e :: post)[i]? := by
          by_cases hlt : i < pre.length
          · rw [List.getElem?_append_left hlt, List.getElem?_append_left hlt]
          · rw [List.getElem?_append_right (by omega), List.getElem?_append_right (by omega)]
            obtain ⟨k, hk⟩ : ∃ k, i - pre.length = k + 1 := ⟨i - pre.length - 1, by omega⟩
            rw [hk]; rfl
        have h1 := dim_eq hx.wf.shape (i := i) (d := (pre ++ d :: post)[i]) (by
          rw [hx.toDims]; exact List.getElem?_eq_getElem hi')
        have h2 := dim_eq (wf_ofDims hadm) (i := i) (d := (pre ++ d :: post)[i]) (by
          rw [toDims_ofDims, ← heq]; exact List.getElem?_eq_getElem hi')
        rw [h1, ok_bind, h2, ok_bind, ensure_true rfl, ok_bind]
        refine ⟨_, rfl, ?_⟩
        rw [ha]
        by_cases hlt : i < pre.length
        · rw [if_pos (by omega), if_pos (by omega)]
        · rw [if_neg (by omega), if_neg (by omega)])
  rw [es, hP, if_neg (by simp)]

theorem validate_loop {s : Shape} {pre post : List Nat} {e : Nat} (hs : s = ofDims (pre ++ e :: post))
    (hadm : Adm (pre ++ e :: post)) (ps : List (Nat × List α)) (ts : List (Tensor α))
    (hrep : RepAll ts (ps.map fun p => (pre ++ p.1 :: post, p.2))) (acc : Nat) :
    forL ts acc (fun x axisLen => do
      ensure (s.rank = x.shape.rank)
      forR 0 s.rank axisLen fun i axisLen => do
        if i = pre.length then do
          let d ← x.shape.dim pre.length
          return axisLen + d
        else do
          let d ← x.shape.dim i
          let e ← s.dim i
          ensure (d = e)
          return axisLen) = Except.ok (acc + (ps.map (·.1)).sum) := by
  induction ps generalizing ts acc with
  | nil =>
    simp only [List.map_nil] at hrep
    cases hrep
    simp [forL]
  | cons p ps ih =>
    simp only [List.map_cons] at hrep
    cases hrep with
    | cons hr hrest =>
    unfold forL
    rw [List.foldlM_cons]
    have := validate_one hs hadm hr acc
    refine (congrArg (· >>= _) this).trans ?_
    rw [ok_bind]
    refine (ih _ hrest _).trans ?_
    simp [Nat.add_assoc]

theorem eraseIdx_mid (pre post : List Nat) (d : Nat) : (pre ++ d :: post).eraseIdx pre.length = pre ++ post := by
  rw [List.eraseIdx_append_of_length_le (Nat.le_refl _)]; simp

theorem insertIdx_mid (pre post : List Nat) (d : Nat) : (pre ++ post).insertIdx pre.length d = pre ++ d :: post := by
  induction pre with
  | nil => simp
  | cons a pre ih => simp [ih]

theorem sizes_sum {pre post : List Nat} {ps : List (Nat × List α)} {ts : List (Tensor α)}
    (hrep : RepAll ts (ps.map fun p => (pre ++ p.1 :: post, p.2))) :
    (ts.map (·.size)).sum = pre.prod * ((ps.map (·.1)).sum * post.prod) := by
  induction ps generalizing ts with
  | nil =>
    simp only [List.map_nil] at hrep
    cases hrep; simp
  | cons p ps ih =>
    simp only [List.map_cons] at hrep
    cases hrep with
    | cons hr hrest =>
    simp only [List.map_cons, List.sum_cons]
    rw [ih hrest, hr.size, hr.length, List.prod_append, List.prod_cons, Nat.add_mul, Nat.mul_add]

theorem RepAll.mem_length {ts : List (Tensor α)} {ps : List (List Nat × List α)} (h : RepAll ts ps) :
    ∀ p ∈ ps, p.2.length = p.1.prod := by
  induction h with
  | nil => simp
  | cons hr _ ih =>
    intro p hp
    rcases List.mem_cons.1 hp with rfl | hp
    · exact hr.length
    · exact ih p hp

theorem RepAll.length_eq {ts : List (Tensor α)} {ps : List (List Nat × List α)} (h : RepAll ts ps) :
    ts.length = ps.length := by
  induction h with
  | nil => rfl
  | cons _ _ ih => simp [ih]

theorem pos_mid {pre post : List Nat} {D : Nat} (h : 0 < (pre ++ D :: post).prod) :
    0 < pre.prod ∧ 0 < D ∧ 0 < post.prod := by
  rw [List.prod_append, List.prod_cons] at h
  refine ⟨Nat.pos_of_mul_pos_right h, ?_⟩
  have h2 := Nat.pos_of_mul_pos_left h
  exact ⟨Nat.pos_of_mul_pos_right h2, Nat.pos_of_mul_pos_left h2⟩

theorem ite_bind' {γ δ : Type} {c : Prop} [Decidable c] (x y : Res γ) (f : γ → Res δ) :
    (if c then x else y) >>= f = if c then x >>= f else y >>= f := by split <;> rfl

theorem Fits.drop {ds : List Nat} (h : Fits ds) (k : Nat) : Fits (ds.drop k) := fun j => by
  rw [List.drop_drop]; exact h _

theorem Fits.tail {pre post : List Nat} {d : Nat} (h : Fits (pre ++ d :: post)) : Fits post := by
  have := h.drop (pre.length + 1)
  rwa [← List.drop_drop, List.drop_left, List.drop_succ_cons, List.drop_zero] at this

theorem foldlM_fits {A : List Nat} (h : Fits A) : A.reverse.foldlM mulU32 1 = Except.ok A.prod := by
  rw [foldlM_mul_eq_ok (by omega)]
  refine ⟨fun k => ?_, by simp⟩
  rw [List.take_reverse, List.prod_reverse, Nat.one_mul]
  exact fun _ => h _

theorem fits_parts {pre post : List Nat} {D : Nat} (h : 0 < (pre ++ D :: post).prod) (hf : (pre ++ D :: post).prod < 2 ^ 32) :
    D < 2 ^ 32 ∧ Fits (pre ++ D :: post) ∧ Fits pre := by
  obtain ⟨hp1, hp2, hp3⟩ := pos_mid h
  have e : (pre ++ D :: post).prod = pre.prod * (D * post.prod) := by rw [List.prod_append, List.prod_cons]
  refine ⟨?_, fits_of_pos h hf, fits_of_pos hp1 ?_⟩
  · have : D ≤ pre.prod * (D * post.prod) :=
      Nat.le_trans (Nat.le_mul_of_pos_right _ hp3) (Nat.le_mul_of_pos_left _ hp1)
    omega
  · have : pre.prod ≤ pre.prod * (D * post.prod) := Nat.le_mul_of_pos_right _ (Nat.mul_pos hp2 hp3)
    omega

/-- Closed form of `concat_axis`. -/
theorem concatAxis_gen {pre post : List Nat} {ps : List (Nat × List α)} {ts : List (Tensor α)}
    (hrep : RepAll ts (ps.map fun p => (pre ++ p.1 :: post, p.2))) (hne : ps ≠ []) {D : Nat} (hD : (ps.map (·.1)).sum = D)
    (hDlt : D < 2 ^ 32) (hfit : Fits (pre ++ D :: post)) (hpre : Fits pre) (hr : post.length < 5) :
    ∃ t, Tensor.concatAxis pre.length ts = Except.ok t ∧
      Rep t (pre ++ D :: post) (concatList pre.prod post.prod ps) := by
  have hlens : ∀ p ∈ ps, p.2.length = pre.prod * (p.1 * post.prod) := by
    intro p hp
    have := hrep.mem_length (pre ++ p.1 :: post, p.2) (List.mem_map.2 ⟨p, hp, rfl⟩)
    simpa [List.prod_append] using this
  obtain ⟨p0, ps0, rfl⟩ := List.exists_cons_of_ne_nil hne
  have hrep0 := hrep
  cases hrep with
  | cons hr0 hrest =>
  rename_i t0 ts
  have hadm0 := hr0.adm
  have hadm : Adm (pre ++ D :: post) := ⟨by have := hadm0.len; simp at this ⊢; omega, fun d hd => by
    rcases List.mem_append.1 hd with h | h
    · exact hadm0.lt d (List.mem_append_left _ h)
    · rcases List.mem_cons.1 h with rfl | h
      · exact hDlt
      · exact hadm0.lt d (List.mem_append_right _ (List.mem_cons_of_mem _ h))⟩
  have hadmI : Adm (pre ++ post) := by
    have := hadm.eraseIdx pre.length; rw [eraseIdx_mid] at this; exact this
  have hwfI := wf_ofDims hadmI
  have hlen6 := hadm.len
  unfold Tensor.concatAxis
  rw [idx_ok (x := t0) (by simp), ok_bind]
  have hval : Tensor.validateConcat (t0 :: ts) pre.length = Except.ok D := by
    unfold Tensor.validateConcat
    rw [idx_ok (x := t0) (by simp), ok_bind]
    have := validate_loop hr0.shape hadm0 (p0 :: ps0) (t0 :: ts) hrep0 0
    rw [Nat.zero_add, hD] at this
    exact this
  rw [hval, ok_bind, hr0.shape, remove_ofDims hadm0.len (by simp), ok_bind, eraseIdx_mid]
  dsimp only
  have e1 : (ofDims (pre ++ post)).sublen 0 pre.length = Except.ok pre.prod := by
    rw [sublen_ofDims hadmI.len (Nat.zero_le _) (by simp)]
    simpa using foldlM_fits hpre
  have e2 : (if pre.length < (ofDims (pre ++ post)).rank then
      (ofDims (pre ++ post)).sublen pre.length (ofDims (pre ++ post)).rank else pure 1) = (Except.ok post.prod : Res Nat) := by
    split
    · rw [sublen_ofDims hadmI.len (by omega) (by simp)]
      simpa using foldlM_fits hfit.tail
    · rename_i hc
      have : post = [] := by simpa using hc
      subst this; rfl
  rw [e1, ok_bind]
  rw [← ite_bind', e2, ok_bind, insert_ofDims (by simp at hlen6 ⊢; omega) (by simp) (by simp; omega), ok_bind, insertIdx_mid,
    asU32_of_lt hDlt]
  have hyl := concatList_length hlens
  rw [hD] at hyl
  have hlY : (concatList pre.prod post.prod (p0 :: ps0)).length = (pre ++ D :: post).prod := by
    rw [hyl, List.prod_append, List.prod_cons]
  obtain ⟨b', eb, lb, wb⟩ := concat_loop (ys := concatList pre.prod post.prod (p0 :: ps0)) (D := D) rfl rfl
    (by rw [hyl, Nat.mul_comm D]) [] (p0 :: ps0) (t0 :: ts) hrep0 (by simpa using hD)
    (by
      intro A' p B h j q hj hq
      rw [List.nil_append] at h
      have := concatList_get (A := A') (B := B) (p := p) (inner := post.prod) (outer := pre.prod)
        (by rw [← h]; exact hlens) hj hq
      rw [← h, hD] at this
      rw [Nat.mul_comm post.prod D]
      exact this)
    (Buf.uninit _) (by simp [Buf.uninit]; rfl)
  have hb' : b' = (concatList pre.prod post.prod (p0 :: ps0)).map some := by
    apply List.ext_getElem?
    intro p
    by_cases hp : p < (concatList pre.prod post.prod (p0 :: ps0)).length
    · rw [(wb p hp).1 (by simp)]; simp [hp]
    · rw [List.getElem?_eq_none (by omega), List.getElem?_eq_none (by simp; omega)]
  refine ⟨_, ?_, rep_fresh hadm hfit hlY⟩
  rw [sizes_sum hrep0, hD, ← hyl]
  unfold Tensor.unsafeInit
  have eb2 := eb
  simp only [List.map_nil, List.sum_nil, Nat.zero_mul, pure_eq_ok] at eb2
  simp only [eb2, ok_bind, pure_eq_ok, hb']
  unfold Tensor.finish
  rw [Buf.complete_map_some]
  exact new_ok hadm hfit hlY

theorem concatAxis_eq {pre post : List Nat} {ps : List (Nat × List α)} {ts : List (Tensor α)}
    (hrep : RepAll ts (ps.map fun p => (pre ++ p.1 :: post, p.2))) {D : Nat} (hD : (ps.map (·.1)).sum = D)
    (hpos : 0 < (pre ++ D :: post).prod) (hfit : (pre ++ D :: post).prod < 2 ^ 32) (hr : post.length < 5) :
    ∃ t, Tensor.concatAxis pre.length ts = Except.ok t ∧
      Rep t (pre ++ D :: post) (concatList pre.prod post.prod ps) := by
  obtain ⟨h1, h2, h3⟩ := fits_parts hpos hfit
  refine concatAxis_gen hrep ?_ hD h1 h2 h3 hr
  rintro rfl; simp at hD; subst hD; simp at hpos

/-! ### slices along an axis -/

/-- Position form of `IsSlice`. -/
theorem isSlice_of_pos {pre post : List Nat} {d lo n : Nat} {xs ys : List α}
    (hy : ys.length = (pre ++ n :: post).prod) (hlo : lo + n ≤ d)
    (h : ∀ j q, j < pre.prod → q < n * post.prod →
      ys[j * (n * post.prod) + q]? = xs[j * (d * post.prod) + lo * post.prod + q]?) :
    IsSlice pre d post xs lo n ys := by
  refine ⟨hy, hlo, fun i a j hi ha => ?_⟩
  unfold at?
  rw [ravel_append hi, ravel_append hi]
  cases hp : ravel pre i with
  | none => rfl
  | some p =>
    have hplt := ravel_lt hp
    simp only [Option.bind_some, ravel]
    rw [if_pos ha, if_pos (by omega)]
    cases hq : ravel post j with
    | none => rfl
    | some q =>
      have hqlt := ravel_lt hq
      simp only [Option.map_some, Option.bind_some, List.prod_cons]
      rw [h p _ hplt (lt_mul_add ha hqlt)]
      congr 1
      rw [Nat.add_mul]; omega

theorem IsSlice.pos {pre post : List Nat} {d lo n : Nat} {xs ys : List α} (hs : IsSlice pre d post xs lo n ys) :
    ∀ j q, j < pre.prod → q < n * post.prod →
      ys[j * (n * post.prod) + q]? = xs[j * (d * post.prod) + lo * post.prod + q]? := by
  intro j q hj hq
  obtain ⟨i, hi⟩ := ravel_surj pre hj
  have hr := pos_right_of_lt_mul hq
  obtain ⟨k, hk⟩ := ravel_surj post (Nat.mod_lt q hr)
  have ha : q / post.prod < n := div_lt_of_lt_mul' hq
  have := hs.2.2 i (q / post.prod) k (ravel_length hi) ha
  unfold at? at this
  rw [ravel_append (ravel_length hi), ravel_append (ravel_length hi), hi] at this
  simp only [Option.bind_some, ravel] at this
  have hlo := hs.2.1
  rw [if_pos ha, if_pos (by omega), hk] at this
  simp only [Option.map_some, Option.bind_some, List.prod_cons] at this
  have e := Nat.div_add_mod q post.prod
  rw [Nat.mul_comm] at e
  rw [e] at this
  rw [this]
  congr 1
  rw [Nat.add_mul]; omega

theorem concatList_isSlice {pre post : List Nat} {A B : List (Nat × List α)} {p : Nat × List α}
    (h : ∀ p' ∈ A ++ p :: B, p'.2.length = pre.prod * (p'.1 * post.prod)) :
    IsSlice pre (((A ++ p :: B).map (·.1)).sum) post (concatList pre.prod post.prod (A ++ p :: B))
      (A.map (·.1)).sum p.1 p.2 := by
  apply isSlice_of_pos
  · rw [h p (by simp), List.prod_append, List.prod_cons]
  · simp
  · intro j q hj hq
    rw [concatList_get h hj hq]

/-- An array of whose slices a partition is known is determined. -/
theorem slices_ext {pre post : List Nat} {D : Nat} {xs ys : List α} (hx : xs.length = (pre ++ D :: post).prod)
    (hy : ys.length = (pre ++ D :: post).prod)
    (h : ∀ c, c < D → ∃ lo n zs, lo ≤ c ∧ c < lo + n ∧ IsSlice pre D post xs lo n zs ∧ IsSlice pre D post ys lo n zs) :
    xs = ys := by
  apply List.ext_getElem?
  intro p
  by_cases hp : p < (pre ++ D :: post).prod
  · rw [List.prod_append, List.prod_cons] at hp
    have hpos := pos_right_of_lt_mul hp
    have hr : 0 < post.prod := by rcases Nat.eq_zero_or_pos post.prod with h | h <;> simp_all
    have hm := Nat.mod_lt p hpos
    have hc : p % (D * post.prod) / post.prod < D := div_lt_of_lt_mul' hm
    obtain ⟨lo, n, zs, h1, h2, s1, s2⟩ := h _ hc
    have hj : p / (D * post.prod) < pre.prod := div_lt_of_lt_mul' hp
    have e1 := Nat.div_add_mod p (D * post.prod)
    have e2 := Nat.div_add_mod (p % (D * post.prod)) post.prod
    rw [Nat.mul_comm] at e1 e2
    have hle : lo * post.prod ≤ p % (D * post.prod) := by
      have := Nat.mul_le_mul_right post.prod h1
      omega
    have hq : p % (D * post.prod) - lo * post.prod < n * post.prod := by
      have h3 := Nat.mul_le_mul_right post.prod (Nat.succ_le_of_lt h2)
      rw [Nat.succ_mul, Nat.add_mul] at h3
      have h4 := Nat.mod_lt (p % (D * post.prod)) hr
      omega
    have a1 := s1.pos _ _ hj hq
    have a2 := s2.pos _ _ hj hq
    rw [a1] at a2
    rw [show p / (D * post.prod) * (D * post.prod) + lo * post.prod + (p % (D * post.prod) - lo * post.prod) = p by
      omega] at a2
    exact a2
  · rw [List.getElem?_eq_none (by omega), List.getElem?_eq_none (by omega)]

/-! ### stack -/

theorem at_unit {pre post : List Nat} {xs : List α} (i j : List Nat) (hi : i.length = pre.length) :
    at? (pre ++ 1 :: post) xs (i ++ 0 :: j) = at? (pre ++ post) xs (i ++ j) := by
  unfold at?
  rw [ravel_append hi, ravel_append hi]
  simp only [ravel, List.prod_cons]
  cases ravel pre i with
  | none => rfl
  | some p => cases ravel post j <;> simp

theorem stackCheck_eq {ds : List Nat} {ps : List (List α)} {ts : List (Tensor α)}
    (hrep : RepAll ts (ps.map fun x => (ds, x))) : ∃ s, Tensor.stackCheck ts = Except.ok s := by
  have key : ∀ (ps : List (List α)) (ts : List (Tensor α)) (acc : Option Shape),
      RepAll ts (ps.map fun x => (ds, x)) → (acc = none ∨ acc = some (ofDims ds)) →
      ∃ s, (forL ts acc fun x shape =>
        match shape with
        | none => return some x.shape
        | some s => do
          ensure (s = x.shape)
          return some s : Res (Option Shape)) = Except.ok s := by
    intro ps
    induction ps with
    | nil => intro ts acc h _; simp only [List.map_nil] at h; cases h; exact ⟨acc, rfl⟩
    | cons p ps ih =>
      intro ts acc h ha
      simp only [List.map_cons] at h
      cases h with
      | cons hr hrest =>
      unfold forL
      rw [List.foldlM_cons]
      rcases ha with rfl | rfl
      · exact ih _ _ hrest (Or.inr (by rw [hr.shape]))
      · dsimp only
        rw [ensure_true hr.shape.symm]
        exact ih _ _ hrest (Or.inr rfl)
  exact key ps ts none hrep (Or.inl rfl)

theorem RepAll.get {ts : List (Tensor α)} {ps : List (List Nat × List α)} (h : RepAll ts ps) {k : Nat}
    {p : List Nat × List α} (hk : ps[k]? = some p) : ∃ t, ts[k]? = some t ∧ Rep t p.1 p.2 := by
  induction h generalizing k with
  | nil => simp at hk
  | cons hr _ ih =>
    cases k with
    | zero => simp at hk; subst hk; exact ⟨_, rfl, hr⟩
    | succ k => simpa using ih (by simpa using hk)

theorem sizes_sum_const {ds : List Nat} {ps : List (List α)} {ts : List (Tensor α)}
    (hrep : RepAll ts (ps.map fun x => (ds, x))) : (ts.map (·.size)).sum = ps.length * ds.prod := by
  induction ps generalizing ts with
  | nil => simp only [List.map_nil] at hrep; cases hrep; simp
  | cons p ps ih =>
    simp only [List.map_cons] at hrep
    cases hrep with
    | cons hr hrest =>
    simp only [List.map_cons, List.sum_cons, List.length_cons, Nat.succ_mul]
    rw [ih hrest, hr.size, hr.length]; omega

theorem sum_ones {γ : Type} (l : List γ) : ((l.map fun x => ((1 : Nat), x)).map (·.1)).sum = l.length := by
  induction l with
  | nil => rfl
  | cons a l ih => simp only [List.map_cons, List.sum_cons, ih, List.length_cons]; omega

theorem append_take_drop {γ : Type} {l : List γ} {k : Nat} {x : γ} (h : l[k]? = some x) :
    l = l.take k ++ x :: l.drop (k + 1) := by
  obtain ⟨hk, rfl⟩ := List.getElem?_eq_some_iff.1 h
  rw [List.getElem_cons_drop, List.take_append_drop]

theorem stack_puts {ys x : List α} {n j outer inner : Nat} (hx : x.length = outer * inner) (hjn : j < n)
    (hl : ys.length = outer * (n * inner))
    (hy : ∀ k q, k < outer → q < inner → ys[k * (n * inner) + j * inner + q]? = x[k * inner + q]?) :
    Puts ys (fun p => p % (n * inner) / inner = j)
      (fun o => forR 0 outer o fun k o => forR 0 inner o fun i o =>
        idx x (k * inner + i) >>= fun v => o.write ((k * n + j) * inner + i) v) := by
  have base : Puts ys (fun p => ∃ k, 0 ≤ k ∧ k < outer ∧ ∃ i, 0 ≤ i ∧ i < inner ∧ p = (k * n + j) * inner + i)
      (fun o => forR 0 outer o fun k o => forR 0 inner o fun i o =>
        idx x (k * inner + i) >>= fun v => o.write ((k * n + j) * inner + i) v) := by
    apply puts_loop
    intro k _ hk
    apply puts_loop
    intro i _ hi
    apply puts_copy
    · rw [hx]; exact lt_mul_add hk hi
    · rw [← hy k i hk hi, Nat.add_mul, Nat.mul_assoc]
  apply base.congr _ fun _ => rfl
  intro p hp
  rw [hl] at hp
  have hpos := pos_right_of_lt_mul hp
  constructor
  · rintro ⟨k, _, hk, i, _, hi, rfl⟩
    rw [Nat.add_mul, Nat.mul_assoc, Nat.add_assoc, mul_add_mod' (lt_mul_add hjn hi), mul_add_div' hi]
  · intro h
    have hi := pos_right_of_lt_mul (Nat.mod_lt p hpos)
    refine ⟨p / (n * inner), Nat.zero_le _, div_lt_of_lt_mul' hp, p % (n * inner) % inner, Nat.zero_le _,
      Nat.mod_lt _ hi, ?_⟩
    have e1 := Nat.div_add_mod p (n * inner)
    have e2 := Nat.div_add_mod (p % (n * inner)) inner
    rw [Nat.mul_comm] at e1 e2
    rw [h] at e2
    rw [Nat.add_mul, Nat.mul_assoc]
    omega

/-- Closed form of `stack_vec`. -/
theorem stackVec_gen {pre post : List Nat} {ps : List (List α)} {ts : List (Tensor α)}
    (hrep : RepAll ts (ps.map fun x => (pre ++ post, x))) (hne : ps ≠ []) (hDlt : ps.length < 2 ^ 32)
    (hp3 : 0 < post.prod) (hfit : Fits (pre ++ ps.length :: post)) (hr : post.length < 5)
    (hr6 : (pre ++ post).length < 6) {axis : Axis}
    (hax : axis.axisFromRank ((pre ++ post).length + 1) = Except.ok pre.length) :
    ∃ t, Tensor.stackVec axis ts = Except.ok t ∧
      Rep t (pre ++ ps.length :: post) (concatList pre.prod post.prod (ps.map fun x => (1, x))) := by
  obtain ⟨p0, ps0, hps⟩ := List.exists_cons_of_ne_nil hne
  obtain ⟨t0, ht0, hr0⟩ := hrep.get (k := 0) (p := (pre ++ post, p0)) (by rw [hps]; rfl)
  simp only at hr0
  have hlenT : ts.length = ps.length := by rw [hrep.length_eq]; simp
  have hadm : Adm (pre ++ ps.length :: post) := ⟨by simp at hr6 ⊢; omega, fun d hd => by
    rcases List.mem_append.1 hd with h | h
    · exact hr0.adm.lt d (List.mem_append_left _ h)
    · rcases List.mem_cons.1 h with rfl | h
      · exact hDlt
      · exact hr0.adm.lt d (List.mem_append_right _ h)⟩
  have hxl : ∀ x ∈ ps, x.length = pre.prod * post.prod := by
    intro x hx
    have := hrep.mem_length (pre ++ post, x) (List.mem_map.2 ⟨x, hx, rfl⟩)
    simpa [List.prod_append] using this
  have hlens : ∀ p ∈ ps.map (fun x => ((1 : Nat), x)), p.2.length = pre.prod * (p.1 * post.prod) := by
    intro p hp
    obtain ⟨x, hx, rfl⟩ := List.mem_map.1 hp
    simp [hxl x hx]
  have hyl := concatList_length hlens
  rw [sum_ones] at hyl
  have hlY : (concatList pre.prod post.prod (ps.map fun x => (1, x))).length = (pre ++ ps.length :: post).prod := by
    rw [hyl, List.prod_append, List.prod_cons]
  unfold Tensor.stackVec
  obtain ⟨s, hs⟩ := stackCheck_eq hrep
  rw [hs, ok_bind, idx_ok ht0, ok_bind]
  dsimp only
  rw [hr0.rank, hax, ok_bind, hr0.size_eq, ok_bind]
  have e1 : t0.shape.sublen pre.length (pre ++ post).length = Except.ok post.prod := by
    rw [hr0.shape, sublen_ofDims hr0.adm.len (by simp) (Nat.le_refl _)]
    simpa using foldlM_fits hfit.tail
  have e2 : (pre ++ post).prod / post.prod = pre.prod := by
    rw [List.prod_append, Nat.mul_div_cancel _ hp3]
  rw [e1, ok_bind, udiv_ok (by omega), ok_bind, e2, hr0.shape,
    insert_ofDims (by simpa using hr6) (by simp) (by simp; omega), ok_bind, insertIdx_mid, hlenT, asU32_of_lt hDlt]
  apply unsafeInit_puts_rep (ys := concatList pre.prod post.prod (ps.map fun x => (1, x)))
    (P := fun p => ∃ j, 0 ≤ j ∧ j < ps.length ∧ p % (ps.length * post.prod) / post.prod = j)
    (by rw [sizes_sum_const hrep, hlY, List.prod_append, List.prod_append, List.prod_cons]; grind)
    _ _ hadm hfit hlY
  · apply puts_loop
    intro j _ hj
    obtain ⟨t, ht, hrt⟩ := hrep.get (k := j) (p := (pre ++ post, ps[j])) (by simp [hj])
    simp only at hrt
    have hxj : ps[j].length = pre.prod * post.prod := hxl _ (List.getElem_mem hj)
    have hb : ∀ o : Buf α, (do
        let x ← idx ts j
        ensure ((pre ++ post).prod = x.size)
        let x ← x.asSlice
        forR 0 pre.prod o fun k o =>
          forR 0 post.prod o fun i o => do
            let v ← idx x (k * post.prod + i)
            o.write ((k * ps.length + j) * post.prod + i) v) =
        (forR 0 pre.prod o fun k o =>
          forR 0 post.prod o fun i o =>
            idx ps[j] (k * post.prod + i) >>= fun v => o.write ((k * ps.length + j) * post.prod + i) v) := by
      intro o
      rw [idx_ok ht, ok_bind, ensure_true (by rw [hrt.size, hrt.length]), ok_bind, hrt.elems, ok_bind]
    apply (stack_puts hxj hj hyl _).congr (fun _ _ => Iff.rfl) hb
    intro k q hk hq
    have hsplit : ps.map (fun x => ((1 : Nat), x)) =
        (ps.take j).map (fun x => ((1 : Nat), x)) ++ (1, ps[j]) :: (ps.drop (j + 1)).map (fun x => ((1 : Nat), x)) := by
      rw [List.map_take, List.map_drop]
      exact append_take_drop (by simp [hj])
    have := concatList_get (A := (ps.take j).map (fun x => ((1 : Nat), x))) (p := (1, ps[j]))
      (B := (ps.drop (j + 1)).map (fun x => ((1 : Nat), x))) (outer := pre.prod) (inner := post.prod)
      (by rw [← hsplit]; exact hlens) hk (q := q) (by simpa using hq)
    rw [← hsplit, sum_ones, sum_ones, List.length_take, Nat.min_eq_left (by omega)] at this
    simpa using this
  · intro p hp
    rw [hyl] at hp
    exact ⟨_, Nat.zero_le _, div_lt_of_lt_mul' (Nat.mod_lt _ (pos_right_of_lt_mul hp)), rfl⟩

theorem stackVec_eq {pre post : List Nat} {ps : List (List α)} {ts : List (Tensor α)}
    (hrep : RepAll ts (ps.map fun x => (pre ++ post, x))) (hpos : 0 < (pre ++ ps.length :: post).prod)
    (hfit : (pre ++ ps.length :: post).prod < 2 ^ 32) (hr : post.length < 5) (hr6 : (pre ++ post).length < 6) {axis : Axis}
    (hax : axis.axisFromRank ((pre ++ post).length + 1) = Except.ok pre.length) :
    ∃ t, Tensor.stackVec axis ts = Except.ok t ∧
      Rep t (pre ++ ps.length :: post) (concatList pre.prod post.prod (ps.map fun x => (1, x))) := by
  obtain ⟨h1, h2, h3⟩ := fits_parts hpos hfit
  refine stackVec_gen hrep ?_ h1 (pos_mid hpos).2.2 h2 hr hr6 hax
  rintro rfl; simp at hpos

end Essay
