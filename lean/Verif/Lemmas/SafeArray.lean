import Verif.Lemmas.SafeMap

/-! # Absence of undefined behaviour of the array operations (no claims here) -/

namespace Essay

open Shape

section
variable {α : Type}

theorem cols_rows_dvd (l : List Nat) (h : 0 < l.prod) :
    max ((l.reverse[0]?).getD 0) 1 * max ((l.reverse[1]?).getD 0) 1 ∣ l.prod := by
  rw [← List.prod_reverse] at h ⊢
  generalize l.reverse = r at *
  match r, h with
  | [], _ => simp
  | [c], h => 
    simp at h ⊢
    rw [Nat.max_eq_left (by omega)]
  | c :: r :: rest, h =>
    have h1 := pos_of_prod_pos h
    have hc : 0 < c := h1 c (by simp)
    have hr : 0 < r := h1 r (by simp)
    simp only [List.getElem?_cons_zero, List.getElem?_cons_succ, Option.getD_some, List.prod_cons]
    rw [Nat.max_eq_left (by omega), Nat.max_eq_left (by omega)]
    exact ⟨rest.prod, by rw [Nat.mul_assoc]⟩

theorem noUB_transpose {t : Tensor α} (h : t.LWF) : NoUB t.transpose := by
  have key : ∀ size batch cols rows s, size = batch * (cols * rows) → NoUB (Tensor.unsafeInit size s fun o => do
      let x ← t.asSlice
      forR 0 batch o fun n o =>
        forR 0 rows o fun j o =>
          forR 0 cols o fun i o => do
            let v ← idx x (n * (cols * rows) + j * cols + i)
            o.write (n * (cols * rows) + i * rows + j) v) := by
    rintro _ batch cols rows s rfl
    refine unsafeInit_safe (fun p => False ∨ ∃ n, 0 ≤ n ∧ n < batch ∧ ∃ j, 0 ≤ j ∧ j < rows ∧ ∃ i, 0 ≤ i ∧ i < cols ∧
      p = n * (cols * rows) + i * rows + j) ?_ fun b hb => ?_
    · intro p hp
      obtain ⟨n, q, h1, h2, h3⟩ := exists_mul_add hp
      obtain ⟨i, j, h4, h5, rfl⟩ := exists_mul_add h2
      exact Or.inr ⟨n, by omega, h1, j, by omega, h5, i, by omega, h4, by omega⟩
    · refine SafeR.bind' (noUB_asSlice h) fun x _ => ?_
      refine forR_has hb fun n b V _ hn hb => forR_has hb fun j b V _ hj hb => forR_has hb fun i b V _ hi hb => ?_
      refine SafeR.bind' (noUB_idx _ _) fun v _ => write_safe hb ?_ v
      have := lt_of_lt_mul hn (lt_of_lt_mul hi hj)
      omega
  unfold Tensor.transpose
  refine noUB_bind (noUB_cols _) fun c hc => ?_
  refine noUB_bind (noUB_rows _) fun r hr => ?_
  refine noUB_bind (noUB_size _) fun size hs => ?_
  refine noUB_bind (noUB_udiv _ _) fun batch hq => ?_
  have hb : size = batch * (max c 1 * max r 1) := by
    obtain ⟨_, rfl⟩ := udiv_eq_ok.1 hq
    rw [h.shape.cols_eq] at hc
    rw [h.shape.rows_eq] at hr
    cases hc; cases hr
    rw [h.shape.size_prod hs]
    rcases Nat.eq_zero_or_pos t.shape.toDims.prod with h0 | h0
    · rw [h0]; simp
    · exact (Nat.div_mul_cancel (cols_rows_dvd _ h0)).symm
  dsimp only
  split
  · exact noUB_bind (noUB_rinsert _ _ _) fun s _ => key _ _ _ _ s hb
  · refine noUB_bind (noUB_withCols _ _) fun s _ => ?_
    exact noUB_bind (noUB_withRows _ _) fun s _ => key _ _ _ _ s hb

/-! ### split -/

theorem noUB_splitPiece (t : Tensor α) (axis o i l : Nat) (x : List α) (prev cut : Nat) :
    NoUB (Tensor.splitPiece t axis o i l x prev cut) := by
  unfold Tensor.splitPiece
  refine noUB_bind (by noub) fun _ _ => ?_
  refine noUB_bind (noUB_usub _ _) fun n hn => ?_
  obtain ⟨hle, rfl⟩ := usub_eq_ok.1 hn
  refine noUB_bind (by noub) fun _ _ => ?_
  refine noUB_bind (noUB_ofVec _) fun s _ => ?_
  refine unsafeInit_safe _ ?_ fun b hb => forR_has hb fun j b V _ hj hb => forR_has hb fun k b V hk0 hk hb =>
    forR_has hb fun q b V _ hq hb => SafeR.bind' (noUB_idx _ _) fun v _ => write_safe hb ?_ v
  · intro p hp
    rw [Nat.mul_assoc, Nat.mul_comm i] at hp
    obtain ⟨j, m, h1, h2, rfl⟩ := exists_mul_add hp
    obtain ⟨k, q, h3, h4, rfl⟩ := exists_mul_add h2
    refine Or.inr ⟨j, by omega, h1, prev + k, by omega, by omega, q, by omega, h4, ?_⟩
    rw [Nat.add_sub_cancel_left, Nat.mul_assoc, Nat.mul_comm i (cut - prev), Nat.add_assoc]
  · have := lt_of_lt_mul hj (lt_of_lt_mul (show k - prev < cut - prev by omega) hq)
    rw [Nat.mul_assoc, Nat.mul_assoc, Nat.mul_comm i (cut - prev)]
    omega

theorem noUB_splitInner (t : Tensor α) (axis o i l : Nat) (x : List α) (cuts : List Nat) (prev : Nat) :
    NoUB (Tensor.splitInner t axis o i l x cuts prev) := by
  induction cuts generalizing prev with
  | nil => exact noUB_ok _
  | cons c cuts ih =>
    unfold Tensor.splitInner
    split
    · exact ih _
    · exact noUB_bind (noUB_splitPiece _ _ _ _ _ _ _ _) fun _ _ => noUB_bind (ih _) fun _ _ => noUB_ok _

theorem noUB_splitByAxis {t : Tensor α} (h : t.LWF) (axis : Nat) (cuts : List Nat) : NoUB (t.splitByAxis axis cuts) := by
  have key : ∀ o i, NoUB (do
      let l ← t.shape.dim axis
      let x ← t.asSlice
      Tensor.splitInner t axis o i l x cuts 0) := fun o i =>
    noUB_bind (noUB_dim _ _) fun _ _ => noUB_bind (noUB_asSlice h) fun _ _ => noUB_splitInner _ _ _ _ _ _ _ _
  unfold Tensor.splitByAxis
  refine noUB_bind (noUB_sublen _ _ _) fun o _ => ?_
  split
  · exact noUB_bind (noUB_sublen _ _ _) fun i _ => key o i
  · exact noUB_bind (noUB_ok _) fun i _ => key o i

theorem noUB_splitAxis {t : Tensor α} (h : t.LWF) (axis : Axis) (sec : Tensor.Sections) : NoUB (t.splitAxis axis sec) := by
  unfold Tensor.splitAxis
  refine noUB_bind (noUB_axisFromRank _ _) fun a _ => ?_
  refine noUB_bind (noUB_dim _ _) fun l _ => ?_
  refine noUB_bind (by unfold Tensor.sectionCuts; noub) fun cuts _ => ?_
  split
  · exact noUB_splitOuter _ _
  · exact noUB_splitByAxis h _ _

theorem noUB_unstack {t : Tensor α} (h : t.LWF) (axis : Axis) : NoUB (t.unstack axis) := by
  unfold Tensor.unstack
  refine noUB_bind (noUB_axisFromRank _ _) fun a _ => ?_
  dsimp only
  split
  · exact noUB_splitOuter _ _
  · exact noUB_splitAxis h _ _

/-! ### concatenate -/

theorem concatLoop_safe {axis nOuter nInner D : Nat} {ts : List (Tensor α)} (hts : ∀ t ∈ ts, t.LWF)
    {ns : List Nat} (hns : ts.map (fun t => t.shape.dim axis) = ns.map Except.ok) (c : Nat) (hD : c + ns.sum = D)
    {b : Buf α} (hb : Has (nOuter * (D * nInner))
      (fun p => ∃ j k i, j < nOuter ∧ k < c ∧ i < nInner ∧ p = j * (D * nInner) + k * nInner + i) b) :
    SafeR (forL ts (c * nInner, b) fun tensor st => do
      let nAxis ← tensor.shape.dim axis
      let x ← tensor.asSlice
      let o ← forR 0 nOuter st.2 fun j o =>
        forR 0 nAxis o fun k o =>
          forR 0 nInner o fun i o => do
            let v ← idx x (j * nAxis * nInner + k * nInner + i)
            o.write (j * (nInner * D) + st.1 + k * nInner + i) v
      return (st.1 + nAxis * nInner, o)) fun st => Has (nOuter * (D * nInner))
      (fun p => ∃ j k i, j < nOuter ∧ k < D ∧ i < nInner ∧ p = j * (D * nInner) + k * nInner + i) st.2 := by
  induction ts generalizing c b ns with
  | nil =>
    cases ns with
    | cons _ _ => simp at hns
    | nil => 
      have : c = D := by simpa using hD
      subst this
      exact safeR_pure hb
  | cons t ts ih =>
    cases ns with
    | nil => simp at hns
    | cons n ns =>
    simp only [List.map_cons, List.cons.injEq, List.sum_cons] at hns hD
    unfold forL
    rw [List.foldlM_cons]
    have hstep : SafeR (do
      let nAxis ← t.shape.dim axis
      let x ← t.asSlice
      let o ← forR 0 nOuter b fun j o =>
        forR 0 nAxis o fun k o =>
          forR 0 nInner o fun i o => do
            let v ← idx x (j * nAxis * nInner + k * nInner + i)
            o.write (j * (nInner * D) + c * nInner + k * nInner + i) v
      return (c * nInner + nAxis * nInner, o)) fun st => st.1 = (c + n) * nInner ∧ Has (nOuter * (D * nInner))
        (fun p => ∃ j k i, j < nOuter ∧ k < c + n ∧ i < nInner ∧ p = j * (D * nInner) + k * nInner + i) st.2 := by
      rw [hns.1, ok_bind]
      refine SafeR.bind' (noUB_asSlice (hts t List.mem_cons_self)) fun x _ => ?_
      refine SafeR.bind (forR_has hb fun j b V _ hj hb => forR_has hb fun k b V _ hk hb => forR_has hb fun i b V _ hi hb =>
        SafeR.bind' (noUB_idx _ _) fun v _ => write_safe hb ?_ v) fun o ho => safeR_pure ⟨by rw [Nat.add_mul], ?_⟩
      · have := lt_of_lt_mul hj (lt_of_lt_mul (show c + k < D by omega) hi)
        rw [Nat.add_mul] at this
        rw [Nat.mul_comm nInner D]
        omega
      · refine ho.mono fun p hp => ?_
        obtain ⟨j, k, i, h1, h2, h3, rfl⟩ := hp
        by_cases hk : k < c
        · exact Or.inl ⟨j, k, i, h1, hk, h3, rfl⟩
        · refine Or.inr ⟨j, by omega, h1, k - c, by omega, by omega, i, by omega, h3, ?_⟩
          have : k * nInner = c * nInner + (k - c) * nInner := by rw [← Nat.add_mul]; congr 1; omega
          rw [this, Nat.mul_comm nInner D]
          omega
    refine hstep.bind fun st hst => ?_
    obtain ⟨o, b'⟩ := st
    obtain ⟨rfl, hb'⟩ := hst
    exact ih (fun u hu => hts u (List.mem_cons_of_mem _ hu)) hns.2 (c + n) (by omega) hb'

theorem repAll_of {ts : List (Tensor α)} (h : ∀ t ∈ ts, t.LWF) {pre post : List Nat}
    (hd : ∀ t ∈ ts, ∃ d, t.shape.toDims = pre ++ d :: post) :
    ∃ ps : List (Nat × List α), RepAll (ts.map Tensor.canon) (ps.map fun p => (pre ++ p.1 :: post, p.2)) ∧
      ts.map (fun t => t.shape.dim pre.length) = (ps.map (·.1)).map Except.ok := by
  induction ts with
  | nil => exact ⟨[], .nil, rfl⟩
  | cons t ts ih =>
    obtain ⟨ps, hps, hps2⟩ := ih (fun u hu => h u (List.mem_cons_of_mem _ hu)) fun u hu => hd u (List.mem_cons_of_mem _ hu)
    obtain ⟨d, hd⟩ := hd t List.mem_cons_self
    have hw := h t List.mem_cons_self
    refine ⟨(d, t.elems) :: ps, .cons ?_ hps, ?_⟩
    · have := hw.canon_rep
      rwa [hd] at this
    · simp only [List.map_cons, hps2, List.cons.injEq, and_true]
      exact hw.shape.dim_eq (by rw [hd]; simp)

theorem noUB_concatAxis {ts : List (Tensor α)} (h : ∀ t ∈ ts, t.LWF) (axis : Nat) : NoUB (Tensor.concatAxis axis ts) := by
  unfold Tensor.concatAxis
  refine noUB_bind (noUB_idx _ _) fun a0 ha0 => ?_
  have hmem : a0 ∈ ts := List.mem_of_getElem? (idx_eq_ok.1 ha0)
  have hw0 := (h a0 hmem).shape
  have hr0 := hw0.rank_eq
  refine noUB_bind (noUB_validate _ _) fun D hD => ?_
  refine noUB_bind (noUB_remove _ _) fun sI hI => ?_
  dsimp only
  by_cases hax : axis < a0.shape.rank
  · obtain ⟨pre, d0, post, hdims, rfl⟩ : ∃ pre d0 post, a0.shape.toDims = pre ++ d0 :: post ∧ axis = pre.length := by
      have : axis < a0.shape.toDims.length := by omega
      refine ⟨a0.shape.toDims.take axis, a0.shape.toDims[axis], a0.shape.toDims.drop (axis + 1), ?_, by simp; omega⟩
      conv => lhs; rw [← List.take_append_drop axis a0.shape.toDims, List.drop_eq_getElem_cons this]
    have hagree := validate_agree hD
    have hall : ∀ t ∈ ts, ∃ d, t.shape.toDims = pre ++ d :: post := by
      intro t ht
      have hw := (h t ht).shape
      obtain ⟨e1, e2⟩ := hagree t ht a0 hmem
      have hl : t.shape.toDims.length = pre.length + (post.length + 1) := by
        rw [← hw.rank_eq, e1, hr0, hdims]; simp
      refine ⟨t.shape.toDims[pre.length]'(by omega), List.ext_getElem? fun i => ?_⟩
      by_cases hi : i < t.shape.rank
      · rw [hw.rank_eq] at hi
        by_cases hia : i = pre.length
        · subst hia
          simp
        · obtain ⟨d, e3, e4⟩ := e2 i (by rw [hw.rank_eq]; exact hi) hia
          rw [hw.dim_lt hi] at e3
          rw [hw0.dim_lt (by rw [← hr0, ← e1, hw.rank_eq]; exact hi)] at e4
          cases e3
          have e5 : a0.shape.toDims[i]? = some t.shape.toDims[i] := by
            rw [List.getElem?_eq_getElem (by rw [← hr0, ← e1, hw.rank_eq]; exact hi)]; exact congrArg some (Except.ok.inj e4)
          rw [List.getElem?_eq_getElem hi, ← e5, hdims]
          rcases Nat.lt_or_gt_of_ne hia with hlt | hgt
          · rw [List.getElem?_append_left hlt, List.getElem?_append_left hlt]
          · obtain ⟨m, rfl⟩ := Nat.exists_eq_add_of_lt hgt
            rw [List.getElem?_append_right (by omega), List.getElem?_append_right (by omega),
              show pre.length + m + 1 - pre.length = m + 1 by omega]
            simp
      · rw [hw.rank_eq] at hi
        rw [List.getElem?_eq_none (by omega), List.getElem?_eq_none (by simp; omega)]
    obtain ⟨ps, hps, hns⟩ := repAll_of h hall
    have hadm0 : Adm (pre ++ d0 :: post) := hdims ▸ hw0.adm
    have hcanon : a0.shape.canon = ofDims (pre ++ d0 :: post) := by rw [← hdims]; rfl
    have hsim : Sim sI (ofDims (pre ++ post)) := by
      have := hw0.sim.remove pre.length
      rw [hI, hcanon, remove_ofDims hadm0.len (by simp), eraseIdx_mid] at this
      cases this; assumption
    have hadmI : Adm (pre ++ post) := by
      have := hadm0.eraseIdx pre.length; rwa [eraseIdx_mid] at this
    have hval : D = (ps.map (·.1)).sum := by
      rw [← validateConcat_canon h] at hD
      unfold Tensor.validateConcat at hD
      rw [show idx (ts.map Tensor.canon) 0 = .ok a0.canon from idx_ok (by simp [idx_eq_ok.1 ha0]), ok_bind] at hD
      have := validate_loop (s := a0.canon.shape) hcanon hadm0 ps (ts.map Tensor.canon) hps 0
      rw [Nat.zero_add] at this
      exact (Except.ok.inj (this.symm.trans hD)).symm
    have hsz := sizes_sum hps
    rw [← hval, List.map_map, show ((fun t : Tensor α => t.size) ∘ Tensor.canon) = (·.size) from rfl] at hsz
    have key : ∀ no ni, no = pre.prod → ni = post.prod → NoUB (do
        let shape ← sI.insert pre.length D
        Tensor.unsafeInit (ts.map (·.size)).sum shape fun o => do
          let jStride := ni * D
          let st ← forL ts (0, o) fun tensor st => do
            let nAxis ← tensor.shape.dim pre.length
            let x ← tensor.asSlice
            let o ← forR 0 no st.2 fun j o =>
              forR 0 nAxis o fun k o =>
                forR 0 ni o fun i o => do
                  let v ← idx x (j * nAxis * ni + k * ni + i)
                  o.write (j * jStride + st.1 + k * ni + i) v
            return (st.1 + nAxis * ni, o)
          return st.2) := by
      rintro _ _ rfl rfl
      refine noUB_bind (noUB_insert _ _ _) fun s _ => ?_
      rw [hsz]
      refine unsafeInit_safe (fun p => ∃ j k i, j < pre.prod ∧ k < D ∧ i < post.prod ∧
        p = j * (D * post.prod) + k * post.prod + i) ?_ fun b hb => ?_
      · intro p hp
        obtain ⟨j, q, h1, h2, rfl⟩ := exists_mul_add hp
        obtain ⟨k, i, h3, h4, rfl⟩ := exists_mul_add h2
        exact ⟨j, k, i, h1, h3, h4, by omega⟩
      · have := concatLoop_safe (nOuter := pre.prod) (nInner := post.prod) (D := D) h hns 0 (by omega)
          (hb.mono fun p hp => by obtain ⟨_, k, _, _, h, _⟩ := hp; omega)
        rw [Nat.zero_mul] at this
        exact this.bind fun st hst => safeR_pure hst
    have hwfI := wf_ofDims hadmI
    rw [hsim.1, hsim.sublen, hsim.sublen]
    refine noUB_bind (noUB_sublen _ _ _) fun no hno => ?_
    have hno' := sublen_eq_ok hwfI (Nat.zero_le _) (by simp) hno
    rw [toDims_ofDims] at hno'
    split
    · refine noUB_bind (noUB_sublen _ _ _) fun ni hni => ?_
      have hni' := sublen_eq_ok hwfI (by omega) (Nat.le_refl _) hni
      rw [toDims_ofDims] at hni'
      exact key no ni (by simpa using hno') (by simpa using hni')
    · rename_i hc
      have : post = [] := by simpa using hc
      subst this
      exact noUB_bind (noUB_ok _) fun ni hni => key no ni (by simpa using hno') (by cases hni; rfl)
  · exfalso
    unfold remove at hI
    exact hax (ensure_bind_eq_ok.1 hI).1

theorem noUB_concatenateAxis {ts : List (Tensor α)} (h : ∀ t ∈ ts, t.LWF) (axis : Axis) :
    NoUB (Tensor.concatenateAxis axis ts) := by
  unfold Tensor.concatenateAxis
  split
  · exact noUB_bind (noUB_axisFromRank _ _) fun _ _ => noUB_concatAxis h _
  · exact noUB_bind (noUB_ok _) fun _ _ => noUB_concatAxis h _

theorem noUB_stackVec {ts : List (Tensor α)} (h : ∀ t ∈ ts, t.LWF) (axis : Axis) : NoUB (Tensor.stackVec axis ts) := by
  unfold Tensor.stackVec
  refine noUB_bind (noUB_stackCheck _) fun s hs => ?_
  refine noUB_bind (noUB_idx _ _) fun x0 hx0 => ?_
  have hmem : x0 ∈ ts := List.mem_of_getElem? (idx_eq_ok.1 hx0)
  dsimp only
  refine noUB_bind (noUB_axisFromRank _ _) fun a ha => ?_
  refine noUB_bind (noUB_size _) fun xLen hx => ?_
  refine noUB_bind (noUB_sublen _ _ _) fun ni hni => ?_
  refine noUB_bind (noUB_udiv _ _) fun no hno => ?_
  refine noUB_bind (noUB_insert _ _ _) fun o _ => ?_
  have hagree := stackCheck_agree hs
  have hsz : (ts.map (·.size)).sum = ts.length * xLen := by
    have : ∀ t ∈ ts, t.size = xLen := fun t ht => by
      have h1 := (h t ht).size
      rw [hagree t ht x0 hmem, hx] at h1
      exact (Except.ok.inj h1).symm
    clear * - this
    induction ts with
    | nil => simp
    | cons t ts ih =>
      rw [List.map_cons, List.sum_cons, ih fun u hu => this u (List.mem_cons_of_mem _ hu), this t List.mem_cons_self,
        List.length_cons, Nat.succ_mul, Nat.add_comm]
  have hprod : xLen = no * ni := by
    obtain ⟨hne, rfl⟩ := udiv_eq_ok.1 hno
    refine (Nat.div_mul_cancel ?_).symm
    have hle : a ≤ x0.shape.rank := by
      unfold Axis.axisFromRank at ha
      split at ha
      · obtain ⟨_, _, ha⟩ := bind_eq_ok.1 ha
        obtain ⟨_, rfl⟩ := umod_eq_ok.1 ha
        exact Nat.lt_succ_iff.1 (Nat.mod_lt _ (by omega))
      · cases ha; omega
    have := (h x0 hmem).shape.sublen_ok hle (Nat.le_refl _) hni
    rw [(h x0 hmem).shape.size_prod hx, this]
    rw [List.take_of_length_le (by have := (h x0 hmem).shape.rank_eq; simp; omega)]
    conv => rhs; rw [← List.take_append_drop a x0.shape.toDims, List.prod_append]
    exact Nat.dvd_mul_left _ _
  rw [hsz, hprod]
  refine unsafeInit_safe _ ?_ fun b hb => forR_has hb
    (W := fun j p => ∃ k, 0 ≤ k ∧ k < no ∧ ∃ i, 0 ≤ i ∧ i < ni ∧ p = (k * ts.length + j) * ni + i) fun j b V _ hj hb => ?_
  · intro p hp
    rw [← Nat.mul_assoc, Nat.mul_comm ts.length] at hp
    obtain ⟨q, i, h1, h2, rfl⟩ := exists_mul_add hp
    obtain ⟨k, j, h3, h4, rfl⟩ := exists_mul_add h1
    exact Or.inr ⟨j, by omega, h4, k, by omega, h3, i, by omega, h2, rfl⟩
  · refine SafeR.bind' (noUB_idx _ _) fun x hx => ?_
    refine SafeR.bind' (noUB_ensure _) fun _ _ => ?_
    refine SafeR.bind' (noUB_asSlice (h x (List.mem_of_getElem? (idx_eq_ok.1 hx)))) fun xs _ => ?_
    refine forR_has hb fun k b V _ hk hb => forR_has hb fun i b V _ hi hb => ?_
    refine SafeR.bind' (noUB_idx _ _) fun v _ => write_safe hb ?_ v
    rw [← Nat.mul_assoc, Nat.mul_comm ts.length]
    exact lt_of_lt_mul (lt_of_lt_mul hk hj) hi

theorem noUB_hstack {ts : List (Tensor α)} (h : ∀ t ∈ ts, t.LWF) : NoUB (Tensor.hstack ts) := by
  unfold Tensor.hstack
  refine noUB_bind (noUB_idx _ _) fun x0 hx0 => ?_
  split <;> exact noUB_concatenateAxis h _

theorem reshape_wf {t : Tensor α} {s : Shape} (h : t.LWF) (hs : ShapeOk Rules.all s) : Post (t.reshape s) Tensor.LWF := by
  unfold Tensor.reshape
  refine Post.bind' fun n hn => Post.bind' fun _ he => post_pure ?_
  have he := ensure_eq_ok.1 he
  exact Good.wf (R := Rules.all) ⟨hs, h.bound, fun _ => by rw [← he]; exact hn⟩ trivial trivial

theorem dstackArg_safe {x : Tensor α} (h : x.LWF) : SafeR (Tensor.dstackArg x) Tensor.LWF := by
  have key : ∀ l, SafeR (do
      let s ← Shape.ofSlice l
      x.reshape s) Tensor.LWF := fun l =>
    SafeR.bind' (noUB_ofSlice _) fun s hs => ⟨noUB_reshape _ _, reshape_wf h (ofSlice_good s hs)⟩
  unfold Tensor.dstackArg
  split
  · exact ⟨noUB_panic, post_error⟩
  · exact key _
  · exact SafeR.bind' (noUB_rows _) fun _ _ => SafeR.bind' (noUB_cols _) fun _ _ => key _
  · exact safeR_pure h

theorem noUB_dstack {ts : List (Tensor α)} (h : ∀ t ∈ ts, t.LWF) : NoUB (Tensor.dstack ts) := by
  unfold Tensor.dstack
  refine noUB_bind (noUB_idx _ _) fun x0 hx0 => ?_
  have : SafeR (Tensor.dstackArgs x0.shape ts) fun ys => ∀ y ∈ ys, y.LWF := by
    unfold Tensor.dstackArgs
    refine forL_safeR _ (by simp) fun x hx acc hacc => ?_
    refine SafeR.bind' (noUB_ensure _) fun _ _ => (dstackArg_safe (h x hx)).bind fun y hy => safeR_pure ?_
    intro z hz
    rcases List.mem_append.1 hz with hz | hz
    · exact hacc z hz
    · rw [List.mem_singleton.1 hz]; exact hy
  exact noUB_bind this.1 fun ys hys => noUB_concatenateAxis (this.2 ys hys) _

theorem noUB_vstack {ts : List (Tensor α)} (h : ∀ t ∈ ts, t.LWF) : NoUB (Tensor.vstack ts) := by
  unfold Tensor.vstack
  have : SafeR (forL ts [] fun t acc => do
      let s ← t.shape.insert 0 1
      let y ← t.reshape s
      return acc ++ [y]) fun ys => ∀ y ∈ ys, y.LWF := by
    refine forL_safeR _ (by simp) fun x hx acc hacc => ?_
    refine SafeR.bind' (noUB_insert _ _ _) fun s hs => ?_
    have hsw : ShapeOk Rules.all s := insert_good ⟨⟨(h x hx).shape.len, (h x hx).shape.lt⟩, fun _ _ => (h x hx).shape.zero⟩ s hs
    refine SafeR.bind (Q := Tensor.LWF) ⟨noUB_reshape _ _, reshape_wf (h x hx) hsw⟩ fun y hy => safeR_pure ?_
    intro z hz
    rcases List.mem_append.1 hz with hz | hz
    · exact hacc z hz
    · rw [List.mem_singleton.1 hz]; exact hy
  exact noUB_bind this.1 fun ys hys => noUB_concatenateAxis (this.2 ys hys) _

/-! ### tile -/

theorem noUB_tile_wf {t : Tensor α} (h : t.WF) {m : Tensor Nat} (hm : m.WF) (hr : m.shape.rank = 1) : NoUB (t.tile m) := by
  have ht := h.rep
  have hm' := hm.rep
  generalize t.shape.toDims = ds at ht
  generalize t.elems = xs at ht
  generalize m.elems = ms at hm'
  obtain ⟨k, hk⟩ : ∃ k, m.shape.toDims = [k] := by
    have := hm.shape.rank_eq
    rw [hr] at this
    exact List.length_eq_one_iff.1 this.symm
  rw [hk] at hm'
  have hk' : ms.length = k := by rw [hm'.length]; simp
  subst hk'
  have hlen : m.shape.len = Except.ok ms.length := by
    unfold Shape.len
    exact dim_eq hm.shape (by rw [hk]; rfl)
  unfold Tensor.tile
  rw [asVec_eq h.shape, ok_bind, ht.toDims, hm'.elems, ok_bind, ht.size_eq, ok_bind, ht.elems, ok_bind, hlen, ok_bind, ht.rank]
  have htl := tile_shape (ds := ds) (ms := ms) (N := max ds.length ms.length)
  dsimp only at htl ⊢
  rw [htl, ok_bind]
  refine noUB_bind (noUB_ofVec _) fun s _ => ?_
  unfold Tensor.unsafeInit
  rcases Nat.eq_zero_or_pos (max ds.length ms.length) with h0 | h0
  · rw [h0]
    exact noUB_panic
  obtain ⟨n, hn⟩ : ∃ n, max ds.length ms.length = n + 1 := ⟨max ds.length ms.length - 1, by omega⟩
  have hem := tileRec_emits xs ds.reverse ms.reverse n 0 xs.length (by
    rw [← padLeft_eq_downFrom (by omega), padLeft_prod, ht.length]) (by omega)
  rw [List.drop_zero, List.take_length, ← padLeft_eq_downFrom (by omega), ← padLeft_eq_downFrom (by omega)] at hem
  have hl := tileElems_length (padLeft (n + 1) ms) (padLeft (n + 1) ds)
    (by rw [padLeft_length (by omega), padLeft_length (by omega)]) xs (by rw [padLeft_prod, ht.length])
  rw [mulDims_prod (by rw [padLeft_length (by omega), padLeft_length (by omega)]), padLeft_prod, padLeft_prod] at hl
  obtain ⟨k, ek⟩ := emits_complete (L := ms.foldl (· * ·) 1 * ds.prod) hem (by rw [foldl_mul_eq, Nat.one_mul, hl])
  rw [usub_ok (by omega), hn]
  simp only [ok_bind, Nat.add_sub_cancel, ek]
  unfold Tensor.finish
  rw [pure_eq_ok, ok_bind]
  simp only [Buf.complete_map_some]
  exact noUB_new _

theorem noUB_tile {t : Tensor α} (h : t.LWF) {m : Tensor Nat} (hm : m.LWF) (hr : m.shape.rank = 1) : NoUB (t.tile m) := by
  have e : t.tile m = t.canon.tile m.canon := by
    unfold Tensor.tile Shape.len
    simp only [Tensor.canon, h.shape.asVec_canon, h.shape.size_canon, h.shape.rank_canon, hm.shape.dim_canon]
    rfl
  rw [e]
  exact noUB_tile_wf h.canon_wf hm.canon_wf (hm.shape.rank_canon.trans hr)

end

end Essay
