import Verif.Lemmas.Array
import Verif.Props.Tensor

/-! # Helper lemmas for splitting and stacking (no claims here) -/

namespace Essay

open Shape

variable {α : Type}

theorem usub_err {a b : Nat} (h : a < b) : usub a b = Except.error .panic := by
  unfold usub; rw [if_neg (by omega)]; rfl

/-- Source position of position `p` of the part `lo ..` (length `n`) of an axis of length `d`. -/
def sliceSrc (d inner lo n p : Nat) : Nat := p / (n * inner) * (d * inner) + lo * inner + p % (n * inner)

theorem sliceSrc_lt {outer d inner lo n p : Nat} (h : lo + n ≤ d) (hp : p < outer * (n * inner)) :
    sliceSrc d inner lo n p < outer * (d * inner) := by
  unfold sliceSrc
  rw [Nat.add_assoc]
  apply lt_mul_add (div_lt_of_lt_mul' hp)
  have h1 := Nat.mod_lt p (pos_right_of_lt_mul hp)
  have h2 := Nat.mul_le_mul_right inner h
  rw [Nat.add_mul] at h2
  omega

theorem sliceSrc_at {d inner lo n j q : Nat} (hq : q < n * inner) :
    sliceSrc d inner lo n (j * (n * inner) + q) = j * (d * inner) + lo * inner + q := by
  unfold sliceSrc
  rw [mul_add_div' hq, mul_add_mod' hq]

/-- The elements of the part `lo .. lo + n` along an axis. -/
def sliceList (outer d inner lo n : Nat) (xs : List α) : List α :=
  gather (outer * (n * inner)) (sliceSrc d inner lo n) xs

theorem sliceList_length {outer d inner lo n : Nat} {xs : List α} (hx : xs.length = outer * (d * inner)) (h : lo + n ≤ d) :
    (sliceList outer d inner lo n xs).length = outer * (n * inner) :=
  gather_length fun p hp => by rw [hx]; exact sliceSrc_lt h hp

theorem sliceList_get {outer d inner lo n : Nat} {xs : List α} (hx : xs.length = outer * (d * inner)) (h : lo + n ≤ d)
    {j q : Nat} (hj : j < outer) (hq : q < n * inner) :
    (sliceList outer d inner lo n xs)[j * (n * inner) + q]? = xs[j * (d * inner) + lo * inner + q]? := by
  unfold sliceList
  rw [gather_get (fun p hp => by rw [hx]; exact sliceSrc_lt h hp) (lt_mul_add hj hq), sliceSrc_at hq]

theorem sliceList_isSlice {pre post : List Nat} {d lo n : Nat} {xs : List α} (hx : xs.length = (pre ++ d :: post).prod)
    (h : lo + n ≤ d) : IsSlice pre d post xs lo n (sliceList pre.prod d post.prod lo n xs) := by
  rw [List.prod_append, List.prod_cons] at hx
  apply isSlice_of_pos
  · rw [sliceList_length hx h, List.prod_append, List.prod_cons]
  · exact h
  · intro j q hj hq
    exact sliceList_get hx h hj hq

theorem splitPiece_eq {t : Tensor α} {pre post : List Nat} {d : Nat} {xs : List α} (h : Rep t (pre ++ d :: post) xs)
    (hne : xs ≠ []) {lo hi : Nat} (hlo : lo < hi) (hhi : hi ≤ d) :
    ∃ u ys, Tensor.splitPiece t pre.length pre.prod post.prod d xs lo hi = Except.ok u ∧
      Rep u (pre ++ (hi - lo) :: post) ys ∧ IsSlice pre d post xs lo (hi - lo) ys := by
  have hxp : 0 < (pre ++ d :: post).prod := by rw [← h.length]; exact List.length_pos_iff.2 hne
  have hpos := pos_of_prod_pos hxp
  have hlen := h.adm.len
  have hx : xs.length = pre.prod * (d * post.prod) := by rw [h.length, List.prod_append, List.prod_cons]
  have hd : d < 4294967296 := h.adm.lt d (by simp)
  have hadm : Adm (pre ++ (hi - lo) :: post) := ⟨by simp at hlen ⊢; omega, fun e he => by
    rcases List.mem_append.1 he with h1 | h1
    · exact h.adm.lt e (List.mem_append_left _ h1)
    · rcases List.mem_cons.1 h1 with rfl | h1
      · omega
      · exact h.adm.lt e (List.mem_append_right _ (List.mem_cons_of_mem _ h1))⟩
  have hposn : ∀ e ∈ pre ++ (hi - lo) :: post, 0 < e := by
    intro e he
    rcases List.mem_append.1 he with h1 | h1
    · exact hpos e (List.mem_append_left _ h1)
    · rcases List.mem_cons.1 h1 with rfl | h1
      · omega
      · exact hpos e (List.mem_append_right _ (List.mem_cons_of_mem _ h1))
  have hle : (pre ++ (hi - lo) :: post).prod ≤ (pre ++ d :: post).prod := by
    rw [List.prod_append, List.prod_append, List.prod_cons, List.prod_cons]
    exact Nat.mul_le_mul_left _ (Nat.mul_le_mul_right _ (by omega))
  have hfit : Fits (pre ++ (hi - lo) :: post) := fits_of_pos (prod_pos hposn) (by have := h.prod_lt; omega)
  unfold Tensor.splitPiece
  rw [forR_dims h.wf.shape (Nat.zero_le _) (by rw [h.rank]; simp), ok_bind, usub_ok (by omega), ok_bind, h.rank,
    forR_dims h.wf.shape (by simp) (by rw [h.rank]; exact Nat.le_refl _), ok_bind, h.toDims]
  have ev : [] ++ List.take (pre.length - 0) (List.drop 0 (pre ++ d :: post)) ++ [hi - lo] ++
      List.take ((pre ++ d :: post).length - (pre.length + 1)) (List.drop (pre.length + 1) (pre ++ d :: post)) =
      pre ++ (hi - lo) :: post := by
    have : List.drop (pre.length + 1) (pre ++ d :: post) = post := by
      rw [List.drop_append]; simp
    rw [this]
    simp [show pre.length + (post.length + 1) - (pre.length + 1) = post.length by omega]
  rw [ev, ofVec_adm hadm hposn, ok_bind]
  have hsl : lo + (hi - lo) ≤ d := by omega
  have hyl := sliceList_length (xs := xs) hx hsl
  obtain ⟨u, eu, ru⟩ := unsafeInit_puts_rep (ys := sliceList pre.prod d post.prod lo (hi - lo) xs)
    (L := pre.prod * post.prod * (hi - lo))
    (P := fun p => ∃ j, 0 ≤ j ∧ j < pre.prod ∧ ∃ k, lo ≤ k ∧ k < hi ∧ ∃ i, 0 ≤ i ∧ i < post.prod ∧
      p = j * post.prod * (hi - lo) + (k - lo) * post.prod + i)
    (body := fun o => forR 0 pre.prod o fun j o =>
      forR lo hi o fun k o =>
        forR 0 post.prod o fun i o => do
          let v ← idx xs (j * d * post.prod + k * post.prod + i)
          o.write (j * post.prod * (hi - lo) + (k - lo) * post.prod + i) v)
    (by rw [hyl]; grind)
    (by
      apply puts_loop
      intro j _ hj
      apply puts_loop
      intro k hk1 hk2
      apply puts_loop
      intro i _ hi'
      have hq : (k - lo) * post.prod + i < (hi - lo) * post.prod := lt_mul_add (by omega) hi'
      have e1 : j * post.prod * (hi - lo) + (k - lo) * post.prod + i =
          j * ((hi - lo) * post.prod) + ((k - lo) * post.prod + i) := by grind
      have e2 : j * d * post.prod + k * post.prod + i =
          j * (d * post.prod) + lo * post.prod + ((k - lo) * post.prod + i) := by
        obtain ⟨m, rfl⟩ : ∃ m, k = lo + m := ⟨k - lo, by omega⟩
        rw [Nat.add_sub_cancel_left]; grind
      apply puts_copy
      · rw [hx, Nat.mul_assoc, Nat.add_assoc]
        exact lt_mul_add hj (lt_mul_add (by omega) hi')
      · rw [e1, e2, sliceList_get hx hsl hj hq])
    (by
      intro p hp
      rw [hyl] at hp
      have hpos' := pos_right_of_lt_mul hp
      have hr : 0 < post.prod := by rcases Nat.eq_zero_or_pos post.prod with h | h <;> simp_all
      have hm := Nat.mod_lt p hpos'
      refine ⟨p / ((hi - lo) * post.prod), Nat.zero_le _, div_lt_of_lt_mul' hp,
        lo + p % ((hi - lo) * post.prod) / post.prod, Nat.le_add_right _ _, ?_, p % ((hi - lo) * post.prod) % post.prod, Nat.zero_le _,
        Nat.mod_lt _ hr, ?_⟩
      · have := div_lt_of_lt_mul' hm; omega
      · have e1 := Nat.div_add_mod p ((hi - lo) * post.prod)
        have e2 := Nat.div_add_mod (p % ((hi - lo) * post.prod)) post.prod
        rw [Nat.add_sub_cancel_left]
        rw [Nat.mul_comm] at e1 e2
        rw [show p / ((hi - lo) * post.prod) * post.prod * (hi - lo) =
          p / ((hi - lo) * post.prod) * ((hi - lo) * post.prod) by grind]
        omega)
    hadm hfit (by rw [hyl, List.prod_append, List.prod_cons])
  refine ⟨u, _, eu, ru, ?_⟩
  exact sliceList_isSlice (by rw [h.length]) hsl

theorem splitInner_eq {t : Tensor α} {pre post : List Nat} {d : Nat} {xs : List α} (h : Rep t (pre ++ d :: post) xs)
    (hne : xs ≠ []) (cuts : List Nat) (prev : Nat) (hasc : Ascending prev cuts) (hle : ∀ c ∈ cuts, c ≤ d) :
    ∃ ts, Tensor.splitInner t pre.length pre.prod post.prod d xs cuts prev = Except.ok ts ∧
      IsPieces pre d post xs ts (ranges prev cuts) := by
  induction cuts generalizing prev with
  | nil => exact ⟨[], rfl, .nil⟩
  | cons c cuts ih =>
    unfold Tensor.splitInner ranges
    by_cases hc : c = prev
    · subst hc
      rw [if_pos rfl, if_neg (by omega)]
      exact ih _ hasc.2 fun c' hc' => hle c' (List.mem_cons_of_mem _ hc')
    · have hlt : prev < c := by have := hasc.1; omega
      obtain ⟨ts, e, hp⟩ := ih c hasc.2 fun c' hc' => hle c' (List.mem_cons_of_mem _ hc')
      obtain ⟨u, ys, eu, ru, su⟩ := splitPiece_eq h hne hlt (hle c List.mem_cons_self)
      rw [if_neg hc, if_pos hlt, eu, ok_bind, e, ok_bind]
      exact ⟨_, rfl, .cons ru su hp⟩

theorem splitOuter_eq {t : Tensor α} {post : List Nat} {d : Nat} {xs : List α} (h : Rep t (d :: post) xs)
    (hne : xs ≠ []) (cuts : List Nat) (prev : Nat) (hasc : Ascending prev cuts) (hle : ∀ c ∈ cuts, c ≤ d) :
    ∃ ts, Tensor.splitOuter t cuts prev = Except.ok ts ∧ IsPieces [] d post xs ts (ranges prev cuts) := by
  have hxp : 0 < (d :: post).prod := by rw [← h.length]; exact List.length_pos_iff.2 hne
  have hpos := pos_of_prod_pos hxp
  induction cuts generalizing prev with
  | nil => exact ⟨[], rfl, .nil⟩
  | cons c cuts ih =>
    unfold Tensor.splitOuter ranges
    obtain ⟨ts, e, hp⟩ := ih c hasc.2 fun c' hc' => hle c' (List.mem_cons_of_mem _ hc')
    by_cases hc : c = prev
    · subst hc
      rw [if_neg (by simp), if_neg (by omega)]
      exact ⟨ts, e, hp⟩
    · have hlt : prev < c := by have := hasc.1; omega
      have hcd := hle c List.mem_cons_self
      rw [if_pos hc, if_pos hlt, usub_ok (by omega), ok_bind]
      obtain ⟨u, eu, ru⟩ := (C09_subslice h (fun e he => hpos e (List.mem_cons_of_mem _ he)) prev (c - prev)).1 (by omega)
      rw [eu, ok_bind, e, ok_bind]
      refine ⟨_, rfl, .cons ru ?_ hp⟩
      apply isSlice_of_pos
      · have := ru.length; simpa using this
      · omega
      · intro j q hj hq
        have hj0 : j = 0 := by simpa using hj
        subst hj0
        rw [Nat.zero_mul, Nat.zero_mul, Nat.zero_add, Nat.zero_add, List.getElem?_take, if_pos hq, List.getElem?_drop]

/-- `split_axis` on ascending cuts. -/
theorem splitAxis_eq {t : Tensor α} {pre post : List Nat} {d : Nat} {xs : List α} (h : Rep t (pre ++ d :: post) xs)
    (hne : xs ≠ []) {axis : Axis} (hax : axis.axisFromRank (pre ++ d :: post).length = Except.ok pre.length)
    {sec : Tensor.Sections} {cuts : List Nat} (hsec : Tensor.sectionCuts d sec = Except.ok cuts)
    (hasc : Ascending 0 cuts) (hle : ∀ c ∈ cuts, c ≤ d) :
    ∃ ts, Tensor.splitAxis t axis sec = Except.ok ts ∧ IsPieces pre d post xs ts (ranges 0 cuts) := by
  have hxp : 0 < (pre ++ d :: post).prod := by rw [← h.length]; exact List.length_pos_iff.2 hne
  have hdim : t.shape.dim pre.length = Except.ok d := dim_eq h.wf.shape (by rw [h.toDims]; simp)
  unfold Tensor.splitAxis
  rw [h.rank, hax, ok_bind, hdim, ok_bind, hsec, ok_bind]
  by_cases h0 : pre.length = 0
  · rw [if_pos h0]
    have : pre = [] := List.length_eq_zero_iff.1 h0
    subst this
    exact splitOuter_eq h hne cuts 0 hasc hle
  · rw [if_neg h0]
    unfold Tensor.splitByAxis
    have hp1 : 0 < t.shape.toDims.prod := by rw [h.toDims]; exact hxp
    have hp2 : t.shape.toDims.prod < 4294967296 := by rw [h.toDims]; exact h.prod_lt
    rw [sublen_ok h.wf.shape (Nat.zero_le _) (by rw [h.rank]; simp) hp1 hp2, ok_bind, h.rank, if_pos (by simp),
      sublen_ok h.wf.shape (by simp) (by rw [h.rank]; exact Nat.le_refl _) hp1 hp2]
    dsimp only
    rw [hdim, ok_bind, h.elems,
      ok_bind, h.toDims]
    have e1 : (List.take (pre.length - 0) (List.drop 0 (pre ++ d :: post))).prod = pre.prod := by simp
    have e2 : (List.take ((pre ++ d :: post).length - (pre.length + 1)) (List.drop (pre.length + 1) (pre ++ d :: post))).prod
        = post.prod := by
      have : List.drop (pre.length + 1) (pre ++ d :: post) = post := by
        rw [List.drop_append]; simp
      rw [this]
      simp [show pre.length + (post.length + 1) - (pre.length + 1) = post.length by omega]
    rw [e1, e2]
    exact splitInner_eq h hne cuts 0 hasc hle

/-! ### when splitting fails -/

theorem noUB_subslice {t : Tensor α} (o n : Nat) : NoUB (t.subslice o n) := by
  unfold Tensor.subslice
  simp only [wrap_checked]
  refine noUB_bind (noUB_dim _ _) fun _ _ => noUB_bind (by simp) fun _ _ => noUB_bind (forR_noUB' fun _ _ => noUB_bind (noUB_dim _ _) fun _ _ => by simp) fun _ _ =>
    noUB_bind (by simp) fun _ _ => ?_
  refine noUB_bind (by simp) fun _ _ => noUB_bind (noUB_ofVec _) fun _ _ => ?_
  unfold Tensor.subsliceFlat
  simp only [wrap_checked]
  exact noUB_bind (by simp) fun _ _ => noUB_bind (by simp) fun _ _ => noUB_bind (noUB_size _) fun _ _ =>
    noUB_bind (by simp) fun _ _ => by simp

theorem splitOuter_asc {t : Tensor α} (cuts : List Nat) (prev : Nat) {ts : List (Tensor α)}
    (h : Tensor.splitOuter t cuts prev = Except.ok ts) : Ascending prev cuts := by
  induction cuts generalizing prev ts with
  | nil => trivial
  | cons c cuts ih =>
    unfold Tensor.splitOuter at h
    by_cases hc : c = prev
    · subst hc
      rw [if_neg (by simp)] at h
      exact ⟨Nat.le_refl _, ih _ h⟩
    · rw [if_pos hc] at h
      obtain ⟨n, hn, h⟩ := bind_eq_ok.1 h
      obtain ⟨_, _, h⟩ := bind_eq_ok.1 h
      obtain ⟨_, hr, h⟩ := bind_eq_ok.1 h
      exact ⟨(usub_eq_ok.1 hn).1, ih _ hr⟩

theorem noUB_splitOuter {t : Tensor α} (cuts : List Nat) (prev : Nat) : NoUB (Tensor.splitOuter t cuts prev) := by
  induction cuts generalizing prev with
  | nil => simp [Tensor.splitOuter]
  | cons c cuts ih =>
    unfold Tensor.splitOuter
    split
    · exact noUB_bind (by simp) fun _ _ => noUB_bind (noUB_subslice _ _) fun _ _ => noUB_bind (ih _) fun _ _ => by simp
    · exact ih _

theorem splitPiece_asc {t : Tensor α} {a o i l : Nat} {x : List α} {prev cut : Nat} {u : Tensor α}
    (h : Tensor.splitPiece t a o i l x prev cut = Except.ok u) : prev ≤ cut := by
  unfold Tensor.splitPiece at h
  obtain ⟨_, _, h⟩ := bind_eq_ok.1 h
  obtain ⟨n, hn, h⟩ := bind_eq_ok.1 h
  exact (usub_eq_ok.1 hn).1

theorem splitInner_asc {t : Tensor α} {a o i l : Nat} {x : List α} (cuts : List Nat) (prev : Nat) {ts : List (Tensor α)}
    (h : Tensor.splitInner t a o i l x cuts prev = Except.ok ts) : Ascending prev cuts := by
  induction cuts generalizing prev ts with
  | nil => trivial
  | cons c cuts ih =>
    unfold Tensor.splitInner at h
    by_cases hc : c = prev
    · subst hc
      rw [if_pos rfl] at h
      exact ⟨Nat.le_refl _, ih _ h⟩
    · rw [if_neg hc] at h
      obtain ⟨n, hn, h⟩ := bind_eq_ok.1 h
      obtain ⟨_, hr, h⟩ := bind_eq_ok.1 h
      exact ⟨splitPiece_asc hn, ih _ hr⟩

/-! ### equal sections -/

theorem equalCuts_eq {len step : Nat} (hs : 0 < step) (fuel k : Nat)
    (hf : (len + step - 1) / step ≤ fuel + k) :
    Tensor.equalCuts len step fuel (k * step) =
      (List.range' (k + 1) ((len + step - 1) / step - k)).map (· * step) := by
  have hiff : ∀ k, k * step < len ↔ k < (len + step - 1) / step := by
    intro k
    rw [← Nat.succ_le_iff (m := k), Nat.le_div_iff_mul_le hs, Nat.succ_mul]
    omega
  induction fuel generalizing k with
  | zero =>
    have : (len + step - 1) / step - k = 0 := by omega
    simp [Tensor.equalCuts, this]
  | succ fuel ih =>
    unfold Tensor.equalCuts
    by_cases hk : k < (len + step - 1) / step
    · rw [if_pos ((hiff k).2 hk)]
      have e : (len + step - 1) / step - k = ((len + step - 1) / step - (k + 1)) + 1 := by omega
      rw [e, List.range'_succ, List.map_cons, ← Nat.succ_mul, ih (k + 1) (by omega)]
    · rw [if_neg (fun h => hk ((hiff k).1 h))]
      have : (len + step - 1) / step - k = 0 := by omega
      simp [this]

theorem ceil_le {len step : Nat} (hs : 0 < step) : (len + step - 1) / step ≤ len := by
  rw [Nat.div_le_iff_le_mul_add_pred hs]
  have : len ≤ step * len := Nat.le_mul_of_pos_left _ hs
  omega

theorem ascending_mul (step k n : Nat) : Ascending (k * step) ((List.range' (k + 1) n).map (· * step)) := by
  induction n generalizing k with
  | zero => trivial
  | succ n ih =>
    rw [List.range'_succ, List.map_cons]
    exact ⟨Nat.mul_le_mul_right _ (by omega), ih _⟩

theorem ranges_mul {step : Nat} (hs : 0 < step) (k n : Nat) :
    ranges (k * step) ((List.range' (k + 1) n).map (· * step)) =
      (List.range' k n).map fun i => (i * step, (i + 1) * step) := by
  induction n generalizing k with
  | zero => rfl
  | succ n ih =>
    rw [List.range'_succ, List.map_cons, ranges, if_pos (by rw [Nat.succ_mul]; omega), ih, List.range'_succ (s := k)]
    rfl

/-! ### putting the pieces together again -/

theorem ranges_sum (cs : List Nat) (prev last : Nat) (h : Ascending prev (cs ++ [last])) :
    ((ranges prev (cs ++ [last])).map fun r => r.2 - r.1).sum = last - prev := by
  induction cs generalizing prev with
  | nil =>
    have := h.1
    simp only [List.nil_append, ranges]
    split
    · simp
    · simp; omega
  | cons c cs ih =>
    have h1 := h.1
    have := ih c h.2
    have h3 : c ≤ last := by
      have : ∀ (cs : List Nat) (p : Nat), Ascending p (cs ++ [last]) → p ≤ last := by
        intro cs
        induction cs with
        | nil => intro p hp; exact hp.1
        | cons a cs ih => intro p hp; exact Nat.le_trans hp.1 (ih a hp.2)
      exact this cs c h.2
    simp only [List.cons_append, ranges]
    split
    · rw [List.map_cons, List.sum_cons, this]; omega
    · rw [this]; omega

theorem ascending_le {cs : List Nat} {p last : Nat} (h : Ascending p (cs ++ [last])) : ∀ c ∈ cs ++ [last], c ≤ last := by
  induction cs generalizing p with
  | nil => intro c hc; simp at hc; omega
  | cons a cs ih =>
    intro c hc
    rcases List.mem_cons.1 hc with rfl | hc
    · have := ih h.2 last (by simp)
      have h2 : ∀ (cs : List Nat) (p : Nat), Ascending p (cs ++ [last]) → p ≤ last := by
        intro cs
        induction cs with
        | nil => intro p hp; exact hp.1
        | cons a cs ih => intro p hp; exact Nat.le_trans hp.1 (ih a hp.2)
      exact h2 cs c h.2
    · exact ih h.2 c hc

theorem IsPieces.parts {pre post : List Nat} {d : Nat} {xs : List α} {ts : List (Tensor α)} {rs : List (Nat × Nat)}
    (h : IsPieces pre d post xs ts rs) :
    ∃ yss : List (List α), yss.length = rs.length ∧
      RepAll ts ((List.zipWith (fun r ys => (r.2 - r.1, ys)) rs yss).map fun p => (pre ++ p.1 :: post, p.2)) ∧
      ∀ (k : Nat) (r : Nat × Nat) (ys : List α), rs[k]? = some r → yss[k]? = some ys → IsSlice pre d post xs r.1 (r.2 - r.1) ys := by
  induction h with
  | nil => exact ⟨[], rfl, .nil, by simp⟩
  | cons hr hs _ ih =>
    obtain ⟨yss, h1, h2, h3⟩ := ih
    refine ⟨_ :: yss, by simp [h1], .cons hr h2, ?_⟩
    intro k r ys hk hy
    cases k with
    | zero => simp at hk hy; subst hk hy; exact hs
    | succ k => exact h3 k r ys (by simpa using hk) (by simpa using hy)

/-- In an ascending list of cuts each range starts where the widths of the earlier ranges add up to. -/
theorem ranges_start (cs : List Nat) (prev : Nat) (h : Ascending prev cs) (k : Nat) (r : Nat × Nat)
    (hk : (ranges prev cs)[k]? = some r) :
    r.1 = prev + (((ranges prev cs).take k).map fun r => r.2 - r.1).sum := by
  induction cs generalizing prev k with
  | nil => simp [ranges] at hk
  | cons c cs ih =>
    unfold ranges at hk ⊢
    split at hk
    · rename_i hlt
      rw [if_pos hlt]
      cases k with
      | zero => simp at hk; subst hk; simp
      | succ k =>
        rw [List.take_succ_cons, List.map_cons, List.sum_cons, ih c h.2 k (by simpa using hk)]
        simp only
        omega
    · rename_i hlt
      rw [if_neg hlt]
      have : c = prev := by have := h.1; omega
      subst this
      exact ih _ h.2 k hk

/-- Every coordinate below the last cut is covered. -/
theorem ranges_cover (cs : List Nat) (prev last c : Nat) (h : Ascending prev (cs ++ [last])) (h1 : prev ≤ c) (h2 : c < last) :
    ∃ (k : Nat) (r : Nat × Nat), (ranges prev (cs ++ [last]))[k]? = some r ∧ r.1 ≤ c ∧ c < r.2 := by
  induction cs generalizing prev with
  | nil =>
    refine ⟨0, (prev, last), ?_, h1, h2⟩
    have : prev < last := by omega
    simp [ranges, this]
  | cons a cs ih =>
    simp only [List.cons_append, ranges]
    by_cases hc : c < a
    · rw [if_pos (by omega)]
      exact ⟨0, (prev, a), rfl, h1, hc⟩
    · obtain ⟨k, r, e, h3⟩ := ih a h.2 (by omega)
      split
      · exact ⟨k + 1, r, by simpa using e, h3⟩
      · exact ⟨k, r, e, h3⟩

theorem map_fst_zipWith {rs : List (Nat × Nat)} {yss : List (List α)} (h : yss.length = rs.length) :
    (List.zipWith (fun r ys => (r.2 - r.1, ys)) rs yss).map (·.1) = rs.map fun r => r.2 - r.1 := by
  induction rs generalizing yss with
  | nil => simp
  | cons r rs ih =>
    cases yss with
    | nil => simp at h
    | cons y yss => simp at h; simp [ih h]

theorem concat_pieces {pre post : List Nat} {d : Nat} {xs : List α} {ts : List (Tensor α)} {cs : List Nat}
    (hx : xs.length = (pre ++ d :: post).prod) (hpos : 0 < (pre ++ d :: post).prod)
    (hfit : (pre ++ d :: post).prod < 2 ^ 32) (hr : post.length < 5) (hasc : Ascending 0 (cs ++ [d]))
    (h : IsPieces pre d post xs ts (ranges 0 (cs ++ [d]))) :
    ∃ t, Tensor.concatAxis pre.length ts = Except.ok t ∧ Rep t (pre ++ d :: post) xs := by
  obtain ⟨yss, h1, h2, h3⟩ := h.parts
  have hsum : ((List.zipWith (fun r ys => (r.2 - r.1, ys)) (ranges 0 (cs ++ [d])) yss).map (·.1)).sum = d := by
    rw [map_fst_zipWith h1, ranges_sum cs 0 d hasc]; omega
  obtain ⟨t, et, rt⟩ := concatAxis_eq h2 hsum hpos hfit hr
  refine ⟨t, et, ?_⟩
  have hlens : ∀ p ∈ List.zipWith (fun r ys => (r.2 - r.1, ys)) (ranges 0 (cs ++ [d])) yss,
      p.2.length = pre.prod * (p.1 * post.prod) := by
    intro p hp
    have := h2.mem_length (pre ++ p.1 :: post, p.2) (List.mem_map.2 ⟨p, hp, rfl⟩)
    simpa [List.prod_append] using this
  have : concatList pre.prod post.prod (List.zipWith (fun r ys => (r.2 - r.1, ys)) (ranges 0 (cs ++ [d])) yss) = xs := by
    apply slices_ext (D := d) rt.length hx
    intro c hc
    obtain ⟨k, r, hk, hr1, hr2⟩ := ranges_cover cs 0 d c hasc (Nat.zero_le _) hc
    have hkl := (List.getElem?_eq_some_iff.1 hk).1
    have hky : k < yss.length := by omega
    refine ⟨r.1, r.2 - r.1, yss[k], hr1, by omega, ?_, h3 k r _ hk (List.getElem?_eq_getElem hky)⟩
    have hz : (List.zipWith (fun r ys => (r.2 - r.1, ys)) (ranges 0 (cs ++ [d])) yss)[k]? = some (r.2 - r.1, yss[k]) := by
      rw [List.getElem?_zipWith, hk, List.getElem?_eq_getElem hky]
    have hsp := append_take_drop hz
    have := concatList_isSlice (pre := pre) (post := post) (p := (r.2 - r.1, yss[k])) (by rw [← hsp]; exact hlens)
    rw [← hsp, hsum] at this
    have hs0 := ranges_start (cs ++ [d]) 0 hasc k r hk
    rw [Nat.zero_add, List.map_take, ← map_fst_zipWith h1, ← List.map_take] at hs0
    rw [← hs0] at this
    exact this
  rw [this] at rt
  exact rt


/-! ### cuts beyond the end -/

theorem splitPiece_beyond {t : Tensor α} {pre post : List Nat} {d : Nat} {xs : List α} (h : Rep t (pre ++ d :: post) xs)
    (hne : xs ≠ []) {lo hi : Nat} (hlo : lo < hi) (hhi : d < hi) :
    Tensor.splitPiece t pre.length pre.prod post.prod d xs lo hi = Except.error .panic := by
  have hxp : 0 < (pre ++ d :: post).prod := by rw [← h.length]; exact List.length_pos_iff.2 hne
  have hx : xs.length = pre.prod * (d * post.prod) := by rw [h.length, List.prod_append, List.prod_cons]
  obtain ⟨hp1, hp2⟩ : 0 < pre.prod ∧ 0 < post.prod := by
    rw [List.prod_append, List.prod_cons] at hxp
    constructor
    · exact Nat.pos_of_mul_pos_right hxp
    · exact Nat.pos_of_mul_pos_left (Nat.pos_of_mul_pos_left hxp)
  unfold Tensor.splitPiece
  rw [forR_dims h.wf.shape (Nat.zero_le _) (by rw [h.rank]; simp), ok_bind, usub_ok (by omega), ok_bind, h.rank,
    forR_dims h.wf.shape (by simp) (by rw [h.rank]; exact Nat.le_refl _), ok_bind]
  cases hs : Shape.ofVec ([] ++ List.take (pre.length - 0) (List.drop 0 t.shape.toDims) ++ [hi - lo] ++
      List.take ((pre ++ d :: post).length - (pre.length + 1)) (List.drop (pre.length + 1) t.shape.toDims)) with
  | error e =>
    have := noUB_ofVec ([] ++ List.take (pre.length - 0) (List.drop 0 t.shape.toDims) ++ [hi - lo] ++
      List.take ((pre ++ d :: post).length - (pre.length + 1)) (List.drop (pre.length + 1) t.shape.toDims))
    rw [hs] at this
    cases e with
    | panic => rfl
    | ub => exact absurd rfl this
  | ok s =>
    rw [ok_bind]
    unfold Tensor.unsafeInit
    have key : ∀ b : Buf α, b.length = pre.prod * post.prod * (hi - lo) →
        NoUB (forR 0 pre.prod b fun j o =>
          forR lo hi o fun k o =>
            forR 0 post.prod o fun i o => do
              let v ← idx xs (j * d * post.prod + k * post.prod + i)
              o.write (j * post.prod * (hi - lo) + (k - lo) * post.prod + i) v) := by
      intro b hb
      refine (forR_noUB (fun _ (b : Buf α) => b.length = pre.prod * post.prod * (hi - lo)) hb fun j b _ hj hb => ?_).1
      have h1 := forR_noUB (lo := lo) (hi := hi) (s := b)
        (body := fun k o => forR 0 post.prod o fun i o => do
              let v ← idx xs (j * d * post.prod + k * post.prod + i)
              o.write (j * post.prod * (hi - lo) + (k - lo) * post.prod + i) v)
        (fun _ (b : Buf α) => b.length = pre.prod * post.prod * (hi - lo)) hb fun k b hk1 hk2 hb => by
          have h2 := forR_noUB (lo := 0) (hi := post.prod) (s := b)
            (body := fun i o => do
              let v ← idx xs (j * d * post.prod + k * post.prod + i)
              o.write (j * post.prod * (hi - lo) + (k - lo) * post.prod + i) v)
            (fun _ (b : Buf α) => b.length = pre.prod * post.prod * (hi - lo)) hb fun i b _ hi' hb => by
              have hin : j * post.prod * (hi - lo) + (k - lo) * post.prod + i < b.length := by
                rw [hb, Nat.mul_assoc, Nat.mul_assoc, Nat.add_assoc]
                apply lt_mul_add hj
                rw [Nat.mul_comm post.prod]
                exact lt_mul_add (by omega) hi'
              refine ⟨noUB_bind (by simp) fun _ _ => by rw [Buf.write_ok hin]; simp, fun s' hs' => ?_⟩
              obtain ⟨v, _, hv⟩ := bind_eq_ok.1 hs'
              rw [Buf.write_ok hin] at hv
              cases hv
              simpa using hb
          exact ⟨h2.1, fun s' hs' => h2.2 s' hs' (Nat.zero_le _)⟩
      exact ⟨h1.1, fun s' hs' => h1.2 s' hs' (by omega)⟩
    have hk := key (Buf.uninit (pre.prod * post.prod * (hi - lo))) (by simp [Buf.uninit])
    cases hb : (forR 0 pre.prod (Buf.uninit (pre.prod * post.prod * (hi - lo)) : Buf α) fun j o =>
          forR lo hi o fun k o =>
            forR 0 post.prod o fun i o => do
              let v ← idx xs (j * d * post.prod + k * post.prod + i)
              o.write (j * post.prod * (hi - lo) + (k - lo) * post.prod + i) v) with
    | error e =>
      rw [hb] at hk
      cases e with
      | panic => dsimp only; rw [hb]; rfl
      | ub => exact absurd rfl hk
    | ok b =>
      exfalso
      obtain ⟨_, _, e1⟩ := forR_ok_all hb (pre.prod - 1) (Nat.zero_le _) (by omega)
      obtain ⟨_, _, e2⟩ := forR_ok_all e1 (hi - 1) (by omega) (by omega)
      obtain ⟨_, _, e3⟩ := forR_ok_all e2 0 (Nat.le_refl _) hp2
      obtain ⟨v, e4, _⟩ := bind_eq_ok.1 e3
      have := (List.getElem?_eq_some_iff.1 (idx_eq_ok.1 e4)).1
      rw [hx] at this
      have hm : d * post.prod ≤ (hi - 1) * post.prod := Nat.mul_le_mul_right _ (by omega)
      have hm2 : (pre.prod - 1) * d * post.prod + d * post.prod = pre.prod * (d * post.prod) := by
        rw [Nat.mul_assoc, ← Nat.succ_mul]
        congr 1
        omega
      omega

theorem splitInner_bad {t : Tensor α} {pre post : List Nat} {d : Nat} {xs : List α} (h : Rep t (pre ++ d :: post) xs)
    (hne : xs ≠ []) (cuts : List Nat) (prev : Nat) (hprev : prev ≤ d) (hbad : ¬ (Ascending prev cuts ∧ ∀ c ∈ cuts, c ≤ d)) :
    Tensor.splitInner t pre.length pre.prod post.prod d xs cuts prev = Except.error .panic := by
  induction cuts generalizing prev with
  | nil => exact absurd ⟨trivial, by simp⟩ hbad
  | cons c cuts ih =>
    unfold Tensor.splitInner
    by_cases hc : c = prev
    · subst hc
      rw [if_pos rfl]
      exact ih _ hprev fun hg => hbad ⟨⟨Nat.le_refl _, hg.1⟩, by simpa using ⟨hprev, hg.2⟩⟩
    · rw [if_neg hc]
      by_cases hlt : prev < c
      · by_cases hcd : c ≤ d
        · obtain ⟨u, ys, eu, _⟩ := splitPiece_eq h hne hlt hcd
          rw [eu, ok_bind, ih c hcd fun hg => hbad ⟨⟨by omega, hg.1⟩, by simpa using ⟨hcd, hg.2⟩⟩]
          rfl
        · rw [splitPiece_beyond h hne hlt (by omega)]
          rfl
      · unfold Tensor.splitPiece
        rw [forR_dims h.wf.shape (Nat.zero_le _) (by rw [h.rank]; simp), ok_bind, usub_err (by omega)]
        rfl

theorem splitOuter_bad {t : Tensor α} {post : List Nat} {d : Nat} {xs : List α} (h : Rep t (d :: post) xs)
    (hne : xs ≠ []) (cuts : List Nat) (prev : Nat) (hprev : prev ≤ d) (hbad : ¬ (Ascending prev cuts ∧ ∀ c ∈ cuts, c ≤ d)) :
    Tensor.splitOuter t cuts prev = Except.error .panic := by
  have hxp : 0 < (d :: post).prod := by rw [← h.length]; exact List.length_pos_iff.2 hne
  have hpos := pos_of_prod_pos hxp
  induction cuts generalizing prev with
  | nil => exact absurd ⟨trivial, by simp⟩ hbad
  | cons c cuts ih =>
    unfold Tensor.splitOuter
    by_cases hc : c = prev
    · subst hc
      rw [if_neg (by simp)]
      exact ih _ hprev fun hg => hbad ⟨⟨Nat.le_refl _, hg.1⟩, by simpa using ⟨hprev, hg.2⟩⟩
    · rw [if_pos hc]
      by_cases hlt : prev < c
      · have hsub := C09_subslice h (fun e he => hpos e (List.mem_cons_of_mem _ he)) prev (c - prev)
        rw [usub_ok (by omega), ok_bind]
        by_cases hcd : c ≤ d
        · obtain ⟨u, eu, _⟩ := hsub.1 (by omega)
          rw [eu, ok_bind, ih c hcd fun hg => hbad ⟨⟨by omega, hg.1⟩, by simpa using ⟨hcd, hg.2⟩⟩]
          rfl
        · rw [hsub.2 (by omega)]
          rfl
      · rw [usub_err (by omega)]
        rfl

theorem splitAxis_bad {t : Tensor α} {pre post : List Nat} {d : Nat} {xs : List α} (h : Rep t (pre ++ d :: post) xs)
    (hne : xs ≠ []) {axis : Axis} (hax : axis.axisFromRank (pre ++ d :: post).length = Except.ok pre.length)
    {sec : Tensor.Sections} {cuts : List Nat} (hsec : Tensor.sectionCuts d sec = Except.ok cuts)
    (hbad : ¬ (Ascending 0 cuts ∧ ∀ c ∈ cuts, c ≤ d)) :
    Tensor.splitAxis t axis sec = Except.error .panic := by
  have hxp : 0 < (pre ++ d :: post).prod := by rw [← h.length]; exact List.length_pos_iff.2 hne
  have hdim : t.shape.dim pre.length = Except.ok d := dim_eq h.wf.shape (by rw [h.toDims]; simp)
  unfold Tensor.splitAxis
  rw [h.rank, hax, ok_bind, hdim, ok_bind, hsec, ok_bind]
  by_cases h0 : pre.length = 0
  · rw [if_pos h0]
    have : pre = [] := List.length_eq_zero_iff.1 h0
    subst this
    exact splitOuter_bad h hne cuts 0 (Nat.zero_le _) hbad
  · rw [if_neg h0]
    unfold Tensor.splitByAxis
    have hp1 : 0 < t.shape.toDims.prod := by rw [h.toDims]; exact hxp
    have hp2 : t.shape.toDims.prod < 4294967296 := by rw [h.toDims]; exact h.prod_lt
    rw [sublen_ok h.wf.shape (Nat.zero_le _) (by rw [h.rank]; simp) hp1 hp2, ok_bind, h.rank, if_pos (by simp),
      sublen_ok h.wf.shape (by simp) (by rw [h.rank]; exact Nat.le_refl _) hp1 hp2]
    dsimp only
    rw [hdim, ok_bind, h.elems, ok_bind, h.toDims]
    have e1 : (List.take (pre.length - 0) (List.drop 0 (pre ++ d :: post))).prod = pre.prod := by simp
    have e2 : (List.take ((pre ++ d :: post).length - (pre.length + 1)) (List.drop (pre.length + 1) (pre ++ d :: post))).prod
        = post.prod := by
      have : List.drop (pre.length + 1) (pre ++ d :: post) = post := by
        rw [List.drop_append]; simp
      rw [this]
      simp [show pre.length + (post.length + 1) - (pre.length + 1) = post.length by omega]
    rw [e1, e2]
    exact splitInner_bad h hne cuts 0 (Nat.zero_le _) hbad

/-! ### rejected concatenations -/

theorem noUB_validate (args : List (Tensor α)) (axis : Nat) : NoUB (Tensor.validateConcat args axis) := by
  unfold Tensor.validateConcat
  refine noUB_bind (by simp) fun _ _ => ?_
  apply forL_noUB
  intro x _ acc
  refine noUB_bind (by simp) fun _ _ => forR_noUB' fun i s => ?_
  split
  · exact noUB_bind (noUB_dim _ _) fun _ _ => by simp
  · exact noUB_bind (noUB_dim _ _) fun _ _ => noUB_bind (noUB_dim _ _) fun _ _ => noUB_bind (by simp) fun _ _ => by simp

theorem validate_agree {args : List (Tensor α)} {axis n : Nat} (h : Tensor.validateConcat args axis = Except.ok n) :
    ∀ x ∈ args, ∀ y ∈ args, x.shape.rank = y.shape.rank ∧
      ∀ i, i < x.shape.rank → i ≠ axis → ∃ d, x.shape.dim i = Except.ok d ∧ y.shape.dim i = Except.ok d := by
  unfold Tensor.validateConcat at h
  obtain ⟨a0, h0, h⟩ := bind_eq_ok.1 h
  have key : ∀ x ∈ args, a0.shape.rank = x.shape.rank ∧
      ∀ i, i < a0.shape.rank → i ≠ axis → ∃ d, x.shape.dim i = Except.ok d ∧ a0.shape.dim i = Except.ok d := by
    intro x hx
    obtain ⟨a, b, hb⟩ := forL_ok_all h x hx
    obtain ⟨_, h1, hb⟩ := bind_eq_ok.1 hb
    refine ⟨ensure_eq_ok.1 h1, fun i hi hne => ?_⟩
    obtain ⟨a', b', hb'⟩ := forR_ok_all hb i (Nat.zero_le _) hi
    rw [if_neg hne] at hb'
    obtain ⟨d, hd, hb'⟩ := bind_eq_ok.1 hb'
    obtain ⟨e, he, hb'⟩ := bind_eq_ok.1 hb'
    obtain ⟨_, hde, _⟩ := bind_eq_ok.1 hb'
    have := ensure_eq_ok.1 hde
    subst this
    exact ⟨d, hd, he⟩
  intro x hx y hy
  have h1 := key x hx
  have h2 := key y hy
  refine ⟨by omega, fun i hi hne => ?_⟩
  obtain ⟨d, e1, e2⟩ := h1.2 i (by omega) hne
  obtain ⟨d', e3, e4⟩ := h2.2 i (by omega) hne
  rw [e2] at e4
  cases e4
  exact ⟨d, e1, e3⟩

theorem concatAxis_bad {args : List (Tensor α)} {axis : Nat} (h : ∀ n, Tensor.validateConcat args axis ≠ Except.ok n) :
    Tensor.concatAxis axis args = Except.error .panic := by
  unfold Tensor.concatAxis
  cases h0 : idx args 0 with
  | error e => 
    have := noUB_idx args 0
    rw [h0] at this
    cases e with
    | panic => rfl
    | ub => exact absurd rfl this
  | ok a =>
    rw [ok_bind]
    have := noUB_validate args axis
    cases hv : Tensor.validateConcat args axis with
    | ok n => exact absurd hv (h n)
    | error e =>
      rw [hv] at this
      cases e with
      | panic => rfl
      | ub => exact absurd rfl this

theorem stackCheck_agree {args : List (Tensor α)} {s : Option Shape} (h : Tensor.stackCheck args = Except.ok s) :
    ∀ x ∈ args, ∀ y ∈ args, x.shape = y.shape := by
  have key : ∀ (args : List (Tensor α)) (s0 s : Option Shape), forL args s0 (fun x shape =>
      match shape with
      | none => (pure (some x.shape) : Res _)
      | some s => do
        ensure (s = x.shape)
        return some s) = Except.ok s → (∀ sh, s0 = some sh → s = some sh) ∧ ∀ x ∈ args, s = some x.shape := by
    intro args
    induction args with
    | nil => intro s0 s h; cases h; simp
    | cons x args ih =>
      intro s0 s h
      unfold forL at h
      rw [List.foldlM_cons] at h
      obtain ⟨s1, h1, h2⟩ := bind_eq_ok.1 h
      have := ih s1 s h2
      cases s0 with
      | none =>
        cases h1
        have hs := this.1 _ rfl
        exact ⟨by simp, fun y hy => by
          rcases List.mem_cons.1 hy with rfl | hy
          · exact hs
          · exact this.2 y hy⟩
      | some sh =>
        obtain ⟨_, e1, e2⟩ := bind_eq_ok.1 h1
        have e3 := ensure_eq_ok.1 e1
        cases e2
        have hs := this.1 _ rfl
        exact ⟨fun sh' he => by cases he; exact hs, fun y hy => by
          rcases List.mem_cons.1 hy with rfl | hy
          · rw [hs, e3]
          · exact this.2 y hy⟩
  intro x hx y hy
  have := (key args none s h).2
  have h1 := this x hx
  have h2 := this y hy
  rw [h1] at h2
  exact Option.some.inj h2

theorem noUB_stackCheck (args : List (Tensor α)) : NoUB (Tensor.stackCheck args) := by
  unfold Tensor.stackCheck
  apply forL_noUB
  intro x _ s
  split
  · simp
  · exact noUB_bind (by simp) fun _ _ => by simp

end Essay
