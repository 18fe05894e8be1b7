import Verif.Lemmas.Split

/-! # Helper lemmas for `tile` (no claims here) -/

namespace Essay

open Shape

variable {α : Type}

/-- A body that appends exactly `ys` at the running write offset. -/
def Emits (ys : List α) (body : Buf α × Nat → Res (Buf α × Nat)) : Prop :=
  ∀ l r, body (pre l (ys.length + r), l.length) = Except.ok (pre (l ++ ys) r, (l ++ ys).length)

theorem emits_forR {n : Nat} {ys : Nat → List α} {body : Nat → Buf α × Nat → Res (Buf α × Nat)}
    (h : ∀ i, i < n → Emits (ys i) (body i)) :
    Emits ((List.range n).map ys).flatten (fun st => forR 0 n st body) := by
  induction n with
  | zero => intro l r; simp only [forR_stop (Nat.le_refl 0)]; simp
  | succ n ih =>
    intro l r
    have e : ((List.range (n + 1)).map ys).flatten = ((List.range n).map ys).flatten ++ ys n := by
      simp [List.range_succ]
    dsimp only
    rw [e, forR_snoc (by omega), List.length_append, Nat.add_assoc]
    have := ih (fun i hi => h i (by omega)) l ((ys n).length + r)
    dsimp only at this
    rw [this, ok_bind, h n (by omega), List.append_assoc]

theorem copy_loop (x : List α) (off : Nat) (n : Nat) (hx : off + n ≤ x.length) (l : List α) (r : Nat) :
    (forR 0 n (pre l (n + r)) fun i o => do
      let v ← idx x (off + i)
      o.write (l.length + i) v) = Except.ok (pre (l ++ (x.drop off).take n) r) := by
  induction n generalizing r with
  | zero => rw [forR_stop (Nat.le_refl 0)]; simp
  | succ n ih =>
    have hlt : off + n < x.length := by omega
    rw [forR_snoc (by omega), Nat.add_assoc, Nat.add_comm 1 r, ih (by omega), ok_bind, idx_lt hlt, ok_bind]
    have hlen : l.length + n = (l ++ (x.drop off).take n).length := by simp; omega
    rw [hlen, write_pre, List.append_assoc]
    congr 3
    rw [List.take_add_one, List.getElem?_drop, List.getElem?_eq_getElem hlt]
    rfl

theorem emits_copy {x : List α} {off n : Nat} (hx : off + n ≤ x.length) :
    Emits ((x.drop off).take n) (fun st => do
      let o ← forR 0 n st.1 fun i o => do
        let v ← idx x (off + i)
        o.write (st.2 + i) v
      return (o, st.2 + n)) := by
  intro l r
  have hl : ((x.drop off).take n).length = n := by simp; omega
  dsimp only
  rw [hl, copy_loop x off n hx, ok_bind]
  simp [hl]

/-- The elements of a tiled array, outermost axis first. -/
def tileElems : List Nat → List Nat → List α → List α
  | m :: ms, d :: ds, xs => ((List.range m).map fun _ =>
      ((List.range d).map fun i => tileElems ms ds ((xs.drop (i * ds.prod)).take ds.prod)).flatten).flatten
  | _, _, xs => xs

/-- `f j, ..., f 0`. -/
def downFrom (f : Nat → Nat) : Nat → List Nat
  | 0 => [f 0]
  | j + 1 => f (j + 1) :: downFrom f j

theorem downFrom_length (f : Nat → Nat) (j : Nat) : (downFrom f j).length = j + 1 := by
  induction j with
  | zero => rfl
  | succ j ih => simp [downFrom, ih]

theorem downFrom_getElem? (f : Nat → Nat) (j k : Nat) (hk : k ≤ j) : (downFrom f j)[k]? = some (f (j - k)) := by
  induction j generalizing k with
  | zero => obtain rfl : k = 0 := by omega
            rfl
  | succ j ih =>
    cases k with
    | zero => simp [downFrom]
    | succ k => rw [downFrom, List.getElem?_cons_succ, ih k (by omega)]; congr 2; omega

theorem padLeft_length {n : Nat} {l : List Nat} (h : l.length ≤ n) : (padLeft n l).length = n := by
  simp [padLeft]; omega

theorem padLeft_eq_downFrom {n : Nat} {l : List Nat} (h : l.length ≤ n + 1) :
    padLeft (n + 1) l = downFrom (fun k => l.reverse.getD k 1) n := by
  apply List.ext_getElem?
  intro k
  by_cases hk : k ≤ n
  · rw [downFrom_getElem? _ _ _ hk]
    unfold padLeft
    by_cases h2 : k < n + 1 - l.length
    · rw [List.getElem?_append_left (by simpa using h2), List.getElem?_replicate, if_pos h2, List.getD_eq_getElem?_getD,
        List.getElem?_eq_none (by simp; omega)]
      rfl
    · rw [List.getElem?_append_right (by simpa using h2), List.length_replicate, List.getD_eq_getElem?_getD,
        List.getElem?_reverse (by omega)]
      have hlt : k - (n + 1 - l.length) < l.length := by omega
      have e : l.length - 1 - (n - k) = k - (n + 1 - l.length) := by omega
      rw [e, List.getElem?_eq_getElem hlt]
      rfl
  · rw [List.getElem?_eq_none (by rw [padLeft_length h]; omega),
      List.getElem?_eq_none (by rw [downFrom_length]; omega)]

theorem downFrom_prod (l : List Nat) (j : Nat) : (downFrom (fun k => l.getD k 1) j).prod = (l.take (j + 1)).prod := by
  induction j with
  | zero => cases l <;> simp [downFrom]
  | succ j ih =>
    rw [downFrom, List.prod_cons, ih, List.take_add_one (i := j + 1), List.prod_append, Nat.mul_comm]
    congr 1
    rw [List.getD_eq_getElem?_getD]
    cases l[j + 1]? <;> simp

theorem tileElems_length (ms ds : List Nat) (hl : ms.length = ds.length) (xs : List α) (hx : xs.length = ds.prod) :
    (tileElems ms ds xs).length = (mulDims ms ds).prod := by
  induction ms generalizing ds xs with
  | nil =>
    cases ds with
    | nil => simpa [tileElems, mulDims] using hx
    | cons d ds => simp at hl
  | cons m ms ih =>
    cases ds with
    | nil => simp at hl
    | cons d ds =>
      have hch : ∀ i, i < d → ((xs.drop (i * ds.prod)).take ds.prod).length = ds.prod := by
        intro i hi
        rw [List.prod_cons] at hx
        have := Nat.mul_le_mul_right ds.prod (show i + 1 ≤ d from hi)
        rw [Nat.succ_mul] at this
        simp; omega
      have h1 : (((List.range d).map fun i => tileElems ms ds ((xs.drop (i * ds.prod)).take ds.prod)).flatten).length =
          d * (mulDims ms ds).prod := by
        rw [flatten_length_const (N := (mulDims ms ds).prod)]
        · simp
        · intro l hl'
          obtain ⟨i, hi, rfl⟩ := List.mem_map.1 hl'
          exact ih ds (by simpa using hl) _ (hch i (List.mem_range.1 hi))
      unfold tileElems
      rw [flatten_length_const (N := d * (mulDims ms ds).prod)]
      · simp [mulDims, Nat.mul_assoc]
      · intro l hl'
        obtain ⟨i, _, rfl⟩ := List.mem_map.1 hl'
        exact h1

theorem chunk_length {xs : List α} {d N i : Nat} (hx : xs.length = d * N) (hi : i < d) :
    ((xs.drop (i * N)).take N).length = N := by
  have := Nat.mul_le_mul_right N (show i + 1 ≤ d from hi)
  rw [Nat.succ_mul] at this
  simp; omega

theorem ravel_lt' {ds idx : List Nat} {p : Nat} (h : ravel ds idx = some p) : p < ds.prod := ravel_lt h

theorem tileElems_at (ms ds : List Nat) (hl : ms.length = ds.length) (xs : List α) (hx : xs.length = ds.prod)
    (idx : List Nat) (p : Nat) (hp : ravel (mulDims ms ds) idx = some p) :
    (tileElems ms ds xs)[p]? = at? ds xs (List.zipWith (· % ·) idx ds) := by
  induction ms generalizing ds xs idx p with
  | nil =>
    cases ds with
    | nil =>
      cases idx with
      | nil => 
        simp [mulDims, ravel] at hp
        subst hp
        simp [tileElems, at?, ravel]
      | cons i is => simp [mulDims, ravel] at hp
    | cons d ds => simp at hl
  | cons m ms ih =>
    cases ds with
    | nil => simp at hl
    | cons d ds =>
      cases idx with
      | nil => simp [mulDims, ravel] at hp
      | cons a is =>
        have hl' : ms.length = ds.length := by simpa using hl
        rw [List.prod_cons] at hx
        have hm : mulDims (m :: ms) (d :: ds) = m * d :: mulDims ms ds := rfl
        rw [hm, ravel] at hp
        split at hp
        · rename_i ha
          obtain ⟨q, hq, rfl⟩ := Option.map_eq_some_iff.1 hp
          have hqM := ravel_lt' hq
          have hd : 0 < d := by rcases Nat.eq_zero_or_pos d with h | h <;> simp_all
          have hlen : ∀ i, i < d → (tileElems ms ds ((xs.drop (i * ds.prod)).take ds.prod)).length = (mulDims ms ds).prod :=
            fun i hi => tileElems_length ms ds hl' _ (chunk_length hx hi)
          have h1 : (((List.range d).map fun i => tileElems ms ds ((xs.drop (i * ds.prod)).take ds.prod)).flatten).length =
              d * (mulDims ms ds).prod := by
            rw [flatten_length_const (N := (mulDims ms ds).prod)]
            · simp
            · intro l hl'
              obtain ⟨i, hi, rfl⟩ := List.mem_map.1 hl'
              exact hlen i (List.mem_range.1 hi)
          have ham : a % d < d := Nat.mod_lt _ hd
          have hin : a % d * (mulDims ms ds).prod + q < d * (mulDims ms ds).prod := lt_mul_add ham hqM
          have hsplit : a * (mulDims ms ds).prod + q =
              a / d * (d * (mulDims ms ds).prod) + (a % d * (mulDims ms ds).prod + q) := by
            conv => lhs; rw [← Nat.div_add_mod a d]
            grind
          have hadm : a / d < m := div_lt_of_lt_mul' ha
          unfold tileElems
          rw [hsplit, flatten_get (N := d * (mulDims ms ds).prod), mul_add_div' hin, mul_add_mod' hin]
          · rw [List.getElem?_map, List.getElem?_range hadm]
            simp only [Option.map_some, Option.bind_some]
            rw [flatten_get (N := (mulDims ms ds).prod), mul_add_div' hqM, mul_add_mod' hqM, List.getElem?_map,
              List.getElem?_range ham]
            · simp only [Option.map_some, Option.bind_some]
              rw [ih ds hl' _ (chunk_length hx ham) is q hq, List.zipWith_cons_cons]
              unfold at?
              rw [ravel, if_pos ham]
              cases hr : ravel ds (List.zipWith (· % ·) is ds) with
              | none => rfl
              | some p' =>
                simp only [Option.map_some, Option.bind_some]
                rw [List.getElem?_take, if_pos (ravel_lt' hr), List.getElem?_drop]
            · intro l hl'
              obtain ⟨i, hi, rfl⟩ := List.mem_map.1 hl'
              exact hlen i (List.mem_range.1 hi)
            · simpa using hin
          · intro l hl'
            obtain ⟨i, _, rfl⟩ := List.mem_map.1 hl'
            exact h1
          · rw [List.length_map, List.length_range]
            exact lt_mul_add hadm hin
        · simp at hp

theorem getD_idx (l : List Nat) (k : Nat) :
    (if k < l.length then idx l k else (pure 1 : Res Nat)) = Except.ok (l.getD k 1) := by
  rw [List.getD_eq_getElem?_getD]
  split
  · rename_i h
    rw [idx_lt h, List.getElem?_eq_getElem h]
    rfl
  · rename_i h
    rw [List.getElem?_eq_none (by omega)]
    rfl

theorem tileRec_emits (x : List α) (shR mR : List Nat) (j off len : Nat)
    (hlen : len = (downFrom (fun k => shR.getD k 1) j).prod) (hoff : off + len ≤ x.length) :
    Emits (tileElems (downFrom (fun k => mR.getD k 1) j) (downFrom (fun k => shR.getD k 1) j) ((x.drop off).take len))
      (Tensor.tileRec x shR mR j off len) := by
  induction j generalizing off len with
  | zero =>
    have hc := emits_forR (n := mR.getD 0 1) (ys := fun _ => (x.drop off).take len) (body := fun _ st => do
      let o ← forR 0 len st.1 fun i o => do
        let v ← idx x (off + i)
        o.write (st.2 + i) v
      return (o, st.2 + len)) (fun i _ => emits_copy hoff)
    have hlx : ((x.drop off).take len).length = len := by simp; omega
    have e : tileElems (downFrom (fun k => mR.getD k 1) 0) (downFrom (fun k => shR.getD k 1) 0) ((x.drop off).take len) =
        ((List.range (mR.getD 0 1)).map fun _ => (x.drop off).take len).flatten := by
      simp only [downFrom, tileElems]
      congr 2
      funext _
      have hd : (shR.getD 0 1) = ((x.drop off).take len).length := by rw [hlx, hlen]; simp [downFrom]
      rw [hd]
      generalize (x.drop off).take len = ys
      apply List.ext_getElem?
      intro p
      by_cases hp : p < ys.length
      · rw [flatten_get (N := 1)]
        · simp [hp, Nat.mod_one, Nat.div_one]
        · intro l hl
          obtain ⟨i, hi, rfl⟩ := List.mem_map.1 hl
          have := List.mem_range.1 hi
          simp; omega
        · simpa using hp
      · rw [List.getElem?_eq_none, List.getElem?_eq_none]
        · omega
        · rw [flatten_length_const (N := 1)]
          · simp; omega
          · intro l hl
            obtain ⟨i, hi, rfl⟩ := List.mem_map.1 hl
            have := List.mem_range.1 hi
            simp; omega
    rw [e]
    intro l r
    unfold Tensor.tileRec
    have hr := getD_idx mR 0
    simp only [← ite_bind', hr, ok_bind]
    exact hc l r
  | succ j ih =>
    rw [downFrom, List.prod_cons] at hlen
    have hr := getD_idx mR (j + 1)
    have key : Emits (((List.range (shR.getD (j + 1) 1)).map fun i =>
        tileElems (downFrom (fun k => mR.getD k 1) j) (downFrom (fun k => shR.getD k 1) j)
          ((((x.drop off).take len).drop (i * (downFrom (fun k => shR.getD k 1) j).prod)).take
            (downFrom (fun k => shR.getD k 1) j).prod)).flatten)
        (fun st => if j + 1 < shR.length then do
          let xLen' := (shR.take (j + 1)).foldl (· * ·) 1
          let d ← idx shR (j + 1)
          forR 0 d st fun i st => Tensor.tileRec x shR mR j (off + i * xLen') xLen' st
        else Tensor.tileRec x shR mR j off len st) := by
      by_cases hj : j + 1 < shR.length
      · have hf : (shR.take (j + 1)).foldl (· * ·) 1 = (downFrom (fun k => shR.getD k 1) j).prod := by
          rw [downFrom_prod, foldl_mul_eq, Nat.one_mul]
        have hd : shR.getD (j + 1) 1 = shR[j + 1] := by
          rw [List.getD_eq_getElem?_getD, List.getElem?_eq_getElem hj]; rfl
        intro l r
        simp only [if_pos hj, hf, idx_lt hj, ok_bind]
        rw [← hd]
        refine emits_forR (body := fun i st => Tensor.tileRec x shR mR j
          (off + i * (downFrom (fun k => shR.getD k 1) j).prod) (downFrom (fun k => shR.getD k 1) j).prod st)
          (fun i hi => ?_) l r
        have hle := Nat.mul_le_mul_right (downFrom (fun k => shR.getD k 1) j).prod (show i + 1 ≤ _ from hi)
        rw [Nat.succ_mul, ← hlen] at hle
        have := ih (off + i * (downFrom (fun k => shR.getD k 1) j).prod) _ rfl (by omega)
        rw [List.drop_take, List.drop_drop, List.take_take, Nat.min_eq_left (by omega)]
        exact this
      · have hd : shR.getD (j + 1) 1 = 1 := by
          rw [List.getD_eq_getElem?_getD, List.getElem?_eq_none (by omega)]; rfl
        rw [hd, Nat.one_mul] at hlen
        have := ih off len hlen hoff
        rw [hd, ← hlen]
        intro l r
        simp only [if_neg hj]
        have e : (x.drop off).take len = List.take len (List.drop (0 * len) (List.take len (List.drop off x))) := by
          rw [Nat.zero_mul, List.drop_zero, List.take_take, Nat.min_self]
        rw [e] at this
        simpa using this l r
    have := emits_forR (n := mR.getD (j + 1) 1) (fun _ _ => key)
    intro l r
    unfold Tensor.tileRec
    simp only [← ite_bind', hr, ok_bind]
    exact this l r

theorem emits_complete {ys : List α} {body : Buf α × Nat → Res (Buf α × Nat)} (h : Emits ys body) {L : Nat}
    (hL : L = ys.length) : ∃ n, body (Buf.uninit L, 0) = Except.ok (ys.map some, n) := by
  have := h [] 0
  subst hL
  refine ⟨ys.length, ?_⟩
  simpa [pre, Buf.uninit] using this

theorem forR_map {n : Nat} {g : Nat → Nat} {body : Nat → List Nat → Res (List Nat)}
    (h : ∀ i vec, body i vec = Except.ok (vec ++ [g i])) : forR 0 n [] body = Except.ok ((List.range n).map g) := by
  induction n with
  | zero => rw [forR_stop (Nat.le_refl 0)]; rfl
  | succ n ih => rw [forR_snoc (by omega), ih, ok_bind, h, List.range_succ, List.map_append]; rfl

theorem range_reverse_downFrom (g : Nat → Nat) (n : Nat) : ((List.range (n + 1)).map g).reverse = downFrom g n := by
  induction n with
  | zero => rfl
  | succ n ih => rw [List.range_succ, List.map_append, List.reverse_append, ih]; rfl

theorem mulDims_downFrom (f g : Nat → Nat) (n : Nat) :
    mulDims (downFrom f n) (downFrom g n) = downFrom (fun k => f k * g k) n := by
  induction n with
  | zero => rfl
  | succ n ih => rw [downFrom, downFrom, downFrom, ← ih]; rfl

theorem padLeft_prod (n : Nat) (l : List Nat) : (padLeft n l).prod = l.prod := by simp [padLeft]

theorem mulDims_prod {a b : List Nat} (h : a.length = b.length) : (mulDims a b).prod = a.prod * b.prod := by
  induction a generalizing b with
  | nil => cases b with
    | nil => rfl
    | cons _ _ => simp at h
  | cons x a ih => cases b with
    | nil => simp at h
    | cons y b =>
      have := ih (b := b) (by simpa using h)
      simp only [mulDims, List.zipWith_cons_cons, List.prod_cons] at this ⊢
      rw [this]
      grind

theorem downFrom_pos {f : Nat → Nat} {n : Nat} (h : ∀ k, 0 < f k) : ∀ e ∈ downFrom f n, 0 < e := by
  induction n with
  | zero => intro e he; simp [downFrom] at he; subst he; exact h 0
  | succ n ih =>
    intro e he
    rcases List.mem_cons.1 he with rfl | he
    · exact h _
    · exact ih e he

theorem getD_pos {l : List Nat} (h : ∀ e ∈ l, 0 < e) (k : Nat) : 0 < l.reverse.getD k 1 := by
  rw [List.getD_eq_getElem?_getD]
  cases hk : l.reverse[k]? with
  | none => simp
  | some v => exact h v (List.mem_reverse.1 (List.mem_of_getElem? hk))

theorem mem_le_prod {l : List Nat} (h : 0 < l.prod) {e : Nat} (he : e ∈ l) : e ≤ l.prod := by
  induction l with
  | nil => simp at he
  | cons a l ih =>
    rw [List.prod_cons] at h ⊢
    rcases List.mem_cons.1 he with rfl | he
    · exact Nat.le_mul_of_pos_right _ (Nat.pos_of_mul_pos_left h)
    · exact Nat.le_trans (ih (Nat.pos_of_mul_pos_left h) he) (Nat.le_mul_of_pos_left _ (Nat.pos_of_mul_pos_right h))

/-- The shape computed by `tile`, reversed. -/
theorem tile_shape {ds ms : List Nat} {N : Nat} :
    (forR 0 N [] fun i vec => do
      let tileDim ← if i < ds.length then idx ds.reverse i else pure 1
      let repeatDim ← if i < ms.length then idx ms.reverse i else pure 1
      return vec ++ [tileDim * repeatDim]) =
      Except.ok ((List.range N).map fun k => ds.reverse.getD k 1 * ms.reverse.getD k 1) := by
  apply forR_map
  intro i vec
  have h1 := getD_idx ds.reverse i
  have h2 := getD_idx ms.reverse i
  rw [List.length_reverse] at h1 h2
  simp only [← ite_bind', h1, h2, ok_bind]
  rfl

theorem tile_eq {t : Tensor α} {ds : List Nat} {xs : List α} (h : Rep t ds xs) {mt : Tensor Nat} {ms : List Nat}
    (hm : Rep mt [ms.length] ms) (hxs : xs ≠ []) (hms : ∀ m ∈ ms, 0 < m) (hN : ms.length ≤ 6)
    (hfit : ms.prod * ds.prod < 2 ^ 32) (hne : 0 < max ds.length ms.length) :
    ∃ u, Tensor.tile t mt = Except.ok u ∧
      Rep u (mulDims (padLeft (max ds.length ms.length) ms) (padLeft (max ds.length ms.length) ds))
        (tileElems (padLeft (max ds.length ms.length) ms) (padLeft (max ds.length ms.length) ds) xs) := by
  have hxp : 0 < ds.prod := by rw [← h.length]; exact List.length_pos_iff.2 hxs
  have hdpos := pos_of_prod_pos hxp
  obtain ⟨n, hn⟩ : ∃ n, max ds.length ms.length = n + 1 := ⟨max ds.length ms.length - 1, by omega⟩
  have hdl := h.adm.len
  have hn6 : n + 1 ≤ 6 := by omega
  have hlen : mt.shape.len = Except.ok ms.length := by
    unfold Shape.len
    exact dim_eq hm.wf.shape (by rw [hm.toDims]; rfl)
  have hmp : 0 < ms.prod := prod_pos hms
  have hprod : (downFrom (fun k => ds.reverse.getD k 1 * ms.reverse.getD k 1) n).prod = ms.prod * ds.prod := by
    have := mulDims_downFrom (fun k => ds.reverse.getD k 1) (fun k => ms.reverse.getD k 1) n
    rw [← this, mulDims_prod (by simp [downFrom_length]), ← padLeft_eq_downFrom (by omega), ← padLeft_eq_downFrom (by omega),
      padLeft_prod, padLeft_prod, Nat.mul_comm]
  have hdims : mulDims (padLeft (n + 1) ms) (padLeft (n + 1) ds) =
      downFrom (fun k => ds.reverse.getD k 1 * ms.reverse.getD k 1) n := by
    rw [padLeft_eq_downFrom (by omega), padLeft_eq_downFrom (by omega), mulDims_downFrom]
    congr 1
    funext k
    exact Nat.mul_comm _ _
  have hpos : ∀ e ∈ downFrom (fun k => ds.reverse.getD k 1 * ms.reverse.getD k 1) n, 0 < e :=
    downFrom_pos fun k => Nat.mul_pos (getD_pos hdpos k) (getD_pos hms k)
  have hadm : Adm (downFrom (fun k => ds.reverse.getD k 1 * ms.reverse.getD k 1) n) := by
    refine ⟨by rw [downFrom_length]; omega, fun e he => ?_⟩
    have := mem_le_prod (by rw [hprod]; exact Nat.mul_pos hmp hxp) he
    omega
  rw [hn, hdims]
  unfold Tensor.tile
  rw [asVec_eq h.wf.shape, ok_bind, h.toDims, hm.elems, ok_bind, h.size_eq, ok_bind, h.elems, ok_bind, hlen, ok_bind, h.rank]
  have ht := tile_shape (ds := ds) (ms := ms) (N := max ds.length ms.length)
  dsimp only at ht ⊢
  rw [ht, ok_bind, hn, range_reverse_downFrom, ofVec_adm hadm hpos, ok_bind]
  have hem := tileRec_emits xs ds.reverse ms.reverse n 0 xs.length (by
    rw [← padLeft_eq_downFrom (by omega), padLeft_prod, h.length]) (by omega)
  rw [List.drop_zero, List.take_length, ← padLeft_eq_downFrom (by omega), ← padLeft_eq_downFrom (by omega)] at hem
  have htl := tileElems_length (padLeft (n + 1) ms) (padLeft (n + 1) ds)
    (by rw [padLeft_length (by omega), padLeft_length (by omega)]) xs (by rw [padLeft_prod, h.length])
  rw [hdims, hprod] at htl
  obtain ⟨k, ek⟩ := emits_complete (L := ms.foldl (· * ·) 1 * ds.prod) hem (by rw [foldl_mul_eq, Nat.one_mul, htl])
  unfold Tensor.unsafeInit
  rw [usub_ok (by omega)]
  simp only [ok_bind, Nat.add_sub_cancel, ek]
  unfold Tensor.finish
  rw [pure_eq_ok, ok_bind]
  simp only [Buf.complete_map_some]
  have hf := fits_of_pos (by rw [hprod]; exact Nat.mul_pos hmp hxp) (by rw [hprod]; exact hfit)
  exact ⟨_, new_ok hadm hf (by rw [htl, hprod]), rep_fresh hadm hf (by rw [htl, hprod])⟩

end Essay
