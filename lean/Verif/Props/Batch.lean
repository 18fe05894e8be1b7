import Verif.Props.Split
import Verif.Props.Special

/-!
# C104: work on a batch can be divided

An operation that treats the entries along the first axis one by one gives the same on a part of the batch as the part of
its result, and on batches that are joined as its results joined.
-/

namespace Essay

open Shape Stats

set_option linter.unusedSectionVars false

variable {α β γ S S1 : Type}

/-- The laws: for tensors with elements, dimensions `d :: ds` in and `d :: es` out. -/
def BatchLaws (op : Tensor α → Res (Tensor β)) (ds es : List Nat) : Prop :=
  (∀ t d xs lo n, Rep t (d :: ds) xs → xs ≠ [] → Fits (d :: es) → 0 < n → lo + n ≤ d →
    Same (op t >>= fun u => u.subslice lo n) (t.subslice lo n >>= op) (n :: es)) ∧
  ∀ ts (ps : List (Nat × List α)) D, RepAll ts (ps.map fun p => (p.1 :: ds, p.2)) → ps ≠ [] → (∀ p ∈ ps, p.2 ≠ []) →
    (ps.map (·.1)).sum = D → Fits (D :: ds) → Fits (D :: es) → ds.length < 5 → es.length < 5 →
    Same (Tensor.concatenate ts >>= op) (ts.mapM op >>= Tensor.concatenate) (D :: es)

/-! ### parts along the first axis -/

/-- Entries `lo .. lo + n` of a list of entries of `P` elements. -/
def outerPart (P lo n : Nat) (xs : List α) : List α := (xs.drop (lo * P)).take (n * P)

theorem outerPart_length {P lo n d : Nat} {xs : List α} (hx : xs.length = d * P) (h : lo + n ≤ d) :
    (outerPart P lo n xs).length = n * P := by
  have := Nat.mul_le_mul_right P h
  rw [Nat.add_mul] at this
  simp [outerPart]; omega

theorem outerPart_get {P lo n i : Nat} {xs : List α} (hi : i < n * P) : (outerPart P lo n xs)[i]? = xs[lo * P + i]? := by
  rw [outerPart, List.getElem?_take_of_lt hi, List.getElem?_drop]

theorem at_part {ds : List Nat} {d lo n a : Nat} {xs : List α} {j : List Nat} (ha : a < n) (h : lo + n ≤ d) :
    at? (n :: ds) (outerPart ds.prod lo n xs) (a :: j) = at? (d :: ds) xs ((lo + a) :: j) := by
  unfold at? ravel
  rw [if_pos ha, if_pos (by omega)]
  cases hr : ravel ds j with
  | none => rfl
  | some p =>
    simp only [Option.map_some, Option.bind_some]
    rw [outerPart_get (lt_mul_add ha (ravel_lt hr)), Nat.add_mul, Nat.add_assoc]

theorem isSlice_part {ds : List Nat} {d lo n : Nat} {xs : List α} (hx : xs.length = d * ds.prod) (h : lo + n ≤ d) :
    IsSlice [] d ds xs lo n (outerPart ds.prod lo n xs) := by
  refine ⟨by rw [outerPart_length hx h]; simp, h, fun i a j hi ha => ?_⟩
  obtain rfl := List.length_eq_zero_iff.1 hi
  exact at_part ha h

/-- The parts of the given numbers of entries, one after the other from `lo` on. -/
def partsOf (P : Nat) (xs : List α) : Nat → List Nat → List (Nat × List α)
  | _, [] => []
  | lo, n :: ns => (n, outerPart P lo n xs) :: partsOf P xs (lo + n) ns

theorem partsOf_fst (P : Nat) (xs : List α) (lo : Nat) (ns : List Nat) : (partsOf P xs lo ns).map (·.1) = ns := by
  induction ns generalizing lo with
  | nil => rfl
  | cons n ns ih => simp [partsOf, ih]

theorem partsOf_split {P : Nat} {xs : List α} {lo : Nat} {ns : List Nat} {A B : List (Nat × List α)} {p : Nat × List α}
    (h : partsOf P xs lo ns = A ++ p :: B) : p.2 = outerPart P (lo + (A.map (·.1)).sum) p.1 xs := by
  induction ns generalizing lo A with
  | nil => simp [partsOf] at h
  | cons n ns ih =>
    rw [partsOf] at h
    cases A with
    | nil => cases h; simp
    | cons q A =>
      rw [List.cons_append] at h
      obtain ⟨rfl, h'⟩ := List.cons.inj h
      rw [ih h', List.map_cons, List.sum_cons, Nat.add_assoc]

theorem isConcat_partsOf {ds : List Nat} {xs : List α} {ns : List Nat} (hx : xs.length = ns.sum * ds.prod) :
    IsConcat [] ds (partsOf ds.prod xs 0 ns) xs := by
  intro A p B h
  have h2 := partsOf_split h
  rw [Nat.zero_add] at h2
  rw [partsOf_fst, h2]
  apply isSlice_part hx
  have := partsOf_fst ds.prod xs 0 ns
  rw [h] at this
  rw [← this]
  simp

theorem eq_partsOf {ds : List Nat} {out : List α} {D : Nat} (hx : out.length = D * ds.prod) {ps : List (Nat × List α)}
    (hD : (ps.map (·.1)).sum = D) (h : IsConcat [] ds ps out) : ps = partsOf ds.prod out 0 (ps.map (·.1)) := by
  have key : ∀ (A B : List (Nat × List α)), A ++ B = ps → B = partsOf ds.prod out (A.map (·.1)).sum (B.map (·.1)) := by
    intro A B
    induction B generalizing A with
    | nil => intro _; rfl
    | cons p B ih =>
      intro e
      have h1 := h A p B e.symm
      have hle : (A.map (·.1)).sum + p.1 ≤ D := by rw [← hD, ← e]; simp
      rw [hD] at h1
      have h2 := h1.unique (isSlice_part hx hle)
      have h3 := ih (A ++ [p]) (by rw [← e]; simp)
      rw [List.map_append, List.sum_append] at h3
      simp only [List.map_cons, List.map_nil, List.sum_cons, List.sum_nil, Nat.add_zero] at h3
      rw [List.map_cons, partsOf, ← h3, ← h2]
  simpa using key [] ps rfl

/-! ### operations that go entry by entry -/

/-- The operation succeeds with elements related to the operand's by `R`, and `R` respects parts. -/
structure Entrywise (op : Tensor α → Res (Tensor β)) (ds es : List Nat) (R : Nat → List α → List β → Prop) : Prop where
  run : ∀ {t d xs}, Rep t (d :: ds) xs → xs ≠ [] → Fits (d :: es) → ∃ u ys, op t = .ok u ∧ Rep u (d :: es) ys ∧ R d xs ys
  part : ∀ {d xs ys ys' lo n}, xs.length = d * ds.prod → 0 < d * ds.prod → 0 < n → lo + n ≤ d → R d xs ys →
    ys.length = d * es.prod → R n (outerPart ds.prod lo n xs) ys' → ys'.length = n * es.prod →
    ys' = outerPart es.prod lo n ys

theorem Fits.le_head {d n : Nat} {ds : List Nat} (h : Fits (d :: ds)) (hn : n ≤ d) : Fits (n :: ds) :=
  Fits.mono (pre := []) h hn

theorem Entrywise.laws {op : Tensor α → Res (Tensor β)} {ds es : List Nat} {R : Nat → List α → List β → Prop}
    (h : Entrywise op ds es R) (hes : ∀ e ∈ es, 0 < e) : BatchLaws op ds es := by
  constructor
  · intro t d xs lo n ht hne hfit hn hle
    have hx : xs.length = d * ds.prod := by rw [ht.length, List.prod_cons]
    have hxp : 0 < d * ds.prod := by rw [← hx]; exact List.length_pos_iff.2 hne
    have hds := pos_of_prod_pos (Nat.pos_of_mul_pos_left hxp)
    obtain ⟨u, ys, e1, r1, R1⟩ := h.run ht hne hfit
    obtain ⟨v, e2, r2⟩ := (C09_subslice r1 hes lo n).1 ⟨hn, hle⟩
    obtain ⟨t', e3, r3⟩ := (C09_subslice ht hds lo n).1 ⟨hn, hle⟩
    obtain ⟨w, zs, e4, r4, R4⟩ := h.run r3 (by
      rw [← List.length_pos_iff, r3.length, List.prod_cons]
      exact Nat.mul_pos hn (Nat.pos_of_mul_pos_left hxp)) (hfit.le_head (by omega))
    have := h.part hx hxp hn hle R1 (by rw [r1.length, List.prod_cons]) R4 (by rw [r4.length, List.prod_cons])
    subst this
    exact ⟨v, w, _, by rw [e1]; exact e2, by rw [e3]; exact e4, r2, r4⟩
  · intro ts ps D ht hne hnz hD hfd hfe hl1 hl2
    obtain ⟨p0, hp0⟩ := List.exists_mem_of_ne_nil ps hne
    have hlen : ∀ p ∈ ps, p.2.length = p.1 * ds.prod := fun p hp => by
      have := ht.mem_length _ (List.mem_map.2 ⟨p, hp, rfl⟩)
      simpa using this
    have hpos : ∀ p ∈ ps, 0 < p.1 * ds.prod := fun p hp => by
      rw [← hlen p hp]; exact List.length_pos_iff.2 (hnz p hp)
    have hdp : 0 < ds.prod := Nat.pos_of_mul_pos_left (hpos p0 hp0)
    have hep : 0 < es.prod := prod_pos hes
    have hD0 : 0 < D := by
      have h1 : p0.1 ≤ D := by rw [← hD]; exact List.le_sum_of_mem (List.mem_map_of_mem hp0)
      have := Nat.pos_of_mul_pos_right (hpos p0 hp0)
      omega
    have hD32 : D < 2 ^ 32 := by
      have h1 := (fits_cons.1 hfd).1
      have h2 : D * 1 ≤ D * ds.prod := Nat.mul_le_mul_left D hdp
      omega
    obtain ⟨t, out, e1, -, r1, c1⟩ := C27_concatenate_outer_partial ht hne hD hD32 hfd hl1
    have hx : out.length = D * ds.prod := by rw [r1.length, List.prod_cons]
    have hxp : 0 < D * ds.prod := Nat.mul_pos hD0 hdp
    obtain ⟨u, ys, e2, r2, R2⟩ := h.run r1 (by rw [← List.length_pos_iff, hx]; exact hxp) hfe
    have hy : ys.length = D * es.prod := by rw [r2.length, List.prod_cons]
    have hps := eq_partsOf hx hD c1
    generalize hns : ps.map (·.1) = ns at *
    have hn0 : ∀ n ∈ ns, 0 < n := by
      intro n hn
      rw [← hns] at hn
      obtain ⟨p, hp, rfl⟩ := List.mem_map.1 hn
      exact Nat.pos_of_mul_pos_right (hpos p hp)
    have key : ∀ (ns : List Nat) (lo : Nat) (ts : List (Tensor α)), (∀ n ∈ ns, 0 < n) → lo + ns.sum ≤ D →
        RepAll ts ((partsOf ds.prod out lo ns).map fun p => (p.1 :: ds, p.2)) →
        ∃ us, ts.mapM op = .ok us ∧ RepAll us ((partsOf es.prod ys lo ns).map fun p => (p.1 :: es, p.2)) := by
      intro ns
      induction ns with
      | nil => intro lo ts _ _ h; cases h; exact ⟨[], rfl, .nil⟩
      | cons n ns ih =>
        intro lo ts hn0 hle hr
        rw [List.sum_cons] at hle
        cases hr with
        | cons hr hrs =>
          obtain ⟨us, e3, r3⟩ := ih (lo + n) _ (fun m hm => hn0 m (by simp [hm])) (by omega) hrs
          have hn := hn0 n (by simp)
          have hle' : lo + n ≤ D := by omega
          obtain ⟨v, zs, e4, r4, R4⟩ := h.run hr (by
            rw [← List.length_pos_iff, outerPart_length hx hle']
            exact Nat.mul_pos hn hdp) (hfe.le_head (by omega))
          have := h.part hx hxp hn hle' R2 hy R4 (by rw [r4.length, List.prod_cons])
          subst this
          exact ⟨v :: us, mapM_ok_cons e4 e3, .cons r4 r3⟩
    obtain ⟨us, e3, r3⟩ := key ns 0 ts hn0 (by omega) (by rw [← hps]; exact ht)
    obtain ⟨w, zs, e4, -, r4, c4⟩ := C27_concatenate_outer_partial r3 (by
      intro h0
      apply hne
      rw [hps]
      cases ns with
      | nil => rfl
      | cons n ns => simp [partsOf] at h0) (D := D) (by rw [partsOf_fst]; exact hD) hD32 hfe hl2
    have := IsConcat.unique (pre := []) (D := D) (by rw [partsOf_fst]; exact hD) (by simpa using r4.length)
      (by simpa using r2.length) c4 (isConcat_partsOf (by rw [hD]; exact hy))
    subst this
    exact ⟨u, w, _, by rw [e1]; exact e2, by rw [e3]; exact e4, r2, r4⟩

/-! ### lists of lists -/

theorem drop_flatten_const {ls : List (List α)} {c : Nat} (h : ∀ l ∈ ls, l.length = c) (k : Nat) :
    ls.flatten.drop (k * c) = (ls.drop k).flatten := by
  induction ls generalizing k with
  | nil => simp
  | cons l ls ih =>
    cases k with
    | zero => simp
    | succ k =>
      rw [List.flatten_cons, Nat.succ_mul, List.drop_succ_cons, ← ih (fun l hl => h l (by simp [hl])), Nat.add_comm,
        ← List.drop_drop, List.drop_left' (h l (by simp))]

theorem take_flatten_const {ls : List (List α)} {c : Nat} (h : ∀ l ∈ ls, l.length = c) (k : Nat) :
    ls.flatten.take (k * c) = (ls.take k).flatten := by
  induction ls generalizing k with
  | nil => simp
  | cons l ls ih =>
    cases k with
    | zero => simp
    | succ k =>
      rw [List.flatten_cons, Nat.succ_mul, List.take_succ_cons, List.flatten_cons, ← ih (fun l hl => h l (by simp [hl])),
        List.take_append, h l (by simp), Nat.add_sub_cancel, List.take_of_length_le (by rw [h l (by simp)]; omega)]

theorem outerPart_flatten {ls : List (List α)} {c : Nat} (h : ∀ l ∈ ls, l.length = c) (P lo n : Nat) :
    outerPart (P * c) lo n ls.flatten = (outerPart P lo n ls).flatten := by
  unfold outerPart
  rw [← Nat.mul_assoc, ← Nat.mul_assoc, drop_flatten_const h,
    take_flatten_const (fun l hl => h l (List.mem_of_mem_drop hl))]

theorem outerPart_map (f : α → β) (P lo n : Nat) (xs : List α) :
    outerPart P lo n (xs.map f) = (outerPart P lo n xs).map f := by
  simp [outerPart, List.map_take, List.map_drop]

theorem mem_outerPart {P lo n : Nat} {xs : List α} {x : α} (h : x ∈ outerPart P lo n xs) : x ∈ xs :=
  List.mem_of_mem_drop (List.mem_of_mem_take h)

theorem flatten_const_inj {c : Nat} (hc : 0 < c) : ∀ {ls ms : List (List α)}, (∀ l ∈ ls, l.length = c) →
    (∀ l ∈ ms, l.length = c) → ls.flatten = ms.flatten → ls = ms
  | [], [], _, _, _ => rfl
  | [], m :: ms, _, hm, h => by
    have := congrArg List.length h
    rw [List.flatten_cons, List.length_append, hm m (by simp)] at this
    simp at this; omega
  | l :: ls, [], hl, _, h => by
    have := congrArg List.length h
    rw [List.flatten_cons, List.length_append, hl l (by simp)] at this
    simp at this; omega
  | l :: ls, m :: ms, hl, hm, h => by
    rw [List.flatten_cons, List.flatten_cons] at h
    obtain ⟨h1, h2⟩ := List.append_inj h (by rw [hl l (by simp), hm m (by simp)])
    rw [h1, flatten_const_inj hc (fun l h => hl l (by simp [h])) (fun l h => hm l (by simp [h])) h2]

/-- The lanes of a part along the first axis are a part of the lanes. -/
theorem IsLanes.part {pre post : List Nat} {d a lo n : Nat} {xs : List α} {lanes : List (List α)}
    (h : IsLanes (d :: pre) a post xs lanes) (hle : lo + n ≤ d) :
    IsLanes (n :: pre) a post (outerPart (pre ++ a :: post).prod lo n xs) (outerPart (pre ++ post).prod lo n lanes) := by
  refine ⟨?_, fun i j p hi hp => ?_⟩
  · rw [outerPart_length (d := d) (by rw [h.1]; simp) hle]; simp
  · cases i with
    | nil => simp at hi
    | cons i0 i =>
      simp only [List.cons_append] at hp
      unfold ravel at hp
      split at hp
      · next hi0 =>
        obtain ⟨q, hq, rfl⟩ := Option.map_eq_some_iff.1 hp
        obtain ⟨lane, h1, h2, h3⟩ := h.2 ((lo + i0) :: i) j ((lo + i0) * (pre ++ post).prod + q) (by simpa using hi) (by
          simp only [List.cons_append]
          unfold ravel
          rw [if_pos (by omega), hq]; rfl)
        refine ⟨lane, ?_, h2, fun k hk => ?_⟩
        · rw [outerPart_get (lt_mul_add hi0 (ravel_lt hq)), ← Nat.add_assoc, ← Nat.add_mul]
          exact h1
        · obtain ⟨x, h4, h5⟩ := h3 k hk
          refine ⟨x, h4, ?_⟩
          simp only [List.cons_append] at h5 ⊢
          rw [at_part hi0 hle]
          exact h5
      · cases hp

/-! ## C104 -/

section

/-- C104: `map_row`, with more than one value per row. -/
theorem C104_map_row {N c : Nat} (ds : List Nat) (f : List α → Vector β N) (hc : 0 < c) (hN : 1 < N) (hds : ∀ e ∈ ds, 0 < e) :
    BatchLaws (fun t => Tensor.runPure (t.mapRow N fun r => (pure (f r) : Exec Unit (Vector β N)))) (ds ++ [c]) (ds ++ [N]) := by
  refine Entrywise.laws (R := fun d xs ys => ∃ rows : List (List α), rows.flatten = xs ∧ rows.length = d * ds.prod ∧
    (∀ r ∈ rows, r.length = c) ∧ ys = ((rows.map f).map Vector.toList).flatten) ⟨?_, ?_⟩ ?_
  · intro t d xs ht hne hfit
    obtain ⟨rows, h1, h2, h3, h4⟩ := C20_map_row (ds := d :: ds) ht hc (by omega) hfit fun r => (pure (f r) : Exec Unit (Vector β N))
    rw [mapM_pure] at h4
    obtain ⟨u, e, r⟩ := runPure_pure h4
    exact ⟨u, _, e, r, rows, h1, by rw [h2]; simp, h3, rfl⟩
  · rintro d xs ys ys' lo n hx hxp hn hle ⟨rows, h1, h2, h3, rfl⟩ - ⟨rows', h1', h2', h3', rfl⟩ -
    have hp : (ds ++ [c]).prod = ds.prod * c := by simp
    have hq : (ds ++ [N]).prod = ds.prod * N := by simp
    rw [hp, ← h1, outerPart_flatten h3] at h1'
    have := flatten_const_inj hc h3' (fun l hl => h3 l (mem_outerPart hl)) h1'
    rw [this, hq, outerPart_flatten (c := N) (by simp), outerPart_map, outerPart_map]
  · intro e he
    rcases List.mem_append.1 he with he | he
    · exact hds e he
    · simp at he; omega

/-- C104: `map_row` with one value per row, which drops the last axis. -/
theorem C104_map_row_one {c : Nat} (ds : List Nat) (f : List α → Vector β 1) (hc : 0 < c) (hds : ∀ e ∈ ds, 0 < e) :
    BatchLaws (fun t => Tensor.runPure (t.mapRow 1 fun r => (pure (f r) : Exec Unit (Vector β 1)))) (ds ++ [c]) ds := by
  refine Entrywise.laws (R := fun d xs ys => ∃ rows : List (List α), rows.flatten = xs ∧ rows.length = d * ds.prod ∧
    (∀ r ∈ rows, r.length = c) ∧ ys = ((rows.map f).map Vector.toList).flatten) ⟨?_, ?_⟩ hds
  · intro t d xs ht hne hfit
    obtain ⟨rows, h1, h2, h3, h4⟩ := C20_map_row_scalar (ds := d :: ds) ht hc (by simp) hfit
      fun r => (pure (f r) : Exec Unit (Vector β 1))
    rw [mapM_pure] at h4
    obtain ⟨u, e, r⟩ := runPure_pure h4
    exact ⟨u, _, e, r, rows, h1, by rw [h2]; simp, h3, rfl⟩
  · rintro d xs ys ys' lo n hx hxp hn hle ⟨rows, h1, h2, h3, rfl⟩ - ⟨rows', h1', h2', h3', rfl⟩ -
    have hp : (ds ++ [c]).prod = ds.prod * c := by simp
    rw [hp, ← h1, outerPart_flatten h3] at h1'
    have := flatten_const_inj hc h3' (fun l hl => h3 l (mem_outerPart hl)) h1'
    have hq : ds.prod = ds.prod * 1 := by simp
    rw [this]
    conv_rhs => rw [hq]
    rw [outerPart_flatten (c := 1) (by simp), outerPart_map, outerPart_map]

/-- C104: `map_expand`. -/
theorem C104_map_expand {N : Nat} (ds : List Nat) (f : α → Vector β N) (hN : 0 < N) (hr : ds.length < 5) (hds : ∀ e ∈ ds, 0 < e) :
    BatchLaws (fun t => Tensor.runPure (t.mapExpand N fun x => (pure (f x) : Exec Unit (Vector β N)))) ds (ds ++ [N]) := by
  refine Entrywise.laws (R := fun d xs ys => ys = ((xs.map f).map Vector.toList).flatten) ⟨?_, ?_⟩ ?_
  · intro t d xs ht hne hfit
    have h4 := C20_map_expand ht (by simp; omega) hfit fun x => (pure (f x) : Exec Unit (Vector β N))
    rw [mapM_pure] at h4
    obtain ⟨u, e, r⟩ := runPure_pure h4
    exact ⟨u, _, e, r, rfl⟩
  · rintro d xs ys ys' lo n hx hxp hn hle rfl - rfl -
    have hq : (ds ++ [N]).prod = ds.prod * N := by simp
    rw [hq, outerPart_flatten (c := N) (by simp), outerPart_map, outerPart_map]
  · intro e he
    rcases List.mem_append.1 he with he | he
    · exact hds e he
    · simp at he; omega

theorem axis_inner {pre post : List Nat} {d a : Nat} {ax : Int} (h : axisIndex (pre.length + post.length + 2) ax = some (pre.length + 1)) :
    axisIndex ((d :: pre) ++ a :: post).length ax = some (d :: pre).length := by
  have e : ((d :: pre) ++ a :: post).length = pre.length + post.length + 2 := by simp; omega
  rw [e, h]; rfl

/-- C104: `fold_axis` along any axis but the first. -/
theorem C104_fold_axis (pre post : List Nat) (a : Nat) {ax : Int}
    (ha : axisIndex (pre.length + post.length + 2) ax = some (pre.length + 1)) (init : S) (f : S → α → S) (g : S → β)
    (hpos : ∀ e ∈ pre ++ post, 0 < e) :
    BatchLaws (fun t => Tensor.runPure (t.foldAxis (some ax) init (fun s v => (pure (f s v) : Exec Unit S)) g))
      (pre ++ a :: post) (pre ++ post) := by
  refine Entrywise.laws (R := fun d xs ys => ∃ lanes, IsLanes (d :: pre) a post xs lanes ∧
    ys = lanes.map fun l => g (l.foldl f init)) ⟨?_, ?_⟩ hpos
  · intro t d xs ht hne hfit
    obtain ⟨lanes, u, h1, -, e, r⟩ := foldAxis_pure (pre := d :: pre) ht hne (axis_inner ha) init f g
    exact ⟨u, _, e, r, lanes, h1, rfl⟩
  · rintro d xs ys ys' lo n hx hxp hn hle ⟨lanes, h1, rfl⟩ - ⟨lanes', h2, rfl⟩ -
    rw [h2.unique (h1.part hle), outerPart_map]

/-- C104: `reduce_axis` along any axis but the first. -/
theorem C104_reduce_axis (pre post : List Nat) (a : Nat) {ax : Int}
    (ha : axisIndex (pre.length + post.length + 2) ax = some (pre.length + 1)) (f : α → α → α)
    (hpos : ∀ e ∈ pre ++ post, 0 < e) :
    BatchLaws (fun t => Tensor.runPure (t.reduceAxis (some ax) fun s v => (pure (f s v) : Exec Unit α)))
      (pre ++ a :: post) (pre ++ post) := by
  by_cases hα : Nonempty α
  swap
  · refine Entrywise.laws (R := fun _ _ _ => False) ⟨fun {t d xs} _ hne _ => ?_, fun _ _ _ _ h => h.elim⟩ hpos
    obtain ⟨x, _⟩ := List.exists_mem_of_ne_nil xs hne
    exact (hα ⟨x⟩).elim
  obtain ⟨z⟩ := hα
  let g : List α → α := fun l => match l with | [] => z | x :: l => l.foldl f x
  refine Entrywise.laws (R := fun d xs ys => ∃ lanes, IsLanes (d :: pre) a post xs lanes ∧ ys = lanes.map g) ⟨?_, ?_⟩ hpos
  · intro t d xs ht hne hfit
    obtain ⟨lanes, u, h1, -, e, r⟩ := reduceAxis_pure (pre := d :: pre) ht hne (axis_inner ha) f (g := g) (fun _ _ => rfl)
    exact ⟨u, _, e, r, lanes, h1, rfl⟩
  · rintro d xs ys ys' lo n hx hxp hn hle ⟨lanes, h1, rfl⟩ - ⟨lanes', h2, rfl⟩ -
    rw [h2.unique (h1.part hle), outerPart_map]

/-- C104: `normalize` along any axis but the first. -/
theorem C104_normalize (pre post : List Nat) (a : Nat) {ax : Int}
    (ha : axisIndex (pre.length + post.length + 2) ax = some (pre.length + 1)) (init : S) (accum : S → α → S)
    (complete : S → S1) (norm : S1 → α → β) (hpos : ∀ e ∈ pre ++ a :: post, 0 < e) :
    BatchLaws (fun t => Tensor.runPure (t.normalize (some ax) init (fun s v => (pure (accum s v) : Exec Unit S))
      (fun s => pure (complete s)) fun s v => pure (norm s v))) (pre ++ a :: post) (pre ++ a :: post) := by
  have hpp : ∀ e ∈ pre ++ post, 0 < e := fun e he => hpos e (by
    rcases List.mem_append.1 he with he | he <;> simp [he])
  refine Entrywise.laws (R := fun d xs ys => ∃ lanes, IsLanes (d :: pre) a post xs lanes ∧ (∀ l ∈ lanes, l.length = a) ∧
    ys = (lanes.map fun l => l.map (norm (complete (l.foldl accum init)))).flatten) ⟨?_, ?_⟩ hpos
  · intro t d xs ht hne hfit
    have hd : 0 < d := by
      have := List.length_pos_iff.2 hne
      rw [ht.length, List.prod_cons] at this
      exact Nat.pos_of_mul_pos_right this
    obtain ⟨lanes, h1, h2, -, h4⟩ := C24_actual (pre := d :: pre) ht (by
      intro x hx
      rcases List.mem_cons.1 hx with rfl | hx
      · exact hd
      · exact hpp x hx) (axis_inner ha) init (fun s v => (pure (accum s v) : Exec Unit S)) (fun s => pure (complete s))
      fun s v => pure (norm s v)
    have : (fun lane : List α => (do
        let s ← lane.foldlM (fun s v => (pure (accum s v) : Exec Unit S)) init
        let s1 ← (pure (complete s) : Exec Unit S1)
        lane.mapM fun v => (pure (norm s1 v) : Exec Unit β))) =
        fun lane => pure (lane.map (norm (complete (lane.foldl accum init)))) := by
      funext lane
      rw [foldlM_pure, pure_bind, pure_bind, mapM_pure]
    rw [this, mapM_pure] at h4
    obtain ⟨u, e, r⟩ := runPure_pure h4
    exact ⟨u, _, e, r, lanes, h1, h2, rfl⟩
  · rintro d xs ys ys' lo n hx hxp hn hle ⟨lanes, h1, h2, rfl⟩ - ⟨lanes', h3, -, rfl⟩ -
    have hq : (pre ++ a :: post).prod = (pre ++ post).prod * a := by
      rw [List.prod_append, List.prod_append, List.prod_cons]; grind
    rw [h3.unique (h1.part hle), ← outerPart_map, ← outerPart_flatten (c := a), ← hq]
    intro l hl
    obtain ⟨l', hl', rfl⟩ := List.mem_map.1 hl
    rw [List.length_map, h2 l' hl']

/-- C104: an operation with a fixed operand that has none of the first axis, on the right. -/
theorem C104_binary_right (ds : List Nat) (f : α → γ → β) {b : Tensor γ} {es : List Nat} {zs : List γ} (hb : Rep b es zs)
    (hs : es <:+ ds) (hds : ∀ e ∈ ds, 0 < e) : BatchLaws (fun t => zipped f t b) ds ds := by
  refine Entrywise.laws (R := fun d xs ys => ∃ bs, Bcast es zs (d :: ds) bs ∧ ys = List.zipWith f xs bs) ⟨?_, ?_⟩ hds
  · intro t d xs ht hne hfit
    obtain ⟨as, bs, h1, h2, h3⟩ := C15_map2_right ht hb (hs.trans (List.suffix_cons d ds)) hne
      fun x y => (pure (f x y) : Exec Unit β)
    rw [bcast_same ht.length h1] at h3
    rw [mapM_pure (fun p : α × γ => f p.1 p.2)] at h3
    obtain ⟨u, e, r⟩ := runPure_pure h3
    refine ⟨u, _, e, r, bs, h2, ?_⟩
    rw [List.zip, List.map_zipWith]
  · rintro d xs ys ys' lo n hx hxp hn hle ⟨bs, h1, rfl⟩ - ⟨bs', h2, rfl⟩ -
    have hb2 : bs' = outerPart ds.prod lo n bs := by
      have hl1 : bs.length = d * ds.prod := by rw [h1.1, List.prod_cons]
      have hl2 : bs'.length = n * ds.prod := by rw [h2.1, List.prod_cons]
      apply List.ext_getElem?
      intro p
      by_cases hp : p < n * ds.prod
      · rw [outerPart_get hp, h2.flat (hs.trans (List.suffix_cons n ds)) (by rwa [List.prod_cons])]
        have hp' : lo * ds.prod + p < (d :: ds).prod := by
          have := Nat.mul_le_mul_right ds.prod hle
          rw [Nat.add_mul] at this
          rw [List.prod_cons]; omega
        rw [h1.flat (hs.trans (List.suffix_cons d ds)) hp']
        obtain ⟨c, hc⟩ := suffix_prod_dvd hs
        have : lo * ds.prod = es.prod * (lo * c) := by rw [hc]; grind
        rw [this, Nat.mul_add_mod]
      · rw [List.getElem?_eq_none (by omega), List.getElem?_eq_none (by rw [outerPart_length hl1 hle]; omega)]
    rw [hb2]
    unfold outerPart
    rw [List.drop_zipWith, List.take_zipWith]

/-- C104: an operation with a fixed operand that has none of the first axis, on the left. -/
theorem C104_binary_left (ds : List Nat) (f : γ → α → β) {b : Tensor γ} {es : List Nat} {zs : List γ} (hb : Rep b es zs)
    (hs : es <:+ ds) (hds : ∀ e ∈ ds, 0 < e) : BatchLaws (fun t => zipped f b t) ds ds := by
  refine Entrywise.laws (R := fun d xs ys => ∃ bs, Bcast es zs (d :: ds) bs ∧ ys = List.zipWith f bs xs) ⟨?_, ?_⟩ hds
  · intro t d xs ht hne hfit
    obtain ⟨as, bs, h1, h2, h3⟩ := C15_map2_left hb ht (hs.trans (List.suffix_cons d ds)) hne
      fun x y => (pure (f x y) : Exec Unit β)
    rw [bcast_same ht.length h2] at h3
    rw [mapM_pure (fun p : γ × α => f p.1 p.2)] at h3
    obtain ⟨u, e, r⟩ := runPure_pure h3
    refine ⟨u, _, e, r, as, h1, ?_⟩
    rw [List.zip, List.map_zipWith]
  · rintro d xs ys ys' lo n hx hxp hn hle ⟨bs, h1, rfl⟩ - ⟨bs', h2, rfl⟩ -
    have hb2 : bs' = outerPart ds.prod lo n bs := by
      have hl1 : bs.length = d * ds.prod := by rw [h1.1, List.prod_cons]
      have hl2 : bs'.length = n * ds.prod := by rw [h2.1, List.prod_cons]
      apply List.ext_getElem?
      intro p
      by_cases hp : p < n * ds.prod
      · rw [outerPart_get hp, h2.flat (hs.trans (List.suffix_cons n ds)) (by rwa [List.prod_cons])]
        have hp' : lo * ds.prod + p < (d :: ds).prod := by
          have := Nat.mul_le_mul_right ds.prod hle
          rw [Nat.add_mul] at this
          rw [List.prod_cons]; omega
        rw [h1.flat (hs.trans (List.suffix_cons d ds)) hp']
        obtain ⟨c, hc⟩ := suffix_prod_dvd hs
        have : lo * ds.prod = es.prod * (lo * c) := by rw [hc]; grind
        rw [this, Nat.mul_add_mod]
      · rw [List.getElem?_eq_none (by omega), List.getElem?_eq_none (by rw [outerPart_length hl1 hle]; omega)]
    rw [hb2]
    unfold outerPart
    rw [List.drop_zipWith, List.take_zipWith]

/-- C104: `transpose` of a batch of matrices. -/
theorem C104_transpose (pre : List Nat) (r c : Nat) (hpos : ∀ e ∈ pre ++ [c, r], 0 < e) :
    BatchLaws (α := α) (fun t => t.transpose) (pre ++ [r, c]) (pre ++ [c, r]) := by
  refine Entrywise.laws (R := fun d xs ys => Transposed (d :: pre) r c xs ys) ⟨?_, ?_⟩ hpos
  · intro t d xs ht hne hfit
    obtain ⟨u, ys, e, h1, h2⟩ := C26_transpose (pre := d :: pre) ht hne
    exact ⟨u, ys, e, h1, h2⟩
  · intro d xs ys ys' lo n hx hxp hn hle h1 hy h2 hy'
    refine (IsSlice.unique (pre := []) (d := d) (post := pre ++ [c, r]) (lo := lo) (n := n) (xs := ys) ?_ (isSlice_part hy hle))
    refine ⟨by rw [hy']; simp, hle, fun i a j hi ha => ?_⟩
    obtain rfl := List.length_eq_zero_iff.1 hi
    simp only [List.nil_append]
    by_cases hj : j.length = pre.length + 2
    · obtain ⟨j', p, q, rfl⟩ : ∃ j' p q, j = j' ++ [p, q] := by
        refine ⟨j.take pre.length, j[pre.length], j[pre.length + 1], ?_⟩
        apply List.ext_getElem
        · simp; omega
        · intro i h1 h2
          rw [List.getElem_append]
          split
          · simp
          · next h3 =>
            simp at h3
            have : i = pre.length ∨ i = pre.length + 1 := by omega
            rcases this with rfl | rfl
            · simp [hj]
            · simp [hj]
      have hl : j'.length = pre.length := by simpa using hj
      have e1 := h2 (a :: j') p q (by simp [hl])
      have e2 := h1 ((lo + a) :: j') p q (by simp [hl])
      simp only [List.cons_append] at e1 e2
      rw [e1, e2]
      exact at_part (ds := pre ++ [r, c]) ha hle
    · have : ∀ (d : Nat) (zs : List α) (a : Nat), at? (d :: (pre ++ [c, r])) zs (a :: j) = none := by
        intro d zs a
        unfold at?
        cases hr : ravel (d :: (pre ++ [c, r])) (a :: j) with
        | none => rfl
        | some p => exact absurd (ravel_length hr) (by simp; omega)
      rw [this, this]

variable {F : Type}

/-- C104: the statistics along any axis but the first, however the arithmetic rounds. -/
theorem C104_statistics (fo : FOps F) (pre post : List Nat) (a : Nat) {ax : Int}
    (ha : axisIndex (pre.length + post.length + 2) ax = some (pre.length + 1)) (hpos : ∀ e ∈ pre ++ post, 0 < e) :
    BatchLaws (fun t => reduceMeanAxis fo t (some ax)) (pre ++ a :: post) (pre ++ post) ∧
    BatchLaws (fun t => reduceVarianceAxis fo t (some ax)) (pre ++ a :: post) (pre ++ post) ∧
    BatchLaws (fun t => reduceStdAxis fo t (some ax)) (pre ++ a :: post) (pre ++ post) ∧
    BatchLaws (fun t => reduceMinAxis fo t (some ax)) (pre ++ a :: post) (pre ++ post) ∧
    BatchLaws (fun t => reduceMaxAxis fo t (some ax)) (pre ++ a :: post) (pre ++ post) :=
  ⟨C104_fold_axis pre post a ha (Mean.default fo) (fun s v => Mean.update fo s v) (Mean.intoResult fo) hpos,
    C104_fold_axis pre post a ha (Var.default fo) (fun s v => Var.update fo s v) (Var.intoVar fo) hpos,
    C104_fold_axis pre post a ha (Var.default fo) (fun s v => Var.update fo s v) (Var.intoStd fo) hpos,
    C104_reduce_axis pre post a ha (fmin fo) hpos, C104_reduce_axis pre post a ha (fmax fo) hpos⟩

/-! ### examples -/

/-- The sums of the rows of a part of a matrix. -/
example : Same (Tensor.runPure (exView.mapRow 1 fun r => (pure #v[r.sum] : Exec Unit (Vector Nat 1))) >>= fun u => u.subslice 1 2)
    (exView.subslice 1 2 >>= fun t => Tensor.runPure (t.mapRow 1 fun r => (pure #v[r.sum] : Exec Unit (Vector Nat 1)))) [2] :=
  (C104_map_row_one [] (fun r => #v[r.sum]) (c := 2) (by simp) (by simp)).1 exView 3 _ 1 2 exView_rep (by simp)
    (fits_one (by simp)) (by simp) (by simp)

/-- Sums and products of the rows of two matrices. -/
example : Same (Tensor.concatenate [exMat, exMat] >>= fun t =>
      Tensor.runPure (t.mapRow 2 fun r => (pure #v[r.sum, r.prod] : Exec Unit (Vector Nat 2))))
    ([exMat, exMat].mapM (fun t => Tensor.runPure (t.mapRow 2 fun r => (pure #v[r.sum, r.prod] : Exec Unit (Vector Nat 2)))) >>=
      Tensor.concatenate) [4, 2] :=
  (C104_map_row [] (fun r => #v[r.sum, r.prod]) (c := 3) (by simp) (by simp) (by simp)).2 [exMat, exMat]
    [(2, [1, 2, 3, 4, 5, 6]), (2, [1, 2, 3, 4, 5, 6])] 4 (.cons exMat_rep (.cons exMat_rep .nil)) (by simp) (by simp) rfl
    (fits_of_pos (by simp) (by simp)) (fits_of_pos (by simp) (by simp)) (by simp) (by simp)

example : Same (Tensor.runPure (exMat.mapExpand 2 fun x => (pure #v[x, x * x] : Exec Unit (Vector Nat 2))) >>= fun u => u.subslice 1 1)
    (exMat.subslice 1 1 >>= fun t => Tensor.runPure (t.mapExpand 2 fun x => (pure #v[x, x * x] : Exec Unit (Vector Nat 2)))) [1, 3, 2] :=
  (C104_map_expand [3] (fun x => #v[x, x * x]) (by simp) (by simp) (by simp)).1 exMat 2 _ 1 1 exMat_rep (by simp)
    (fits_of_pos (by simp) (by simp)) (by simp) (by simp)

example : Same (Tensor.runPure (exMat.foldAxis (some (-1)) 0 (fun s v => (pure (s + v) : Exec Unit Nat)) (· * 2)) >>=
      fun u => u.subslice 1 1)
    (exMat.subslice 1 1 >>= fun t =>
      Tensor.runPure (t.foldAxis (some (-1)) 0 (fun s v => (pure (s + v) : Exec Unit Nat)) (· * 2))) [1] :=
  (C104_fold_axis [] [] 3 (ax := -1) (by decide) 0 (· + ·) (· * 2) (by simp)).1 exMat 2 _ 1 1 exMat_rep (by simp)
    (fits_one (by simp)) (by simp) (by simp)

example : Same (Tensor.concatenate [exMat, exMat] >>= fun t =>
      Tensor.runPure (t.reduceAxis (some 1) fun s v => (pure (max s v) : Exec Unit Nat)))
    ([exMat, exMat].mapM (fun t => Tensor.runPure (t.reduceAxis (some 1) fun s v => (pure (max s v) : Exec Unit Nat))) >>=
      Tensor.concatenate) [4] :=
  (C104_reduce_axis [] [] 3 (ax := 1) (by decide) max (by simp)).2 [exMat, exMat]
    [(2, [1, 2, 3, 4, 5, 6]), (2, [1, 2, 3, 4, 5, 6])] 4 (.cons exMat_rep (.cons exMat_rep .nil)) (by simp) (by simp) rfl
    (fits_of_pos (by simp) (by simp)) (fits_of_pos (by simp) (by simp)) (by simp) (by simp)

/-- Subtracting its sum from each row. -/
example : Same (Tensor.runPure (exMat.normalize (some 1) 0 (fun s v => (pure (s + v) : Exec Unit Nat)) (fun s => pure (s : Int))
        fun s v => pure ((v : Int) - s)) >>= fun u => u.subslice 1 1)
    (exMat.subslice 1 1 >>= fun t => Tensor.runPure (t.normalize (some 1) 0 (fun s v => (pure (s + v) : Exec Unit Nat))
      (fun s => pure (s : Int)) fun s v => pure ((v : Int) - s))) [1, 3] :=
  (C104_normalize [] [] 3 (ax := 1) (by decide) 0 (fun s v : Nat => s + v) (fun s => (s : Int)) (fun s (v : Nat) => (v : Int) - s) (by simp)).1
    exMat 2 _ 1 1 exMat_rep (by simp) (fits_of_pos (by simp) (by simp)) (by simp) (by simp)

example : Same (zipped (· + ·) exView exRow >>= fun u => u.subslice 1 2)
    (exView.subslice 1 2 >>= fun t => zipped (· + ·) t exRow) [2, 2] :=
  (C104_binary_right [2] (· + ·) exRow_rep (List.suffix_refl _) (by simp)).1 exView 3 _ 1 2 exView_rep (by simp)
    (fits_of_pos (by simp) (by simp)) (by simp) (by simp)

example : Same (zipped (· - ·) exRow exView >>= fun u => u.subslice 1 2)
    (exView.subslice 1 2 >>= fun t => zipped (· - ·) exRow t) [2, 2] :=
  (C104_binary_left [2] (· - ·) exRow_rep (List.suffix_refl _) (by simp)).1 exView 3 _ 1 2 exView_rep (by simp)
    (fits_of_pos (by simp) (by simp)) (by simp) (by simp)

/-- Two matrices, as a batch. -/
def exBatch : Tensor Nat := { shape := ofDims [2, 2, 3], offset := 0, size := 12, data := [1, 2, 3, 4, 5, 6, 7, 8, 9, 10, 11, 12] }

theorem exBatch_rep : Rep exBatch [2, 2, 3] [1, 2, 3, 4, 5, 6, 7, 8, 9, 10, 11, 12] :=
  ⟨⟨wf_ofDims ⟨by simp, by simp⟩, rfl, by simp [exBatch]⟩, rfl, rfl⟩

example : Same (exBatch.transpose >>= fun u => u.subslice 1 1) (exBatch.subslice 1 1 >>= fun t => t.transpose) [1, 3, 2] :=
  (C104_transpose [] 2 3 (by simp)).1 exBatch 2 _ 1 1 exBatch_rep (by simp) (fits_of_pos (by simp) (by simp)) (by simp) (by simp)

example (t : Tensor Rat) (h : Rep t [2, 2] [1, 2, 3, 6]) :
    Same (reduceMeanAxis (.exact id id id (fun x _ => x)) t (some 1) >>= fun u => u.subslice 1 1)
      (t.subslice 1 1 >>= fun t => reduceMeanAxis (.exact id id id (fun x _ => x)) t (some 1)) [1] :=
  (C104_statistics (.exact id id id (fun x _ => x)) [] [] 2 (ax := 1) (by decide) (by simp)).1.1 t 2 _ 1 1 h (by simp)
    (fits_one (by simp)) (by simp) (by simp)

end

end Essay
