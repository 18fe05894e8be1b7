import Verif.Props.Structure
import Verif.Props.Consistency

/-!
# C101: the laws of tiling
-/

namespace Essay

open Shape Stats

set_option linter.unusedSectionVars false

variable {α β : Type}

/-! ### padding -/

theorem mulDims_length {a b : List Nat} (h : a.length = b.length) : (mulDims a b).length = b.length := by
  simp [mulDims, h]

theorem padLeft_padLeft {n k : Nat} {l : List Nat} (h1 : l.length ≤ k) (h2 : k ≤ n) :
    padLeft n (padLeft k l) = padLeft n l := by
  unfold padLeft
  rw [← List.append_assoc, ← List.replicate_add]
  congr 2
  simp; omega

theorem padLeft_mulDims (n : Nat) {a b : List Nat} (h : a.length = b.length) :
    padLeft n (mulDims a b) = mulDims (padLeft n a) (padLeft n b) := by
  have : ∀ k, List.replicate k 1 ++ mulDims a b = mulDims (List.replicate k 1 ++ a) (List.replicate k 1 ++ b) := by
    intro k
    induction k with
    | zero => rfl
    | succ k ih => simp only [List.replicate_succ, List.cons_append, ih]; simp [mulDims]
  unfold padLeft
  rw [mulDims_length h, h, this]

theorem mulDims_assoc (a b c : List Nat) : mulDims (mulDims a b) c = mulDims a (mulDims b c) := by
  induction a generalizing b c with
  | nil => simp [mulDims]
  | cons x a ih =>
    cases b with
    | nil => simp [mulDims]
    | cons y b =>
      cases c with
      | nil => simp [mulDims]
      | cons z c =>
        have := ih b c
        simp only [mulDims, List.zipWith_cons_cons, Nat.mul_assoc] at this ⊢
        rw [this]

theorem mulDims_ones (n : Nat) (ds : List Nat) (h : ds.length = n) : mulDims (List.replicate n 1) ds = ds := by
  subst h
  induction ds with
  | nil => rfl
  | cons d ds ih =>
    rw [List.length_cons, List.replicate_succ]
    unfold mulDims at ih ⊢
    rw [List.zipWith_cons_cons, ih, Nat.one_mul]

theorem padLeft_ones (n k : Nat) (h : k ≤ n) : padLeft n (List.replicate k 1) = List.replicate n 1 := by
  unfold padLeft
  rw [← List.replicate_add]
  congr 1
  simp; omega

theorem tileElems_pad (n : Nat) {ms ds : List Nat} (hl : ms.length = ds.length) {xs : List α} (hx : xs.length = ds.prod) :
    tileElems (padLeft n ms) (padLeft n ds) xs = tileElems ms ds xs := by
  have : ∀ k, tileElems (List.replicate k 1 ++ ms) (List.replicate k 1 ++ ds) xs = tileElems ms ds xs := by
    intro k
    induction k with
    | zero => rfl
    | succ k ih =>
      simp only [List.replicate_succ, List.cons_append, tileElems, List.range_one, List.map_cons, List.map_nil,
        List.flatten_cons, List.flatten_nil, List.append_nil, Nat.zero_mul, List.drop_zero]
      rw [List.take_of_length_le (by simp [hx]), ih]
  unfold padLeft
  rw [hl, this]

/-! ### the elements of a tiling -/

theorem zipWith_mod_of_ravel {ds idx : List Nat} {p : Nat} (h : ravel ds idx = some p) :
    List.zipWith (· % ·) idx ds = idx := by
  induction ds generalizing idx p with
  | nil => cases idx <;> simp_all [ravel]
  | cons d ds ih =>
    cases idx with
    | nil => simp [ravel] at h
    | cons i idx =>
      obtain ⟨hi, q, hq, -⟩ := ravel_cons.1 h
      rw [List.zipWith_cons_cons, ih hq, Nat.mod_eq_of_lt hi]

theorem ravel_mod {ms ds idx : List Nat} {p : Nat} (hl : ms.length = ds.length) (h : ravel (mulDims ms ds) idx = some p) :
    ∃ q, ravel ds (List.zipWith (· % ·) idx ds) = some q := by
  induction ds generalizing ms idx p with
  | nil =>
    cases ms with
    | nil => cases idx <;> simp_all [ravel, mulDims]
    | cons _ _ => simp at hl
  | cons d ds ih =>
    cases ms with
    | nil => simp at hl
    | cons m ms =>
      cases idx with
      | nil => simp [ravel, mulDims] at h
      | cons i idx =>
        unfold mulDims at h
        rw [List.zipWith_cons_cons] at h
        obtain ⟨hi, q, hq, -⟩ := ravel_cons.1 h
        obtain ⟨r, hr⟩ := ih (by simpa using hl) hq
        have hd : 0 < d := by
          rcases Nat.eq_zero_or_pos d with rfl | hd
          · simp at hi
          · exact hd
        exact ⟨_, ravel_cons.2 ⟨Nat.mod_lt _ hd, r, hr, rfl⟩⟩

theorem mod_mul_mod {ms ds idx : List Nat} (hl : ms.length = ds.length) :
    List.zipWith (· % ·) (List.zipWith (· % ·) idx (mulDims ms ds)) ds = List.zipWith (· % ·) idx ds := by
  induction ds generalizing ms idx with
  | nil => simp
  | cons d ds ih =>
    cases ms with
    | nil => simp at hl
    | cons m ms =>
      cases idx with
      | nil => simp
      | cons i idx =>
        have := ih (ms := ms) (idx := idx) (by simpa using hl)
        unfold mulDims at this ⊢
        rw [List.zipWith_cons_cons, List.zipWith_cons_cons, List.zipWith_cons_cons, List.zipWith_cons_cons, this,
          Nat.mod_mul_left_mod]

theorem at_eq {ds : List Nat} {xs ys : List α} (hx : xs.length = ds.prod) (hy : ys.length = ds.prod)
    (h : ∀ idx p, ravel ds idx = some p → at? ds xs idx = at? ds ys idx) : xs = ys := by
  refine at_ext hx hy fun idx => ?_
  cases hi : ravel ds idx with
  | none => unfold at?; rw [hi]; rfl
  | some p => exact h idx p hi

theorem tileElems_tileElems {ns ms ds : List Nat} (hl : ms.length = ds.length) (hn : ns.length = ds.length) {xs : List α}
    (hx : xs.length = ds.prod) :
    tileElems ns (mulDims ms ds) (tileElems ms ds xs) = tileElems (mulDims ns ms) ds xs := by
  have l1 : (mulDims ns ms).length = ds.length := by rw [mulDims_length (by omega), hl]
  have l2 : ns.length = (mulDims ms ds).length := by rw [mulDims_length hl, hn]
  have l3 := tileElems_length ms ds hl xs hx
  refine at_eq (ds := mulDims (mulDims ns ms) ds) ?_ (tileElems_length _ _ l1 xs hx) fun idx p hp => ?_
  · rw [tileElems_length _ _ l2 _ l3, mulDims_assoc]
  · unfold at?
    rw [hp, Option.bind_some, Option.bind_some, tileElems_at _ _ l1 xs hx idx p hp]
    rw [mulDims_assoc] at hp
    rw [tileElems_at _ _ l2 _ l3 idx p hp]
    obtain ⟨q, hq⟩ := ravel_mod l2 hp
    unfold at?
    rw [hq, Option.bind_some, tileElems_at _ _ hl xs hx _ q hq, mod_mul_mod hl]
    rfl

theorem tileElems_ones (n : Nat) {ds : List Nat} (hn : ds.length = n) {xs : List α} (hx : xs.length = ds.prod) :
    tileElems (List.replicate n 1) ds xs = xs := by
  have l : (List.replicate n 1).length = ds.length := by simp [hn]
  refine at_eq (ds := ds) ?_ hx fun idx p hp => ?_
  · rw [tileElems_length _ _ l xs hx, mulDims_ones n ds hn]
  · have hp' : ravel (mulDims (List.replicate n 1) ds) idx = some p := by rwa [mulDims_ones n ds hn]
    have := tileElems_at _ _ l xs hx idx p hp'
    rw [zipWith_mod_of_ravel hp] at this
    rw [← this]
    unfold at?
    rw [hp]; rfl

theorem tileElems_map (f : α → β) (ms ds : List Nat) (xs : List α) :
    tileElems ms ds (xs.map f) = (tileElems ms ds xs).map f := by
  induction ms generalizing ds xs with
  | nil => cases ds <;> rfl
  | cons m ms ih =>
    cases ds with
    | nil => rfl
    | cons d ds =>
      simp only [tileElems, ← List.map_drop, ← List.map_take, ih, List.map_flatten, List.map_map, Function.comp_def]

theorem replicate_append_perm (p : Nat) (a b : List α) :
    ((List.replicate p a).flatten ++ (List.replicate p b).flatten).Perm (List.replicate p (a ++ b)).flatten := by
  induction p with
  | zero => simp
  | succ p ih =>
    simp only [List.replicate_succ, List.flatten_cons, List.append_assoc]
    refine List.Perm.append_left a (List.Perm.trans ?_ (List.Perm.append_left b ih))
    rw [← List.append_assoc, ← List.append_assoc]
    exact List.Perm.append_right _ List.perm_append_comm

theorem flatten_replicate_perm (p : Nat) {γ : Type} (l : List γ) (f : γ → List α) :
    ((l.map fun i => (List.replicate p (f i)).flatten).flatten).Perm (List.replicate p (l.map f).flatten).flatten := by
  induction l with
  | nil => simp
  | cons i l ih =>
    simp only [List.map_cons, List.flatten_cons]
    exact (List.Perm.append_left _ ih).trans (replicate_append_perm p _ _)

theorem flatten_replicate_replicate (m p : Nat) (xs : List α) :
    (List.replicate m (List.replicate p xs).flatten).flatten = (List.replicate (m * p) xs).flatten := by
  induction m with
  | zero => simp
  | succ m ih => rw [List.replicate_succ, List.flatten_cons, ih, ← List.flatten_append, ← List.replicate_add, Nat.succ_mul, Nat.add_comm]

theorem flatten_perm {γ : Type} (l : List γ) {f g : γ → List α} (h : ∀ i ∈ l, (f i).Perm (g i)) :
    ((l.map f).flatten).Perm (l.map g).flatten := by
  induction l with
  | nil => simp
  | cons i l ih =>
    simp only [List.map_cons, List.flatten_cons]
    exact List.Perm.append (h i (by simp)) (ih fun j hj => h j (by simp [hj]))

/-- A tiling has each element of the array once for each of the copies. -/
theorem tileElems_perm {ms ds : List Nat} (hl : ms.length = ds.length) {xs : List α} (hx : xs.length = ds.prod) :
    (tileElems ms ds xs).Perm (List.replicate ms.prod xs).flatten := by
  induction ms generalizing ds xs with
  | nil => cases ds <;> simp [tileElems]
  | cons m ms ih =>
    cases ds with
    | nil => simp at hl
    | cons d ds =>
      rw [List.prod_cons, ← flatten_replicate_replicate]
      rw [List.prod_cons] at hx
      have step : (((List.range d).map fun i => tileElems ms ds ((xs.drop (i * ds.prod)).take ds.prod)).flatten).Perm
          (List.replicate ms.prod xs).flatten := by
        refine (flatten_perm (g := fun i => (List.replicate ms.prod ((xs.drop (i * ds.prod)).take ds.prod)).flatten)
          _ fun i hi => ih (by simpa using hl) ?_).trans ?_
        · rw [List.length_take, List.length_drop, hx]
          have := Nat.mul_le_mul_right ds.prod (Nat.succ_le_of_lt (List.mem_range.1 hi))
          rw [Nat.succ_mul] at this
          omega
        · have := flatten_replicate_perm ms.prod (List.range d) fun i => (xs.drop (i * ds.prod)).take ds.prod
          rwa [chunks_flatten ds.prod d xs hx] at this
      have := flatten_perm (List.range m) fun _ _ => step
      simpa only [tileElems, List.map_const', List.length_range] using this

/-! ## C101 -/

/-- A vector of multiples. -/
def mulT (ms : List Nat) : Tensor Nat := { shape := ofDims [ms.length], offset := 0, size := ms.length, data := ms }

theorem mulT_rep (ms : List Nat) (h : ms.length < 2 ^ 32) : Rep (mulT ms) [ms.length] ms :=
  rep_fresh (ds := [ms.length]) ⟨by simp, by simpa using h⟩ (fits_one h) (by simp)

theorem ones_pos {k : Nat} : ∀ m ∈ List.replicate k 1, 0 < m := fun m hm => by
  rw [List.eq_of_mem_replicate hm]; exact Nat.one_pos

/-- C101: tiling once along every axis gives the tensor back; multiples beyond its rank put axes of length 1 in front. -/
theorem C101_once {t : Tensor α} {ds : List Nat} {xs : List α} (h : Rep t ds xs) (hne : xs ≠ []) {k : Nat}
    {mt : Tensor Nat} (hm : Rep mt [k] (List.replicate k 1)) (hk : k ≤ 6) (hfit : ds.prod < 2 ^ 32)
    (h0 : ds ≠ [] ∨ 0 < k) : ∃ u, Tensor.tile t mt = .ok u ∧ Rep u (padLeft (max ds.length k) ds) xs := by
  obtain ⟨u, e, r⟩ := tile_eq h (ms := List.replicate k 1) (by simpa using hm) hne ones_pos (by simpa using hk)
    (by simpa using hfit) (by
      rcases h0 with h0 | h0
      · have := List.length_pos_iff.2 h0; omega
      · simp; omega)
  rw [List.length_replicate, padLeft_ones _ _ (by omega), mulDims_ones _ _ (padLeft_length (by omega)),
    tileElems_ones _ (padLeft_length (by omega)) (by rw [padLeft_prod, h.length])] at r
  exact ⟨u, e, r⟩

example : ∃ u, exView.tile (mulT [1, 1, 1]) = .ok u ∧ Rep u [1, 3, 2] [2, 3, 4, 5, 6, 7] :=
  C101_once exView_rep (by simp) (k := 3) (mulT_rep [1, 1, 1] (by simp)) (by simp) (by simp) (Or.inl (by simp))

theorem mulDims_pos {a b : List Nat} (ha : ∀ x ∈ a, 0 < x) (hb : ∀ x ∈ b, 0 < x) : ∀ x ∈ mulDims a b, 0 < x := by
  induction a generalizing b with
  | nil => simp [mulDims]
  | cons x a ih =>
    cases b with
    | nil => simp [mulDims]
    | cons y b =>
      intro z hz
      unfold mulDims at hz
      rw [List.zipWith_cons_cons] at hz
      rcases List.mem_cons.1 hz with rfl | hz
      · exact Nat.mul_pos (ha x (by simp)) (hb y (by simp))
      · exact ih (fun x hx => ha x (by simp [hx])) (fun x hx => hb x (by simp [hx])) z hz

theorem padLeft_pos {n : Nat} {a : List Nat} (ha : ∀ x ∈ a, 0 < x) : ∀ x ∈ padLeft n a, 0 < x := by
  intro x hx
  rcases List.mem_append.1 hx with hx | hx
  · rw [List.eq_of_mem_replicate hx]; exact Nat.one_pos
  · exact ha x hx

/-- C101: tiling twice is tiling once by the products of the multiples (matched from the last axis). -/
theorem C101_twice {t : Tensor α} {ds : List Nat} {xs : List α} (h : Rep t ds xs) (hne : xs ≠ []) {ms ns : List Nat}
    {mt nt pt : Tensor Nat} (hm : Rep mt [ms.length] ms) (hn : Rep nt [ns.length] ns)
    (hp : Rep pt [max ms.length ns.length]
      (mulDims (padLeft (max ms.length ns.length) ns) (padLeft (max ms.length ns.length) ms)))
    (hms : ∀ m ∈ ms, 0 < m) (hns : ∀ n ∈ ns, 0 < n) (hml : ms.length ≤ 6) (hnl : ns.length ≤ 6)
    (hfit : ns.prod * ms.prod * ds.prod < 2 ^ 32) (h0 : ds ≠ [] ∨ ms ≠ []) :
    Same (Tensor.tile t mt >>= fun u => Tensor.tile u nt) (Tensor.tile t pt)
      (mulDims (padLeft (max ds.length (max ms.length ns.length)) ns)
        (mulDims (padLeft (max ds.length (max ms.length ns.length)) ms)
          (padLeft (max ds.length (max ms.length ns.length)) ds))) := by
  have hlen := h.length
  have hxp : 0 < ds.prod := by rw [← hlen]; exact List.length_pos_iff.2 hne
  have hmp : 0 < ms.prod := List.prod_pos hms
  have hnp : 0 < ns.prod := List.prod_pos hns
  have hfit1 : ms.prod * ds.prod < 2 ^ 32 := by
    refine Nat.lt_of_le_of_lt ?_ hfit
    rw [Nat.mul_assoc]
    exact Nat.le_mul_of_pos_left _ hnp
  have hl0 : 0 < max ds.length ms.length := by
    rcases h0 with h0 | h0 <;> have := List.length_pos_iff.2 h0 <;> omega
  obtain ⟨u, e1, r1⟩ := tile_eq h hm hne hms hml hfit1 (by omega)
  have l1 : (padLeft (max ds.length ms.length) ms).length = (padLeft (max ds.length ms.length) ds).length := by
    rw [padLeft_length (by omega), padLeft_length (by omega)]
  have x1 : xs.length = (padLeft (max ds.length ms.length) ds).prod := by rw [padLeft_prod, hlen]
  have hne1 : tileElems (padLeft (max ds.length ms.length) ms) (padLeft (max ds.length ms.length) ds) xs ≠ [] := by
    rw [← List.length_pos_iff, r1.length, mulDims_prod l1, padLeft_prod, padLeft_prod]
    exact Nat.mul_pos hmp hxp
  obtain ⟨v, e2, r2⟩ := tile_eq r1 hn hne1 hns hnl (by
      rw [mulDims_prod l1, padLeft_prod, padLeft_prod, ← Nat.mul_assoc]; exact hfit) (by
      rw [mulDims_length l1, padLeft_length (by omega)]; omega)
  have lp : (padLeft (max ms.length ns.length) ns).length = (padLeft (max ms.length ns.length) ms).length := by
    rw [padLeft_length (by omega), padLeft_length (by omega)]
  have lp' : (mulDims (padLeft (max ms.length ns.length) ns) (padLeft (max ms.length ns.length) ms)).length
      = max ms.length ns.length := by rw [mulDims_length lp, padLeft_length (by omega)]
  obtain ⟨w, e3, r3⟩ := tile_eq h (by rw [lp']; exact hp) hne (mulDims_pos (padLeft_pos hns) (padLeft_pos hms))
    (by rw [lp']; omega) (by rw [mulDims_prod lp, padLeft_prod, padLeft_prod]; exact hfit) (by rw [lp']; omega)
  rw [mulDims_length l1, padLeft_length (show ds.length ≤ max ds.length ms.length by omega), padLeft_mulDims _ l1,
    padLeft_padLeft (by omega) (by omega), padLeft_padLeft (by omega) (by omega), Nat.max_assoc] at r2
  rw [lp', padLeft_mulDims _ lp, padLeft_padLeft (by omega) (by omega), padLeft_padLeft (by omega) (by omega),
    mulDims_assoc] at r3
  have lN : (padLeft (max ds.length (max ms.length ns.length)) ms).length
      = (padLeft (max ds.length (max ms.length ns.length)) ds).length := by
    rw [padLeft_length (by omega), padLeft_length (by omega)]
  have lN' : (padLeft (max ds.length (max ms.length ns.length)) ns).length
      = (padLeft (max ds.length (max ms.length ns.length)) ds).length := by
    rw [padLeft_length (by omega), padLeft_length (by omega)]
  have hpad := tileElems_pad (max ds.length (max ms.length ns.length)) l1 x1
  rw [padLeft_padLeft (by omega) (by omega), padLeft_padLeft (by omega) (by omega)] at hpad
  rw [← hpad, tileElems_tileElems lN lN' (by rw [padLeft_prod, hlen])] at r2
  exact ⟨v, w, _, by rw [e1]; exact e2, e3, r2, r3⟩

example : Same (exMat.tile (mulT [2, 1]) >>= fun u => u.tile (mulT [3, 1, 2])) (exMat.tile (mulT [3, 2, 2])) [3, 4, 6] :=
  C101_twice exMat_rep (by simp) (ms := [2, 1]) (ns := [3, 1, 2]) (mulT_rep _ (by simp)) (mulT_rep _ (by simp))
    (mulT_rep [3, 2, 2] (by simp)) (by simp) (by simp) (by simp) (by simp) (by simp) (Or.inl (by simp))

/-- C101: applying a function to every element and tiling can be done in either order. -/
theorem C101_map (f : α → β) {t : Tensor α} {ds : List Nat} {xs : List α} (h : Rep t ds xs) (hne : xs ≠ []) {ms : List Nat}
    {mt : Tensor Nat} (hm : Rep mt [ms.length] ms) (hms : ∀ m ∈ ms, 0 < m) (hml : ms.length ≤ 6)
    (hfit : ms.prod * ds.prod < 2 ^ 32) (h0 : ds ≠ [] ∨ ms ≠ []) :
    Same (mapped f t >>= fun u => Tensor.tile u mt) (Tensor.tile t mt >>= mapped f)
      (mulDims (padLeft (max ds.length ms.length) ms) (padLeft (max ds.length ms.length) ds)) := by
  have hl0 : 0 < max ds.length ms.length := by
    rcases h0 with h0 | h0 <;> have := List.length_pos_iff.2 h0 <;> omega
  obtain ⟨u, e1, r1⟩ := mapped_rep f h
  obtain ⟨v, e2, r2⟩ := tile_eq r1 hm (by simpa using hne) hms hml hfit hl0
  obtain ⟨w, e3, r3⟩ := tile_eq h hm hne hms hml hfit hl0
  obtain ⟨z, e4, r4⟩ := mapped_rep f r3
  rw [tileElems_map] at r2
  exact ⟨v, z, _, by rw [e1]; exact e2, by rw [e3]; exact e4, r2, r4⟩

example : Same (mapped (· * 10) exMat >>= fun u => u.tile (mulT [2, 1, 2])) (exMat.tile (mulT [2, 1, 2]) >>= mapped (· * 10))
    [2, 2, 6] :=
  C101_map _ exMat_rep (by simp) (ms := [2, 1, 2]) (mulT_rep _ (by simp)) (by simp) (by simp) (by simp) (Or.inl (by simp))

/-- C101: the elements of a tiling are those of the tensor, each once for each of the copies. -/
theorem C101_elements {t : Tensor α} {ds : List Nat} {xs : List α} (h : Rep t ds xs) (hne : xs ≠ []) {ms : List Nat}
    {mt : Tensor Nat} (hm : Rep mt [ms.length] ms) (hms : ∀ m ∈ ms, 0 < m) (hml : ms.length ≤ 6)
    (hfit : ms.prod * ds.prod < 2 ^ 32) (h0 : ds ≠ [] ∨ ms ≠ []) :
    ∃ u out, Tensor.tile t mt = .ok u ∧
      Rep u (mulDims (padLeft (max ds.length ms.length) ms) (padLeft (max ds.length ms.length) ds)) out ∧
      out.Perm (List.replicate ms.prod xs).flatten := by
  have hl0 : 0 < max ds.length ms.length := by
    rcases h0 with h0 | h0 <;> have := List.length_pos_iff.2 h0 <;> omega
  obtain ⟨u, e, r⟩ := tile_eq h hm hne hms hml hfit hl0
  refine ⟨u, _, e, r, ?_⟩
  have := tileElems_perm (ms := padLeft (max ds.length ms.length) ms) (ds := padLeft (max ds.length ms.length) ds)
    (by rw [padLeft_length (by omega), padLeft_length (by omega)]) (xs := xs) (by rw [padLeft_prod, h.length])
  rwa [padLeft_prod] at this

example : ∃ u out, exMat.tile (mulT [2, 2]) = .ok u ∧ Rep u [4, 6] out ∧
    out.Perm (List.replicate 4 [1, 2, 3, 4, 5, 6]).flatten :=
  C101_elements exMat_rep (by simp) (ms := [2, 2]) (mulT_rep _ (by simp)) (by simp) (by simp) (by simp) (Or.inl (by simp))

/-! ### one axis -/

theorem mulDims_axis (pre post : List Nat) (n d : Nat) :
    mulDims (List.replicate pre.length 1 ++ n :: List.replicate post.length 1) (pre ++ d :: post) = pre ++ n * d :: post := by
  induction pre with
  | nil =>
    have := mulDims_ones post.length post rfl
    unfold mulDims at this ⊢
    simp [this]
  | cons a pre ih =>
    unfold mulDims at ih ⊢
    simp only [List.length_cons, List.replicate_succ, List.cons_append, List.zipWith_cons_cons, Nat.one_mul, ih]

theorem replicate_split {γ : Type} {n : Nat} {x p : γ} {A B : List γ} (e : List.replicate n x = A ++ p :: B) :
    p = x ∧ A = List.replicate A.length x ∧ A.length < n := by
  have hlen : n = A.length + (B.length + 1) := by
    have := congrArg List.length e
    simpa using this
  refine ⟨?_, ?_, by omega⟩
  · have : p ∈ List.replicate n x := by rw [e]; simp
    exact List.eq_of_mem_replicate this
  · apply List.eq_replicate_of_mem
    intro b hb
    have : b ∈ List.replicate n x := by rw [e]; simp [hb]
    exact List.eq_of_mem_replicate this

theorem tileElems_axis {pre post : List Nat} {d : Nat} (n : Nat) {xs : List α} (hx : xs.length = (pre ++ d :: post).prod) :
    IsConcat pre post (List.replicate n (d, xs))
      (tileElems (List.replicate pre.length 1 ++ n :: List.replicate post.length 1) (pre ++ d :: post) xs) := by
  intro A p B e
  obtain ⟨rfl, hA, hAn⟩ := replicate_split e
  have hsum : ((List.replicate n (d, xs)).map (·.1)).sum = n * d := by simp
  have hAs : (A.map (·.1)).sum = A.length * d := by rw [hA]; simp
  rw [hsum, hAs]
  have hAn' : A.length * d + d ≤ n * d := by
    have := Nat.mul_le_mul_right d (Nat.succ_le_of_lt hAn)
    rwa [Nat.succ_mul] at this
  refine ⟨hx, hAn', fun i a j hi ha => ?_⟩
  dsimp only at ha
  have hl : (List.replicate pre.length 1 ++ n :: List.replicate post.length 1).length = (pre ++ d :: post).length := by
    simp
  have key : ∀ q, ravel (pre ++ n * d :: post) (i ++ (A.length * d + a) :: j) = some q →
      List.zipWith (· % ·) (i ++ (A.length * d + a) :: j) (pre ++ d :: post) = i ++ a :: j := by
    intro q hq
    rw [ravel_append hi] at hq
    obtain ⟨q1, h1, hq⟩ := Option.bind_eq_some_iff.1 hq
    obtain ⟨q2, h2, -⟩ := Option.map_eq_some_iff.1 hq
    obtain ⟨-, q3, h3, -⟩ := ravel_cons.1 h2
    rw [List.zipWith_append (by exact hi), List.zipWith_cons_cons, zipWith_mod_of_ravel h1, zipWith_mod_of_ravel h3,
      mul_add_mod' ha]
  cases hq : ravel (pre ++ n * d :: post) (i ++ (A.length * d + a) :: j) with
  | some q =>
    have := tileElems_at _ _ hl xs hx _ q (by rw [mulDims_axis]; exact hq)
    rw [key q hq] at this
    rw [← this]
    unfold at?
    rw [hq]; rfl
  | none =>
    have : ravel (pre ++ d :: post) (i ++ a :: j) = none := by
      rw [ravel_append hi] at hq ⊢
      cases h1 : ravel pre i with
      | none => rfl
      | some q1 =>
        rw [h1, Option.bind_some] at hq
        rw [Option.bind_some, Option.map_eq_none_iff]
        rw [Option.map_eq_none_iff] at hq
        cases h3 : ravel post j with
        | none => simp [ravel, h3]
        | some q3 =>
          have : ravel (n * d :: post) ((A.length * d + a) :: j) = some ((A.length * d + a) * post.prod + q3) :=
            ravel_cons.2 ⟨by omega, q3, h3, rfl⟩
          rw [hq] at this
          cases this
    unfold at?
    rw [this, hq]
    rfl

/-- C101: tiling `n` times along one axis is concatenating `n` copies along that axis. -/
theorem C101_axis {t : Tensor α} {pre post : List Nat} {d : Nat} {xs : List α} (h : Rep t (pre ++ d :: post) xs)
    (hne : xs ≠ []) {n : Nat} (hn : 0 < n) (hfit : n * (pre ++ d :: post).prod < 2 ^ 32) (hr : post.length < 5)
    {mt : Tensor Nat} (hm : Rep mt [(pre ++ d :: post).length]
      (List.replicate pre.length 1 ++ n :: List.replicate post.length 1)) {a : Int}
    (ha : axisIndex (pre ++ d :: post).length a = some pre.length) :
    Same (Tensor.tile t mt) (Tensor.concatenateAxis (some a) (List.replicate n t)) (pre ++ n * d :: post) := by
  have hx := h.length
  have hxp : 0 < (pre ++ d :: post).prod := by rw [← hx]; exact List.length_pos_iff.2 hne
  have hl : (List.replicate pre.length 1 ++ n :: List.replicate post.length 1).length = (pre ++ d :: post).length := by
    simp
  have h6 := h.adm.len
  have hpos : ∀ m ∈ List.replicate pre.length 1 ++ n :: List.replicate post.length 1, 0 < m := by
    intro m hm
    rcases List.mem_append.1 hm with hm | hm
    · exact ones_pos m hm
    · rcases List.mem_cons.1 hm with rfl | hm
      · exact hn
      · exact ones_pos m hm
  obtain ⟨u, e1, r1⟩ := tile_eq h (by rw [hl]; exact hm) hne hpos (by omega) (by simpa using hfit)
    (by rw [hl]; simp)
  have hpad : ∀ l : List Nat, padLeft l.length l = l := by intro l; simp [padLeft]
  have hpad' : padLeft (pre ++ d :: post).length (List.replicate pre.length 1 ++ n :: List.replicate post.length 1)
      = List.replicate pre.length 1 ++ n :: List.replicate post.length 1 := by rw [← hl]; exact hpad _
  rw [hl, Nat.max_self, hpad, hpad', mulDims_axis] at r1
  have hDe : (pre ++ n * d :: post).prod = n * (pre ++ d :: post).prod := by
    simp only [List.prod_append, List.prod_cons]
    grind
  have hDp : 0 < (pre ++ n * d :: post).prod := by rw [hDe]; exact Nat.mul_pos hn hxp
  obtain ⟨g1, g2, g3⟩ := fits_parts hDp (by rw [hDe]; exact hfit)
  have hrep : RepAll (List.replicate n t) ((List.replicate n (d, xs)).map fun p => (pre ++ p.1 :: post, p.2)) := by
    clear hn hfit hm e1 r1 hpos hpad hpad' hDe hDp g1 g2 g3 hl
    induction n with
    | zero => exact .nil
    | succ n ih => exact .cons h ih
  have hsum : ((List.replicate n (d, xs)).map (·.1)).sum = n * d := by simp
  obtain ⟨v, out', f1, f2, f3⟩ := C27_concatenate_partial hrep (by simp; omega) hsum g1 g2 g3 hr
    (by rw [List.length_append, List.length_cons] at ha; rw [← ha]; congr 1; omega)
  have := IsConcat.unique (pre := pre) hsum r1.length f2.length (tileElems_axis n hx) f3
  rw [this] at r1
  exact ⟨u, v, out', e1, f1, r1, f2⟩

example : Same (exMat.tile (mulT [1, 3])) (Tensor.concatenateAxis (some (-1)) [exMat, exMat, exMat]) [2, 9] :=
  C101_axis (pre := [2]) (d := 3) (post := []) exMat_rep (by simp) (n := 3) (by simp) (by simp) (by simp)
    (mulT_rep [1, 3] (by simp)) (by decide)

/-! ### broadcasting -/

theorem tileElems_front (pre : List Nat) {ds : List Nat} {xs : List α} (hx : xs.length = ds.prod) :
    tileElems (pre ++ List.replicate ds.length 1) (List.replicate pre.length 1 ++ ds) xs =
      (List.replicate pre.prod xs).flatten := by
  induction pre with
  | nil => simp [tileElems_ones ds.length rfl hx]
  | cons m pre ih =>
    simp only [List.length_cons, List.replicate_succ, List.cons_append, tileElems, List.range_one, List.map_cons,
      List.map_nil, List.flatten_cons, List.flatten_nil, List.append_nil, Nat.zero_mul, List.drop_zero, List.prod_cons]
    rw [List.take_of_length_le (by simp [hx]), ih, List.map_const', List.length_range, flatten_replicate_replicate]

theorem Bcast.unique {ds es : List Nat} {xs as bs : List α} (h : Bcast ds xs es as) (h' : Bcast ds xs es bs) : as = bs := by
  refine at_eq h.1 h'.1 fun idx p hp => ?_
  obtain ⟨x, h1, h2⟩ := h.2 idx p hp
  obtain ⟨y, h3, h4⟩ := h'.2 idx p hp
  rw [h2] at h4
  cases h4
  unfold at?
  rw [hp, Option.bind_some, Option.bind_some, h1, h3]

theorem bcast_same {ds : List Nat} {xs as : List α} (hx : xs.length = ds.prod) (h : Bcast ds xs ds as) : as = xs := by
  refine at_eq h.1 hx fun idx p hp => ?_
  obtain ⟨x, h1, h2⟩ := h.2 idx p hp
  rw [Nat.sub_self, List.drop_zero] at h2
  rw [h2]
  unfold at?
  rw [hp, Option.bind_some, h1]

/-- The tiling that repeats a tensor along axes in front of its own, and what it holds. -/
theorem tile_front {a : Tensor α} {pre ds : List Nat} {xs : List α} (ha : Rep a ds xs) (hp : 0 < (pre ++ ds).prod)
    (hfit : (pre ++ ds).prod < 2 ^ 32) (h6 : (pre ++ ds).length ≤ 6) (h0 : pre ++ ds ≠ []) {mt : Tensor Nat}
    (hm : Rep mt [(pre ++ ds).length] (pre ++ List.replicate ds.length 1)) :
    ∃ u out, Tensor.tile a mt = .ok u ∧ Rep u (pre ++ ds) out ∧ Bcast ds xs (pre ++ ds) out := by
  have hx := ha.length
  rw [List.prod_append] at hp hfit
  have hdp : 0 < ds.prod := Nat.pos_of_mul_pos_left hp
  have hpp : 0 < pre.prod := Nat.pos_of_mul_pos_right hp
  have hl : (pre ++ List.replicate ds.length 1).length = (pre ++ ds).length := by simp
  have hpos : ∀ m ∈ pre ++ List.replicate ds.length 1, 0 < m := by
    intro m hm
    rcases List.mem_append.1 hm with hm | hm
    · exact pos_of_prod_pos hpp m hm
    · exact ones_pos m hm
  have hmax : max ds.length (pre ++ ds).length = (pre ++ ds).length := by simp
  obtain ⟨u, e, r⟩ := tile_eq ha (by rw [hl]; exact hm) (by rw [← List.length_pos_iff, hx]; exact hdp) hpos
    (by rw [hl]; exact h6) (by simpa using hfit) (by rw [hl, hmax]; exact List.length_pos_iff.2 h0)
  have hp1 : padLeft (pre ++ ds).length (pre ++ List.replicate ds.length 1) = pre ++ List.replicate ds.length 1 := by
    rw [← hl]; simp [padLeft]
  have hp2 : padLeft (pre ++ ds).length ds = List.replicate pre.length 1 ++ ds := by simp [padLeft]
  have hmul : mulDims (pre ++ List.replicate ds.length 1) (List.replicate pre.length 1 ++ ds) = pre ++ ds := by
    clear hm e r hp1 hp2 hpos hl hmax h0 h6 hp hfit hpp
    induction pre with
    | nil => exact mulDims_ones _ _ rfl
    | cons m pre ih =>
      unfold mulDims at ih ⊢
      simp only [List.length_cons, List.replicate_succ, List.cons_append, List.zipWith_cons_cons, Nat.mul_one, ih]
  rw [hl, hmax, hp1, hp2, hmul, tileElems_front pre hx] at r
  refine ⟨u, _, e, r, ?_⟩
  have := bcast_rep hx (List.suffix_append pre ds)
  unfold rep at this
  rwa [List.prod_append, hx, Nat.mul_div_cancel _ hdp] at this

/-- C101: an operation between a tensor and one with more axes in front does what it does after the smaller one has been
tiled to the shape of the larger one, on either side: same calls of the function, same result. -/
theorem C101_broadcast {σ T U V : Type} {a : Tensor T} {b : Tensor U} {pre ds : List Nat} {xs : List T} {ys : List U}
    (ha : Rep a ds xs) (hb : Rep b (pre ++ ds) ys) (hne : ys ≠ []) (hfit : (pre ++ ds).prod < 2 ^ 32) (h0 : pre ++ ds ≠ [])
    {mt : Tensor Nat} (hm : Rep mt [(pre ++ ds).length] (pre ++ List.replicate ds.length 1)) :
    ∃ u, Tensor.tile a mt = .ok u ∧
      (∀ f : T → U → Exec σ V, ∃ body, Yields (a.map2 b f) body (pre ++ ds) ∧ Yields (u.map2 b f) body (pre ++ ds)) ∧
      ∀ f : U → T → Exec σ V, ∃ body, Yields (b.map2 a f) body (pre ++ ds) ∧ Yields (b.map2 u f) body (pre ++ ds) := by
  have hp : 0 < (pre ++ ds).prod := by rw [← hb.length]; exact List.length_pos_iff.2 hne
  obtain ⟨u, out, e, r, hB⟩ := tile_front ha hp hfit hb.adm.len h0 hm
  refine ⟨u, e, fun f => ?_, fun f => ?_⟩
  · obtain ⟨as, bs, h1, h2, h3⟩ := C15_map2_left ha hb (List.suffix_append pre ds) hne f
    obtain ⟨as', bs', h1', h2', h3'⟩ := C15_map2_left r hb (List.suffix_refl _) hne f
    rw [bcast_same r.length h1', ← h1.unique hB, ← h2.unique h2'] at h3'
    exact ⟨_, h3, h3'⟩
  · obtain ⟨bs, as, h2, h1, h3⟩ := C15_map2_right hb ha (List.suffix_append pre ds) hne f
    obtain ⟨bs', as', h2', h1', h3'⟩ := C15_map2_right hb r (List.suffix_refl _) hne f
    rw [bcast_same r.length h1', ← h1.unique hB, ← h2.unique h2'] at h3'
    exact ⟨_, h3, h3'⟩

example : ∃ u, exRow.tile (mulT [3, 1]) = .ok u ∧
    (∀ f : Nat → Nat → Exec Nat Nat, ∃ body, Yields (exRow.map2 exView f) body [3, 2] ∧ Yields (u.map2 exView f) body [3, 2]) ∧
    ∀ f : Nat → Nat → Exec Nat Nat, ∃ body, Yields (exView.map2 exRow f) body [3, 2] ∧ Yields (exView.map2 u f) body [3, 2] :=
  C101_broadcast (pre := [3]) (ds := [2]) exRow_rep exView_rep (by simp) (by simp) (by simp) (mulT_rep [3, 1] (by simp))

/-! ### statistics -/

section stats

variable {K : Type} [Field K] [LinearOrder K] [IsStrictOrderedRing K] (ln exp sqrt : K → K) (powf : K → K → K)

theorem sum_replicate_flatten (n : Nat) (xs : List K) : (List.replicate n xs).flatten.sum = n * xs.sum := by
  induction n with
  | zero => simp
  | succ n ih => rw [List.replicate_succ, List.flatten_cons, List.sum_append, ih]; push_cast; ring

theorem mean_replicate {n : Nat} (hn : 0 < n) (xs : List K) : mean (List.replicate n xs).flatten = mean xs := by
  have h : (n : K) ≠ 0 := by exact_mod_cast hn.ne'
  rw [mean, mean, sum_replicate_flatten, List.length_flatten]
  simp only [List.map_replicate, List.sum_replicate, smul_eq_mul, Nat.cast_mul]
  rw [mul_div_mul_left _ _ h]

theorem variance_replicate {n : Nat} (hn : 0 < n) (xs : List K) :
    variance (List.replicate n xs).flatten = variance xs := by
  have h : (n : K) ≠ 0 := by exact_mod_cast hn.ne'
  rw [variance, variance, mean_replicate hn, List.map_flatten, List.map_replicate, sum_replicate_flatten, List.length_flatten]
  simp only [List.map_replicate, List.sum_replicate, smul_eq_mul, Nat.cast_mul]
  rw [mul_div_mul_left _ _ h]

/-- C101, exact arithmetic: a tiling has the mean, variance, standard deviation, minimum and maximum of the tensor; its sum
is that of the tensor times the number of copies. -/
theorem C101_statistics (h0 : sqrt 0 = 0) {t : Tensor K} {ds : List Nat} {xs : List K} (h : Rep t ds xs) (hne : xs ≠ [])
    {ms : List Nat} {mt : Tensor Nat} (hm : Rep mt [ms.length] ms) (hms : ∀ m ∈ ms, 0 < m) (hml : ms.length ≤ 6)
    (hfit : ms.prod * ds.prod < 2 ^ 32) (hd : ds ≠ [] ∨ ms ≠ []) :
    Same (Tensor.tile t mt >>= reduceMean (.exact ln exp sqrt powf)) (reduceMean (.exact ln exp sqrt powf) t) [] ∧
    Same (Tensor.tile t mt >>= reduceVariance (.exact ln exp sqrt powf)) (reduceVariance (.exact ln exp sqrt powf) t) [] ∧
    Same (Tensor.tile t mt >>= reduceStd (.exact ln exp sqrt powf)) (reduceStd (.exact ln exp sqrt powf) t) [] ∧
    Same (Tensor.tile t mt >>= reduceMin (.exact ln exp sqrt powf)) (reduceMin (.exact ln exp sqrt powf) t) [] ∧
    Same (Tensor.tile t mt >>= reduceMax (.exact ln exp sqrt powf)) (reduceMax (.exact ln exp sqrt powf) t) [] ∧
    ∃ u s v, reduceOp (fun x y => (.ok (x + y) : Res K)) t = .ok u ∧ Rep u [] [s] ∧
      (Tensor.tile t mt >>= reduceOp fun x y => (.ok (x + y) : Res K)) = .ok v ∧ Rep v [] [(ms.prod : K) * s] := by
  obtain ⟨w, out, e, r, hp⟩ := C101_elements h hne hm hms hml hfit hd
  have hmp : 0 < ms.prod := List.prod_pos hms
  have hmem : ∀ x, x ∈ out ↔ x ∈ xs := by
    intro x
    rw [hp.mem_iff, List.mem_flatten]
    constructor
    · rintro ⟨l, hl, hx⟩
      rwa [List.eq_of_mem_replicate hl] at hx
    · exact fun hx => ⟨xs, List.mem_replicate.2 ⟨by omega, rfl⟩, hx⟩
  have hone : out ≠ [] := by
    obtain ⟨x, hx⟩ := List.exists_mem_of_ne_nil xs hne
    exact List.ne_nil_of_mem ((hmem x).2 hx)
  obtain ⟨⟨u1, e1, r1⟩, ⟨u2, e2, r2⟩, ⟨u3, e3, r3⟩⟩ := C42_whole ln exp sqrt powf h0 h hne
  obtain ⟨⟨v1, f1, q1⟩, ⟨v2, f2, q2⟩, ⟨v3, f3, q3⟩⟩ := C42_whole ln exp sqrt powf h0 r hone
  rw [mean_perm hp, mean_replicate hmp] at q1
  rw [variance_perm hp, variance_replicate hmp] at q2 q3
  obtain ⟨u4, m4, e4, r4, a4, b4⟩ := min_exact ln exp sqrt powf h hne
  obtain ⟨v4, n4, f4, q4, c4, d4⟩ := min_exact ln exp sqrt powf r hone
  obtain ⟨u5, m5, e5, r5, a5, b5⟩ := max_exact ln exp sqrt powf h hne
  obtain ⟨v5, n5, f5, q5, c5, d5⟩ := max_exact ln exp sqrt powf r hone
  have h4 : n4 = m4 := le_antisymm (d4 _ ((hmem _).2 a4)) (b4 _ ((hmem _).1 c4))
  have h5 : n5 = m5 := le_antisymm (b5 _ ((hmem _).1 c5)) (d5 _ ((hmem _).2 a5))
  subst h4 h5
  obtain ⟨u6, e6, r6⟩ := reduce_sum_exact h hne
  obtain ⟨v6, f6, q6⟩ := reduce_sum_exact r hone
  rw [hp.sum_eq, sum_replicate_flatten] at q6
  rw [e]
  exact ⟨⟨v1, u1, _, f1, e1, q1, r1⟩, ⟨v2, u2, _, f2, e2, q2, r2⟩, ⟨v3, u3, _, f3, e3, q3, r3⟩,
    ⟨v4, u4, _, f4, e4, q4, r4⟩, ⟨v5, u5, _, f5, e5, q5, r5⟩, u6, _, v6, e6, r6, f6, q6⟩

/-- `[[1, 5], [2, 2]]`, tiled to `4 x 6`. -/
def exTileRat : Tensor ℚ := { shape := ofDims [2, 2], offset := 0, size := 4, data := [1, 5, 2, 2] }

example : Same (exTileRat.tile (mulT [2, 3]) >>= reduceVariance (.exact id id id fun x _ => x))
    (reduceVariance (.exact id id id fun x _ => x) exTileRat) [] :=
  (C101_statistics id id id (fun x _ => x) rfl (xs := [1, 5, 2, 2])
    (rep_fresh (ds := [2, 2]) ⟨by simp, by simp⟩ (fits_of_pos (by simp) (by simp)) rfl) (by simp) (ms := [2, 3])
    (mulT_rep _ (by simp)) (by simp) (by simp) (by simp) (Or.inl (by simp))).2.1

end stats

end Essay
