import Verif.Model.Init
import Verif.Lemmas.From
import Verif.Props.Fold
import Verif.Props.Tensor
import Verif.Props.Ops

/-!
# Lemmas for the initialisers
-/

namespace Essay

open Shape

variable {α F : Type}

/-! ## indexed initialisation with a pure closure -/

theorem initRindexed_fun {ds : List Nat} (ha : Adm ds) (hf : Fits ds) {f : List Nat → Res α} {g : List Nat → α}
    (hg : ∀ is, (ravel ds is).isSome → f is.reverse = .ok (g is)) :
    ∃ t xs, Tensor.runPure (Tensor.initRindexed (ofDims ds) fun i => (liftM (f i) : Exec Unit α)) = .ok t ∧
      Rep t ds xs ∧ ∀ is, (ravel ds is).isSome → at? ds xs is = some (g is) := by
  obtain ⟨is, hl, hget, hy⟩ := C19_init_rindexed (wf_ofDims ha) (asVec_ofDims ha) hf
    (fun i => (liftM (f i) : Exec Unit α))
  have hres := results_of_yields hy
  have hall : ∀ i, i < is.length → ∃ js, ravel ds js = some i ∧ is[i]? = some js.reverse := by
    intro i hi
    obtain ⟨js, hjs⟩ := ravel_surj ds (p := i) (by omega)
    exact ⟨js, hjs, hget js i hjs⟩
  have hmap : is.mapM f = .ok (is.map fun i => g i.reverse) := by
    have : ∀ l : List (List Nat), (∀ x ∈ l, f x = .ok (g x.reverse)) → l.mapM f = .ok (l.map fun i => g i.reverse) := by
      intro l hl
      induction l with
      | nil => rfl
      | cons x l ih =>
        rw [List.mapM_cons, hl x (by simp), ok_bind, ih (fun y hy => hl y (by simp [hy])), ok_bind]
        rfl
    apply this
    intro x hx
    obtain ⟨i, hi, rfl⟩ := List.mem_iff_getElem.1 hx
    obtain ⟨js, h1, h2⟩ := hall i hi
    rw [List.getElem?_eq_getElem hi] at h2
    have h2 : is[i] = js.reverse := by simpa using h2
    rw [h2, List.reverse_reverse]
    exact hg js (by simp [h1])
  rw [hmap] at hres
  obtain ⟨t, e, hr⟩ := hres
  refine ⟨t, _, e, hr, ?_⟩
  intro js hjs
  obtain ⟨p, hp⟩ := Option.isSome_iff_exists.1 hjs
  unfold at?
  rw [hp, Option.bind_some, List.getElem?_map, hget js p hp]
  simp

theorem ravel_two {n m : Nat} {is : List Nat} (h : (ravel [n, m] is).isSome) :
    ∃ i j, is = [i, j] ∧ i < n ∧ j < m := by
  obtain ⟨p, hp⟩ := Option.isSome_iff_exists.1 h
  have hl := ravel_length hp
  match is, hl with
  | [i, j], _ =>
    obtain ⟨h1, q, h2, _⟩ := ravel_cons.1 hp
    obtain ⟨h3, _⟩ := ravel_cons.1 h2
    exact ⟨i, j, rfl, h1, h3⟩

theorem ravel_two_some {n m i j : Nat} (hi : i < n) (hj : j < m) : (ravel [n, m] [i, j]).isSome := by
  simp [ravel, hi, hj]

theorem adm_two {n m : Nat} (h1 : n < 4294967296) (h2 : m < 4294967296) : Adm [n, m] :=
  ⟨by simp, by simp [h1, h2]⟩

theorem lt_of_sq {n : Nat} (h : n * n < 4294967296) : n < 4294967296 := by
  rcases Nat.eq_zero_or_pos n with h0 | h0
  · omega
  · calc n = n * 1 := by omega
      _ ≤ n * n := Nat.mul_le_mul_left n h0
      _ < _ := h

theorem fits_sq {n : Nat} (h : n * n < 4294967296) : Fits [n, n] :=
  fits_cons.2 ⟨by simpa using h, fits_one (lt_of_sq h)⟩

/-! ## linspace and friends -/

/-- One output row of `linspace`/`logspace`/`geomspace`. -/
def spaceRow (fo : FOps F) (pre post : F → F) (xs ys : List F) (len k : Nat) : List F :=
  List.zipWith (fun x y => post (fo.add (pre x) (fo.mul (Init.laneStep fo (pre x) (pre y) len) (fo.ofNat k)))) xs ys

theorem spaceRow_length {fo : FOps F} {pre post : F → F} {xs ys : List F} {len k : Nat} (h : xs.length = ys.length) :
    (spaceRow fo pre post xs ys len k).length = xs.length := by simp [spaceRow, h]

theorem spaceRow_get {fo : FOps F} {pre post : F → F} {xs ys : List F} {len k n : Nat} {x y : F} (hx : xs[n]? = some x)
    (hy : ys[n]? = some y) : (spaceRow fo pre post xs ys len k)[n]? =
      some (post (fo.add (pre x) (fo.mul (Init.laneStep fo (pre x) (pre y) len) (fo.ofNat k)))) := by
  simp [spaceRow, List.getElem?_zipWith, hx, hy]

/-- All output rows. -/
def spaceAll (fo : FOps F) (pre post : F → F) (xs ys : List F) (len : Nat) : List F :=
  (List.range len).flatMap (spaceRow fo pre post xs ys len)

theorem spaceAll_length {fo : FOps F} {pre post : F → F} {xs ys : List F} {len : Nat} (h : xs.length = ys.length) :
    (spaceAll fo pre post xs ys len).length = len * xs.length := by
  unfold spaceAll
  rw [length_flatMap_const (N := xs.length) (fun b _ => spaceRow_length h), List.length_range]

theorem spaceAll_get {fo : FOps F} {pre post : F → F} {xs ys : List F} {len k n : Nat} (h : xs.length = ys.length)
    (hk : k < len) (hn : n < xs.length) :
    (spaceAll fo pre post xs ys len)[k * xs.length + n]? = (spaceRow fo pre post xs ys len k)[n]? := by
  unfold spaceAll
  rw [List.flatMap_def, flatten_get (N := xs.length) (by
    intro l hl
    obtain ⟨b, _, rfl⟩ := List.mem_map.1 hl
    exact spaceRow_length h) _ (by rw [List.length_map, List.length_range]; exact lt_mul_add hk hn)]
  rw [mul_add_div' hn, mul_add_mod' hn]
  simp [hk]

theorem spaceFill_puts {fo : FOps F} {pre post : F → F} {a b : Tensor F} {ds : List Nat} {xs ys : List F} {len : Nat}
    (ha : Rep a ds xs) (hb : Rep b ds ys)
    (hle : ∀ (i : Nat) x y, xs[i]? = some x → ys[i]? = some y → fo.le (pre x) (pre y) = true) :
    Puts (spaceAll fo pre post xs ys len) (fun p => ∃ n, 0 ≤ n ∧ n < xs.length ∧ ∃ k, 0 ≤ k ∧ k < len ∧
        p = k * xs.length + n) (Init.spaceFill fo pre post a b xs.length len) := by
  have hxy : xs.length = ys.length := by rw [ha.length, hb.length]
  unfold Init.spaceFill
  apply puts_loop
  intro n _ hn
  have hx : xs[n]? = some xs[n] := List.getElem?_eq_getElem hn
  have hn' : n < ys.length := by omega
  have hy : ys[n]? = some ys[n] := List.getElem?_eq_getElem hn'
  have hbody : Puts (spaceAll fo pre post xs ys len) (fun p => ∃ k, 0 ≤ k ∧ k < len ∧ p = k * xs.length + n)
      (fun o => forR 0 len o fun k o => Buf.write o (k * xs.length + n)
        (post (fo.add (pre xs[n]) (fo.mul (Init.laneStep fo (pre xs[n]) (pre ys[n]) len) (fo.ofNat k))))) := by
    apply puts_loop
    intro k _ hk
    apply puts_write
    rw [spaceAll_get hxy hk hn]
    exact spaceRow_get hx hy
  apply hbody.congr (fun _ _ => Iff.rfl)
  intro o
  rw [index1_eq ha, hx, index1_eq hb, hy]
  simp only [ok_bind]
  rw [ensure_true (hle n _ _ hx hy), ok_bind]

/-- A successful run needs ordered ends in every lane. -/
theorem spaceFill_ok {fo : FOps F} {pre post : F → F} {a b : Tensor F} {ds es : List Nat} {xs ys : List F} {len : Nat}
    (ha : Rep a ds xs) (hb : Rep b es ys) {batch : Nat} {o o' : Buf F}
    (h : Init.spaceFill fo pre post a b batch len o = .ok o') {n : Nat} (hn : n < batch) :
    ∃ x y, xs[n]? = some x ∧ ys[n]? = some y ∧ fo.le (pre x) (pre y) = true := by
  obtain ⟨s, s', e⟩ := forR_ok_all h n (by omega) hn
  rw [index1_eq ha, index1_eq hb] at e
  cases hx : xs[n]? with
  | none => rw [hx] at e; cases e
  | some x =>
    cases hy : ys[n]? with
    | none => rw [hx, hy] at e; cases e
    | some y =>
      rw [hx, hy] at e
      simp only [ok_bind] at e
      rw [ensure_bind_eq_ok] at e
      exact ⟨x, y, rfl, rfl, e.1⟩

theorem spaceFill_safe (fo : FOps F) (pre post : F → F) {a b : Tensor F} (ha : a.WF) (hb : b.WF) (batch len : Nat) :
    SafeBody (batch * len) (Init.spaceFill fo pre post a b batch len) := by
  intro o ho
  have hA := ha.rep
  have hB := hb.rep
  unfold Init.spaceFill
  have key := forR_noUB (lo := 0) (hi := batch) (s := o) (body := fun n o => do
    let s ← a.index1 n
    let e ← b.index1 n
    let s := pre s
    let e := pre e
    ensure (fo.le s e = true)
    let step := Init.laneStep fo s e len
    forR 0 len o fun k o => do
      let v := fo.add s (fo.mul step (fo.ofNat k))
      o.write (k * batch + n) (post v)) (fun _ o => o.length = batch * len) ho (by
    intro n s _ hn hs
    have hub1 : ∀ t : Tensor F, t.WF → ∀ i, NoUB (t.index1 i) := by
      intro t ht i
      rw [index1_eq ht.rep]; split <;> simp
    have inner : ∀ (g : Nat → F), NoUB (forR 0 len s fun k o => Buf.write o (k * batch + n) (g k)) ∧
        ∀ s', forR 0 len s (fun k o => Buf.write o (k * batch + n) (g k)) = .ok s' → s'.length = batch * len := by
      intro g
      have := forR_noUB (lo := 0) (hi := len) (s := s) (body := fun k o => Buf.write o (k * batch + n) (g k))
        (fun _ o => o.length = batch * len) hs (by
          intro k s1 _ hk hs1
          have : k * batch + n < s1.length := by
            rw [hs1, Nat.mul_comm batch]; exact lt_mul_add hk hn
          rw [Buf.write_ok this]
          exact ⟨by simp, fun s' hs' => by cases hs'; simpa using hs1⟩)
      exact ⟨this.1, fun s' hs' => this.2 s' hs' (by omega)⟩
    constructor
    · apply noUB_bind (hub1 a ha n)
      intro x _
      apply noUB_bind (hub1 b hb n)
      intro y _
      apply noUB_bind (by simp)
      intro _ _
      exact (inner _).1
    · intro s' hs'
      obtain ⟨x, _, hs'⟩ := bind_eq_ok.1 hs'
      obtain ⟨y, _, hs'⟩ := bind_eq_ok.1 hs'
      obtain ⟨_, _, hs'⟩ := bind_eq_ok.1 hs'
      exact (inner _).2 s' hs')
  exact ⟨key.1, fun b' hb' => key.2 b' hb' (by omega)⟩

/-- If some lane's ends are not ordered (or missing) the fill panics. -/
theorem spaceFill_panic {fo : FOps F} {pre post : F → F} {a b : Tensor F} {ds es : List Nat} {xs ys : List F}
    {len batch : Nat} (ha : Rep a ds xs) (hb : Rep b es ys) {n : Nat} (hn : n < batch)
    (hbad : ¬ ∃ x y, xs[n]? = some x ∧ ys[n]? = some y ∧ fo.le (pre x) (pre y) = true) :
    Init.spaceFill fo pre post a b batch len (Buf.uninit (batch * len)) = .error .panic := by
  have hs := (spaceFill_safe fo pre post ha.wf hb.wf batch len (Buf.uninit (batch * len)) (by simp [Buf.uninit])).1
  cases h : Init.spaceFill fo pre post a b batch len (Buf.uninit (batch * len)) with
  | ok o' => exact absurd (spaceFill_ok ha hb h hn) hbad
  | error e => cases e with
    | panic => rfl
    | ub => exact absurd h hs

/-! ## triangular parts -/

/-- Keep the elements of each matrix for which `keep column row`, zero the rest. -/
def triList [Zero α] (keep : Nat → Nat → Bool) (rows cols : Nat) (xs : List α) : List α :=
  (List.range xs.length).map fun p => if keep (p % cols) (p / cols % rows) then (xs[p]?).getD 0 else 0

theorem triList_length [Zero α] (keep : Nat → Nat → Bool) (rows cols : Nat) (xs : List α) :
    (triList keep rows cols xs).length = xs.length := by simp [triList]

theorem triFill_rep [Zero α] (keep : Nat → Nat → Bool) {t : Tensor α} {ds : List Nat} {rows cols : Nat} {xs : List α}
    (h : Rep t (ds ++ [rows, cols]) xs) (hpos : 0 < rows * cols) :
    ∃ u, Init.triFill keep t = .ok u ∧ Rep u (ds ++ [rows, cols]) (triList keep rows cols xs) := by
  have hl := h.length
  have hprod : (ds ++ [rows, cols]).prod = ds.prod * (rows * cols) := by simp
  have hr : t.shape.rows = Except.ok rows := by
    rw [rows_eq h.wf.shape, h.toDims]; simp
  have hc : t.shape.cols = Except.ok cols := by rw [cols_eq h.wf.shape, h.toDims]; simp
  unfold Init.triFill
  rw [ensure_true (by rw [h.rank]; simp), ok_bind, h.size_eq, ok_bind, h.shape]
  have hcp : 0 < cols := Nat.pos_of_mul_pos_left hpos
  have hrp : 0 < rows := Nat.pos_of_mul_pos_right hpos
  apply unsafeInit_puts_rep (ys := triList keep rows cols xs)
    (P := fun p => ∃ k, 0 ≤ k ∧ k < ds.prod ∧ ∃ j, 0 ≤ j ∧ j < rows ∧ ∃ i, 0 ≤ i ∧ i < cols ∧
      p = k * rows * cols + j * cols + i) (by rw [triList_length, hl]) _ _ h.adm h.fits (by rw [triList_length, hl])
  · have base : Puts (triList keep rows cols xs) (fun p => ∃ k, 0 ≤ k ∧ k < ds.prod ∧ ∃ j, 0 ≤ j ∧ j < rows ∧ ∃ i,
        0 ≤ i ∧ i < cols ∧ p = k * rows * cols + j * cols + i)
        (fun o => forR 0 ds.prod o fun k o => forR 0 rows o fun j o => forR 0 cols o fun i o => do
          let v ← if keep i j then idx xs (k * rows * cols + j * cols + i) else pure 0
          o.write (k * rows * cols + j * cols + i) v) := by
      apply puts_loop; intro k _ hk
      apply puts_loop; intro j _ hj
      apply puts_loop; intro i _ hi
      have hlt : k * rows * cols + j * cols + i < xs.length := by
        rw [hl, hprod, Nat.mul_assoc k, Nat.add_assoc]
        exact lt_mul_add hk (lt_mul_add hj hi)
      have hm : (k * rows * cols + j * cols + i) % cols = i := by
        rw [show k * rows * cols + j * cols + i = (k * rows + j) * cols + i by rw [Nat.add_mul]]
        exact mul_add_mod' hi
      have hd : (k * rows * cols + j * cols + i) / cols % rows = j := by
        rw [show k * rows * cols + j * cols + i = (k * rows + j) * cols + i by rw [Nat.add_mul], mul_add_div' hi]
        exact mul_add_mod' hj
      have hget : (triList keep rows cols xs)[k * rows * cols + j * cols + i]? =
          some (if keep i j then xs[k * rows * cols + j * cols + i] else 0) := by
        simp [triList, hlt, hm, hd]
      apply (puts_write hget).congr (fun _ _ => Iff.rfl)
      intro o
      by_cases hk : keep i j
      · simp only [hk, if_true, idx_lt hlt, ok_bind]
      · simp only [hk, Bool.false_eq_true, if_false]; rfl
    apply base.congr (fun _ _ => Iff.rfl)
    intro o
    rw [h.elems, ok_bind, ← h.shape, hr, ok_bind, hc, ok_bind, udiv_ok (by omega), ok_bind, hprod,
      Nat.mul_div_cancel _ hpos]
  · intro p hp
    rw [triList_length, hl, hprod] at hp
    have h1 : p % (rows * cols) < rows * cols := Nat.mod_lt _ hpos
    refine ⟨p / (rows * cols), Nat.zero_le _, div_lt_of_lt_mul' hp, p % (rows * cols) / cols, Nat.zero_le _,
      div_lt_of_lt_mul' h1, p % (rows * cols) % cols, Nat.zero_le _, Nat.mod_lt _ hcp, ?_⟩
    have e1 := Nat.div_add_mod p (rows * cols)
    have e2 := Nat.div_add_mod (p % (rows * cols)) cols
    grind

/-! ## meshgrid -/

/-- The values of one output of a meshgrid: element `p` is `xs[p / inner % len]`. -/
def meshList (xs : List α) (size inner : Nat) : List α :=
  (List.range size).filterMap fun p => xs[p / inner % xs.length]?

theorem meshList_get {xs : List α} {size inner : Nat} (hx : 0 < xs.length) {p : Nat} (hp : p < size) :
    (meshList xs size inner).length = size ∧ (meshList xs size inner)[p]? = xs[p / inner % xs.length]? := by
  have e : meshList xs size inner = (List.range size).map fun p =>
      xs[p / inner % xs.length]'(Nat.mod_lt _ hx) := by
    unfold meshList
    rw [← List.filterMap_eq_map]
    apply List.filterMap_congr
    intro q _
    exact List.getElem?_eq_getElem (Nat.mod_lt _ hx)
  rw [e]
  refine ⟨by simp, ?_⟩
  rw [List.getElem?_map, List.getElem?_range hp, Option.map_some, List.getElem?_eq_getElem (Nat.mod_lt _ hx)]

theorem meshList_length {xs : List α} {size inner : Nat} (hx : 0 < xs.length) :
    (meshList xs size inner).length = size := by
  rcases Nat.eq_zero_or_pos size with h | h
  · simp [h, meshList]
  · exact (meshList_get hx h).1

theorem buildMeshgridAxis_eq {x : Tensor α} {xs : List α} (h : Rep x [xs.length] xs) {s : Shape} {m kS : Nat}
    (hs : s.size = .ok (m * xs.length * kS)) (hpos : 0 < m * xs.length * kS) :
    Init.buildMeshgridAxis x s kS = Tensor.new (meshList xs (m * xs.length * kS) kS) s := by
  have hk : 0 < kS := Nat.pos_of_mul_pos_left hpos
  have hx : 0 < xs.length := Nat.pos_of_mul_pos_left (Nat.pos_of_mul_pos_right hpos)
  have hm : 0 < m := Nat.pos_of_mul_pos_right (Nat.pos_of_mul_pos_right hpos)
  have hdiv : m * xs.length * kS / xs.length = m * kS := by
    rw [show m * xs.length * kS = m * kS * xs.length by grind]
    exact Nat.mul_div_cancel _ hx
  have hjs : m * xs.length * kS / m = xs.length * kS := by
    rw [Nat.mul_assoc]; exact Nat.mul_div_cancel_left _ hm
  unfold Init.buildMeshgridAxis
  rw [ensure_true (by rw [h.rank]; rfl), ok_bind, hs, ok_bind, h.size, umod_ok (by omega), ok_bind,
    ensure_true (Nat.mod_eq_zero_of_dvd ⟨m * kS, by grind⟩), ok_bind,
    umod_ok (by omega), ok_bind,
    ensure_true (Nat.mod_eq_zero_of_dvd ⟨m * xs.length, by grind⟩), ok_bind]
  dsimp only
  rw [udiv_ok (by omega), ok_bind, hdiv, umod_ok (by omega), ok_bind,
    ensure_true (Nat.mul_mod_left _ _), ok_bind]
  apply unsafeInit_puts (ys := meshList xs (m * xs.length * kS) kS)
    (P := fun p => ∃ k, 0 ≤ k ∧ k < xs.length ∧ ∃ j, 0 ≤ j ∧ j < m ∧ ∃ i, 0 ≤ i ∧ i < kS ∧
      p = k * kS + j * (xs.length * kS) + i) (meshList_length hx).symm
  · have base : Puts (meshList xs (m * xs.length * kS) kS)
        (fun p => ∃ k, 0 ≤ k ∧ k < xs.length ∧ ∃ j, 0 ≤ j ∧ j < m ∧ ∃ i, 0 ≤ i ∧ i < kS ∧
          p = k * kS + j * (xs.length * kS) + i)
        (fun o => forR 0 xs.length o fun k o => forR 0 m o fun j o => forR 0 kS o fun i o =>
          idx xs k >>= fun v => o.write (k * kS + j * (xs.length * kS) + i) v) := by
      apply puts_loop; intro k _ hk
      apply puts_loop; intro j _ hj
      apply puts_loop; intro i _ hi
      apply puts_copy hk
      have e : k * kS + j * (xs.length * kS) + i = (j * xs.length + k) * kS + i := by grind
      rw [e, (meshList_get hx (lt_mul_add (lt_mul_add hj hk) hi)).2, mul_add_div' hi, mul_add_mod' hk]
    apply base.congr (fun _ _ => Iff.rfl)
    intro o
    rw [h.elems, ok_bind, udiv_ok (by omega), ok_bind, Nat.mul_div_cancel _ hk, udiv_ok (by omega), ok_bind, hjs]
  · intro p hlt
    rw [meshList_length hx] at hlt
    have h1 := div_lt_of_lt_mul' hlt
    refine ⟨p / kS % xs.length, Nat.zero_le _, Nat.mod_lt _ hx, p / kS / xs.length, Nat.zero_le _,
      div_lt_of_lt_mul' h1, p % kS, Nat.zero_le _, Nat.mod_lt _ hk, ?_⟩
    have e1 := Nat.div_add_mod p kS
    have e2 := Nat.div_add_mod (p / kS) xs.length
    grind

theorem buildMeshgridAxis_rep {x : Tensor α} {xs : List α} {pre post : List Nat} (h : Rep x [xs.length] xs)
    (hadm : Adm (pre ++ xs.length :: post)) (hpos : 0 < (pre ++ xs.length :: post).prod)
    (hfit : Fits (pre ++ xs.length :: post)) :
    ∃ t, Init.buildMeshgridAxis x (ofDims (pre ++ xs.length :: post)) post.prod = .ok t ∧
      Rep t (pre ++ xs.length :: post) (meshList xs (pre ++ xs.length :: post).prod post.prod) := by
  have hp := prod_mid pre post xs.length
  have hx : 0 < xs.length := by
    rw [hp] at hpos; exact Nat.pos_of_mul_pos_left (Nat.pos_of_mul_pos_right hpos)
  refine ⟨_, ?_, rep_fresh hadm hfit (meshList_length hx)⟩
  rw [buildMeshgridAxis_eq h (m := pre.prod) (by rw [← hp]; exact (size_ofDims_iff hadm).2 ⟨hfit, rfl⟩) (hp ▸ hpos),
    ← hp, new_ok hadm hfit (meshList_length hx)]

/-- An axis of a meshgrid never touches memory outside its buffers, and is accepted only when it is a non-empty
vector. -/
theorem buildMeshgridAxis_safe {x : Tensor α} {ds : List Nat} {xs : List α} (h : Rep x ds xs) (s : Shape) (kS : Nat) :
    NoUB (Init.buildMeshgridAxis x s kS) ∧
      ∀ o, Init.buildMeshgridAxis x s kS = .ok o → ds = [xs.length] ∧ 0 < xs.length := by
  by_cases hr : ds.length = 1
  swap
  · have e : Init.buildMeshgridAxis x s kS = .error .panic := by
      unfold Init.buildMeshgridAxis
      rw [ensure_false (by rw [h.rank]; exact hr), error_bind]
    rw [e]; exact ⟨by simp, by simp⟩
  obtain ⟨d, rfl⟩ := List.length_eq_one_iff.1 hr
  have hd : xs.length = d := by rw [h.length]; simp
  subst hd
  have key : Init.buildMeshgridAxis x s kS = .error .panic ∨
      (0 < xs.length ∧ Init.buildMeshgridAxis x s kS = Tensor.new (meshList xs (s.size.toOption.getD 0) kS) s) := by
    cases hsz : s.size with
    | error e =>
      have hub := noUB_size s
      rw [hsz] at hub
      cases e with
      | ub => exact absurd rfl hub
      | panic =>
        left
        unfold Init.buildMeshgridAxis
        rw [ensure_true (by rw [h.rank]; rfl), ok_bind, hsz, error_bind]
    | ok size =>
      by_cases hx : xs.length = 0
      · left
        unfold Init.buildMeshgridAxis
        rw [ensure_true (by rw [h.rank]; rfl), ok_bind, hsz, ok_bind, h.size, hx]; rfl
      by_cases h1 : size % xs.length = 0
      swap
      · left
        unfold Init.buildMeshgridAxis
        rw [ensure_true (by rw [h.rank]; rfl), ok_bind, hsz, ok_bind, h.size, umod_ok hx, ok_bind, ensure_false h1,
          error_bind]
      by_cases hk : kS = 0
      · left
        unfold Init.buildMeshgridAxis
        rw [ensure_true (by rw [h.rank]; rfl), ok_bind, hsz, ok_bind, h.size, umod_ok hx, ok_bind, ensure_true h1,
          ok_bind, hk]; rfl
      by_cases h2 : size % kS = 0
      swap
      · left
        unfold Init.buildMeshgridAxis
        rw [ensure_true (by rw [h.rank]; rfl), ok_bind, hsz, ok_bind, h.size, umod_ok hx, ok_bind, ensure_true h1,
          ok_bind, umod_ok hk, ok_bind, ensure_false h2, error_bind]
      by_cases h3 : size / xs.length % kS = 0
      swap
      · left
        unfold Init.buildMeshgridAxis
        rw [ensure_true (by rw [h.rank]; rfl), ok_bind, hsz, ok_bind, h.size, umod_ok hx, ok_bind, ensure_true h1,
          ok_bind, umod_ok hk, ok_bind, ensure_true h2, ok_bind]
        dsimp only
        rw [udiv_ok hx, ok_bind, umod_ok hk, ok_bind, ensure_false h3, error_bind]
      obtain ⟨a, ha⟩ := Nat.dvd_of_mod_eq_zero h1
      have ha' : size / xs.length = a := by rw [ha]; exact Nat.mul_div_cancel_left _ (by omega)
      rw [ha'] at h3
      obtain ⟨m, hm⟩ := Nat.dvd_of_mod_eq_zero h3
      have hsize : size = m * xs.length * kS := by rw [ha, hm]; grind
      by_cases h0 : size = 0
      · left
        have hm0 : a = 0 := by
          rcases Nat.mul_eq_zero.1 (ha ▸ h0 : xs.length * a = 0) with h | h <;> omega
        unfold Init.buildMeshgridAxis
        rw [ensure_true (by rw [h.rank]; rfl), ok_bind, hsz, ok_bind, h.size, umod_ok hx, ok_bind, ensure_true h1,
          ok_bind, umod_ok hk, ok_bind, ensure_true h2, ok_bind]
        dsimp only
        rw [udiv_ok hx, ok_bind, umod_ok hk, ok_bind, ensure_true (by rw [ha']; exact h3), ok_bind]
        unfold Tensor.unsafeInit
        dsimp only
        rw [h.elems, ok_bind, ha', hm0, udiv_ok hk, ok_bind]
        simp [udiv, error_bind]
      · right
        refine ⟨by omega, ?_⟩
        rw [buildMeshgridAxis_eq h (m := m) (by rw [hsz, hsize]) (by omega)]
        simp [Except.toOption, hsize]
  rcases key with e | ⟨hx, e⟩ <;> rw [e]
  · exact ⟨by simp, by simp⟩
  · exact ⟨noUB_new _, fun _ _ => ⟨rfl, hx⟩⟩

/-- Reading a meshgrid output at a multi-index. -/
theorem meshList_at {xs : List α} {pre post a b : List Nat} {i : Nat} {n : Nat} (hn : xs.length = n)
    (ha : (ravel pre a).isSome) (hb : (ravel post b).isSome) (hi : i < n) :
    at? (pre ++ n :: post) (meshList xs (pre ++ n :: post).prod post.prod) (a ++ i :: b) = xs[i]? := by
  subst hn
  obtain ⟨p, hp⟩ := Option.isSome_iff_exists.1 ha
  obtain ⟨q, hq⟩ := Option.isSome_iff_exists.1 hb
  have hq' := ravel_lt hq
  have hr : ravel (pre ++ xs.length :: post) (a ++ i :: b) = some ((p * xs.length + i) * post.prod + q) := by
    rw [ravel_append (ravel_length hp), hp, Option.bind_some]
    simp only [ravel, hi, if_true, hq, Option.map_some, List.prod_cons]
    congr 1; grind
  have hlt := ravel_lt hr
  unfold at?
  rw [hr, Option.bind_some, (meshList_get (by omega) hlt).2, mul_add_div' hq', mul_add_mod' hi]

end Essay
