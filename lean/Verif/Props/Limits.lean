import Verif.Props.Edges
import Verif.Props.Space
import Verif.Lemmas.SafeRest

/-!
The constructors of C33-C38 on the arguments their main theorems leave out: results of 2^32 or more elements, arguments
that do not fit in 32 bits, mismatched or unordered ends.
-/

namespace Essay

open Shape

variable {α F : Type}

theorem size_panic_of {ds : List Nat} (ha : Adm ds) (hf : ¬ Fits ds) : (ofDims ds).size = .error .panic := by
  refine panic_of_noUB (noUB_size _) fun n hn => hf ((size_ofDims_iff ha).1 hn).1

theorem initRindexed_panic {σ V : Type} {s : Shape} (h : s.size = .error .panic) (f : List Nat → Exec σ V) (st : σ) :
    (Tensor.initRindexed s f).run st = .error .panic := by
  unfold Tensor.initRindexed
  rw [h]
  rfl

/-! ## C02 -/

/-- What `append` does: the new lengths go behind the innermost-first list of dimensions, in the order given, so they
become the outermost dimensions in reversed order; the rank grows by six. It panics exactly if there is no room. The result
of appending to a shape of rank 1 or more cannot be read back; appended to a scalar, the missing dimensions are zeros. -/
theorem C02_append_read {s : Shape} {ds : List Nat} (hs : s.WF) (hds : s.asVec = .ok ds) (tail : List Nat)
    (ht : ∀ d ∈ tail, d < 2 ^ 32) :
    (ds.length + tail.length ≤ 6 → ∃ s', s.append tail = .ok s' ∧ s'.rank = ds.length + 6 ∧
      (∀ i, i < 6 → s'.rdim i = .ok ((ds.reverse ++ tail).getD i 0)) ∧
      (ds ≠ [] → s'.asVec = .error .panic) ∧
      (ds = [] → s'.asVec = .ok (List.replicate (6 - tail.length) 0 ++ tail.reverse))) ∧
    (6 < ds.length + tail.length → s.append tail = .error .panic) := by
  obtain ⟨rfl, ha⟩ := toDims_of_asVec hs hds
  have hl := ha.len
  have hrank : (ofDims ds).rank = ds.length := rank_ofDims _
  have h6 : (ofDims ds).dims.length = 6 := dims_ofRev_length (l := ds.reverse) (by simpa using ha.len)
  refine ⟨fun hfit => ?_, fun hbig => ?_⟩
  · have hloop : forR 0 tail.length (ofDims ds).dims (fun i dims => do
        let d ← idx tail i
        setIdx dims (i + (ofDims ds).rank) (asU32 d)) =
        .ok (ds.reverse ++ tail ++ List.replicate (6 - (ds.length + tail.length)) 0) := by
      obtain ⟨dims, e, he⟩ := forR_inv (Nat.zero_le tail.length) (P := fun i dims => dims = ds.reverse ++ tail.take i ++ List.replicate (6 - (ds.length + i)) 0)
        (s := (ofDims ds).dims) (body := fun i dims => do
          let d ← idx tail i
          setIdx dims (i + (ofDims ds).rank) (asU32 d)) (by simp [ofDims, ofRev]) (by
        rintro i dims _ hi rfl
        rw [idx_lt hi, ok_bind, hrank, setIdx_ok (by simp; omega)]
        refine ⟨_, rfl, ?_⟩
        rw [asU32_of_lt (ht _ (List.getElem_mem hi)), List.set_append_right _ _ (by simp; omega)]
        obtain ⟨k, hk⟩ : ∃ k, 6 - (ds.length + i) = k + 1 := ⟨6 - (ds.length + i) - 1, by omega⟩
        rw [hk, List.replicate_succ, show i + ds.length - (ds.reverse ++ tail.take i).length = 0 by simp; omega, List.set_cons_zero,
          show 6 - (ds.length + (i + 1)) = k by omega, List.take_add_one, List.getElem?_eq_getElem hi]
        simp only [Option.toList_some, List.append_assoc, List.cons_append, List.nil_append])
      rw [e, he, List.take_length]
    have hdl : (ds.reverse ++ tail ++ List.replicate (6 - (ds.length + tail.length)) 0).length = 6 := by simp; omega
    refine ⟨_, by unfold Shape.append; rw [hloop, ok_bind]; rfl, ?_, ?_, ?_, ?_⟩
    · simp only [hrank, hdl]
    · intro i hi
      unfold Shape.rdim
      simp only
      rw [idx_lt (by omega)]
      congr 1
      rw [List.getElem_append]
      split
      · next h => rw [List.getD_eq_getElem?_getD, List.getElem?_eq_getElem h]; rfl
      · next h => rw [List.getD_eq_getElem?_getD, List.getElem?_eq_none (by omega)]; simp
    · intro hne
      have hpos := List.length_pos_iff.2 hne
      unfold Shape.asVec
      simp only [hrank, hdl]
      rw [forR_cons (by omega)]
      unfold Shape.dim
      simp only [hrank, hdl]
      rw [usub_ok (by omega), ok_bind, usub_ok (by omega), ok_bind]
      unfold idx
      rw [List.getElem?_eq_none (by omega)]
      rfl
    · rintro rfl
      have hA : Adm (List.replicate (6 - tail.length) 0 ++ tail.reverse) := by
        refine ⟨by simp at hfit ⊢; omega, ?_⟩
        intro d hd
        rcases List.mem_append.1 hd with h | h
        · rw [(List.mem_replicate.1 h).2]; omega
        · exact ht d (by simpa using h)
      rw [← asVec_ofDims hA]
      congr 1
      unfold ofDims ofRev
      simp at hfit hdl ⊢
      omega
  · unfold Shape.append
    have hloop := forR_noUB (lo := 0) (hi := tail.length) (s := (ofDims ds).dims) (body := fun i dims => do
      let d ← idx tail i
      setIdx dims (i + (ofDims ds).rank) (asU32 d)) (fun i dims => dims.length = 6 ∧ i + ds.length ≤ 6) ⟨h6, by omega⟩ (by
        rintro i dims _ hi ⟨h1, h2⟩
        refine ⟨by noub, fun dims' hd => ?_⟩
        obtain ⟨d, -, hd⟩ := bind_eq_ok.1 hd
        obtain ⟨h3, rfl⟩ := setIdx_eq_ok.1 hd
        rw [hrank] at h3
        exact ⟨by simpa using h1, by omega⟩)
    refine bind_panic hloop.1 fun dims hd => ?_
    have := (hloop.2 dims hd (by omega)).2
    omega

example : ∃ s', (ofDims [4]).append [2, 3] = .ok s' ∧ s'.rank = 7 ∧
    ∀ i, i < 6 → s'.rdim i = .ok ([4, 2, 3].getD i 0) := by
  obtain ⟨s', e, h1, h2, -⟩ := (C02_append_read (s := ofDims [4]) (ds := [4]) (wf_ofDims ⟨by simp, by simp⟩) rfl [2, 3] (by simp)).1 (by simp)
  exact ⟨s', e, h1, h2⟩

/-! ## C33 -/

theorem sq_not_fits {n : Nat} (h : 2 ^ 32 ≤ n * n) : ¬ Fits [n, n] := fun hf => by
  have := hf.prod_lt
  simp at this
  omega

/-- C33: matrices of 2^32 or more elements panic. -/
theorem C33_too_large [Zero α] [One α] {n : Nat} (hn : n < 2 ^ 32) (h : 2 ^ 32 ≤ n * n) :
    (Init.eye n : Res (Tensor α)) = .error .panic ∧ (Init.tri n : Res (Tensor α)) = .error .panic ∧
    ∀ {v : Tensor α} {xs : List α}, Rep v [n] xs → Init.diagflat v = .error .panic := by
  have ha : Adm [n, n] := ⟨by simp, by simpa using hn⟩
  have hs := size_panic_of ha (sq_not_fits h)
  refine ⟨?_, ?_, fun {v xs} hv => ?_⟩
  · unfold Init.eye
    rw [if_neg (by rintro rfl; simp at h), ofSlice_adm ha, ok_bind, Tensor.runPure, initRindexed_panic hs]
    rfl
  · unfold Init.tri
    rw [ofSlice_adm ha, ok_bind, Tensor.runPure, initRindexed_panic hs]
    rfl
  · unfold Init.diagflat
    have : v.size = n := by rw [hv.size, hv.length]; simp
    rw [ensure_true (by rw [hv.rank]; rfl), ok_bind]
    dsimp only
    rw [this, ofSlice_adm ha, ok_bind, Tensor.runPure, initRindexed_panic hs]
    rfl

example : (Init.tri 65536 : Res (Tensor Int)) = .error .panic := (C33_too_large (by simp) (by simp)).2.1

/-- C33: a size that does not fit in 32 bits is silently reduced modulo 2^32: `tri(2^32 + 3)` is the 3 x 3 matrix, and
likewise `eye`. -/
theorem C33_wraps [Zero α] [One α] (n : Nat) :
    (Init.tri n : Res (Tensor α)) = Init.tri (n % 2 ^ 32) ∧
    (n % 2 ^ 32 ≠ 0 → (Init.eye n : Res (Tensor α)) = Init.eye (n % 2 ^ 32)) := by
  have e : Shape.ofSlice [n, n] = Shape.ofSlice [n % 2 ^ 32, n % 2 ^ 32] := by
    rw [ofSlice_eq (by simp), ofSlice_eq (by simp)]
    simp [asU32]
  refine ⟨?_, fun h => ?_⟩
  · unfold Init.tri
    rw [e]
  · unfold Init.eye
    rw [if_neg (by rintro rfl; simp at h), if_neg h, e]

example : (Init.tri 4294967299 : Res (Tensor Int)) = Init.tri 3 := (C33_wraps 4294967299).1

/-! ## C34 -/

theorem prod_pos_of {l : List Nat} (h : ∀ d ∈ l, 0 < d) : 0 < l.prod := by
  induction l with
  | nil => simp
  | cons d l ih =>
    rw [List.prod_cons]
    exact Nat.mul_pos (h _ List.mem_cons_self) (ih fun d hd => h d (List.mem_cons_of_mem _ hd))

/-- C34: grids of 2^32 or more points, or of more than six axes, panic. -/
theorem C34_too_large {ts : List (Tensor α)} {ps : List (List Nat × List α)} (h : RepAll ts ps)
    (hbig : 2 ^ 32 ≤ (ps.map fun p => p.2.length).prod ∨ 6 < ps.length) :
    Init.meshgrid ts = .error .panic ∧ Init.meshgridIJ ts = .error .panic := by
  have hlen : ts.length = ps.length := h.length_eq
  have hsz : ts.map (·.size) = ps.map fun p => p.2.length := by
    clear hbig hlen
    induction h with
    | nil => rfl
    | cons r _ ih => rw [List.map_cons, List.map_cons, ih, r.size]
  have hlt : ∀ d ∈ ts.map (·.size), d < 2 ^ 32 := by
    intro d hd
    obtain ⟨t, ht, rfl⟩ := List.mem_map.1 hd
    obtain ⟨ds, xs, hr⟩ := h.of_mem ht
    rw [hr.size, hr.length]
    exact hr.fits.prod_lt
  have key : ∀ order, Init.buildMeshgrid ts order = .error .panic := by
    intro order
    unfold Init.buildMeshgrid
    dsimp only
    rcases ofVec_cases ((if order = Init.Order.XY then ts.reverse else ts).map (·.size)) with ⟨h6, hpos, e⟩ | e
    · rw [e, ok_bind]
      have hl6 : ts.length ≤ 6 := by split at h6 <;> simpa using h6
      replace hbig := hbig.resolve_right (by omega)
      rw [← hsz] at hbig
      have hl : ∀ d ∈ (if order = Init.Order.XY then ts.reverse else ts).map (·.size), d < 2 ^ 32 := by
        intro d hd
        refine hlt d ?_
        split at hd <;> simpa using hd
      rw [map_asU32 hl]
      have hp : ((if order = Init.Order.XY then ts.reverse else ts).map (·.size)).prod = (ts.map (·.size)).prod := by
        split
        · rw [List.map_reverse, List.prod_reverse]
        · rfl
      have hsize := size_panic_of ⟨h6, hl⟩ fun hf => by
        have := hf.prod_lt
        rw [hp] at this
        omega
      generalize hax : (if order = Init.Order.XY then ts.reverse else ts) = axes at *
      cases haxr : axes.reverse with
      | nil =>
        exfalso
        have : ts = [] := by
          have : axes = [] := by simpa using haxr
          split at hax <;> subst hax <;> simpa using this
        subst this
        simp at hbig
      | cons x rest =>
        rw [forL_step]
        unfold Init.buildMeshgridAxis
        by_cases hr : x.shape.rank = 1
        · rw [ensure_true hr, ok_bind, hsize]
          rfl
        · rw [ensure_false hr]
          rfl
    · rw [e, error_bind]
  exact ⟨key _, key _⟩

theorem exLong_grid {n : Nat} (h : n < 4294967296) (h2 : 2 ^ 32 ≤ n * n) : Init.meshgrid [exLong n, exLong n] = .error .panic :=
  (C34_too_large (.cons (exLong_rep h) (.cons (exLong_rep h) .nil))
    (Or.inl (by simp only [List.map_cons, List.map_nil, List.length_replicate, List.prod_cons, List.prod_nil, Nat.mul_one]; exact h2))).1

example : Init.meshgrid [exLong 65536, exLong 65536] = .error .panic := exLong_grid (by omega) (by omega)

/-! ## C36 -/

/-- C36: `logspace_opt` panics whenever the ends differ in shape, have rank 5 or more, have no elements, are not ordered
somewhere, or the result would have 2^32 elements or more. -/
theorem C36_logspace_rejects (fo : FOps F) {a b : Tensor F} {ds es : List Nat} {xs ys : List F} {len : Nat}
    (ha : Rep a ds xs) (hb : Rep b es ys) (hlen : len < 2 ^ 32) (base : Option F)
    (hbad : ¬ (ds = es ∧ ds.length < 5 ∧ 0 < ds.prod ∧
      (∀ (i : Nat) x y, xs[i]? = some x → ys[i]? = some y → fo.le x y = true) ∧ Fits (len :: ds))) :
    Init.logspaceOpt fo a b len base = .error .panic := by
  unfold Init.logspaceOpt
  by_cases hde : ds = es
  swap
  · rw [ensure_false, error_bind]
    rw [ha.shape, hb.shape]
    intro h
    apply hde
    have := congrArg Shape.toDims h
    rwa [toDims_ofDims, toDims_ofDims] at this
  subst hde
  rw [ensure_true (by rw [ha.shape, hb.shape]), ok_bind]
  dsimp only
  by_cases hr : ds.length < 5
  swap
  · rw [(C02_insert ha.wf.shape ha.dims 0 len hlen).2 (by omega), error_bind]
  obtain ⟨e1, hadm⟩ := space_insert ha.adm hr hlen
  rw [ha.shape, e1, ok_bind]
  apply space_rejects (pre := id) ha hb
  rintro ⟨h1, h2, h3⟩
  exact hbad ⟨rfl, hr, h1, h2, ((size_ofDims_iff hadm).1 h3).1⟩

/-- C36: `geomspace` panics whenever the ends differ in shape, have rank 5 or more (unless they hold a single element),
have no elements, have logarithms that are not ordered somewhere, or the result would have 2^32 elements or more. -/
theorem C36_geomspace_rejects (fo : FOps F) {a b : Tensor F} {ds es : List Nat} {xs ys : List F} {len : Nat}
    (ha : Rep a ds xs) (hb : Rep b es ys) (hlen : len < 2 ^ 32)
    (hbad : ¬ (ds = es ∧ (ds.length < 5 ∨ ds.prod = 1) ∧ 0 < ds.prod ∧
      (∀ (i : Nat) x y, xs[i]? = some x → ys[i]? = some y → fo.le (fo.ln x) (fo.ln y) = true) ∧ Fits (len :: ds))) :
    Init.geomspace fo a b len = .error .panic := by
  unfold Init.geomspace
  by_cases hde : ds = es
  swap
  · rw [ensure_false, error_bind]
    rw [ha.shape, hb.shape]
    intro h
    apply hde
    have := congrArg Shape.toDims h
    rwa [toDims_ofDims, toDims_ofDims] at this
  subst hde
  rw [ensure_true (by rw [ha.shape, hb.shape]), ok_bind]
  dsimp only
  have hsz : a.size = ds.prod := by rw [ha.size, ha.length]
  by_cases h1 : ds.prod = 1
  · rw [if_pos (by rw [hsz, h1]), ofSlice_adm ⟨by simp, by simpa using hlen⟩, ok_bind]
    apply space_rejects ha hb
    rintro ⟨h2, h3, -⟩
    refine hbad ⟨rfl, Or.inr h1, h2, h3, fits_cons.2 ⟨by rw [h1]; omega, ha.fits⟩⟩
  · rw [if_neg (by rw [hsz]; exact h1)]
    by_cases hr : ds.length < 5
    swap
    · rw [(C02_insert ha.wf.shape ha.dims 0 len hlen).2 (by omega), error_bind]
    obtain ⟨e1, hadm⟩ := space_insert ha.adm hr hlen
    rw [ha.shape, e1, ok_bind]
    apply space_rejects ha hb
    rintro ⟨h1, h2, h3⟩
    exact hbad ⟨rfl, Or.inl hr, h1, h2, ((size_ofDims_iff hadm).1 h3).1⟩

example (fo : FOps Nat) (h : fo.le 4 3 = false) (len : Nat) (hl : len < 2 ^ 32) :
    Init.logspaceOpt fo ⟨ofDims [2], 0, 2, [1, 4]⟩ ⟨ofDims [2], 0, 2, [2, 3]⟩ len none = .error .panic :=
  C36_logspace_rejects fo (ds := [2]) (es := [2]) (xs := [1, 4]) (ys := [2, 3])
    (rep_fresh (ds := [2]) (xs := [1, 4]) ⟨by simp, by simp⟩ (fits_of_pos (by simp) (by simp)) rfl)
    (rep_fresh (ds := [2]) (xs := [2, 3]) ⟨by simp, by simp⟩ (fits_of_pos (by simp) (by simp)) rfl) hl none
    fun hc => by have := hc.2.2.2.1 1 4 3 rfl rfl; rw [h] at this; cases this

example (fo : FOps Nat) (len : Nat) (hl : len < 2 ^ 32) :
    Init.geomspace fo ⟨ofDims [2], 0, 2, [1, 4]⟩ ⟨ofDims [1, 2], 0, 2, [2, 3]⟩ len = .error .panic :=
  C36_geomspace_rejects fo (ds := [2]) (es := [1, 2]) (xs := [1, 4]) (ys := [2, 3])
    (rep_fresh (ds := [2]) (xs := [1, 4]) ⟨by simp, by simp⟩ (fits_of_pos (by simp) (by simp)) rfl)
    (rep_fresh (ds := [1, 2]) (xs := [2, 3]) ⟨by simp, by simp⟩ (fits_of_pos (by simp) (by simp)) rfl) hl (by simp)

/-! ## C37, C38 -/

theorem ofVec1_panic {xs : List α} (h : 2 ^ 32 ≤ xs.length) : Tensor.ofVec1 xs = .error .panic := by
  unfold Tensor.ofVec1
  dsimp only
  rw [ofUsize_eq, ok_bind]
  refine new_panic fun hs => ?_
  have := size_lt_any hs
  omega

/-- C37: an ascending `arange` of 2^32 or more values collects them all and then panics. -/
theorem C37_too_many (fo : FOps F) {start stop step : F} (hs0 : fo.eq step fo.zero = false)
    (hle : fo.le start stop = true) (hs : fo.lt fo.zero step = true) {n : Nat} (h32 : 2 ^ 32 ≤ n)
    (hn : ∀ k, k < n → fo.lt (runningSum fo start step k) stop = true)
    (hstop : fo.lt (runningSum fo start step n) stop = false) :
    ∀ fuel, n < fuel → Init.arange fo fuel start stop step = some (.error .panic) := by
  intro fuel hf
  unfold Init.arange
  rw [if_neg (by simp [hs0]), if_pos (by simp [hle, hs]), arangeUp_eq fo stop step n start [] fuel hn hstop hf, Option.map_some,
    ofVec1_panic (by simpa using h32)]

/-- C38: a depth of 2^32 or more panics. -/
theorem C38_too_large (fo : FOps F) (indices : List Nat) {n : Nat} (hn : 2 ^ 32 ≤ n) :
    Init.oneHot fo indices n = .error .panic := by
  refine post_false (noUB_oneHot _ _) ?_
  unfold Init.oneHot
  dsimp only
  refine Post.bind (Q := fun vec : List F => vec.length = n) (forL_post (by simp) fun i _ v hv => ?_) fun v hv => ?_
  · intro w hw
    rw [(setIdx_eq_ok.1 hw).2, List.length_set, hv]
  · rw [ofVec1_panic (by omega)]
    intro _ h; cases h

example (fo : FOps Nat) : Init.oneHot fo [3, 1] 4294967296 = .error .panic := C38_too_large fo _ (by simp)

/-- Counting from 0 to 2^40 in ones gives too many elements. -/
example (fuel : Nat) (h : 2 ^ 40 < fuel) :
    Init.arange (.exact id id id fun x _ => x : FOps ℚ) fuel 0 (2 ^ 40) 1 = some (.error .panic) := by
  refine C37_too_many _ (n := 2 ^ 40) (by simp [FOps.exact]) (by simp [FOps.exact]) (by simp [FOps.exact]) (by norm_num)
    (fun k hk => ?_) ?_ fuel h
  · rw [runningSum_exact]
    have : (k : ℚ) < 2 ^ 40 := by exact_mod_cast hk
    simpa [FOps.exact] using this
  · rw [runningSum_exact]
    simp [FOps.exact]
    norm_num

/-- C19: a shape of 2^32 or more elements panics before the closure is called. -/
theorem C19_too_large {σ V : Type} {s : Shape} {ds : List Nat} (hs : s.WF) (hds : s.asVec = .ok ds) (hf : ¬ Fits ds)
    (f : Exec σ V) (g : List Nat → Exec σ V) (st : σ) :
    (Tensor.init s f).run st = .error .panic ∧ (Tensor.initRindexed s g).run st = .error .panic := by
  obtain ⟨rfl, ha⟩ := toDims_of_asVec hs hds
  have h := size_panic_of ha hf
  constructor
  · unfold Tensor.init
    rw [h]
    rfl
  · rw [initRindexed_panic h]

example (f : Exec Nat Nat) : (Tensor.init (ofDims [65536, 65536]) f).run 7 = .error .panic :=
  (C19_too_large (ds := [65536, 65536]) (wf_ofDims (l := [65536, 65536]) ⟨by simp, by simp⟩) rfl (by simp [fits_cons, fits_nil]) f
    (fun _ => f) 7).1

end Essay
