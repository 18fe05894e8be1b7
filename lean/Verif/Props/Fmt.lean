import Verif.Spec.Fmt
import Verif.Props.Tensor
import Verif.Lemmas.Linalg

/-!
# C59 Debug output lists the elements in order; C10 for two indices (whose panic messages print the tensor)
-/

namespace Essay

open Shape Fmt

variable {α : Type}

theorem joinWith_snoc (s a : String) (l : List String) :
    joinWith s (l ++ [a]) = if l = [] then a else joinWith s l ++ s ++ a := by
  induction l with
  | nil => rfl
  | cons b l ih =>
    cases l with
    | nil => rfl
    | cons c l =>
      rw [if_neg (by simp)] at ih ⊢
      show b ++ s ++ joinWith s ((c :: l) ++ [a]) = b ++ s ++ joinWith s (c :: l) ++ s ++ a
      rw [ih]; simp only [String.append_assoc]

/-- The loop of `fmt_tensor_rec`. -/
theorem fmt_loop {n : Nat} {sep : String} {part : Nat → Res String} {g : Nat → String}
    (h : ∀ j, j < n → part j = .ok (g j)) :
    (forR 0 n "[" fun j s => do
      let s := if j > 0 then s ++ sep else s
      let e ← part j
      return s ++ e : Res String) = .ok ("[" ++ joinWith sep ((List.range n).map g)) := by
  induction n with
  | zero => rw [forR_stop (by omega)]; rfl
  | succ n ih =>
    rw [forR_snoc (by omega), ih (fun j hj => h j (by omega)), ok_bind, h n (by omega)]
    dsimp only
    rw [ok_bind, List.range_succ, List.map_append, List.map_cons, List.map_nil, joinWith_snoc]
    cases n with
    | zero => rfl
    | succ n =>
      rw [if_pos (show n + 1 > 0 by omega), if_neg (by simp)]
      simp only [pure, Except.pure, String.append_assoc]

theorem get_zero {t : Tensor α} {ds : List Nat} {xs : List α} (h : Rep t ds xs) (h0 : t.offset = 0) {i : Nat} {x : α}
    (hx : xs[i]? = some x) : t.get i = .ok (some x) := by rw [C11_get_partial h h0, hx]

theorem rsublen_inner {ds es : List Nat} (ha : Adm (es ++ ds)) (hf : Fits (es ++ ds)) :
    (ofDims (es ++ ds)).rsublen 0 ds.length = .ok ds.prod := by
  unfold ofDims
  rw [rsublen_ofRev (by simpa [Nat.add_comm] using ha.len) (by omega) (by simp)]
  have : ((es ++ ds).reverse.drop 0).take (ds.length - 0) = ds.reverse := by simp
  rw [this]
  have hfd : Fits ds := by
    have := hf.of_pos_subset es.length
    simpa using this
  exact Linalg.foldl_fits hfd

theorem drop_take_part {xs : List String} {off d p j : Nat} (hj : j < d) :
    (((xs.drop off).take (d * p)).drop (j * p)).take p = (xs.drop (off + j * p)).take p := by
  have : j * p + p ≤ d * p := by rw [← Nat.succ_mul]; exact Nat.mul_le_mul_right _ hj
  rw [List.drop_take, List.take_take, List.drop_drop, Nat.min_eq_left (by omega)]

theorem fmtRec_eq {t : Tensor α} {xs : List α} (fmt : α → String) (h0 : t.offset = 0) :
    ∀ (ds es : List Nat), Rep t (es ++ ds) xs → ∀ off, off + ds.prod ≤ xs.length →
      fmtRec fmt t ds.length off = .ok (nested ds (((xs.map fmt).drop off).take ds.prod))
  | [], es, h, off, hoff => by
    simp only [List.prod_nil] at hoff
    have hx : xs[off]? = some xs[off] := List.getElem?_eq_getElem (by omega)
    simp only [List.length_nil, fmtRec]
    rw [get_zero h h0 hx, ok_bind]
    simp [nested, List.take_one, hx]
  | [d], es, h, off, hoff => by
    have hc : t.shape.cols = .ok d := by rw [cols_eq h.wf.shape, h.toDims]; simp
    simp only [List.length_singleton, fmtRec]
    rw [hc, ok_bind]
    have hr := fmt_loop (n := d) (sep := " ") (part := fun j => fmtRec fmt t 0 (off + j))
      (g := fun j => nested [] ((((((xs.map fmt).drop off).take ([d].prod))).drop (j * [].prod)).take [].prod))
      (fun j hj => by
        rw [List.prod_cons, drop_take_part hj]
        have := fmtRec_eq fmt h0 [] (es ++ [d]) (by simpa using h) (off + j)
          (by simp only [List.prod_cons, List.prod_nil] at hoff ⊢; omega)
        simpa using this)
    simp only [fmtRec] at hr
    rw [hr, ok_bind]; rfl
  | [r, d], es, h, off, hoff => by
    have hc : t.shape.cols = .ok d := by rw [cols_eq h.wf.shape, h.toDims]; simp
    have hrw : t.shape.rows = .ok r := by rw [rows_eq h.wf.shape, h.toDims]; simp
    have hr := fmt_loop (n := r) (sep := ",\n ") (part := fun j => fmtRec fmt t 1 (off + j * d))
      (g := fun j => nested [d] ((((((xs.map fmt).drop off).take ([r, d].prod))).drop (j * [d].prod)).take [d].prod))
      (fun j hj => by
        have hp : [r, d].prod = r * [d].prod := List.prod_cons
        rw [hp, drop_take_part hj]
        have := fmtRec_eq fmt h0 [d] (es ++ [r]) (by simpa using h) (off + j * d)
          (by
            have : j * d + d ≤ r * d := by rw [← Nat.succ_mul]; exact Nat.mul_le_mul_right _ hj
            simp only [List.prod_cons, List.prod_nil, Nat.mul_one] at hoff ⊢; omega)
        simpa using this)
    show fmtRec fmt t 2 off = _
    rw [fmtRec, hc, ok_bind, hrw, ok_bind, hr, ok_bind]; rfl
  | a :: b :: c :: ds, es, h, off, hoff => by
    have hs : t.shape.rsublen 0 (ds.length + 2) = .ok (b :: c :: ds).prod := by
      have h' : Rep t ((es ++ [a]) ++ (b :: c :: ds)) xs := by simpa using h
      rw [h'.shape]
      exact rsublen_inner h'.adm h'.fits
    have hl := h.adm.len
    have hd : t.shape.rdim (ds.length + 2) = .ok a := by
      rw [rdim_eq h.wf.shape (by simp at hl; omega), h.toDims]; simp
    have hr := fmt_loop (n := a) (sep := ",\n\n ")
      (part := fun j => fmtRec fmt t (ds.length + 2) (off + j * (b :: c :: ds).prod))
      (g := fun j => nested (b :: c :: ds) ((((((xs.map fmt).drop off).take ((a :: b :: c :: ds).prod))).drop
        (j * (b :: c :: ds).prod)).take (b :: c :: ds).prod))
      (fun j hj => by
        have hp : (a :: b :: c :: ds).prod = a * (b :: c :: ds).prod := List.prod_cons
        rw [hp, drop_take_part hj]
        exact fmtRec_eq fmt h0 (b :: c :: ds) (es ++ [a]) (by simpa using h) (off + j * (b :: c :: ds).prod)
          (by
            rw [hp] at hoff
            have : j * (b :: c :: ds).prod + (b :: c :: ds).prod ≤ a * (b :: c :: ds).prod := by
              rw [← Nat.succ_mul]; exact Nat.mul_le_mul_right _ hj
            omega))
    show fmtRec fmt t (ds.length + 3) off = _
    rw [fmtRec, hs, ok_bind, hd, ok_bind, hr, ok_bind]; rfl
termination_by ds => ds.length

theorem fmtVec_eq (ds : List Nat) : fmtVec ds = "[" ++ joinWith ", " (ds.map toString) ++ "]" := by
  unfold fmtVec
  congr 1
  have h1 : ∀ (l : List Nat) (s : String), (l.foldl (fun (st : String × Bool) d =>
      (st.1 ++ (if st.2 then ", " else "") ++ toString d, true)) (s, true)).1 =
      if l = [] then s else s ++ ", " ++ joinWith ", " (l.map toString) := by
    intro l
    induction l with
    | nil => intro s; rfl
    | cons a l ih =>
      intro s
      rw [List.foldl_cons, ih, if_neg (List.cons_ne_nil _ _)]
      cases l with
      | nil => simp [joinWith]
      | cons b l =>
        rw [if_neg (by simp)]
        simp only [List.map_cons, joinWith, if_true, String.append_assoc]
  cases ds with
  | nil => rfl
  | cons a l =>
    rw [List.foldl_cons, h1]
    cases l with
    | nil => simp [joinWith]
    | cons b l =>
      rw [if_neg (by simp)]
      simp [joinWith, String.append_assoc]

/-- C59 for tensors that start at the beginning of their buffer: `{:?}` prints the nested elements in row-major order and
the dimensions. Missing: views with a non-zero offset, where it is false (`C59_view_violates`,
`C59_view_out_of_bounds`). -/
theorem C59_debug_partial {t : Tensor α} {ds : List Nat} {xs : List α} (h : Rep t ds xs) (h0 : t.offset = 0)
    (fmt : α → String) (name : String) : debug fmt name t = .ok (debugText name ds (xs.map fmt)) := by
  unfold debug
  rw [h.rank, h.dims]
  have := fmtRec_eq fmt h0 ds [] h 0 (by rw [h.length]; omega)
  rw [this, ok_bind, ok_bind, fmtVec_eq]
  have e : ((xs.map fmt).drop 0).take ds.prod = xs.map fmt := by
    rw [List.drop_zero, List.take_of_length_le (by rw [List.length_map, h.length]; omega)]
  rw [e]
  unfold debugText
  have e1 : (", shape: [" : String) = ", shape: " ++ "[" := by decide +kernel
  have e2 : ("]}" : String) = "]" ++ "}" := by decide +kernel
  rw [e1, e2]
  simp only [pure, Except.pure, String.append_assoc]
  split <;> simp only [String.append_assoc, String.empty_append]

example : debug toString "i32" exCube = .ok (debugText "i32" [2, 2, 2] ([0, 1, 2, 3, 4, 5, 6, 7].map toString)) :=
  C59_debug_partial exCube_rep rfl _ _

example : nested [2, 2] ["a", "b", "c", "d"] = "[[a b],\n [c d]]" := by decide +kernel

example : nested [2, 1, 2] ["a", "b", "c", "d"] = "[[[a b]],\n\n [[c d]]]" := by decide +kernel

/-- `{:?}` sees the elements only through `get`. -/
theorem fmtRec_congr {t u : Tensor α} (fmt : α → String) (hs : t.shape = u.shape) (hg : ∀ i, t.get i = u.get i) :
    ∀ n off, fmtRec fmt t n off = fmtRec fmt u n off
  | 0, off => by simp only [fmtRec, hg]
  | 1, off => by simp only [fmtRec, hg, hs]
  | 2, off => by simp only [fmtRec, hg, hs]
  | n + 3, off => by
    have ih := fmtRec_congr fmt hs hg (n + 2)
    simp only [fmtRec, hs, ih]

/-- The loop of `fmt_tensor_rec` when a part reads outside the buffer. -/
theorem fmt_loop_bad {n : Nat} {sep : String} {part : Nat → Res String} {bad : Nat → Prop}
    (hb : ∀ j, j < n → bad j → part j = .error .ub) (hg : ∀ j, j < n → ¬ bad j → ∃ s, part j = .ok s)
    (h : ∃ j, j < n ∧ bad j) :
    (forR 0 n "[" fun j s => do
      let s := if j > 0 then s ++ sep else s
      let e ← part j
      return s ++ e : Res String) = .error .ub := by
  induction n with
  | zero => obtain ⟨j, hj, _⟩ := h; omega
  | succ n ih =>
    rw [forR_snoc (by omega)]
    by_cases hc : ∃ j, j < n ∧ bad j
    · rw [ih (fun j hj => hb j (by omega)) (fun j hj => hg j (by omega)) hc]; rfl
    · have hn : bad n := by
        obtain ⟨j, hj, hbj⟩ := h
        by_cases hjn : j < n
        · exact absurd ⟨j, hjn, hbj⟩ hc
        · have : j = n := by omega
          exact this ▸ hbj
      have hgood : ∀ j, j < n → ∃ s, part j = .ok s := fun j hj => hg j (by omega) fun hj' => hc ⟨j, hj, hj'⟩
      have hl := fmt_loop (n := n) (sep := sep) (part := part)
        (g := fun j => match part j with | .ok s => s | .error _ => "")
        (fun j hj => by obtain ⟨s, e⟩ := hgood j hj; simp only [e])
      rw [hl, ok_bind, hb n (by omega) hn]; rfl

/-- A part that reads outside the buffer makes the whole text undefined; otherwise there is a text. -/
theorem fmtRec_bad {t : Tensor α} {xs : List α} (fmt : α → String)
    (hget : ∀ i, t.get i = .error .ub ∨ ∃ x, t.get i = .ok x) :
    ∀ (ds es : List Nat), Rep t (es ++ ds) xs → ∀ off,
      ((∃ i, i < ds.prod ∧ t.get (off + i) = .error .ub) → fmtRec fmt t ds.length off = .error .ub) ∧
      ((¬ ∃ i, i < ds.prod ∧ t.get (off + i) = .error .ub) → ∃ s, fmtRec fmt t ds.length off = .ok s)
  | [], es, h, off => by
    simp only [List.length_nil, fmtRec, List.prod_nil]
    refine ⟨fun ⟨i, hi, he⟩ => ?_, fun hn => ?_⟩
    · obtain rfl : i = 0 := by omega
      rw [Nat.add_zero] at he
      rw [he]; rfl
    · rcases hget off with he | ⟨x, he⟩
      · exact absurd ⟨0, by omega, he⟩ hn
      · rw [he]
        cases x <;> exact ⟨_, rfl⟩
  | d :: ds, es, h, off => by
    have hrec := fmtRec_bad fmt hget ds (es ++ [d]) (by simpa using h)
    have step : ∀ (sep : String) (body : Res String), (body = (forR 0 d "[" fun j s => do
        let s := if j > 0 then s ++ sep else s
        let e ← fmtRec fmt t ds.length (off + j * ds.prod)
        return s ++ e : Res String) >>= fun s => pure (s ++ "]")) →
        ((∃ i, i < (d :: ds).prod ∧ t.get (off + i) = .error .ub) → body = .error .ub) ∧
        ((¬ ∃ i, i < (d :: ds).prod ∧ t.get (off + i) = .error .ub) → ∃ s, body = .ok s) := by
      intro sep body hbody
      rw [hbody]
      have hcov : ∀ j, j < d → (∃ i, i < ds.prod ∧ t.get (off + j * ds.prod + i) = .error .ub) →
          ∃ i, i < (d :: ds).prod ∧ t.get (off + i) = .error .ub := by
        rintro j hj ⟨i, hi, he⟩
        refine ⟨j * ds.prod + i, ?_, by rw [← Nat.add_assoc]; exact he⟩
        have : j * ds.prod + ds.prod ≤ d * ds.prod := by rw [← Nat.succ_mul]; exact Nat.mul_le_mul_right _ hj
        rw [List.prod_cons]; omega
      constructor
      · rintro ⟨i, hi, he⟩
        rw [List.prod_cons] at hi
        have hp : 0 < ds.prod := by
          rcases Nat.eq_zero_or_pos ds.prod with h0 | h0
          · rw [h0] at hi; simp at hi
          · exact h0
        rw [fmt_loop_bad (bad := fun j => ∃ i, i < ds.prod ∧ t.get (off + j * ds.prod + i) = .error .ub)
          (fun j _ hb => (hrec _).1 hb) (fun j _ hb => (hrec _).2 hb)
          ⟨i / ds.prod, (Nat.div_lt_iff_lt_mul hp).2 hi, i % ds.prod, Nat.mod_lt _ hp, by
            rw [Nat.add_assoc, Nat.mul_comm, Nat.div_add_mod]; exact he⟩]
        rfl
      · intro hn
        have hgood : ∀ j, j < d → ∃ s, fmtRec fmt t ds.length (off + j * ds.prod) = .ok s := fun j hj =>
          (hrec _).2 fun hb => hn (hcov j hj hb)
        rw [fmt_loop (g := fun j => match fmtRec fmt t ds.length (off + j * ds.prod) with | .ok s => s | .error _ => "")
          (fun j hj => by obtain ⟨s, e⟩ := hgood j hj; simp only [e])]
        exact ⟨_, rfl⟩
    match ds, h, hrec, step with
    | [], h, hrec, step =>
      have hc : t.shape.cols = .ok d := by rw [cols_eq h.wf.shape, h.toDims]; simp
      refine step " " _ ?_
      simp only [List.length_cons, List.length_nil, Nat.zero_add, fmtRec, List.prod_nil, Nat.mul_one]
      rw [hc, ok_bind]
    | [c], h, hrec, step =>
      have hc : t.shape.cols = .ok c := by rw [cols_eq h.wf.shape, h.toDims]; simp
      have hrw : t.shape.rows = .ok d := by rw [rows_eq h.wf.shape, h.toDims]; simp
      refine step ",\n " _ ?_
      show fmtRec fmt t 2 off = _
      rw [fmtRec, hc, ok_bind, hrw, ok_bind]
      simp only [List.length_singleton, List.prod_cons, List.prod_nil, Nat.mul_one]
    | b :: c :: ds, h, hrec, step =>
      have hs : t.shape.rsublen 0 (ds.length + 2) = .ok (b :: c :: ds).prod := by
        have h' : Rep t ((es ++ [d]) ++ (b :: c :: ds)) xs := by simpa using h
        rw [h'.shape]
        exact rsublen_inner h'.adm h'.fits
      have hl := h.adm.len
      have hd : t.shape.rdim (ds.length + 2) = .ok d := by
        rw [rdim_eq h.wf.shape (by simp at hl; omega), h.toDims]; simp
      refine step ",\n\n " _ ?_
      show fmtRec fmt t (ds.length + 3) off = _
      rw [fmtRec, hs, ok_bind, hd, ok_bind]
      rfl
termination_by ds => ds.length

/-- What `{:?}` prints for any view: the elements that lie in the buffer twice as far in as the view, or, if the buffer ends
before them, it reads outside the buffer. -/
theorem C59_debug_actual {t : Tensor α} {ds : List Nat} {xs : List α} (h : Rep t ds xs) (fmt : α → String)
    (name : String) :
    (2 * t.offset + xs.length ≤ t.data.length ∨ xs = [] →
      debug fmt name t = .ok (debugText name ds (((t.data.drop (2 * t.offset)).take xs.length).map fmt))) ∧
    (t.data.length < 2 * t.offset + xs.length → xs ≠ [] → debug fmt name t = .error .ub) := by
  constructor
  · intro hb
    let u : Tensor α := { t with offset := 0, data := t.data.drop (2 * t.offset) }
    have hu : Rep u ds ((t.data.drop (2 * t.offset)).take xs.length) := by
      refine ⟨⟨h.wf.shape, h.wf.size, ?_⟩, h.dims, ?_⟩
      · simp only [u, List.length_drop]
        have := h.size; rcases hb with hb | rfl <;> simp_all <;> omega
      · simp only [Tensor.asSlice, rawSlice, u, List.length_drop, List.drop_zero]
        rw [if_pos (by have := h.size; rcases hb with hb | rfl <;> simp_all <;> omega), h.size]
    have hg : ∀ i, t.get i = u.get i := by
      intro i
      unfold Tensor.get rawRead
      simp only [u, List.getElem?_drop]
      rw [show t.offset + (i + t.offset) = 2 * t.offset + (0 + (i + 0)) by omega]
    rw [← C59_debug_partial hu rfl]
    unfold debug
    have := fmtRec_congr fmt (t := t) (u := u) rfl hg
    simp only [this]
    rfl
  · intro hb hne
    have hpos : 0 < xs.length := List.length_pos_iff.2 hne
    have hget : ∀ i, t.get i = .error .ub ∨ ∃ x, t.get i = .ok x := by
      intro i
      obtain ⟨h1, h2⟩ := C11_get_actual h i
      rcases Nat.lt_or_ge i xs.length with hi | hi
      · cases e : t.data[2 * t.offset + i]? with
        | none => exact .inl ((h2 hi).2 e)
        | some x => exact .inr ⟨_, (h2 hi).1 x e⟩
      · exact .inr ⟨_, h1 hi⟩
    have := (fmtRec_bad fmt hget ds [] h 0).1 ⟨xs.length - 1, by rw [← h.length]; omega, by
      rw [Nat.zero_add]
      exact ((C11_get_actual h _).2 (by omega)).2 (List.getElem?_eq_none (by omega))⟩
    unfold debug
    rw [h.rank, this]; rfl

example : debug toString "i32" (⟨ofDims [2], 1, 2, [7, 8, 9, 6]⟩ : Tensor Nat) = .ok (debugText "i32" [2] ["9", "6"]) :=
  (C59_debug_actual (ds := [2]) (xs := [8, 9]) ⟨⟨wf_ofDims ⟨by simp, by simp⟩, rfl, by simp⟩, rfl, rfl⟩ toString "i32").1
    (.inl (by simp))

/-- C59 is violated on views: the view shows `2, 3`, `{:?}` prints `4, 5`. -/
theorem C59_view_violates : ∃ t : Tensor Nat, Rep t [2] [2, 3] ∧
    debug toString "i32" t = .ok (debugText "i32" [2] ["4", "5"]) :=
  ⟨{ shape := ofDims [2], offset := 2, size := 2, data := [0, 1, 2, 3, 4, 5] },
    ⟨⟨wf_ofDims ⟨by simp, by simp⟩, by decide +kernel, by decide +kernel⟩, by decide +kernel, by decide +kernel⟩,
    by decide +kernel⟩

/-- On views `{:?}` can read outside the buffer. -/
theorem C59_view_out_of_bounds : Rep exView [3, 2] [2, 3, 4, 5, 6, 7] ∧
    debug toString "i32" exView = .error .ub := ⟨exView_rep, by decide +kernel⟩

/-! ## C10, two indices -/

theorem ensureShown_true {t : Tensor α} {c : Prop} [Decidable c] (h : c) : ensureShown t c = .ok () := if_pos h

theorem ensureShown_false {t : Tensor α} {c : Prop} [Decidable c] (h : ¬c) {s : String}
    (hs : debug (fun _ => "") "" t = .ok s) : ensureShown t c = .error .panic := by
  unfold ensureShown
  rw [if_neg h, hs]; rfl

theorem ensureShown_ub {t : Tensor α} {c : Prop} [Decidable c] (h : ¬c)
    (hs : debug (fun _ => "") "" t = .error .ub) : ensureShown t c = .error .ub := by
  unfold ensureShown
  rw [if_neg h, hs]; rfl

/-- An access outside the matrix ends in the failed assertion that prints the tensor. -/
theorem index2_outside {t : Tensor α} {a b : Nat} {xs : List α} (h : Rep t [a, b] xs) {i j : Nat} (ho : ¬(i < a ∧ j < b)) :
    t.index2 i j = (ensureShown t False >>= fun _ => .error .panic) := by
  have r0 : t.shape.rdim 0 = .ok b := by rw [rdim_eq h.wf.shape (by omega), h.toDims]; rfl
  have r1 : t.shape.rdim 1 = .ok a := by rw [rdim_eq h.wf.shape (by omega), h.toDims]; rfl
  have e : ∀ {γ : Type} (k : Unit → Res γ), (ensureShown t False >>= k) =
      (debug (fun _ => "") "" t >>= fun _ => .error .panic) := by
    intro γ k
    unfold ensureShown
    rw [if_neg not_false]
    cases debug (fun _ => "") "" t <;> rfl
  unfold Tensor.index2
  rw [ensure_true (by rw [h.rank]; simp), ok_bind, r1, ok_bind]
  by_cases hi : i < a
  · have hj : ¬ j < b := fun hj => ho ⟨hi, hj⟩
    rw [ensureShown_true hi, ok_bind, r0, ok_bind]
    simp only [hj]
    rw [e, e]
  · simp only [hi]
    rw [e, e]

/-- C10, rank 2: every access inside the matrix returns its element, also on views; accesses outside panic if the tensor
starts at the beginning of its buffer. Missing for the full property: accesses outside a view (`C10_index2_actual`,
`C10_index2_violates`). -/
theorem C10_index2_partial {t : Tensor α} {a b : Nat} {xs : List α} (h : Rep t [a, b] xs) {i j : Nat}
    (hv : t.offset = 0 ∨ i < a ∧ j < b) : t.index2 i j = accessSpec [a, b] xs [i, j] := by
  by_cases ho : i < a ∧ j < b
  · obtain ⟨hi, hj⟩ := ho
    have r0 : t.shape.rdim 0 = .ok b := by rw [rdim_eq h.wf.shape (by omega), h.toDims]; rfl
    have r1 : t.shape.rdim 1 = .ok a := by rw [rdim_eq h.wf.shape (by omega), h.toDims]; rfl
    unfold Tensor.index2
    rw [ensure_true (by rw [h.rank]; simp), ok_bind, r1, ok_bind, ensureShown_true hi, ok_bind, r0, ok_bind]
    have hp : ravel [a, b] [i, j] = some (j + b * i) := by
      simp [ravel, hi, hj, Nat.add_comm, Nat.mul_comm]
    have hlt := ravel_lt hp
    simp only
    rw [ensureShown_true hj, ok_bind, ensure_true (by rw [h.size, h.length]; exact hlt), ok_bind]
    exact at?_some h hp
  · rw [index2_outside h ho, ensureShown_false not_false (C59_debug_partial h (hv.resolve_right ho) _ _),
      at?_none (by simp [ravel]; omega)]
    rfl

/-- What an access outside a matrix does on any view: the message of the failed assertion prints the tensor, which adds the
offset of the view twice. If the elements printed lie inside the buffer the call panics, otherwise it reads outside the
buffer. -/
theorem C10_index2_actual {t : Tensor α} {a b : Nat} {xs : List α} (h : Rep t [a, b] xs) {i j : Nat}
    (ho : ¬(i < a ∧ j < b)) :
    (2 * t.offset + xs.length ≤ t.data.length ∨ xs = [] → t.index2 i j = .error .panic) ∧
    (t.data.length < 2 * t.offset + xs.length → xs ≠ [] → t.index2 i j = .error .ub) := by
  rw [index2_outside h ho]
  refine ⟨fun hb => ?_, fun hb hx => ?_⟩
  · rw [ensureShown_false not_false ((C59_debug_actual h _ _).1 hb)]; rfl
  · rw [ensureShown_ub not_false ((C59_debug_actual h _ _).2 hb hx)]; rfl

example : (⟨ofDims [1, 2], 1, 2, [7, 8, 9, 6]⟩ : Tensor Nat).index2 1 0 = .error .panic :=
  (C10_index2_actual (a := 1) (b := 2) (xs := [8, 9]) ⟨⟨wf_ofDims ⟨by simp, by simp⟩, rfl, by simp⟩, rfl, rfl⟩
    (by simp)).1 (.inl (by simp))

example : exView.index2 2 1 = .ok 7 := by rw [C10_index2_partial exView_rep (.inr (by decide))]; rfl

example : (⟨ofDims [2, 2], 0, 4, [1, 2, 3, 4]⟩ : Tensor Nat).index2 1 2 = .error .panic :=
  C10_index2_partial (rep_fresh (ds := [2, 2]) (xs := [1, 2, 3, 4]) ⟨by simp, by simp⟩
    (fits_of_pos (by simp) (by simp)) rfl) (.inl rfl)

/-- C10 is violated: the index (1, 2) is outside the `[3, 2]` view, and the access reads outside the buffer before it can
panic. -/
theorem C10_index2_violates : Rep exView [3, 2] [2, 3, 4, 5, 6, 7] ∧ exView.index2 1 2 = .error .ub :=
  ⟨exView_rep, (C10_index2_actual exView_rep (by decide)).2 (by decide) (by simp)⟩

/-- A two-index access to a rank-3 tensor is not rejected: it reads the first matrix. -/
theorem C10_index2_rank3 : exCube.index2 1 1 = .ok 3 := rfl

end Essay
