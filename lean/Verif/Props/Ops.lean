import Verif.Spec.Ops
import Verif.Props.Fold

/-!
# Properties C18, C57, C61: operators, comparison, constant tensors
-/

namespace Essay

open Shape

variable {σ T U V : Type}

theorem mapM_lift_run (f : U → Res V) (l : List U) (s : σ) :
    (l.mapM fun x => (liftM (f x) : Exec σ V)).run s = (l.mapM f).map fun zs => (zs, s) := by
  have h : (l.mapM fun x => (liftM (f x) : Exec σ V)) = liftM (l.mapM f) := by
    induction l with
    | nil => rfl
    | cons x xs ih =>
      rw [List.mapM_cons, List.mapM_cons, ih, lift_bind]
      refine bind_congr fun v => ?_
      rw [lift_bind]
      rfl
  rw [h]
  cases l.mapM f <;> rfl

theorem results_of_yields {x : Exec Unit (Tensor V)} {l : List U} {f : U → Res V} {ds : List Nat}
    (h : Yields x (l.mapM fun x => (liftM (f x) : Exec Unit V)) ds) : Results (Tensor.runPure x) (l.mapM f) ds := by
  have h := h ()
  rw [mapM_lift_run] at h
  unfold Results
  cases hc : l.mapM f with
  | error e =>
    rw [hc] at h
    simp only [Except.map] at h
    simp only [Tensor.runPure, h, error_bind]
  | ok zs =>
    rw [hc] at h
    simp only [Except.map] at h
    obtain ⟨t, e, hr⟩ := h
    exact ⟨t, by simp only [Tensor.runPure, e, ok_bind]; rfl, hr⟩

theorem meaning_eq (ar : Arith T U V) (op : Tensor.OpName) : op.binop ar = meaning ar op := by
  cases op <;> rfl

/-! ## C18 -/

/-- C18, `a op b` when the left operand's dimensions are a suffix of the right's: the element operator is applied to the
broadcast operands element by element in order, left operand on the left; the call panics exactly when one of these
element operations panics. -/
theorem C18_tensor_tensor_left (ar : Arith T U V) (op : Tensor.OpName) {a : Tensor T} {b : Tensor U} {ds es : List Nat}
    {xs : List T} {ys : List U} (ha : Rep a ds xs) (hb : Rep b es ys) (hs : ds <:+ es) (hne : ys ≠ []) :
    ∃ as bs, Bcast ds xs es as ∧ Bcast es ys es bs ∧
      Results (Tensor.binary ar op a b) ((as.zip bs).mapM fun p => meaning ar op p.1 p.2) es := by
  obtain ⟨as, bs, h1, h2, h3⟩ := C15_map2_left ha hb hs hne fun x y => (liftM (op.binop ar x y) : Exec Unit V)
  refine ⟨as, bs, h1, h2, ?_⟩
  rw [← meaning_eq]
  exact results_of_yields (f := fun p : T × U => op.binop ar p.1 p.2) h3

/-- C18, right operand's dimensions a suffix of the left's. -/
theorem C18_tensor_tensor_right (ar : Arith T U V) (op : Tensor.OpName) {a : Tensor T} {b : Tensor U} {ds es : List Nat}
    {xs : List T} {ys : List U} (ha : Rep a ds xs) (hb : Rep b es ys) (hs : es <:+ ds) (hne : xs ≠ []) :
    ∃ as bs, Bcast ds xs ds as ∧ Bcast es ys ds bs ∧
      Results (Tensor.binary ar op a b) ((as.zip bs).mapM fun p => meaning ar op p.1 p.2) ds := by
  obtain ⟨as, bs, h1, h2, h3⟩ := C15_map2_right ha hb hs hne fun x y => (liftM (op.binop ar x y) : Exec Unit V)
  refine ⟨as, bs, h1, h2, ?_⟩
  rw [← meaning_eq]
  exact results_of_yields (f := fun p : T × U => op.binop ar p.1 p.2) h3

theorem mapM_ok_get {f : U → Res V} {l : List U} {zs : List V} (h : l.mapM f = .ok zs) {i : Nat} {x : U}
    (hx : l[i]? = some x) : ∃ z, f x = .ok z ∧ zs[i]? = some z := by
  induction l generalizing zs i with
  | nil => simp at hx
  | cons y l ih =>
    rw [List.mapM_cons] at h
    obtain ⟨z, hz, h⟩ := bind_eq_ok.1 h
    obtain ⟨zs', hzs, h⟩ := bind_eq_ok.1 h
    cases h
    cases i with
    | zero => simp at hx; subst hx; exact ⟨z, hz, rfl⟩
    | succ i => simpa using ih hzs (by simpa using hx)

/-- C18 read at one multi-index: if `a op b` returns, its element at every index of the longer dimensions is the element
operator applied to `a` and `b` at the trailing coordinates of that index. -/
theorem C18_at (ar : Arith T U V) (op : Tensor.OpName) {a : Tensor T} {b : Tensor U} {t : Tensor V} {ds es big : List Nat}
    {xs : List T} {ys : List U} (ha : Rep a ds xs) (hb : Rep b es ys) (hd : ds <:+ big) (he : es <:+ big)
    (hbig : big = ds ∨ big = es) (h : Tensor.binary ar op a b = .ok t) :
    ∃ zs, Rep t big zs ∧ ∀ idx p, ravel big idx = some p → ∃ x y z,
      at? ds xs (idx.drop (big.length - ds.length)) = some x ∧
      at? es ys (idx.drop (big.length - es.length)) = some y ∧
      meaning ar op x y = .ok z ∧ at? big zs idx = some z := by
  have hne : xs ≠ [] ∧ ys ≠ [] := by
    constructor <;> intro hc
    · have := C16_empty ha hb (Or.inl hc) (fun x y => (liftM (op.binop ar x y) : Exec Unit V)) ()
      simp only [Tensor.binary, Tensor.opTT, Tensor.runPure, this, error_bind] at h
      cases h
    · have := C16_empty ha hb (Or.inr hc) (fun x y => (liftM (op.binop ar x y) : Exec Unit V)) ()
      simp only [Tensor.binary, Tensor.opTT, Tensor.runPure, this, error_bind] at h
      cases h
  have key : ∃ as bs, Bcast ds xs big as ∧ Bcast es ys big bs ∧
      Results (Tensor.binary ar op a b) ((as.zip bs).mapM fun p => meaning ar op p.1 p.2) big := by
    rcases hbig with rfl | rfl
    · exact C18_tensor_tensor_right ar op ha hb he hne.1
    · exact C18_tensor_tensor_left ar op ha hb hd hne.2
  obtain ⟨as, bs, h1, h2, h3⟩ := key
  unfold Results at h3
  cases hm : (as.zip bs).mapM fun p => meaning ar op p.1 p.2 with
  | error e => rw [hm, h] at h3; cases h3
  | ok zs =>
    rw [hm, h] at h3
    obtain ⟨t', e, hr⟩ := h3
    cases e
    refine ⟨zs, hr, fun idx p hp => ?_⟩
    obtain ⟨x, hx1, hx2⟩ := h1.2 idx p hp
    obtain ⟨y, hy1, hy2⟩ := h2.2 idx p hp
    obtain ⟨z, hz1, hz2⟩ := mapM_ok_get hm (i := p) (x := (x, y))
      (List.getElem?_zip_eq_some (z := (x, y)) |>.2 ⟨hx1, hy1⟩)
    exact ⟨x, y, z, hx2, hy2, hz1, by unfold at?; rw [hp]; exact hz2⟩

/-- C18: operands that do not broadcast, or an empty operand, make every operator panic. -/
theorem C18_rejects (ar : Arith T U V) (op : Tensor.OpName) {a : Tensor T} {b : Tensor U} {ds es : List Nat}
    {xs : List T} {ys : List U} (ha : Rep a ds xs) (hb : Rep b es ys)
    (hs : (¬ ds <:+ es ∧ ¬ es <:+ ds) ∨ xs = [] ∨ ys = []) : Tensor.binary ar op a b = .error .panic := by
  simp only [Tensor.binary, Tensor.opTT, Tensor.runPure]
  rcases hs with hs | hs
  · rw [C16_incompatible ha hb hs.1 hs.2]; rfl
  · rw [C16_empty ha hb hs]; rfl

/-- C18, `tensor op scalar`: the tensor's elements are the left operands. -/
theorem C18_tensor_scalar (ar : Arith T U V) (op : Tensor.OpName) {a : Tensor T} {ds : List Nat} {xs : List T}
    (ha : Rep a ds xs) (y : U) :
    Results (Tensor.binaryScalar ar op a y) (xs.mapM fun x => meaning ar op x y) ds := by
  rw [← meaning_eq]
  exact results_of_yields (C14_map ha _)

/-- C18, `scalar op tensor`: the tensor's elements are the right operands. -/
theorem C18_scalar_tensor (ar : Arith T U V) (op : Tensor.OpName) {b : Tensor U} {ds : List Nat} {ys : List U}
    (hb : Rep b ds ys) (x : T) :
    Results (Tensor.scalarBinary ar op x b) (ys.mapM fun y => meaning ar op x y) ds := by
  rw [← meaning_eq]
  exact results_of_yields (C14_map hb _)

/-- C18: unary methods and operators are elementwise. -/
theorem C18_unary (f : T → Res V) {a : Tensor T} {ds : List Nat} {xs : List T} (ha : Rep a ds xs) :
    Results (Tensor.unary f a) (xs.mapM f) ds := results_of_yields (C14_map ha _)

/-- C18: `square` multiplies each element by itself. -/
theorem C18_square (ar : Arith T T V) {a : Tensor T} {ds : List Nat} {xs : List T} (ha : Rep a ds xs) :
    Results (Tensor.square ar a) (xs.mapM fun x => ar.mul x x) ds := C18_unary _ ha

theorem opTT_pure (f : T → U → V) {a : Tensor T} {b : Tensor U} {ds es : List Nat} {xs : List T} {ys : List U}
    (ha : Rep a ds xs) (hb : Rep b es ys) (hs : ds <:+ es) (hne : ys ≠ []) :
    ∃ t zs, Tensor.opTT (fun x y => (.ok (f x y) : Res V)) a b = .ok t ∧ Rep t es zs ∧
      ∀ idx p, ravel es idx = some p → ∃ x y, at? ds xs (idx.drop (es.length - ds.length)) = some x ∧
        at? es ys idx = some y ∧ at? es zs idx = some (f x y) := by
  obtain ⟨t, zs, h1, h2, h3⟩ := C15_map2_at ha hb hs hne f ()
  refine ⟨t, zs, ?_, h2, h3⟩
  have h1' : (a.map2 b fun x y => (liftM (.ok (f x y) : Res V) : Exec Unit V)).run () = .ok (t, ()) := h1
  simp only [Tensor.opTT, Tensor.runPure, h1', ok_bind]; rfl

/-- C18: `a.min(b)` and `a.max(b)` hold at every index a smallest / largest of the two elements (first operand's
dimensions a suffix of the second's), for any total order `le`. -/
theorem C18_min_max {le : T → T → Bool} (total : ∀ x y, le x y = true ∨ le y x = true) (refl : ∀ x, le x x = true)
    {a b : Tensor T} {ds es : List Nat} {xs ys : List T} (ha : Rep a ds xs) (hb : Rep b es ys) (hs : ds <:+ es)
    (hne : ys ≠ []) :
    (∃ t zs, Tensor.min le a b = .ok t ∧ Rep t es zs ∧ ∀ idx p, ravel es idx = some p → ∃ x y z,
      at? ds xs (idx.drop (es.length - ds.length)) = some x ∧ at? es ys idx = some y ∧ at? es zs idx = some z ∧
      (z = x ∨ z = y) ∧ le z x = true ∧ le z y = true) ∧
    (∃ t zs, Tensor.max le a b = .ok t ∧ Rep t es zs ∧ ∀ idx p, ravel es idx = some p → ∃ x y z,
      at? ds xs (idx.drop (es.length - ds.length)) = some x ∧ at? es ys idx = some y ∧ at? es zs idx = some z ∧
      (z = x ∨ z = y) ∧ le x z = true ∧ le y z = true) := by
  constructor
  · obtain ⟨t, zs, h1, h2, h3⟩ := opTT_pure (fun x y => if le x y then x else y) ha hb hs hne
    refine ⟨t, zs, h1, h2, fun idx p hp => ?_⟩
    obtain ⟨x, y, hx, hy, hz⟩ := h3 idx p hp
    refine ⟨x, y, _, hx, hy, hz, ?_⟩
    by_cases h : le x y = true
    · simp [h, refl]
    · simp [h, refl, (total x y).resolve_left h]
  · obtain ⟨t, zs, h1, h2, h3⟩ := opTT_pure (fun x y => if le x y then y else x) ha hb hs hne
    refine ⟨t, zs, h1, h2, fun idx p hp => ?_⟩
    obtain ⟨x, y, hx, hy, hz⟩ := h3 idx p hp
    refine ⟨x, y, _, hx, hy, hz, ?_⟩
    by_cases h : le x y = true
    · simp [h, refl]
    · simp [h, refl, (total x y).resolve_left h]

/-- Checked `u8` arithmetic, to instantiate the theorems. -/
def u8Arith : Arith Nat Nat Nat :=
  let chk (n : Nat) : Res Nat := if n < 256 then .ok n else .error .panic
  ⟨fun x y => chk (x + y), usub, fun x y => chk (x * y), udiv, umod, fun x y => .ok (x &&& y), fun x y => .ok (x ||| y),
    fun x y => .ok (x ^^^ y), fun x y => if y < 8 then .ok ((x <<< y) % 256) else .error .panic,
    fun x y => if y < 8 then .ok (x >>> y) else .error .panic⟩

/-- A row minus a matrix. -/
example : ∃ t, Tensor.binary u8Arith .sub exRow exView = .ok t ∧ Rep t [3, 2] [8, 17, 6, 15, 4, 13] := by
  refine ⟨{ shape := ofDims [3, 2], offset := 0, size := 6, data := [8, 17, 6, 15, 4, 13] }, by decide +kernel, ?_⟩
  exact rep_fresh (ds := [3, 2]) (xs := [8, 17, 6, 15, 4, 13]) ⟨by simp, by simp⟩ (fits_of_pos (by simp) (by simp)) rfl

/-- `100 / t` and `t / 2` differ: the scalar stays on its side. -/
example : ∃ t, Tensor.scalarBinary u8Arith .div 100 exRow = .ok t ∧ Rep t [2] [10, 5] :=
  C18_scalar_tensor u8Arith .div exRow_rep 100
example : ∃ t, Tensor.binaryScalar u8Arith .div exRow 2 = .ok t ∧ Rep t [2] [5, 10] :=
  C18_tensor_scalar u8Arith .div exRow_rep 2
/-- Overflow of one element makes the operation panic. -/
example : Tensor.binaryScalar u8Arith .mul exRow 13 = .error .panic := C18_tensor_scalar u8Arith .mul exRow_rep 13

/-! ## C57 -/

theorem iterPartialCmp_lex (cmp : T → T → Option Ordering) (xs ys : List T) :
    LexCmp cmp xs ys (Tensor.iterPartialCmp cmp xs ys) := by
  have step : ∀ {x y : T} {xs ys : List T} {r}, cmp x y = some .eq → LexCmp cmp xs ys r →
      LexCmp cmp (x :: xs) (y :: ys) r := by
    intro x y xs ys r h hl
    cases hl with
    | decided l l' u v a b r h1 h2 h3 => exact .decided (x :: l) (y :: l') u v a b r (.cons h h1) h2 h3
    | same l l' h1 => exact .same _ _ (.cons h h1)
    | shorter l l' v b h1 => exact .shorter _ (y :: l') v b (.cons h h1)
    | longer l l' v b h1 => exact .longer (x :: l) _ v b (.cons h h1)
  fun_induction Tensor.iterPartialCmp cmp xs ys with
  | case1 => exact .same [] [] .nil
  | case2 y ys => exact .shorter [] [] y ys .nil
  | case3 x xs => exact .longer [] [] x xs .nil
  | case4 x xs y ys h ih => exact step h ih
  | case5 x xs y ys h => exact .decided [] [] x y xs ys _ .nil rfl h

theorem forall2_length {R : T → U → Prop} {l : List T} {m : List U} (h : List.Forall₂ R l m) : l.length = m.length :=
  h.length_eq

/-- The description determines the result. -/
theorem lexCmp_unique {cmp : T → T → Option Ordering} {xs ys : List T} {r : Option Ordering} (h : LexCmp cmp xs ys r) :
    Tensor.iterPartialCmp cmp xs ys = r := by
  have step : ∀ (l l' : List T), List.Forall₂ (fun u v => cmp u v = some .eq) l l' → ∀ a b,
      Tensor.iterPartialCmp cmp (l ++ a) (l' ++ b) = Tensor.iterPartialCmp cmp a b := by
    intro l l' h a b
    induction h with
    | nil => rfl
    | cons h _ ih => simp only [List.cons_append, Tensor.iterPartialCmp, h, ih]
  cases h with
  | decided l l' x y a b r h1 h2 h3 =>
    rw [step _ _ h1, Tensor.iterPartialCmp.eq_def]
    simp only [h2]
  | same l l' h1 => simpa [Tensor.iterPartialCmp] using step _ _ h1 [] []
  | shorter l l' y b h1 => simpa [Tensor.iterPartialCmp] using step _ _ h1 [] (y :: b)
  | longer l l' x a h1 => simpa [Tensor.iterPartialCmp] using step _ _ h1 (x :: a) []

/-- C57: `partial_cmp` of two tensors is the lexicographic comparison of their elements in row-major order, and only
that. -/
theorem C57_lexicographic (cmp : T → T → Option Ordering) {t u : Tensor T} {ds es : List Nat} {xs ys : List T}
    (ht : Rep t ds xs) (hu : Rep u es ys) (r : Option Ordering) :
    Tensor.partialCmp cmp t u = .ok r ↔ LexCmp cmp xs ys r := by
  unfold Tensor.partialCmp
  rw [ht.elems, ok_bind, hu.elems, ok_bind]
  constructor
  · intro h; cases h; exact iterPartialCmp_lex cmp xs ys
  · intro h; rw [← lexCmp_unique h]; rfl

/-- C57 for tensors of equal dimensions: `partial_cmp` returns `Equal` exactly when `==` holds, if the element
comparison does. Missing: tensors of different dimensions, where it is false (`C57_shape_violates`). -/
theorem C57_consistent_partial [DecidableEq T] {cmp : T → T → Option Ordering}
    (hc : ∀ x y, cmp x y = some .eq ↔ x = y) {t u : Tensor T} {ds : List Nat} {xs ys : List T}
    (ht : Rep t ds xs) (hu : Rep u ds ys) : Tensor.partialCmp cmp t u = .ok (some .eq) ↔ t.eq u = .ok true := by
  rw [C57_lexicographic cmp ht hu, C58_eq ht hu]
  constructor
  · intro h
    have h := lexCmp_unique h
    have key : ∀ l m : List T, Tensor.iterPartialCmp cmp l m = some .eq → l = m := by
      intro l m
      fun_induction Tensor.iterPartialCmp cmp l m with
      | case1 => simp
      | case2 => simp
      | case3 => simp
      | case4 x xs y ys h ih => intro h'; rw [(hc x y).1 h, ih h']
      | case5 x xs y ys h => intro h'; exact absurd h' h
    simp [key _ _ h]
  · intro h
    have h' : xs = ys := by simpa using Except.ok.inj h
    clear h
    subst h'
    refine .same _ _ ?_
    clear ht hu
    induction xs with
    | nil => exact .nil
    | cons x xs ih => exact .cons ((hc x x).2 rfl) ih

/-- C57 is violated: a 2x3 and a 3x2 tensor with the same flat elements compare `Equal` but are not `==`. -/
theorem C57_shape_violates : ∃ t u : Tensor Nat, Rep t [2, 3] [1, 2, 3, 4, 5, 6] ∧ Rep u [3, 2] [1, 2, 3, 4, 5, 6] ∧
    Tensor.partialCmp (fun x y => some (compare x y)) t u = .ok (some .eq) ∧ t.eq u = .ok false :=
  ⟨_, _, rep_fresh ⟨by simp, by simp⟩ (fits_of_pos (by simp) (by simp)) rfl,
    rep_fresh ⟨by simp, by simp⟩ (fits_of_pos (by simp) (by simp)) rfl, by decide +kernel, by decide +kernel⟩

example : Tensor.partialCmp (fun x y => some (compare x y)) exView exCube = .ok (some .gt) := by
  rw [C57_lexicographic _ exView_rep exCube_rep]
  exact .decided [] [] 2 0 _ _ _ .nil rfl (by decide)

/-! ## C61 -/

/-- C61: `fill(shape, v)` has the given dimensions and every element equal to `v`, for every shape whose element count
fits in 32 bits; beyond that it panics. -/
theorem C61_fill {s : Shape} {ds : List Nat} (hs : s.WF) (hds : s.asVec = .ok ds) (v : V) :
    (Fits ds → ∃ t, Tensor.fill s v = .ok t ∧ Rep t ds (List.replicate ds.prod v)) ∧
    (¬ Fits ds → Tensor.fill s v = .error .panic) := by
  constructor
  · intro hf
    have h := C19_init hs hds hf (pure v : Exec Unit V) ()
    have e : ((List.replicate ds.prod ()).mapM fun _ => (pure v : Exec Unit V)) = pure (List.replicate ds.prod v) := by
      rw [mapM_pure (fun _ => v)]; simp
    rw [e] at h
    obtain ⟨t, e, hr⟩ := h
    exact ⟨t, by simp only [Tensor.fill, Tensor.runPure, e, ok_bind]; rfl, hr⟩
  · intro hf
    obtain ⟨rfl, ha⟩ := toDims_of_asVec hs hds
    have hsz : (ofDims ds).size = .error .panic := by
      have hub := noUB_size (ofDims ds)
      cases hc : (ofDims ds).size with
      | error e =>
        rw [hc] at hub
        cases e
        · rfl
        · exact absurd rfl hub
      | ok n => exact absurd ((size_ofDims_iff ha).1 hc).1 hf
    simp only [Tensor.fill, Tensor.runPure, Tensor.init, hsz]
    rfl

/-- C61: `zeros(shape)`. -/
theorem C61_zeros [Zero V] {s : Shape} {ds : List Nat} (hs : s.WF) (hds : s.asVec = .ok ds) :
    (Fits ds → ∃ t : Tensor V, Tensor.zeros s = .ok t ∧ Rep t ds (List.replicate ds.prod 0)) ∧
    (¬ Fits ds → (Tensor.zeros s : Res (Tensor V)) = .error .panic) := C61_fill hs hds (0 : V)

example : ∃ t : Tensor Int, Tensor.zeros (ofDims [2, 3]) = .ok t ∧ Rep t [2, 3] [0, 0, 0, 0, 0, 0] :=
  (C61_zeros (ds := [2, 3]) (wf_ofDims ⟨by simp, by simp⟩) rfl).1 (fits_of_pos (by simp) (by simp))

/-- C61: `ones(shape)`. -/
theorem C61_ones [One V] {s : Shape} {ds : List Nat} (hs : s.WF) (hds : s.asVec = .ok ds) :
    (Fits ds → ∃ t : Tensor V, Tensor.ones s = .ok t ∧ Rep t ds (List.replicate ds.prod 1)) ∧
    (¬ Fits ds → (Tensor.ones s : Res (Tensor V)) = .error .panic) := C61_fill hs hds (1 : V)

example : (Tensor.ones (ofDims [65536, 65536]) : Res (Tensor Int)) = .error .panic :=
  (C61_ones (ds := [65536, 65536]) (wf_ofDims ⟨by simp, by simp⟩) rfl).2 (by simp [fits_cons, fits_nil])

example : ∃ t, Tensor.fill (ofDims [2, 3]) 7 = .ok t ∧ Rep t [2, 3] [7, 7, 7, 7, 7, 7] :=
  (C61_fill (ds := [2, 3]) (wf_ofDims (l := [2, 3]) ⟨by simp, by simp⟩) rfl 7).1 (fits_of_pos (by simp) (by simp))

/-- A 65536 x 65536 shape is rejected (with overflow checks on). -/
example : Tensor.fill (ofDims [65536, 65536]) 7 = .error .panic :=
  (C61_fill (ds := [65536, 65536]) (wf_ofDims (l := [65536, 65536]) ⟨by simp, by simp⟩) rfl 7).2 fun h => by
    have := h 0; simp at this

example : ∃ as bs, Bcast [2] [10, 20] [3, 2] as ∧ Bcast [3, 2] [2, 3, 4, 5, 6, 7] [3, 2] bs ∧
    Results (Tensor.binary u8Arith .rem exRow exView) ((as.zip bs).mapM fun p => meaning u8Arith .rem p.1 p.2) [3, 2] :=
  C18_tensor_tensor_left u8Arith .rem exRow_rep exView_rep (by decide) (by simp)

example : ∃ as bs, Bcast [3, 2] [2, 3, 4, 5, 6, 7] [3, 2] as ∧ Bcast [2] [10, 20] [3, 2] bs ∧
    Results (Tensor.binary u8Arith .mul exView exRow) ((as.zip bs).mapM fun p => meaning u8Arith .mul p.1 p.2) [3, 2] :=
  C18_tensor_tensor_right u8Arith .mul exView_rep exRow_rep (by decide) (by simp)

example : ∃ t zs, Tensor.binary u8Arith .sub exRow exView = .ok t ∧ Rep t [3, 2] zs ∧
    ∀ idx p, ravel [3, 2] idx = some p → ∃ x y z, at? [2] [10, 20] (idx.drop 1) = some x ∧
      at? [3, 2] [2, 3, 4, 5, 6, 7] (idx.drop 0) = some y ∧ meaning u8Arith .sub x y = .ok z ∧ at? [3, 2] zs idx = some z := by
  obtain ⟨zs, h1, h2⟩ := C18_at u8Arith .sub exRow_rep exView_rep (by decide) (by decide) (.inr rfl)
    (t := ⟨ofDims [3, 2], 0, 6, [8, 17, 6, 15, 4, 13]⟩) (by decide +kernel)
  exact ⟨_, zs, by decide +kernel, h1, h2⟩

example : Tensor.binary u8Arith .add exView exCube = .error .panic :=
  C18_rejects u8Arith .add exView_rep exCube_rep (.inl (by decide))

example : Results (Tensor.unary (fun x => usub 5 x) exView) ([2, 3, 4, 5, 6, 7].mapM fun x => usub 5 x) [3, 2] :=
  C18_unary _ exView_rep

example : Results (Tensor.square u8Arith exView) ([2, 3, 4, 5, 6, 7].mapM fun x => u8Arith.mul x x) [3, 2] :=
  C18_square u8Arith exView_rep

example : ∃ t zs, Tensor.min (fun x y : Nat => decide (x ≤ y)) exRow exView = .ok t ∧ Rep t [3, 2] zs ∧
    ∀ idx p, ravel [3, 2] idx = some p → ∃ x y z, at? [2] [10, 20] (idx.drop 1) = some x ∧
      at? [3, 2] [2, 3, 4, 5, 6, 7] idx = some y ∧ at? [3, 2] zs idx = some z ∧
      (z = x ∨ z = y) ∧ decide (z ≤ x) = true ∧ decide (z ≤ y) = true :=
  (C18_min_max (fun x y => by simp; omega) (by simp) exRow_rep exView_rep (by decide) (by simp)).1

example : Tensor.partialCmp (fun x y : Nat => some (compare x y)) exView exView = .ok (some .eq) ↔ exView.eq exView = .ok true :=
  C57_consistent_partial (fun x y => by simp) exView_rep exView_rep

end Essay
