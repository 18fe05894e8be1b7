import Verif.Lemmas.CloneFold
import Verif.Props.Fold
import Verif.Props.Init
import Verif.Props.Rejects

/-!
# C99: start values, elements and zeros are asked for exactly as often as needed
-/

namespace Essay

open Shape

variable {σ α T U V S S1 : Type}

/-- The model with visible copies is the model of the other files when the copies do nothing but return the value. -/
theorem C99_models_agree :
    (∀ (t : Tensor U) (init : S) (f : S → U → Exec σ S) (g : S → V),
      Clones.fold t (pure init) f (fun s => pure (g s)) = t.fold init f g) ∧
    (∀ (t : Tensor U) axis (init : S) (f : S → U → Exec σ S) (g : S → V),
      Clones.foldAxis t axis (pure init) f (fun s => pure (g s)) = t.foldAxis axis init f g) ∧
    (∀ (t : Tensor U) axis (N : Nat) (init : S) (f : S → List U → Exec σ S) (g : S → Vector V N),
      Clones.foldRow t axis N (pure init) f (fun s => pure (g s)) = t.foldRow axis N init f g) ∧
    (∀ (t : Tensor U) (f : U → U → Exec σ U), Clones.reduce pure t f = t.reduce f) ∧
    (∀ (t : Tensor U) axis (f : U → U → Exec σ U), Clones.reduceAxis pure t axis f = t.reduceAxis axis f) ∧
    (∀ (t : Tensor U) axis (init : S) (accum : S → U → Exec σ S) (complete : S → Exec σ S1) (norm : S1 → U → Exec σ V),
      Clones.normalize t axis (pure init) accum complete norm = t.normalize axis init accum complete norm) := by
  refine ⟨?_, ?_, ?_, ?_, ?_, ?_⟩ <;> intros <;>
    simp only [Clones.fold, Clones.foldAxis, Clones.foldRow, Clones.reduce, Clones.reduceAxis, Clones.normalize, Tensor.fold,
      Tensor.foldAxis, Tensor.foldRow, Tensor.reduce, Tensor.reduceAxis, Tensor.normalize, pure_bind]

theorem runPure_lift_bind {β : Type} (x : Res α) (f : α → Exec Unit β) :
    Tensor.runPure ((liftM x : Exec Unit α) >>= f) = x >>= fun a => Tensor.runPure (f a) := by
  cases x <;> rfl

theorem runPure_lift (x : Res α) : Tensor.runPure (liftM x : Exec Unit α) = x := by
  cases x <;> rfl

/-- The same for the matrices made of elements, zeros and ones. -/
theorem C99_matrices_agree [Zero α] [One α] :
    (∀ n, Tensor.runPure (Clones.eye (pure 0) (pure 1) n) = (Init.eye n : Res (Tensor α))) ∧
    (∀ n, Tensor.runPure (Clones.tri (pure 0) (pure 1) n) = (Init.tri n : Res (Tensor α))) ∧
    (∀ t : Tensor α, Tensor.runPure (Clones.diagflat pure (pure 0) t) = Init.diagflat t) ∧
    (∀ t : Tensor α, Tensor.runPure (Clones.tril pure (pure 0) t) = Init.tril t) ∧
    (∀ t : Tensor α, Tensor.runPure (Clones.triu pure (pure 0) t) = Init.triu t) := by
  have tri : ∀ (keep : Nat → Nat → Bool) (t : Tensor α),
      Tensor.runPure (Clones.triFill pure (pure 0) keep t) = Init.triFill keep t := by
    intro keep t
    unfold Clones.triFill Init.triFill
    rw [runPure_lift_bind]
    congr 1; funext _
    rw [runPure_lift_bind]
    congr 1; funext size
    unfold Tensor.unsafeInitM Tensor.unsafeInit
    refine Eq.trans ?_ (runPure_lift _)
    congr 1
    rw [lift_bind]
    congr 1
    simp only [lift_bind, Clones.lift_forR]
    congr 1; funext x
    congr 1; funext rows
    congr 1; funext cols
    congr 1; funext n
    congr 1; funext k o
    congr 1; funext j o
    congr 1; funext i o
    split
    · simp only [lift_bind, pure_bind]
    · simp only [pure_bind]
  refine ⟨?_, ?_, ?_, fun t => tri _ t, fun t => tri _ t⟩
  · intro n
    unfold Clones.eye Init.eye
    split
    · rw [pure_bind, runPure_lift]
    · rw [runPure_lift_bind]
      congr 1; funext s
      congr 2; funext index
      simp only [lift_bind]
      congr 1; funext i0
      congr 1; funext i1
      split <;> rfl
  · intro n
    unfold Clones.tri Init.tri
    rw [runPure_lift_bind]
    congr 1; funext s
    congr 2; funext index
    simp only [lift_bind]
    congr 1; funext i0
    congr 1; funext i1
    split <;> rfl
  · intro t
    unfold Clones.diagflat Init.diagflat
    rw [runPure_lift_bind]
    congr 1; funext _
    dsimp only
    rw [runPure_lift_bind]
    congr 1; funext s
    congr 2; funext index
    simp only [lift_bind]
    congr 1; funext i0
    congr 1; funext i1
    split
    · simp only [bind_pure]
    · rfl

/-! ## Folds -/

/-- C99: `fold` copies the start value once, before the first call of the closure, and converts the result once. -/
theorem C99_fold {t : Tensor U} {ds : List Nat} {xs : List U} (h : Rep t ds xs) (cloneInit : Exec σ S)
    (f : S → U → Exec σ S) (intoResult : S → Exec σ V) :
    Yields (Clones.fold t cloneInit f intoResult) (foldCloned cloneInit f intoResult xs >>= fun v => pure [v]) [] := by
  apply yields_of_eq _ _ adm_nil fits_nil
  · rw [Clones.fold_eq h]
    simp only [foldCloned, bind_assoc, pure_bind]; rfl
  · intro s vs s' hr
    obtain ⟨ws, s1, h1, h2⟩ := run_bind_ok hr
    cases h2; rfl

/-- C99: `fold_axis` copies the start value once for each lane and converts once for each lane, lane by lane in row-major
order. -/
theorem C99_fold_axis {t : Tensor T} {pre post : List Nat} {d : Nat} {xs : List T} (h : Rep t (pre ++ d :: post) xs)
    (hne : xs ≠ []) {a : Int} (ha : axisIndex (pre ++ d :: post).length a = some pre.length) (cloneInit : Exec σ S)
    (f : S → T → Exec σ S) (intoResult : S → Exec σ V) :
    ∃ lanes, IsLanes pre d post xs lanes ∧
      Yields (Clones.foldAxis t (some a) cloneInit f intoResult) (lanes.mapM (foldCloned cloneInit f intoResult))
        (pre ++ post) := by
  have hxp : 0 < (pre ++ d :: post).prod := by rw [← h.length]; exact List.length_pos_iff.2 hne
  have hp := pos_of_prod_pos hxp
  have hpos : ∀ x ∈ pre ++ post, 0 < x := fun x hx => hp x (by
    rcases List.mem_append.1 hx with h | h
    · exact List.mem_append.2 (Or.inl h)
    · exact List.mem_append.2 (Or.inr (List.mem_cons_of_mem _ h)))
  have hd : 0 < d := hp d (by simp)
  have hadm := adm_erase h.adm
  have hfit := fits_erase h.fits hpos hd
  have hx : xs.length = pre.prod * d * post.prod := by rw [h.length, prod_mid]
  obtain ⟨lanes, hl⟩ := lanesAt_exists hx
  refine ⟨lanes, hl.isLanes h.length, ?_⟩
  apply yields_of_eq _ _ hadm hfit
  · apply Clones.foldAxis_eq h _ _ hl
    · rw [h.shape]
      exact reduce_some h.adm h.fits hpos (by
        rw [← ha]; congr 1; simp; omega)
    · rw [(size_ofDims_iff hadm).2 ⟨hfit, rfl⟩, List.prod_append]
  · intro s vs s' hr
    rw [mapM_length _ _ _ _ _ hr, hl.1, List.prod_append]

theorem lanesAt_all (xs : List T) : LanesAt xs 1 xs.length 1 [xs] := by
  refine ⟨rfl, fun p hp => ⟨xs, ?_, rfl, fun k hk => ?_⟩⟩
  · have : p = 0 := by omega
    subst this; rfl
  · have : p = 0 := by omega
    subst this; simp

/-- C99: `fold_axis` without an axis. -/
theorem C99_fold_axis_none {t : Tensor T} {ds : List Nat} {xs : List T} (h : Rep t ds xs) (cloneInit : Exec σ S)
    (f : S → T → Exec σ S) (intoResult : S → Exec σ V) :
    Yields (Clones.foldAxis t none cloneInit f intoResult) (foldCloned cloneInit f intoResult xs >>= fun v => pure [v])
      [] := by
  apply yields_of_eq _ _ adm_nil fits_nil
  · rw [Clones.foldAxis_eq h (os := []) (batch := 1) (aLen := xs.length) (inner := 1) _ rfl (lanesAt_all xs)]
    · simp
    · show (t.shape.size >>= fun n => _) = _
      rw [h.size_eq, h.length]; rfl
  · intro s vs s' hr
    obtain ⟨ws, s1, h1, h2⟩ := run_bind_ok hr
    cases h2; rfl

/-- C99: `fold_row` without an axis, on a tensor that starts at its buffer's beginning: one copy of the start value, one
conversion. -/
theorem C99_fold_row_partial {t : Tensor T} {ds : List Nat} {c N : Nat} {xs : List T} (h : Rep t (ds ++ [c]) xs)
    (h0 : t.offset = 0) (hc : 0 < c) (hN : N < 2 ^ 32) (cloneInit : Exec σ S) (f : S → List T → Exec σ S)
    (intoResult : S → Exec σ (Vector V N)) :
    ∃ rows : List (List T), rows.flatten = xs ∧ rows.length = ds.prod ∧ (∀ r ∈ rows, r.length = c) ∧
      Yields (Clones.foldRow t none N cloneInit f intoResult)
        (foldCloned cloneInit f intoResult rows >>= fun v => pure v.toList) [N] := by
  have hx : xs.length = ds.prod * c := by rw [h.length]; simp
  have hcols : t.shape.cols = Except.ok c := by rw [cols_eq h.wf.shape, h.toDims]; simp
  refine ⟨rowsOf xs c ds.prod, rowsOf_flatten hx, rowsOf_length _ _ _, ?_, ?_⟩
  · intro r hr
    obtain ⟨i, hi⟩ := List.getElem?_of_mem hr
    obtain ⟨hlt, rfl⟩ := rowsOf_get hi
    exact row_length hx hlt
  · have hl : LanesAt (rowsOf xs c ds.prod) 1 ds.prod 1 [rowsOf xs c ds.prod] := by
      have := lanesAt_all (rowsOf xs c ds.prod)
      rwa [rowsOf_length] at this
    have hadm : Adm [N] := ⟨by simp, by simpa using hN⟩
    apply yields_of_eq _ _ hadm (fits_one hN)
    · have e1 : 1 * ds.prod * 1 = ds.prod := by omega
      rw [Clones.foldRow_eq (axis := none) h h0 (os := [N]) (batch := 1) (aLen := ds.prod) (inner := 1) (c := c)
        (by rw [h.shape]; exact reduceRow_none h.adm h.fits hc hN) hcols hc (by rw [e1]; exact hx)
        (by rw [(size_ofDims_iff hadm).2 ⟨fits_one hN, rfl⟩]; simp) (by rw [e1]; exact hl)]
      simp
    · intro s vs s' hr
      obtain ⟨ws, s1, h1, h2⟩ := run_bind_ok hr
      cases h2; simp

/-- C99: `fold_row` along an axis, again on a tensor that starts at its buffer's beginning (on other views the rows are
read from the wrong place, `C23_view_violates`). -/
theorem C99_fold_row_axis_partial {t : Tensor T} {pre post : List Nat} {d c N : Nat} {xs : List T}
    (h : Rep t (pre ++ d :: post ++ [c]) xs) (h0 : t.offset = 0) (hne : xs ≠ []) (hN : 0 < N)
    (hfit : Fits (pre ++ post ++ [N])) {a : Int}
    (ha : axisIndex (pre ++ d :: post ++ [c]).length a = some pre.length) (cloneInit : Exec σ S)
    (f : S → List T → Exec σ S) (intoResult : S → Exec σ (Vector V N)) :
    ∃ (rows : List (List T)) (lanes : List (List (List T))), rows.flatten = xs ∧ (∀ r ∈ rows, r.length = c) ∧
      IsLanes pre d post rows lanes ∧
      Yields (Clones.foldRow t (some a) N cloneInit f intoResult)
        (lanes.mapM (foldCloned cloneInit f intoResult) >>= fun vs => pure (vs.map Vector.toList).flatten)
        (pre ++ post ++ [N]) := by
  have hxp : 0 < (pre ++ d :: post ++ [c]).prod := by rw [← h.length]; exact List.length_pos_iff.2 hne
  have hp := pos_of_prod_pos hxp
  have hpos : ∀ x ∈ pre ++ post, 0 < x := fun x hx => hp x (by
    rcases List.mem_append.1 hx with h | h <;> simp [h])
  have hc : 0 < c := hp c (by simp)
  have hx : xs.length = pre.prod * d * post.prod * c := by
    rw [h.length, List.prod_append, prod_mid]; simp
  have hcols : t.shape.cols = Except.ok c := by rw [cols_eq h.wf.shape, h.toDims]; simp
  have hNlt : N < 4294967296 := by
    have := hfit (pre ++ post).length; simpa using this
  have hlen := h.adm.len
  have hadm : Adm (pre ++ post ++ [N]) := ⟨by simp at hlen ⊢; omega, fun x hx => by
    simp only [List.mem_append, List.mem_singleton] at hx
    rcases hx with (hx | hx) | hx
    · exact h.adm.lt x (by simp [hx])
    · exact h.adm.lt x (by simp [hx])
    · omega⟩
  obtain ⟨lanes, hl⟩ := lanesAt_exists (xs := rowsOf xs c (pre.prod * d * post.prod)) (rowsOf_length _ _ _)
  refine ⟨rowsOf xs c (pre.prod * d * post.prod), lanes, rowsOf_flatten hx, ?_, ?_, ?_⟩
  · intro r hr
    obtain ⟨i, hi⟩ := List.getElem?_of_mem hr
    obtain ⟨hlt, rfl⟩ := rowsOf_get hi
    exact row_length hx hlt
  · exact hl.isLanes (by rw [rowsOf_length, prod_mid])
  · apply yields_of_eq _ _ hadm hfit
    · rw [Clones.foldRow_eq (axis := some a) h h0 (by
          rw [h.shape]
          exact reduceRow_some h.adm hpos hN hNlt (by rw [← ha]; congr 1; simp; omega)) hcols hc hx
        (by rw [(size_ofDims_iff hadm).2 ⟨hfit, rfl⟩]; simp [Nat.mul_assoc]) hl]
      simp only [bind_assoc, pure_bind]
    · intro s vs s' hr
      obtain ⟨ws, s1, h1, h2⟩ := run_bind_ok hr
      cases h2
      rw [flatten_vec_length, mapM_length _ _ _ _ _ h1, hl.1]
      simp [Nat.mul_assoc]

/-- C99: `normalize` along an axis copies the start value once for each lane. -/
theorem C99_normalize {t : Tensor T} {pre post : List Nat} {d : Nat} {xs : List T} (h : Rep t (pre ++ d :: post) xs)
    (hpos : ∀ x ∈ pre ++ post, 0 < x) {a : Int} (ha : axisIndex (pre ++ d :: post).length a = some pre.length)
    (cloneInit : Exec σ S) (accum : S → T → Exec σ S) (complete : S → Exec σ S1) (norm : S1 → T → Exec σ V) :
    ∃ lanes, IsLanes pre d post xs lanes ∧
      Yields (Clones.normalize t (some a) cloneInit accum complete norm)
        (lanes.mapM (fun lane => do
          let s1 ← foldCloned cloneInit accum complete lane
          lane.mapM (norm s1)) >>= fun vs => pure vs.flatten) (pre ++ d :: post) := by
  have hx : xs.length = pre.prod * d * post.prod := by rw [h.length, prod_mid]
  obtain ⟨lanes, hl⟩ := lanesAt_exists hx
  refine ⟨lanes, hl.isLanes h.length, ?_⟩
  apply yields_of_eq _ _ h.adm h.fits
  · rw [Clones.normalize_eq h (axis := some a) (by
      rw [h.shape]
      exact reduce_some h.adm h.fits hpos (by rw [← ha]; congr 1; simp; omega)) hx hl, h.shape]
    simp only [bind_assoc, pure_bind]
  · intro s vs s' hr
    obtain ⟨ws, s1, h1, h2⟩ := run_bind_ok hr
    cases h2
    rw [mapM_flatten_length _ _ d _ _ _ _ h1, hl.1, prod_mid]
    · grind
    · intro lane hlm s vs s' hrun
      obtain ⟨_, _, _, hrun⟩ := run_bind_ok hrun
      rw [mapM_length _ _ _ _ _ hrun, hl.lane_length _ hlm]

/-- C99: `normalize` without an axis. -/
theorem C99_normalize_none {t : Tensor T} {ds : List Nat} {xs : List T} (h : Rep t ds xs)
    (cloneInit : Exec σ S) (accum : S → T → Exec σ S) (complete : S → Exec σ S1) (norm : S1 → T → Exec σ V) :
    Yields (Clones.normalize t none cloneInit accum complete norm) (do
      let s1 ← foldCloned cloneInit accum complete xs
      xs.mapM (norm s1)) ds := by
  apply yields_of_eq _ _ h.adm h.fits
  · rw [Clones.normalize_eq h (axis := none) (os := Shape.scalar) (batch := 1) (aLen := xs.length) (inner := 1) (by
      show (t.shape.size >>= fun n => _) = _
      rw [h.size_eq, h.length]; rfl) (by simp) (lanesAt_all xs), h.shape]
    simp
  · intro s vs s' hr
    obtain ⟨_, _, _, hr⟩ := run_bind_ok hr
    rw [mapM_length _ _ _ _ _ hr, h.length]

/-! ## Reductions -/

/-- C99: `reduce` copies every element exactly once, each just before it is combined. -/
theorem C99_reduce {t : Tensor U} {ds : List Nat} {xs : List U} (h : Rep t ds xs) (clone : U → Exec σ U)
    (f : U → U → Exec σ U) :
    Yields (Clones.reduce clone t f) (reduceCloned clone f xs >>= fun v => pure [v]) [] := by
  apply yields_of_eq _ _ adm_nil fits_nil
  · rw [Clones.reduce_eq h]; simp only [bind_assoc, pure_bind]; rfl
  · intro s vs s' hr
    obtain ⟨ws, s1, h1, h2⟩ := run_bind_ok hr
    cases h2; rfl

/-- C99: so does `reduce_axis`, lane by lane. -/
theorem C99_reduce_axis {t : Tensor T} {pre post : List Nat} {d : Nat} {xs : List T} (h : Rep t (pre ++ d :: post) xs)
    (hne : xs ≠ []) {a : Int} (ha : axisIndex (pre ++ d :: post).length a = some pre.length) (clone : T → Exec σ T)
    (f : T → T → Exec σ T) :
    ∃ lanes, IsLanes pre d post xs lanes ∧
      Yields (Clones.reduceAxis clone t (some a) f) (lanes.mapM (reduceCloned clone f)) (pre ++ post) := by
  have hxp : 0 < (pre ++ d :: post).prod := by rw [← h.length]; exact List.length_pos_iff.2 hne
  have hp := pos_of_prod_pos hxp
  have hpos : ∀ x ∈ pre ++ post, 0 < x := fun x hx => hp x (by
    rcases List.mem_append.1 hx with h | h
    · exact List.mem_append.2 (Or.inl h)
    · exact List.mem_append.2 (Or.inr (List.mem_cons_of_mem _ h)))
  have hd : 0 < d := hp d (by simp)
  have hadm := adm_erase h.adm
  have hfit := fits_erase h.fits hpos hd
  have hx : xs.length = pre.prod * d * post.prod := by rw [h.length, prod_mid]
  obtain ⟨lanes, hl⟩ := lanesAt_exists hx
  refine ⟨lanes, hl.isLanes h.length, ?_⟩
  apply yields_of_eq _ _ hadm hfit
  · apply Clones.reduceAxis_eq h _ _ hx hl
    · rw [h.shape]
      exact reduce_some h.adm h.fits hpos (by
        rw [← ha]; congr 1; simp; omega)
    · rw [(size_ofDims_iff hadm).2 ⟨hfit, rfl⟩, List.prod_append]
  · intro s vs s' hr
    rw [mapM_length _ _ _ _ _ hr, hl.1, List.prod_append]

/-- C99: `reduce_axis` without an axis. -/
theorem C99_reduce_axis_none {t : Tensor T} {ds : List Nat} {xs : List T} (h : Rep t ds xs) (clone : T → Exec σ T)
    (f : T → T → Exec σ T) :
    Yields (Clones.reduceAxis clone t none f) (reduceCloned clone f xs >>= fun v => pure [v]) [] := by
  apply yields_of_eq _ _ adm_nil fits_nil
  · rw [Clones.reduceAxis_eq h (os := []) (batch := 1) (aLen := xs.length) (inner := 1) _ rfl (by simp) (lanesAt_all xs)]
    · simp
    · show (t.shape.size >>= fun n => _) = _
      rw [h.size_eq, h.length]; rfl
  · intro s vs s' hr
    obtain ⟨ws, s1, h1, h2⟩ := run_bind_ok hr
    cases h2; rfl

/-- C99: a reduction of `n` elements makes `n` copies, whatever the (pure) closure. -/
theorem C99_reduce_count {t : Tensor U} {ds : List Nat} {xs : List U} (h : Rep t ds xs) (hne : xs ≠ []) (f : U → U → U)
    (s : Nat) : ∃ u, (Clones.reduce (fun x => do modify (· + 1); return x) t fun x y => (pure (f x y) : Exec Nat U)).run s =
      .ok (u, s + xs.length) ∧ ∃ v, Rep u [] [v] ∧ ∀ x l, xs = x :: l → v = l.foldl f x := by
  obtain ⟨x, l, rfl⟩ := List.exists_cons_of_ne_nil hne
  have key : ∀ (l : List U) (a : U) (s : Nat), (l.foldlM (fun a y => do
      let v ← (do modify (· + 1); return y : Exec Nat U)
      (pure (f a v) : Exec Nat U)) a).run s = .ok (l.foldl f a, s + l.length) := by
    intro l
    induction l with
    | nil => intro a s; rfl
    | cons y l ih =>
      intro a s
      rw [List.foldlM_cons, StateT.run_bind]
      refine (ih (f a y) (s + 1)).trans ?_
      rw [List.foldl_cons, List.length_cons, Nat.add_assoc, Nat.add_comm 1]
  have hy := C99_reduce h (fun x => (do modify (· + 1); return x : Exec Nat U)) (fun x y => (pure (f x y) : Exec Nat U)) s
  have e : (reduceCloned (fun x => (do modify (· + 1); return x : Exec Nat U)) (fun x y => (pure (f x y) : Exec Nat U))
      (x :: l) >>= fun v => pure [v]).run s = .ok ([l.foldl f x], s + (x :: l).length) := by
    unfold reduceCloned
    rw [StateT.run_bind, StateT.run_bind]
    show (StateT.run _ (s + 1) >>= _) = _
    rw [key]
    rw [List.length_cons, Nat.add_assoc, Nat.add_comm 1]; rfl
  rw [e] at hy
  obtain ⟨u, h1, h2⟩ := hy
  exact ⟨u, h1, _, h2, fun x' l' e' => by cases e'; rfl⟩

/-- C99: a zero among the dimensions that stay makes `fold_axis`, `reduce_axis` and `normalize` panic before anything is
copied: the panic comes whatever the copies would do. -/
theorem C99_axis_rejects {t : Tensor T} {pre post : List Nat} {d : Nat} {xs : List T} (h : Rep t (pre ++ d :: post) xs)
    (h0 : 0 ∈ pre ++ post) {a : Int} (ha : axisIndex (pre ++ d :: post).length a = some pre.length)
    (cloneInit : Exec σ S) (f : S → T → Exec σ S) (intoResult : S → Exec σ V) (clone : T → Exec σ T) (r : T → T → Exec σ T)
    (complete : S → Exec σ S1) (norm : S1 → T → Exec σ V) (s : σ) :
    (Clones.foldAxis t (some a) cloneInit f intoResult).run s = .error .panic ∧
    (Clones.reduceAxis clone t (some a) r).run s = .error .panic ∧
    (Clones.normalize t (some a) cloneInit f complete norm).run s = .error .panic := by
  have e : Axis.reduce (some a) t.shape = .error .panic := by
    rw [h.shape]
    exact reduce_zero h.adm h0 (by rw [← ha]; congr 1; simp; omega)
  refine ⟨?_, ?_, ?_⟩
  · unfold Clones.foldAxis; rw [e]; rfl
  · unfold Clones.reduceAxis; rw [e]; rfl
  · unfold Clones.normalize; rw [e]; rfl

/-- C99: along an axis of length 0 `fold_axis` copies and converts the start value once for each slot of the result;
`reduce_axis` panics without copying. -/
theorem C99_zero_axis {t : Tensor T} {pre post : List Nat} {xs : List T} (h : Rep t (pre ++ 0 :: post) xs)
    (hpos : ∀ x ∈ pre ++ post, 0 < x) (hfit : Fits (pre ++ post)) {a : Int}
    (ha : axisIndex (pre ++ 0 :: post).length a = some pre.length)
    (cloneInit : Exec σ S) (f : S → T → Exec σ S) (intoResult : S → Exec σ V) (clone : T → Exec σ T) (r : T → T → Exec σ T)
    (s : σ) :
    Yields (Clones.foldAxis t (some a) cloneInit f intoResult)
      ((List.replicate (pre ++ post).prod ()).mapM fun _ => cloneInit >>= intoResult) (pre ++ post) ∧
    (Clones.reduceAxis clone t (some a) r).run s = .error .panic := by
  have hadm := adm_erase h.adm
  have hx : xs.length = pre.prod * 0 * post.prod := by rw [h.length, prod_mid]
  obtain ⟨lanes, hl⟩ := lanesAt_exists hx
  have hnil : ∀ l ∈ lanes, l = [] := fun l hm => List.length_eq_zero_iff.1 (hl.lane_length l hm)
  have hlen : lanes.length = (pre ++ post).prod := by rw [hl.1, List.prod_append]
  have hrep : lanes = List.replicate (pre ++ post).prod [] := List.eq_replicate_iff.2 ⟨hlen, hnil⟩
  have hred := reduce_some h.adm h.fits hpos (a := a) (by rw [← ha]; congr 1; simp; omega)
  have hsz : (ofDims (pre ++ post)).size = .ok (pre.prod * post.prod) := by
    rw [(size_ofDims_iff hadm).2 ⟨hfit, rfl⟩, List.prod_append]
  constructor
  · apply yields_of_eq _ _ hadm hfit
    · rw [Clones.foldAxis_eq h (axis := some a) (by rw [h.shape]; exact hred) hsz hl cloneInit f intoResult]
      congr 1
      apply mapM_congr_list (by simp [hlen])
      intro i l u h1 _
      have : l = [] := hnil l (List.mem_of_getElem? h1)
      subst this
      simp [foldCloned]
    · intro s vs s' hr
      rw [mapM_length _ _ _ _ _ hr]; simp
  · obtain ⟨n, hn⟩ : ∃ n, (pre ++ post).prod = n + 1 :=
      ⟨(pre ++ post).prod - 1, by have := prod_pos hpos; omega⟩
    rw [Clones.reduceAxis_eq h (axis := some a) (by rw [h.shape]; exact hred) hsz hx hl clone r, hrep, hn,
      List.replicate_succ, List.mapM_cons]
    rfl

/-! ## Matrices -/

theorem initRindexed_sources {β : Type} {ds : List Nat} (ha : Adm ds) (hf : Fits ds) {f : List Nat → Exec σ α}
    (src : List Nat → β) (act : β → Exec σ α) (hg : ∀ is, (ravel ds is).isSome → f is.reverse = act (src is)) :
    ∃ bs : List β, bs.length = ds.prod ∧ (∀ is, (ravel ds is).isSome → at? ds bs is = some (src is)) ∧
      Yields (Tensor.initRindexed (ofDims ds) f) (bs.mapM act) ds := by
  obtain ⟨is, hl, hget, hy⟩ := C19_init_rindexed (wf_ofDims ha) (asVec_ofDims ha) hf f
  refine ⟨is.map fun i => src i.reverse, by simpa using hl, ?_, ?_⟩
  · intro js hjs
    obtain ⟨p, hp⟩ := Option.isSome_iff_exists.1 hjs
    unfold at?
    rw [hp, Option.bind_some, List.getElem?_map, hget js p hp, Option.map_some, List.reverse_reverse]
  · have e : is.mapM f = (is.map fun i => src i.reverse).mapM act := by
      apply mapM_congr_list (by simp)
      intro p a b h1 h2
      have hp : p < ds.prod := by rw [← hl]; exact (List.getElem?_eq_some_iff.1 h1).1
      obtain ⟨js, hjs⟩ := ravel_surj ds hp
      have h3 := hget js p hjs
      rw [List.getElem?_map, h3, Option.map_some, List.reverse_reverse] at h2
      rw [h3] at h1
      cases h1; cases h2
      exact hg js (by rw [hjs]; rfl)
    rwa [e] at hy

/-- C99: `eye(n)` and `identity(n)`, `n` not 0: one call of `one` for each diagonal slot and one of `zero` for every other
slot, in row-major order. -/
theorem C99_eye {n : Nat} (hn : 0 < n) (h : n * n < 2 ^ 32) (zero one : Exec σ α) :
    ∃ js : List Bool, js.length = n * n ∧ (∀ i j, i < n → j < n → at? [n, n] js [i, j] = some (decide (i = j))) ∧
      Yields (Clones.eye zero one n) (js.mapM fun b => if b then one else zero) [n, n] := by
  have hlt := lt_of_sq h
  have ha := adm_two hlt hlt
  obtain ⟨bs, h1, h2, h3⟩ := initRindexed_sources (σ := σ) (α := α) ha (fits_sq h)
    (f := fun index => do
      let i0 ← idx index 0
      let i1 ← idx index 1
      if i0 = i1 then one else zero)
    (fun is => decide (is.getD 0 0 = is.getD 1 0)) (fun b => if b then one else zero) (by
      intro is his
      obtain ⟨i, j, rfl, _, _⟩ := ravel_two his
      simp only [List.reverse_cons, List.reverse_nil, List.nil_append, List.cons_append, idx, List.getElem?_cons_zero,
        List.getElem?_cons_succ, lift_ok, pure_bind, List.getD_cons_zero, List.getD_cons_succ, decide_eq_true_eq]
      simp only [eq_comm])
  refine ⟨bs, by simpa using h1, ?_, ?_⟩
  · intro i j hi hj
    rw [h2 _ (ravel_two_some hi hj)]
    simp
  · unfold Clones.eye
    rw [if_neg (by omega), ofSlice_adm ha, lift_ok, pure_bind]
    exact h3

/-- C99: `eye(0)` asks for one zero (and is a scalar, see `C33_eye_zero_violates`). -/
theorem C99_eye_zero (zero one : Exec σ α) : Yields (Clones.eye zero one 0) (zero >>= fun v => pure [v]) [] := by
  apply yields_of_eq _ _ adm_nil fits_nil
  · unfold Clones.eye
    rw [if_pos rfl]
    simp only [bind_assoc, pure_bind]; rfl
  · intro s vs s' hr
    obtain ⟨ws, s1, h1, h2⟩ := run_bind_ok hr
    cases h2; rfl

/-- C99: `tri(n)`. -/
theorem C99_tri {n : Nat} (h : n * n < 2 ^ 32) (zero one : Exec σ α) :
    ∃ js : List Bool, js.length = n * n ∧ (∀ i j, i < n → j < n → at? [n, n] js [i, j] = some (decide (j ≤ i))) ∧
      Yields (Clones.tri zero one n) (js.mapM fun b => if b then one else zero) [n, n] := by
  have hlt := lt_of_sq h
  have ha := adm_two hlt hlt
  obtain ⟨bs, h1, h2, h3⟩ := initRindexed_sources (σ := σ) (α := α) ha (fits_sq h)
    (f := fun index => do
      let i0 ← idx index 0
      let i1 ← idx index 1
      if i0 ≤ i1 then one else zero)
    (fun is => decide (is.getD 1 0 ≤ is.getD 0 0)) (fun b => if b then one else zero) (by
      intro is his
      obtain ⟨i, j, rfl, _, _⟩ := ravel_two his
      simp only [List.reverse_cons, List.reverse_nil, List.nil_append, List.cons_append, idx, List.getElem?_cons_zero,
        List.getElem?_cons_succ, lift_ok, pure_bind, List.getD_cons_zero, List.getD_cons_succ, decide_eq_true_eq])
  refine ⟨bs, by simpa using h1, ?_, ?_⟩
  · intro i j hi hj
    rw [h2 _ (ravel_two_some hi hj)]
    simp
  · unfold Clones.tri
    rw [ofSlice_adm ha, lift_ok, pure_bind]
    exact h3

/-- C99: `diagflat(v)` copies each element of `v` exactly once, into its place on the diagonal. -/
theorem C99_diagflat {v : Tensor α} {xs : List α} (hv : Rep v [xs.length] xs) (h : xs.length * xs.length < 2 ^ 32)
    (clone : α → Exec σ α) (zero : Exec σ α) :
    ∃ src : List (Option α), src.length = xs.length * xs.length ∧
      (∀ i j x, xs[i]? = some x → j < xs.length →
        at? [xs.length, xs.length] src [i, j] = some (if i = j then some x else none)) ∧
      Yields (Clones.diagflat clone zero v) (src.mapM (copyOrZero clone zero)) [xs.length, xs.length] := by
  have hlt := lt_of_sq h
  have ha := adm_two hlt hlt
  obtain ⟨bs, h1, h2, h3⟩ := initRindexed_sources (σ := σ) (α := α) ha (fits_sq h)
    (f := fun index => do
      let i0 ← idx index 0
      let i1 ← idx index 1
      if i0 = i1 then do
        let v ← v.index1 i0
        clone v
      else zero)
    (fun is => if is.getD 0 0 = is.getD 1 0 then xs[is.getD 0 0]? else none) (copyOrZero clone zero) (by
      intro is his
      obtain ⟨i, j, rfl, hi, hj⟩ := ravel_two his
      simp only [List.reverse_cons, List.reverse_nil, List.nil_append, List.cons_append, idx, List.getElem?_cons_zero,
        List.getElem?_cons_succ, lift_ok, pure_bind, List.getD_cons_zero, List.getD_cons_succ]
      by_cases hij : i = j
      · subst hij
        simp only [if_true]
        rw [index1_eq hv, List.getElem?_eq_getElem hi]; rfl
      · rw [if_neg (Ne.symm hij), if_neg hij]; rfl)
  refine ⟨bs, by simpa using h1, ?_, ?_⟩
  · intro i j x hx hj
    have hi : i < xs.length := (List.getElem?_eq_some_iff.1 hx).1
    rw [h2 _ (ravel_two_some hi hj)]
    simp [hx]
  · unfold Clones.diagflat
    rw [ensure_true (by rw [hv.rank]; rfl), lift_ok, pure_bind]
    dsimp only
    rw [hv.size, ofSlice_adm ha, lift_ok, pure_bind]
    exact h3

theorem triSources_at (keep : Nat → Nat → Bool) {ds : List Nat} {rows cols : Nat} {xs : List α}
    {is : List Nat} {j i : Nat} {x : α} (hx : at? (ds ++ [rows, cols]) xs (is ++ [j, i]) = some x)
    (hl : is.length = ds.length) :
    at? (ds ++ [rows, cols]) (Clones.triSources keep rows cols xs) (is ++ [j, i]) =
      some (if keep i j then some x else none) := by
  unfold at? at *
  cases hr : ravel (ds ++ [rows, cols]) (is ++ [j, i]) with
  | none => rw [hr] at hx; cases hx
  | some p =>
    rw [hr, Option.bind_some] at hx
    rw [Option.bind_some]
    rw [ravel_append hl] at hr
    obtain ⟨q, hq, hr⟩ := Option.bind_eq_some_iff.1 hr
    obtain ⟨r, hr1, rfl⟩ := Option.map_eq_some_iff.1 hr
    obtain ⟨hj, r', hr', rfl⟩ := ravel_cons.1 hr1
    obtain ⟨hi, r'', hr'', rfl⟩ := ravel_cons.1 hr'
    have : r'' = 0 := by simpa [ravel, eq_comm] using hr''
    subst this
    simp only [List.prod_cons, List.prod_nil, Nat.mul_one, Nat.add_zero] at hx ⊢
    have hlt := (List.getElem?_eq_some_iff.1 hx).1
    have e : q * (rows * cols) + (j * cols + i) = (q * rows + j) * cols + i := by grind
    have hm : (q * (rows * cols) + (j * cols + i)) % cols = i := by rw [e]; exact mul_add_mod' hi
    have hd : (q * (rows * cols) + (j * cols + i)) / cols % rows = j := by
      rw [e, mul_add_div' hi]; exact mul_add_mod' hj
    unfold Clones.triSources
    rw [List.getElem?_map, List.getElem?_range hlt, Option.map_some, hm, hd, hx]

theorem triSources_yields (keep : Nat → Nat → Bool) {t : Tensor α} {ds : List Nat} {rows cols : Nat} {xs : List α}
    (h : Rep t (ds ++ [rows, cols]) xs) (hpos : 0 < rows * cols) (clone : α → Exec σ α) (zero : Exec σ α) :
    Yields (Clones.triFill clone zero keep t) ((Clones.triSources keep rows cols xs).mapM (copyOrZero clone zero))
      (ds ++ [rows, cols]) := by
  apply yields_of_eq _ _ h.adm h.fits
  · rw [Clones.triFill_eq keep h hpos, h.shape]
  · intro s vs s' hr
    rw [mapM_length _ _ _ _ _ hr, ← h.length]; simp [Clones.triSources]

/-- C99: `tril` copies the kept elements only, each exactly once, and asks for a zero once for each other slot, in row-major
order. -/
theorem C99_tril {t : Tensor α} {ds : List Nat} {rows cols : Nat} {xs : List α} (h : Rep t (ds ++ [rows, cols]) xs)
    (hpos : 0 < rows * cols) (clone : α → Exec σ α) (zero : Exec σ α) :
    ∃ src : List (Option α), src.length = xs.length ∧
      (∀ is j i x, is.length = ds.length → at? (ds ++ [rows, cols]) xs (is ++ [j, i]) = some x →
        at? (ds ++ [rows, cols]) src (is ++ [j, i]) = some (if i ≤ j then some x else none)) ∧
      Yields (Clones.tril clone zero t) (src.mapM (copyOrZero clone zero)) (ds ++ [rows, cols]) := by
  refine ⟨_, by simp [Clones.triSources], ?_, triSources_yields (fun i j => decide (i ≤ j)) h hpos clone zero⟩
  intro is j i x hl hx
  rw [triSources_at _ hx hl]; simp

/-- C99: `triu` likewise. -/
theorem C99_triu {t : Tensor α} {ds : List Nat} {rows cols : Nat} {xs : List α} (h : Rep t (ds ++ [rows, cols]) xs)
    (hpos : 0 < rows * cols) (clone : α → Exec σ α) (zero : Exec σ α) :
    ∃ src : List (Option α), src.length = xs.length ∧
      (∀ is j i x, is.length = ds.length → at? (ds ++ [rows, cols]) xs (is ++ [j, i]) = some x →
        at? (ds ++ [rows, cols]) src (is ++ [j, i]) = some (if j ≤ i then some x else none)) ∧
      Yields (Clones.triu clone zero t) (src.mapM (copyOrZero clone zero)) (ds ++ [rows, cols]) := by
  refine ⟨_, by simp [Clones.triSources], ?_, triSources_yields (fun i j => decide (j ≤ i)) h hpos clone zero⟩
  intro is j i x hl hx
  rw [triSources_at _ hx hl]; simp

/-! ## Examples: the copies are written to a log -/

def logClone (x : Nat) : Exec (List Nat) Nat := do modify (· ++ [x]); return x
def logZero : Exec (List Nat) Nat := do modify (· ++ [0]); return 0
def logOne : Exec (List Nat) Nat := do modify (· ++ [1]); return 1

example : Yields (Clones.fold exView (logClone 100) (fun s x => pure (s + x)) logClone)
    (foldCloned (logClone 100) (fun s x => pure (s + x)) logClone [2, 3, 4, 5, 6, 7] >>= fun v => pure [v]) [] :=
  C99_fold exView_rep _ _ _
example : (Clones.fold exView (logClone 100) (fun s x => pure (s + x)) logClone).run [] =
    .ok (⟨ofDims [], 0, 1, [127]⟩, [100, 127]) := by decide +kernel

example : ∃ lanes, IsLanes [] 3 [2] [2, 3, 4, 5, 6, 7] lanes ∧
    Yields (Clones.foldAxis exView (some (-2)) (logClone 100) (fun s x => pure (s + x)) logClone)
      (lanes.mapM (foldCloned (logClone 100) (fun s x => pure (s + x)) logClone)) ([] ++ [2]) :=
  C99_fold_axis (pre := []) exView_rep (by simp) rfl _ _ _
example : (Clones.foldAxis exView (some (-2)) (logClone 100) (fun s x => pure (s + x)) logClone).run [] =
    .ok (⟨ofDims [2], 0, 2, [112, 115]⟩, [100, 112, 100, 115]) := by decide +kernel

example : Yields (Clones.foldAxis exView none (logClone 100) (fun s x => pure (s + x)) logClone)
    (foldCloned (logClone 100) (fun s x => pure (s + x)) logClone [2, 3, 4, 5, 6, 7] >>= fun v => pure [v]) [] :=
  C99_fold_axis_none exView_rep _ _ _

example : ∃ rows : List (List Nat), rows.flatten = [0, 1, 2, 3, 4, 5, 6, 7] ∧ rows.length = 4 ∧
    (∀ r ∈ rows, r.length = 2) ∧
    Yields (Clones.foldRow exCube2 none 1 (logClone 100) (fun s r => pure (s + r.sum)) fun s => do
        let v ← logClone s
        return #v[v])
      (foldCloned (logClone 100) (fun s r => pure (s + r.sum)) (fun s => do
        let v ← logClone s
        return #v[v]) rows >>= fun v => pure v.toList) [1] :=
  C99_fold_row_partial (ds := [2, 2]) ⟨⟨wf_ofDims ⟨by simp, by simp⟩, rfl, by simp [exCube2]⟩, rfl, rfl⟩ rfl (by decide)
    (by decide) _ _ _

example : ∃ (rows : List (List Nat)) (lanes : List (List (List Nat))), rows.flatten = [0, 1, 2, 3, 4, 5, 6, 7] ∧
    (∀ r ∈ rows, r.length = 2) ∧ IsLanes [] 2 [2] rows lanes ∧
    Yields (Clones.foldRow exCube2 (some 0) 1 (logClone 100) (fun s r => pure (s + r.sum)) fun s => pure #v[s])
      (lanes.mapM (foldCloned (logClone 100) (fun s r => pure (s + r.sum)) fun s => pure #v[s]) >>=
        fun vs => pure (vs.map Vector.toList).flatten) ([] ++ [2] ++ [1]) :=
  C99_fold_row_axis_partial (pre := []) ⟨⟨wf_ofDims ⟨by simp, by simp⟩, rfl, by simp [exCube2]⟩, rfl, rfl⟩ rfl (by simp)
    (by decide) (fits_of_pos (by simp) (by simp)) rfl _ _ _
example : (Clones.foldRow exCube2 (some 0) 1 (logClone 100) (fun s r => pure (s + r.sum)) fun s => pure #v[s]).run [] =
    .ok (⟨ofDims [2, 1], 0, 2, [110, 118]⟩, [100, 100]) := by decide +kernel

example : ∃ lanes, IsLanes [] 3 [2] [2, 3, 4, 5, 6, 7] lanes ∧
    Yields (Clones.normalize exView (some 0) (logClone 100) (fun s x => pure (s + x)) logClone fun s x => pure (s * x))
      (lanes.mapM (fun lane => do
        let s1 ← foldCloned (logClone 100) (fun s x => pure (s + x)) logClone lane
        lane.mapM (fun x => pure (s1 * x))) >>= fun vs => pure vs.flatten) ([] ++ 3 :: [2]) :=
  C99_normalize (pre := []) exView_rep (by simp) rfl _ _ _ _

example : Yields (Clones.normalize exView none (logClone 100) (fun s x => pure (s + x)) logClone fun s x => pure (s * x))
    (do
      let s1 ← foldCloned (logClone 100) (fun s x => pure (s + x)) logClone [2, 3, 4, 5, 6, 7]
      [2, 3, 4, 5, 6, 7].mapM fun x => pure (s1 * x)) [3, 2] :=
  C99_normalize_none exView_rep _ _ _ _

example : Yields (Clones.reduce logClone exView fun x y => do modify (· ++ [1000]); return x + y)
    (reduceCloned logClone (fun x y => do modify (· ++ [1000]); return x + y) [2, 3, 4, 5, 6, 7] >>= fun v => pure [v]) [] :=
  C99_reduce exView_rep _ _
example : (Clones.reduce logClone exView fun x y => do modify (· ++ [1000]); return x + y).run [] =
    .ok (⟨ofDims [], 0, 1, [27]⟩, [2, 3, 1000, 4, 1000, 5, 1000, 6, 1000, 7, 1000]) := by decide +kernel

example : ∃ lanes, IsLanes [] 3 [2] [2, 3, 4, 5, 6, 7] lanes ∧
    Yields (Clones.reduceAxis logClone exView (some 0) fun x y => pure (x + y))
      (lanes.mapM (reduceCloned logClone fun x y => pure (x + y))) ([] ++ [2]) :=
  C99_reduce_axis (pre := []) exView_rep (by simp) rfl _ _
example : (Clones.reduceAxis logClone exView (some 0) fun x y => pure (x + y)).run [] =
    .ok (⟨ofDims [2], 0, 2, [12, 15]⟩, [2, 4, 6, 3, 5, 7]) := by decide +kernel
example : Yields (Clones.reduceAxis logClone exView none fun x y => pure (x + y))
    (reduceCloned logClone (fun x y => pure (x + y)) [2, 3, 4, 5, 6, 7] >>= fun v => pure [v]) [] :=
  C99_reduce_axis_none exView_rep _ _

example : ∃ u, (Clones.reduce (fun x => do modify (· + 1); return x) exView fun x y => (pure (x + y) : Exec Nat Nat)).run 10 =
      .ok (u, 16) ∧ ∃ v, Rep u [] [v] ∧ ∀ x l, [2, 3, 4, 5, 6, 7] = x :: l → v = l.foldl (· + ·) x :=
  C99_reduce_count exView_rep (by simp) _ 10

example : (Clones.reduceAxis logClone exHollow (some 0) fun x y => pure (x + y)).run [] = .error .panic :=
  (C99_axis_rejects (S1 := Nat) (V := Nat) (pre := []) (post := [0]) exHollow_rep (by simp) rfl (logClone 100)
    (fun s x => pure (s + x)) logClone logClone (fun x y => pure (x + y)) pure (fun _ x => pure x) []).2.1
example : Yields (Clones.foldAxis exHollow (some 1) (logClone 100) (fun s x => pure (s + x)) logClone)
    ((List.replicate ([2] ++ []).prod ()).mapM fun _ => logClone 100 >>= logClone) ([2] ++ []) :=
  (C99_zero_axis (pre := [2]) (post := []) exHollow_rep (by simp) (fits_of_pos (by simp) (by simp)) rfl (logClone 100)
    (fun s x => pure (s + x)) logClone logClone (fun x y => pure (x + y)) []).1
example : (Clones.foldAxis exHollow (some 1) (logClone 100) (fun s x => pure (s + x)) logClone).run [] =
    .ok (⟨ofDims [2], 0, 2, [100, 100]⟩, [100, 100, 100, 100]) := by decide +kernel

example : ∃ js : List Bool, js.length = 9 ∧ (∀ i j, i < 3 → j < 3 → at? [3, 3] js [i, j] = some (decide (i = j))) ∧
    Yields (Clones.eye logZero logOne 3) (js.mapM fun b => if b then logOne else logZero) [3, 3] :=
  C99_eye (n := 3) (by decide) (by decide) _ _
example : ∃ js : List Bool, js.length = 9 ∧ (∀ i j, i < 3 → j < 3 → at? [3, 3] js [i, j] = some (decide (j ≤ i))) ∧
    Yields (Clones.tri logZero logOne 3) (js.mapM fun b => if b then logOne else logZero) [3, 3] :=
  C99_tri (n := 3) (by decide) _ _
example : (Clones.tri logZero logOne 2).run [] = .ok (⟨ofDims [2, 2], 0, 4, [1, 0, 1, 1]⟩, [1, 0, 1, 1]) := by
  decide +kernel

example : ∃ src : List (Option Nat), src.length = 4 ∧
    (∀ i j x, [10, 20][i]? = some x → j < 2 → at? [2, 2] src [i, j] = some (if i = j then some x else none)) ∧
    Yields (Clones.diagflat logClone logZero exRow) (src.mapM (copyOrZero logClone logZero)) [2, 2] :=
  C99_diagflat (xs := [10, 20]) exRow_rep (by decide) _ _
example : (Clones.diagflat logClone logZero exRow).run [] =
    .ok (⟨ofDims [2, 2], 0, 4, [10, 0, 0, 20]⟩, [10, 0, 0, 20]) := by decide +kernel

example : ∃ src : List (Option Nat), src.length = 6 ∧
    (∀ is j i x, is.length = 0 → at? [3, 2] [2, 3, 4, 5, 6, 7] (is ++ [j, i]) = some x →
      at? [3, 2] src (is ++ [j, i]) = some (if i ≤ j then some x else none)) ∧
    Yields (Clones.tril logClone logZero exView) (src.mapM (copyOrZero logClone logZero)) [3, 2] :=
  C99_tril (ds := []) exView_rep (by decide) _ _
example : ∃ src : List (Option Nat), src.length = 6 ∧
    (∀ is j i x, is.length = 0 → at? [3, 2] [2, 3, 4, 5, 6, 7] (is ++ [j, i]) = some x →
      at? [3, 2] src (is ++ [j, i]) = some (if j ≤ i then some x else none)) ∧
    Yields (Clones.triu logClone logZero exView) (src.mapM (copyOrZero logClone logZero)) [3, 2] :=
  C99_triu (ds := []) exView_rep (by decide) _ _
example : (Clones.triu logClone logZero exView).run [] =
    .ok (⟨ofDims [3, 2], 0, 6, [2, 3, 0, 5, 0, 0]⟩, [2, 3, 0, 5, 0, 0]) := by decide +kernel

end Essay
