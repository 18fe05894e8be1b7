import Verif.Lemmas.Fold
import Verif.Props.Tensor

/-!
# Properties C14 - C17, C19 - C21, C23 - C25: map, broadcast, init, fold, normalize, axes

`Yields x y ds` (Spec/Tensor): the operation `x` makes exactly the closure calls of the list computation `y`, in the same
order and with the same closure state and failures, and returns a tensor of dimensions `ds` with `y`'s result as elements.
-/

namespace Essay

open Shape

variable {σ α T U V W S S1 : Type}

/-! ## C14 map -/

/-- C14: `t.map(f)` calls `f` once on each element in row-major order and returns the results in the same shape. -/
theorem C14_map {t : Tensor U} {ds : List Nat} {xs : List U} (h : Rep t ds xs) (f : U → Exec σ V) :
    Yields (t.map f) (xs.mapM f) ds := by
  apply yields_of_eq _ _ h.adm h.fits
  · unfold Tensor.map; rw [map_eq h, h.shape]
  · intro s vs s' hr; rw [mapM_length _ _ _ _ _ hr, h.length]

/-- For a closure without effects. -/
theorem mapM_pure (f : U → V) (xs : List U) : (xs.mapM fun x => (pure (f x) : Exec σ V)) = pure (xs.map f) := by
  induction xs with
  | nil => rfl
  | cons x xs ih => simp [ih]

/-- C14 for an effect-free closure: the result holds `f x` for each element `x`. -/
theorem C14_map_pure {t : Tensor U} {ds : List Nat} {xs : List U} (h : Rep t ds xs) (f : U → V) (s : σ) :
    ∃ t', (t.map fun x => (pure (f x) : Exec σ V)).run s = .ok (t', s) ∧ Rep t' ds (xs.map f) := by
  have := C14_map h (fun x => (pure (f x) : Exec σ V)) s
  rw [mapM_pure] at this
  exact this

/-- C14: mapping the identity shows the same dimensions and elements; mapping `f` then `g` is mapping `g ∘ f`. -/
theorem C14_identity_and_composition {t : Tensor U} {ds : List Nat} {xs : List U} (h : Rep t ds xs) (f : U → V)
    (g : V → W) (s : σ) :
    (∃ t', (t.map fun x => (pure x : Exec σ U)).run s = .ok (t', s) ∧ Rep t' ds xs) ∧
    (∃ t1 t2 t3, (t.map fun x => (pure (f x) : Exec σ V)).run s = .ok (t1, s) ∧
      (t1.map fun x => (pure (g x) : Exec σ W)).run s = .ok (t2, s) ∧
      (t.map fun x => (pure (g (f x)) : Exec σ W)).run s = .ok (t3, s) ∧ t2 = t3) := by
  refine ⟨?_, ?_⟩
  · have := C14_map_pure h (fun x => x) s; simpa using this
  · obtain ⟨t1, e1, h1⟩ := C14_map_pure h f s
    have e2 := map_eq h1 t1.shape (fun x => (pure (g x) : Exec σ W))
    have e3 := map_eq h t.shape (fun x => (pure (g (f x)) : Exec σ W))
    obtain ⟨t2, e4, _⟩ := C14_map_pure h1 g s
    refine ⟨t1, t2, t2, e1, e4, ?_, rfl⟩
    rw [← e4]
    unfold Tensor.map
    rw [e2, e3, mapM_pure, mapM_pure, List.map_map, h1.shape, h.shape]
    rfl

/-- The closure sees the elements of a view in order: a counting closure numbers them. -/
example : ∃ t', (exView.map fun x => (fun n => .ok (x * 10 + n, n + 1) : Exec Nat Nat)).run 0 = .ok (t', 6) ∧
    Rep t' [3, 2] [20, 31, 42, 53, 64, 75] :=
  C14_map exView_rep (fun x => (fun n => .ok (x * 10 + n, n + 1) : Exec Nat Nat)) 0

/-- A closure that panics on the third element makes the call panic. -/
example : (exView.map fun x => (if x = 4 then (panicked : Res Nat) else pure x : Exec Nat Nat)).run 0 = .error .panic :=
  C14_map exView_rep (fun x => (if x = 4 then (panicked : Res Nat) else pure x : Exec Nat Nat)) 0

/-! ## C15, C16 map2 -/

/-- C15, left operand shorter or equal: every element of the result is `f` of the left operand at the trailing
coordinates and the right operand at the index itself. Calls are made in row-major order. -/
theorem C15_map2_left {a : Tensor T} {b : Tensor U} {ds es : List Nat} {xs : List T} {ys : List U} (ha : Rep a ds xs)
    (hb : Rep b es ys) (hs : ds <:+ es) (hne : ys ≠ []) (f : T → U → Exec σ V) :
    ∃ as bs, Bcast ds xs es as ∧ Bcast es ys es bs ∧
      Yields (a.map2 b f) ((as.zip bs).mapM fun p => f p.1 p.2) es := by
  have hy : 0 < ys.length := List.length_pos_iff.2 hne
  have hyp : 0 < es.prod := by rw [← hb.length]; exact hy
  have hd : ds.prod ∣ es.prod := suffix_prod_dvd hs
  have hx : 0 < xs.length := by rw [ha.length]; exact Nat.pos_of_dvd_of_pos hd hyp
  have hle : ds.prod ≤ es.prod := Nat.le_of_dvd hyp hd
  have hmax : max xs.length ys.length = es.prod := by rw [ha.length, hb.length, Nat.max_eq_right hle]
  have hd1 : xs.length ∣ es.prod := by rw [ha.length]; exact hd
  have hd2 : ys.length ∣ es.prod := by rw [hb.length]; exact Nat.dvd_refl _
  refine ⟨rep xs es.prod, rep ys es.prod, bcast_rep ha.length hs, bcast_rep hb.length (List.suffix_refl _), ?_⟩
  apply yields_of_eq _ _ hb.adm hb.fits
  · unfold Tensor.map2
    rw [ha.shape, hb.shape, broadcastTo_left ha.adm.len hb.adm.len hs, lift_ok, pure_bind]
    apply map2_eq ha hb hx hy
    · exact Or.inl (by rw [ha.length, hb.length]; exact hd)
    · intro p hp; rw [hmax] at hp; exact rep_get hd1 hp
    · intro p hp; rw [hmax] at hp; exact rep_get hd2 hp
    · rw [rep_length hd1, hmax]
    · rw [rep_length hd2, hmax]
  · intro s vs s' hr
    rw [mapM_length _ _ _ _ _ hr]
    simp [rep_length hd1, rep_length hd2]

/-- C15, right operand shorter or equal. -/
theorem C15_map2_right {a : Tensor T} {b : Tensor U} {ds es : List Nat} {xs : List T} {ys : List U} (ha : Rep a ds xs)
    (hb : Rep b es ys) (hs : es <:+ ds) (hne : xs ≠ []) (f : T → U → Exec σ V) :
    ∃ as bs, Bcast ds xs ds as ∧ Bcast es ys ds bs ∧
      Yields (a.map2 b f) ((as.zip bs).mapM fun p => f p.1 p.2) ds := by
  have hx : 0 < xs.length := List.length_pos_iff.2 hne
  have hxp : 0 < ds.prod := by rw [← ha.length]; exact hx
  have hd : es.prod ∣ ds.prod := suffix_prod_dvd hs
  have hy : 0 < ys.length := by rw [hb.length]; exact Nat.pos_of_dvd_of_pos hd hxp
  have hle : es.prod ≤ ds.prod := Nat.le_of_dvd hxp hd
  have hmax : max xs.length ys.length = ds.prod := by rw [ha.length, hb.length, Nat.max_eq_left hle]
  have hd1 : xs.length ∣ ds.prod := by rw [ha.length]; exact Nat.dvd_refl _
  have hd2 : ys.length ∣ ds.prod := by rw [hb.length]; exact hd
  refine ⟨rep xs ds.prod, rep ys ds.prod, bcast_rep ha.length (List.suffix_refl _), bcast_rep hb.length hs, ?_⟩
  apply yields_of_eq _ _ ha.adm ha.fits
  · unfold Tensor.map2
    rw [ha.shape, hb.shape, broadcastTo_right ha.adm.len hb.adm.len hs, lift_ok, pure_bind]
    apply map2_eq ha hb hx hy
    · exact Or.inr (by rw [ha.length, hb.length]; exact hd)
    · intro p hp; rw [hmax] at hp; exact rep_get hd1 hp
    · intro p hp; rw [hmax] at hp; exact rep_get hd2 hp
    · rw [rep_length hd1, hmax]
    · rw [rep_length hd2, hmax]
  · intro s vs s' hr
    rw [mapM_length _ _ _ _ _ hr]
    simp [rep_length hd1, rep_length hd2]

/-- C15 read at one multi-index, for an effect-free `f`: the result has the longer dimensions `es`, and its element at
every index is `f` of `a` at the trailing coordinates and `b` at the index. -/
theorem C15_map2_at {a : Tensor T} {b : Tensor U} {ds es : List Nat} {xs : List T} {ys : List U} (ha : Rep a ds xs)
    (hb : Rep b es ys) (hs : ds <:+ es) (hne : ys ≠ []) (f : T → U → V) (s : σ) :
    ∃ t zs, (a.map2 b fun x y => (pure (f x y) : Exec σ V)).run s = .ok (t, s) ∧ Rep t es zs ∧
      ∀ idx p, ravel es idx = some p → ∃ x y, at? ds xs (idx.drop (es.length - ds.length)) = some x ∧
        at? es ys idx = some y ∧ at? es zs idx = some (f x y) := by
  obtain ⟨as, bs, h1, h2, h3⟩ := C15_map2_left ha hb hs hne (fun x y => (pure (f x y) : Exec σ V))
  have h4 := h3 s
  rw [mapM_pure (fun p : T × U => f p.1 p.2)] at h4
  obtain ⟨t, h5, h6⟩ := h4
  refine ⟨t, _, h5, h6, fun idx p hp => ?_⟩
  obtain ⟨x, hx1, hx2⟩ := h1.2 idx p hp
  obtain ⟨y, hy1, hy2⟩ := h2.2 idx p hp
  rw [Nat.sub_self, List.drop_zero] at hy2
  refine ⟨x, y, hx2, hy2, ?_⟩
  unfold at?
  rw [hp, Option.bind_some, List.getElem?_map, List.getElem?_zip_eq_some (z := (x, y)) |>.2 ⟨hx1, hy1⟩]
  rfl

/-- A row `[10, 20]` subtracted from each row of a 3x2 view (operand order matters). -/
def exRow : Tensor Nat := { shape := ofDims [2], offset := 1, size := 2, data := [0, 10, 20] }
theorem exRow_rep : Rep exRow [2] [10, 20] := ⟨⟨wf_ofDims ⟨by simp, by simp⟩, rfl, by simp [exRow]⟩, rfl, rfl⟩

example : ∃ t zs, (exRow.map2 exView fun x y => (pure (x - y) : Exec Nat Nat)).run 0 = .ok (t, 0) ∧ Rep t [3, 2] zs ∧
    ∀ idx p, ravel [3, 2] idx = some p → ∃ x y, at? [2] [10, 20] (idx.drop 1) = some x ∧
        at? [3, 2] [2, 3, 4, 5, 6, 7] idx = some y ∧ at? [3, 2] zs idx = some (x - y) :=
  C15_map2_at exRow_rep exView_rep ⟨[3], rfl⟩ (by simp) (fun x y => x - y) 0

/-- C16: if neither operand's dimensions are a suffix of the other's, `map2` panics, whatever the closure. -/
theorem C16_incompatible {a : Tensor T} {b : Tensor U} {ds es : List Nat} {xs : List T} {ys : List U} (ha : Rep a ds xs)
    (hb : Rep b es ys) (hs : ¬ ds <:+ es) (hs' : ¬ es <:+ ds) (f : T → U → Exec σ V) (s : σ) :
    (a.map2 b f).run s = .error .panic := by
  unfold Tensor.map2
  rw [ha.shape, hb.shape, broadcastTo_panic ha.adm.len hb.adm.len (by simp [hs, hs'])]
  rfl

/-- C16: an empty operand makes `map2` panic. -/
theorem C16_empty {a : Tensor T} {b : Tensor U} {ds es : List Nat} {xs : List T} {ys : List U} (ha : Rep a ds xs)
    (hb : Rep b es ys) (he : xs = [] ∨ ys = []) (f : T → U → Exec σ V) (s : σ) :
    (a.map2 b f).run s = .error .panic := by
  by_cases hc : ds <:+ es ∨ es <:+ ds
  · have hm : min a.size b.size = 0 := by
      rw [ha.size, hb.size]
      rcases he with rfl | rfl <;> simp
    have hbr : ∃ sh, broadcastTo a.shape b.shape = Except.ok sh := by
      rw [ha.shape, hb.shape]
      rcases hc with hc | hc
      · exact ⟨_, broadcastTo_left ha.adm.len hb.adm.len hc⟩
      · exact ⟨_, broadcastTo_right ha.adm.len hb.adm.len hc⟩
    obtain ⟨sh, e⟩ := hbr
    unfold Tensor.map2 Tensor.map2Shape
    rw [e, lift_ok, pure_bind]
    simp only
    rw [hm]; rfl
  · exact C16_incompatible ha hb (fun h => hc (Or.inl h)) (fun h => hc (Or.inr h)) f s

example : ¬ [2] <:+ [3] ∧ ¬ [3] <:+ [2] := by decide

/-- A dimension of length 1 is not stretched: shapes `[3, 1]` and `[3, 2]` are rejected. -/
example : (({ shape := ofDims [3, 1], offset := 0, size := 3, data := [1, 2, 3] } : Tensor Nat).map2 exView
    fun x y => (pure (x + y) : Exec Nat Nat)).run 0 = .error .panic := by decide

/-! ## C17 map3 -/

/-- C17: three operands whose dimensions are suffixes of the longest, `big` (so `big` is one of the three). -/
theorem C17_map3 {a : Tensor T} {b : Tensor U} {c : Tensor V} {ds es fs big : List Nat} {xs : List T} {ys : List U}
    {zs : List V} (ha : Rep a ds xs) (hb : Rep b es ys) (hc : Rep c fs zs) (h1 : ds <:+ big) (h2 : es <:+ big)
    (h3 : fs <:+ big) (hbig : big = ds ∨ big = es ∨ big = fs) (hne : 0 < big.prod) (f : T → U → V → Exec σ W) :
    ∃ as bs cs, Bcast ds xs big as ∧ Bcast es ys big bs ∧ Bcast fs zs big cs ∧
      Yields (a.map3 b c f) ((as.zip (bs.zip cs)).mapM fun p => f p.1 p.2.1 p.2.2) big := by
  have hd1 : xs.length ∣ big.prod := by rw [ha.length]; exact suffix_prod_dvd h1
  have hd2 : ys.length ∣ big.prod := by rw [hb.length]; exact suffix_prod_dvd h2
  have hd3 : zs.length ∣ big.prod := by rw [hc.length]; exact suffix_prod_dvd h3
  have hx : 0 < xs.length := Nat.pos_of_dvd_of_pos hd1 hne
  have hy : 0 < ys.length := Nat.pos_of_dvd_of_pos hd2 hne
  have hz : 0 < zs.length := Nat.pos_of_dvd_of_pos hd3 hne
  have hl1 := Nat.le_of_dvd hne hd1
  have hl2 := Nat.le_of_dvd hne hd2
  have hl3 := Nat.le_of_dvd hne hd3
  have hmax : max (max xs.length ys.length) zs.length = big.prod := by
    rcases hbig with h | h | h
    · have := ha.length; rw [← h] at this; omega
    · have := hb.length; rw [← h] at this; omega
    · have := hc.length; rw [← h] at this; omega
  -- of two suffixes of `big` one is a suffix of the other
  have chain : ∀ {l m : List Nat}, l <:+ big → m <:+ big → l.length ≤ m.length → l <:+ m := by
    intro l m hl hm hlen
    exact List.suffix_of_suffix_length_le hl hm hlen
  have hadm : Adm big := by
    rcases hbig with h | h | h
    · rw [h]; exact ha.adm
    · rw [h]; exact hb.adm
    · rw [h]; exact hc.adm
  have hfit : Fits big := by
    rcases hbig with h | h | h
    · rw [h]; exact ha.fits
    · rw [h]; exact hb.fits
    · rw [h]; exact hc.fits
  -- the smallest divides all
  have small : ∀ {l m : List Nat}, l <:+ big → m <:+ big → l.prod ≤ m.prod → l.prod ∣ m.prod := by
    intro l m hl hm hle
    rcases Nat.le_total l.length m.length with h | h
    · exact suffix_prod_dvd (chain hl hm h)
    · have hd := suffix_prod_dvd (chain hm hl h)
      have hpos : 0 < l.prod := Nat.pos_of_dvd_of_pos (suffix_prod_dvd hl) hne
      have := Nat.le_of_dvd hpos hd
      rw [Nat.le_antisymm hle this]
      exact Nat.dvd_refl _
  refine ⟨rep xs big.prod, rep ys big.prod, rep zs big.prod, bcast_rep ha.length h1, bcast_rep hb.length h2,
    bcast_rep hc.length h3, ?_⟩
  have hbr : ((ofDims ds).broadcastTo (ofDims es) >>= fun s => s.broadcastTo (ofDims fs)) = Except.ok (ofDims big) := by
    have hA := ha.adm.len; have hB := hb.adm.len; have hC := hc.adm.len
    rcases Nat.le_total ds.length es.length with hle | hle
    · rw [broadcastTo_left hA hB (chain h1 h2 hle), ok_bind]
      rcases Nat.le_total es.length fs.length with hle2 | hle2
      · rw [broadcastTo_left hB hC (chain h2 h3 hle2)]
        have : fs = big := by
          rcases hbig with h | h | h
          · subst h; exact h3.eq_of_length_le (by omega)
          · subst h; exact h3.eq_of_length_le (by omega)
          · exact h.symm
        rw [this]
      · rw [broadcastTo_right hB hC (chain h3 h2 hle2)]
        have : es = big := by
          rcases hbig with h | h | h
          · subst h; exact h2.eq_of_length_le (by omega)
          · exact h.symm
          · subst h; exact h2.eq_of_length_le (by omega)
        rw [this]
    · rw [broadcastTo_right hA hB (chain h2 h1 hle), ok_bind]
      rcases Nat.le_total ds.length fs.length with hle2 | hle2
      · rw [broadcastTo_left hA hC (chain h1 h3 hle2)]
        have : fs = big := by
          rcases hbig with h | h | h
          · subst h; exact h3.eq_of_length_le (by omega)
          · subst h; exact h3.eq_of_length_le (by omega)
          · exact h.symm
        rw [this]
      · rw [broadcastTo_right hA hC (chain h3 h1 hle2)]
        have : ds = big := by
          rcases hbig with h | h | h
          · exact h.symm
          · subst h; exact h1.eq_of_length_le (by omega)
          · subst h; exact h1.eq_of_length_le (by omega)
        rw [this]
  apply yields_of_eq _ _ hadm hfit
  · have e : a.map3 b c f = ((liftM ((ofDims ds).broadcastTo (ofDims es) >>= fun s => s.broadcastTo (ofDims fs)) :
        Exec σ Shape) >>= fun sh => Tensor.map3Shape sh a b c f) := by
      unfold Tensor.map3
      rw [ha.shape, hb.shape, hc.shape, lift_bind, bind_assoc]
    rw [e, hbr, lift_ok, pure_bind]
    have hmin : ∀ n, n = xs.length ∨ n = ys.length ∨ n = zs.length →
        min (min xs.length ys.length) zs.length ∣ n := by
      intro n hn
      have hcase : min (min xs.length ys.length) zs.length = xs.length ∨
        min (min xs.length ys.length) zs.length = ys.length ∨ min (min xs.length ys.length) zs.length = zs.length := by
        omega
      have hle : min (min xs.length ys.length) zs.length ≤ n := by omega
      rcases hcase with h | h | h <;> rw [h] at hle ⊢ <;> rcases hn with rfl | rfl | rfl <;>
        simp only [ha.length, hb.length, hc.length] at hle ⊢ <;>
        exact small (by assumption) (by assumption) hle
    apply map3_eq ha hb hc hx hy hz (hmin _ (Or.inl rfl)) (hmin _ (Or.inr (Or.inl rfl)))
      (hmin _ (Or.inr (Or.inr rfl)))
    · intro p hp; rw [hmax] at hp; exact rep_get hd1 hp
    · intro p hp; rw [hmax] at hp; exact rep_get hd2 hp
    · intro p hp; rw [hmax] at hp; exact rep_get hd3 hp
    · rw [rep_length hd1, hmax]
    · rw [rep_length hd2, hmax]
    · rw [rep_length hd3, hmax]
  · intro s vs s' hr
    rw [mapM_length _ _ _ _ _ hr]
    simp [rep_length hd1, rep_length hd2, rep_length hd3]

/-- A scalar, a row and a matrix. -/
example : ∃ as bs cs, Bcast [] [5] [3, 2] as ∧ Bcast [2] [10, 20] [3, 2] bs ∧ Bcast [3, 2] [2, 3, 4, 5, 6, 7] [3, 2] cs ∧
    Yields (Tensor.map3 ({ shape := ofDims [], offset := 0, size := 1, data := [5] } : Tensor Nat) exRow exView
      fun x y z => (pure (x + y * z) : Exec Nat Nat)) ((as.zip (bs.zip cs)).mapM fun p => pure (p.1 + p.2.1 * p.2.2)) [3, 2] :=
  C17_map3 ⟨⟨wf_ofDims adm_nil, rfl, by simp⟩, rfl, rfl⟩ exRow_rep exView_rep (List.nil_suffix) ⟨[3], rfl⟩
    (List.suffix_refl _) (by simp) (by simp) _

/-- C16 for `map3`: operands that do not fit together, or an empty one, are rejected. -/
theorem C16_map3 {a : Tensor T} {b : Tensor U} {c : Tensor V} {ds es fs : List Nat} {xs : List T} {ys : List U}
    {zs : List V} (ha : Rep a ds xs) (hb : Rep b es ys) (hc : Rep c fs zs)
    (h : (¬ ds <:+ es ∧ ¬ es <:+ ds) ∨ (¬ ds <:+ fs ∧ ¬ fs <:+ ds) ∨ (¬ es <:+ fs ∧ ¬ fs <:+ es) ∨
      xs = [] ∨ ys = [] ∨ zs = []) (f : T → U → V → Exec σ W) (s : σ) :
    (a.map3 b c f).run s = .error .panic := by
  have hA := ha.adm.len; have hB := hb.adm.len; have hC := hc.adm.len
  unfold Tensor.map3
  rw [ha.shape, hb.shape, hc.shape]
  by_cases h1 : ds <:+ es ∨ es <:+ ds
  · -- the broadcast of the first two
    have hm : ∃ m, (ofDims ds).broadcastTo (ofDims es) = Except.ok (ofDims m) ∧ ds <:+ m ∧ es <:+ m ∧
        m.length ≤ 6 ∧ (m = ds ∨ m = es) := by
      rcases h1 with h1 | h1
      · exact ⟨es, broadcastTo_left hA hB h1, h1, List.suffix_refl _, hB, Or.inr rfl⟩
      · exact ⟨ds, broadcastTo_right hA hB h1, List.suffix_refl _, h1, hA, Or.inl rfl⟩
    obtain ⟨m, e, hdm, hem, hml, hmm⟩ := hm
    rw [e, lift_ok, pure_bind]
    by_cases h2 : m <:+ fs ∨ fs <:+ m
    · have hm2 : ∃ sh, (ofDims m).broadcastTo (ofDims fs) = Except.ok sh := by
        rcases h2 with h2 | h2
        · exact ⟨_, broadcastTo_left hml hC h2⟩
        · exact ⟨_, broadcastTo_right hml hC h2⟩
      obtain ⟨sh, e2⟩ := hm2
      rw [e2, lift_ok, pure_bind]
      have hcomp : ∀ l, l <:+ m → (l <:+ fs ∨ fs <:+ l) := by
        intro l hl
        rcases h2 with h2 | h2
        · exact Or.inl (hl.trans h2)
        · rcases Nat.le_total l.length fs.length with hle | hle
          · exact Or.inl (List.suffix_of_suffix_length_le hl h2 hle)
          · exact Or.inr (List.suffix_of_suffix_length_le h2 hl hle)
      have he : xs = [] ∨ ys = [] ∨ zs = [] := by
        rcases h with h | h | h | h
        · rcases h1 with h1 | h1
          · exact absurd h1 h.1
          · exact absurd h1 h.2
        · rcases hcomp ds hdm with h' | h'
          · exact absurd h' h.1
          · exact absurd h' h.2
        · rcases hcomp es hem with h' | h'
          · exact absurd h' h.1
          · exact absurd h' h.2
        · exact h
      have hmin : min (min a.size b.size) c.size = 0 := by
        rw [ha.size, hb.size, hc.size]
        rcases he with rfl | rfl | rfl <;> simp
      unfold Tensor.map3Shape
      simp only
      rw [hmin]; rfl
    · rw [broadcastTo_panic hml hC h2]; rfl
  · rw [broadcastTo_panic hA hB h1]; rfl

example : ∃ t', (exView.map fun x => (pure (x * x) : Exec Nat Nat)).run 9 = .ok (t', 9) ∧
    Rep t' [3, 2] [4, 9, 16, 25, 36, 49] := C14_map_pure exView_rep (fun x => x * x) 9

example : ∃ t', (exView.map fun x => (pure x : Exec Unit Nat)).run () = .ok (t', ()) ∧ Rep t' [3, 2] [2, 3, 4, 5, 6, 7] :=
  (C14_identity_and_composition exView_rep (fun x => x + 1) (fun x => x * 2) ()).1

example : ∃ as bs, Bcast [2] [10, 20] [3, 2] as ∧ Bcast [3, 2] [2, 3, 4, 5, 6, 7] [3, 2] bs ∧
    Yields (exRow.map2 exView fun x y => (pure (x - y) : Exec Unit Nat))
      ((as.zip bs).mapM fun p => (pure (p.1 - p.2) : Exec Unit Nat)) [3, 2] :=
  C15_map2_left exRow_rep exView_rep (by decide) (by simp) _

example : ∃ as bs, Bcast [3, 2] [2, 3, 4, 5, 6, 7] [3, 2] as ∧ Bcast [2] [10, 20] [3, 2] bs ∧
    Yields (exView.map2 exRow fun x y => (pure (x - y) : Exec Unit Nat))
      ((as.zip bs).mapM fun p => (pure (p.1 - p.2) : Exec Unit Nat)) [3, 2] :=
  C15_map2_right exView_rep exRow_rep (by decide) (by simp) _

example : (exView.map2 exCube fun x y => (pure (x - y) : Exec Unit Nat)).run () = .error .panic :=
  C16_incompatible exView_rep exCube_rep (by decide) (by decide) _ _

example : (exRow.map2 (⟨ofDims [0, 2], 0, 0, []⟩ : Tensor Nat) fun x y => (pure (x - y) : Exec Unit Nat)).run () = .error .panic :=
  C16_empty (es := [0, 2]) (ys := []) exRow_rep
    ⟨⟨wf_ofDims (l := [0, 2]) ⟨by simp, by simp⟩, rfl, by simp⟩, rfl, rfl⟩ (.inr rfl) _ _

example : (exRow.map3 exView exCube fun x y z => (pure (x + y + z) : Exec Unit Nat)).run () = .error .panic :=
  C16_map3 exRow_rep exView_rep exCube_rep (.inr (.inr (.inl (by decide)))) _ _

end Essay
