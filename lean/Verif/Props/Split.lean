import Verif.Props.Tile

/-!
# C102: the laws of splitting
-/

namespace Essay

open Shape

set_option linter.unusedSectionVars false

variable {α β γ : Type}

/-- Two calls that return lists of tensors both succeed, with the same dimensions and elements one by one. -/
def SameAll (x y : Res (List (Tensor α))) : Prop :=
  ∃ ts us ps, x = .ok ts ∧ y = .ok us ∧ RepAll ts ps ∧ RepAll us ps

/-! ### pieces -/

theorem IsPieces.same {pre post : List Nat} {d : Nat} {xs : List α} {ts us : List (Tensor α)} {rs : List (Nat × Nat)}
    (h : IsPieces pre d post xs ts rs) (h' : IsPieces pre d post xs us rs) : ∃ ps, RepAll ts ps ∧ RepAll us ps := by
  induction h generalizing us with
  | nil => cases h'; exact ⟨[], .nil, .nil⟩
  | cons r s _ ih =>
    cases h' with
    | cons r' s' h' =>
      obtain ⟨ps, h1, h2⟩ := ih h'
      rw [← s.unique s'] at r'
      exact ⟨_ :: ps, .cons r h1, .cons r' h2⟩

theorem at_zipWith (f : α → β → γ) (ds : List Nat) (xs : List α) (ys : List β) (idx : List Nat) :
    at? ds (List.zipWith f xs ys) idx = (at? ds xs idx).bind fun x => (at? ds ys idx).map (f x) := by
  unfold at?
  cases ravel ds idx with
  | none => rfl
  | some p =>
    simp only [Option.bind_some, List.getElem?_zipWith]
    cases xs[p]? <;> cases ys[p]? <;> rfl

theorem IsSlice.zipWith (f : α → β → γ) {pre post : List Nat} {d lo n : Nat} {xs xs' : List α} {ys ys' : List β}
    (h : IsSlice pre d post xs lo n xs') (h' : IsSlice pre d post ys lo n ys') :
    IsSlice pre d post (List.zipWith f xs ys) lo n (List.zipWith f xs' ys') := by
  refine ⟨by rw [List.length_zipWith, h.1, h'.1, Nat.min_self], h.2.1, fun i a j hi ha => ?_⟩
  rw [at_zipWith, at_zipWith, h.2.2 i a j hi ha, h'.2.2 i a j hi ha]

/-- Whether a split succeeds depends only on the length of the axis. -/
theorem split_cases (d : Nat) (sec : Tensor.Sections) :
    (∃ cuts, Tensor.sectionCuts d sec = .ok cuts ∧ Ascending 0 cuts ∧ ∀ c ∈ cuts, c ≤ d) ∨
    ∀ {α : Type} {t : Tensor α} {pre post : List Nat} {xs : List α}, Rep t (pre ++ d :: post) xs → xs ≠ [] →
      ∀ {a : Int}, axisIndex (pre ++ d :: post).length a = some pre.length →
        t.splitAxis (some a) sec = .error .panic := by
  cases hs : Tensor.sectionCuts d sec with
  | error e =>
    right
    intro α t pre post xs h hne a ha
    have hdim : t.shape.dim pre.length = Except.ok d := dim_eq h.wf.shape (by rw [h.toDims]; simp)
    unfold Tensor.splitAxis
    rw [h.rank, axisFromRank_eq h.adm.len ha, ok_bind, hdim, ok_bind, hs]
    cases sec with
    | splitCuts cuts => cases hs
    | splitEqual n =>
      have : e = .panic := by
        unfold Tensor.sectionCuts at hs
        simp only at hs
        by_cases hn : n = 0
        · subst hn; cases hs; rfl
        · rw [udiv_ok hn, ok_bind] at hs
          by_cases h0 : d / n > 0
          · rw [ensure_true h0] at hs; cases hs
          · rw [ensure_false h0] at hs; cases hs; rfl
      rw [this]; rfl
  | ok cuts =>
    by_cases hc : Ascending 0 cuts ∧ ∀ c ∈ cuts, c ≤ d
    · exact .inl ⟨cuts, rfl, hc⟩
    · exact .inr fun h hne a ha => splitAxis_bad h hne (axisFromRank_eq h.adm.len ha) hs hc

theorem mapM_ok_cons {δ : Type} {f : α → Res δ} {x : α} {xs : List α} {y : δ} {ys : List δ} (h : f x = .ok y)
    (hs : xs.mapM f = .ok ys) : (x :: xs).mapM f = .ok (y :: ys) := by
  rw [List.mapM_cons, h, ok_bind, hs]; rfl

theorem exSix_rep : Rep exSix [6] [0, 1, 2, 3, 4, 5] :=
  ⟨⟨wf_ofDims ⟨by simp, by simp⟩, rfl, by simp [exSix]⟩, rfl, rfl⟩

/-! ## C102 -/

/-- C102: applying a function to every element and splitting can be done in either order; a split that is rejected is
rejected either way. -/
theorem C102_map (f : α → β) {t : Tensor α} {pre post : List Nat} {d : Nat} {xs : List α} (h : Rep t (pre ++ d :: post) xs)
    (hne : xs ≠ []) {a : Int} (ha : axisIndex (pre ++ d :: post).length a = some pre.length) (sec : Tensor.Sections) :
    SameAll (mapped f t >>= fun u => u.splitAxis (some a) sec) (t.splitAxis (some a) sec >>= fun ts => ts.mapM (mapped f)) ∨
    (mapped f t >>= fun u => u.splitAxis (some a) sec) = .error .panic ∧ t.splitAxis (some a) sec = .error .panic := by
  obtain ⟨u, e, r⟩ := mapped_rep f h
  have hne' : xs.map f ≠ [] := by simpa using hne
  rw [e, ok_bind]
  rcases split_cases d sec with ⟨cuts, h1, h2, h3⟩ | hbad
  · left
    have hax := axisFromRank_eq h.adm.len ha
    obtain ⟨ts, e1, p1⟩ := splitAxis_eq h hne hax h1 h2 h3
    obtain ⟨us, e2, p2⟩ := splitAxis_eq r hne' hax h1 h2 h3
    rw [e1, e2, ok_bind]
    have : ∀ {ts rs}, IsPieces pre d post xs ts rs → ∃ vs, ts.mapM (mapped f) = .ok vs ∧
        IsPieces pre d post (xs.map f) vs rs := by
      intro ts rs hp
      induction hp with
      | nil => exact ⟨[], rfl, .nil⟩
      | cons hr hs _ ih =>
        obtain ⟨vs, e3, p3⟩ := ih
        obtain ⟨v, e4, r4⟩ := mapped_rep f hr
        exact ⟨v :: vs, mapM_ok_cons e4 e3, .cons r4 (hs.map f) p3⟩
    obtain ⟨vs, e3, p3⟩ := this p1
    obtain ⟨ps, q1, q2⟩ := p2.same p3
    exact ⟨us, vs, ps, rfl, e3, q1, q2⟩
  · exact .inr ⟨hbad r hne' ha, hbad h hne ha⟩

example : SameAll (mapped (· * 10) exMat >>= fun u => u.splitAxis (some 1) (.splitCuts [1]))
      (exMat.splitAxis (some 1) (.splitCuts [1]) >>= fun ts => ts.mapM (mapped (· * 10))) ∨
    (mapped (· * 10) exMat >>= fun u => u.splitAxis (some 1) (.splitCuts [1])) = .error .panic ∧
      exMat.splitAxis (some 1) (.splitCuts [1]) = .error .panic :=
  C102_map _ (pre := [2]) (d := 3) (post := []) exMat_rep (by simp) (by decide) _

/-- The function `f` applied to the elements of two tensors in pairs. -/
def zipped (f : α → β → γ) (t : Tensor α) (u : Tensor β) : Res (Tensor γ) :=
  Tensor.runPure (t.map2 u fun x y => (pure (f x y) : Exec Unit γ))

theorem zipped_rep (f : α → β → γ) {t : Tensor α} {u : Tensor β} {ds : List Nat} {xs : List α} {ys : List β}
    (ht : Rep t ds xs) (hu : Rep u ds ys) (hne : ys ≠ []) : ∃ v, zipped f t u = .ok v ∧ Rep v ds (List.zipWith f xs ys) := by
  obtain ⟨as, bs, h1, h2, h3⟩ := C15_map2_left ht hu (List.suffix_refl _) hne fun x y => (pure (f x y) : Exec Unit γ)
  rw [bcast_same ht.length h1, bcast_same hu.length h2] at h3
  have h4 := h3 ()
  rw [mapM_pure (fun p : α × β => f p.1 p.2)] at h4
  obtain ⟨v, h5, h6⟩ := h4
  refine ⟨v, ?_, ?_⟩
  · unfold zipped Tensor.runPure
    rw [h5]; rfl
  · rw [List.zip, List.map_zipWith] at h6
    exact h6

/-- C102: an elementwise operation between two tensors of the same shape, split, is the operation between the pieces. -/
theorem C102_binary (f : α → β → γ) {t : Tensor α} {u : Tensor β} {pre post : List Nat} {d : Nat} {xs : List α} {ys : List β}
    (ht : Rep t (pre ++ d :: post) xs) (hu : Rep u (pre ++ d :: post) ys) (hne : xs ≠ []) {a : Int}
    (ha : axisIndex (pre ++ d :: post).length a = some pre.length) (sec : Tensor.Sections) :
    SameAll (zipped f t u >>= fun v => v.splitAxis (some a) sec)
      (t.splitAxis (some a) sec >>= fun ts => u.splitAxis (some a) sec >>= fun us =>
        (ts.zip us).mapM fun p => zipped f p.1 p.2) ∨
    (zipped f t u >>= fun v => v.splitAxis (some a) sec) = .error .panic ∧ t.splitAxis (some a) sec = .error .panic ∧
      u.splitAxis (some a) sec = .error .panic := by
  have hny : ys ≠ [] := by
    rw [← List.length_pos_iff, hu.length, ← ht.length]; exact List.length_pos_iff.2 hne
  obtain ⟨v, e, r⟩ := zipped_rep f ht hu hny
  have hnz : List.zipWith f xs ys ≠ [] := by
    rw [← List.length_pos_iff, r.length, ← ht.length]; exact List.length_pos_iff.2 hne
  rw [e, ok_bind]
  rcases split_cases d sec with ⟨cuts, h1, h2, h3⟩ | hbad
  · left
    have hax := axisFromRank_eq ht.adm.len ha
    obtain ⟨ts, e1, p1⟩ := splitAxis_eq ht hne hax h1 h2 h3
    obtain ⟨us, e2, p2⟩ := splitAxis_eq hu hny hax h1 h2 h3
    obtain ⟨vs, e3, p3⟩ := splitAxis_eq r hnz hax h1 h2 h3
    rw [e1, e2, e3, ok_bind, ok_bind]
    have hpp : 0 < pre.prod ∧ 0 < post.prod := by
      have := List.length_pos_iff.2 hne
      rw [ht.length, List.prod_append, List.prod_cons] at this
      exact ⟨Nat.pos_of_mul_pos_right this, Nat.pos_of_mul_pos_left (Nat.pos_of_mul_pos_left this)⟩
    have : ∀ {ts us rs}, IsPieces pre d post xs ts rs → IsPieces pre d post ys us rs → (∀ r ∈ rs, r.1 < r.2) →
        ∃ vs, ((ts.zip us).mapM fun p => zipped f p.1 p.2) = .ok vs ∧ IsPieces pre d post (List.zipWith f xs ys) vs rs := by
      intro ts us rs hp hq hlt
      induction hp generalizing us with
      | nil => cases hq; exact ⟨[], rfl, .nil⟩
      | @cons t1 ys1 lo hi ts' rs' hr hs _ ih =>
        cases hq with
        | cons hr' hs' hq' =>
          obtain ⟨vs, e3, p3⟩ := ih hq' fun r hr => hlt r (by simp [hr])
          have hl := hlt (lo, hi) (by simp)
          obtain ⟨v, e4, r4⟩ := zipped_rep f hr hr' (by
            rw [← List.length_pos_iff, hr'.length, List.prod_append, List.prod_cons]
            exact Nat.mul_pos hpp.1 (Nat.mul_pos (by simp at hl; omega) hpp.2))
          exact ⟨v :: vs, mapM_ok_cons (f := fun p : Tensor α × Tensor β => zipped f p.1 p.2) e4 e3,
            .cons r4 (hs.zipWith f hs') p3⟩
    have hlt : ∀ (prev : Nat) (cs : List Nat), ∀ r ∈ ranges prev cs, r.1 < r.2 := by
      intro prev cs
      induction cs generalizing prev with
      | nil => simp [ranges]
      | cons c cs ih =>
        unfold ranges
        split
        · intro r hr
          rcases List.mem_cons.1 hr with rfl | hr
          · assumption
          · exact ih c r hr
        · exact ih c
    obtain ⟨ws, e4, p4⟩ := this p1 p2 (hlt _ _)
    obtain ⟨ps, q1, q2⟩ := p3.same p4
    exact ⟨vs, ws, ps, rfl, e4, q1, q2⟩
  · exact .inr ⟨hbad r hnz ha, hbad ht hne ha, hbad hu hny ha⟩

example : SameAll (zipped (· - ·) exMat exMat >>= fun v => v.splitAxis (some (-1)) (.splitEqual 3))
      (exMat.splitAxis (some (-1)) (.splitEqual 3) >>= fun ts => exMat.splitAxis (some (-1)) (.splitEqual 3) >>= fun us =>
        (ts.zip us).mapM fun p => zipped (· - ·) p.1 p.2) ∨
    (zipped (· - ·) exMat exMat >>= fun v => v.splitAxis (some (-1)) (.splitEqual 3)) = .error .panic ∧
      exMat.splitAxis (some (-1)) (.splitEqual 3) = .error .panic ∧
      exMat.splitAxis (some (-1)) (.splitEqual 3) = .error .panic :=
  C102_binary _ (pre := [2]) (d := 3) (post := []) exMat_rep exMat_rep (by simp) (by decide) _

/-! ### splitting the pieces again -/

theorem IsPieces.append {pre post : List Nat} {d : Nat} {xs : List α} {ts us : List (Tensor α)} {rs qs : List (Nat × Nat)}
    (h : IsPieces pre d post xs ts rs) (h' : IsPieces pre d post xs us qs) :
    IsPieces pre d post xs (ts ++ us) (rs ++ qs) := by
  induction h with
  | nil => exact h'
  | cons hr hs _ ih => exact .cons hr hs ih

theorem IsPieces.shift {pre post : List Nat} {d n lo : Nat} {xs ys : List α} (hs : IsSlice pre d post xs lo n ys)
    {ts : List (Tensor α)} {rs : List (Nat × Nat)} (h : IsPieces pre n post ys ts rs) :
    IsPieces pre d post xs ts (rs.map fun r => (lo + r.1, lo + r.2)) := by
  induction h with
  | nil => exact .nil
  | @cons t zs l u ts rs hr hs' _ ih =>
    have e : lo + u - (lo + l) = u - l := by omega
    refine .cons (by rw [e]; exact hr) ?_ ih
    rw [e]
    exact hs.trans hs'

theorem ranges_nest (n m s : Nat) (r : Nat) :
    (((List.range n).map fun k => (k * (m * s) + r, (k + 1) * (m * s) + r)).map fun p =>
      ((List.range m).map fun j => (j * s, (j + 1) * s)).map fun q => (p.1 + q.1, p.1 + q.2)).flatten =
    (List.range (n * m)).map fun k => (k * s + r, (k + 1) * s + r) := by
  induction n with
  | zero => simp
  | succ n ih =>
    rw [List.range_succ, List.map_append, List.map_append, List.flatten_append, ih, Nat.succ_mul, List.range_add,
      List.map_append]
    congr 1
    simp only [List.map_cons, List.map_nil, List.flatten_cons, List.flatten_nil, List.append_nil, List.map_map]
    apply List.map_congr_left
    intro j _
    simp only [Function.comp, Prod.mk.injEq]
    constructor <;> grind

/-- C102: splitting into `n` equal pieces and each of them into `m` is splitting into `n m`. -/
theorem C102_nested {t : Tensor α} {pre post : List Nat} {d : Nat} {xs : List α} (h : Rep t (pre ++ d :: post) xs)
    (hne : xs ≠ []) {a : Int} (ha : axisIndex (pre ++ d :: post).length a = some pre.length) {n m : Nat} (hd : n * m ∣ d) :
    SameAll (t.splitAxis (some a) (.splitEqual n) >>= fun ts => ts.mapM (fun u => u.splitAxis (some a) (.splitEqual m)) >>=
        fun uss => pure uss.flatten)
      (t.splitAxis (some a) (.splitEqual (n * m))) := by
  have hxp : 0 < (pre ++ d :: post).prod := by rw [← h.length]; exact List.length_pos_iff.2 hne
  have hd0 : 0 < d := pos_of_prod_pos hxp d (by simp)
  obtain ⟨s, rfl⟩ := hd
  have hn0 : 0 < n := Nat.pos_of_mul_pos_right (Nat.pos_of_mul_pos_right hd0)
  have hm0 : 0 < m := Nat.pos_of_mul_pos_left (Nat.pos_of_mul_pos_right hd0)
  have hs0 : 0 < s := Nat.pos_of_mul_pos_left hd0
  have hpp : 0 < pre.prod ∧ 0 < post.prod := by
    rw [List.prod_append, List.prod_cons] at hxp
    exact ⟨Nat.pos_of_mul_pos_right hxp, Nat.pos_of_mul_pos_left (Nat.pos_of_mul_pos_left hxp)⟩
  have q1 : n * m * s / n = m * s := by rw [Nat.mul_assoc, Nat.mul_div_cancel_left _ hn0]
  have q2 : n * m * s / (n * m) = s := Nat.mul_div_cancel_left _ (Nat.mul_pos hn0 hm0)
  obtain ⟨ts, e1, -, p1⟩ := C30_split_equal h hne ha n ⟨m * s, by rw [Nat.mul_assoc]⟩
  obtain ⟨us, e2, -, p2⟩ := C30_split_equal h hne ha (n * m) ⟨s, rfl⟩
  rw [q1] at p1
  rw [q2] at p2
  have key : ∀ {ts rs}, IsPieces pre (n * m * s) post xs ts rs → (∀ r ∈ rs, r.2 - r.1 = m * s) →
      ∃ uss, ts.mapM (fun u => u.splitAxis (some a) (.splitEqual m)) = .ok uss ∧
        IsPieces pre (n * m * s) post xs uss.flatten
          (rs.map fun p => ((List.range m).map fun j => (j * s, (j + 1) * s)).map fun q => (p.1 + q.1, p.1 + q.2)).flatten := by
    intro ts rs hp hrs
    induction hp with
    | nil => exact ⟨[], rfl, .nil⟩
    | @cons t1 ys1 lo hi ts' rs' hr hs _ ih =>
      obtain ⟨uss, e3, p3⟩ := ih fun r hr => hrs r (by simp [hr])
      have hw := hrs (lo, hi) (by simp)
      dsimp only at hw
      rw [hw] at hr hs
      have hy : ys1 ≠ [] := by
        rw [← List.length_pos_iff, hr.length, List.prod_append, List.prod_cons]
        exact Nat.mul_pos hpp.1 (Nat.mul_pos (Nat.mul_pos hm0 hs0) hpp.2)
      obtain ⟨vs, e4, -, p4⟩ := C30_split_equal hr hy (a := a) (by rw [← ha]; simp) m ⟨s, rfl⟩
      rw [Nat.mul_div_cancel_left _ hm0] at p4
      refine ⟨vs :: uss, mapM_ok_cons (f := fun u : Tensor α => u.splitAxis (some a) (.splitEqual m)) e4 e3, ?_⟩
      rw [List.flatten_cons, List.map_cons, List.flatten_cons]
      exact (p4.shift hs).append p3
  obtain ⟨uss, e3, p3⟩ := key p1 (by
    intro r hr
    obtain ⟨k, -, rfl⟩ := List.mem_map.1 hr
    dsimp only
    rw [Nat.succ_mul]; omega)
  have := ranges_nest n m s 0
  simp only [Nat.add_zero] at this
  rw [this] at p3
  obtain ⟨ps, r1, r2⟩ := p3.same p2
  refine ⟨uss.flatten, us, ps, ?_, e2, r1, r2⟩
  rw [e1, ok_bind, e3]; rfl

example : SameAll (exSix.splitAxis (some 0) (.splitEqual 3) >>= fun ts =>
      ts.mapM (fun u => u.splitAxis (some 0) (.splitEqual 2)) >>= fun uss => pure uss.flatten)
    (exSix.splitAxis (some 0) (.splitEqual 6)) :=
  C102_nested (pre := []) (post := []) (d := 6) exSix_rep (by simp) (by decide) (n := 3) (m := 2) (by decide)

/-! ### splitting a tiling -/

/-- C102: a tensor tiled `n` times along one axis, split into `n` equal pieces along it, gives `n` times the tensor. -/
theorem C102_tile {t : Tensor α} {pre post : List Nat} {d : Nat} {xs : List α} (h : Rep t (pre ++ d :: post) xs)
    (hne : xs ≠ []) {n : Nat} (hn : 0 < n) (hfit : n * (pre ++ d :: post).prod < 2 ^ 32)
    {mt : Tensor Nat} (hm : Rep mt [(pre ++ d :: post).length]
      (List.replicate pre.length 1 ++ n :: List.replicate post.length 1)) {a : Int}
    (ha : axisIndex (pre ++ d :: post).length a = some pre.length) :
    ∃ ts, (Tensor.tile t mt >>= fun u => u.splitAxis (some a) (.splitEqual n)) = .ok ts ∧
      RepAll ts (List.replicate n (pre ++ d :: post, xs)) := by
  have hx := h.length
  have hxp : 0 < (pre ++ d :: post).prod := by rw [← hx]; exact List.length_pos_iff.2 hne
  have hl : (List.replicate pre.length 1 ++ n :: List.replicate post.length 1).length = (pre ++ d :: post).length := by
    simp
  have hpos : ∀ m ∈ List.replicate pre.length 1 ++ n :: List.replicate post.length 1, 0 < m := by
    intro m hm
    rcases List.mem_append.1 hm with hm | hm
    · exact ones_pos m hm
    · rcases List.mem_cons.1 hm with rfl | hm
      · exact hn
      · exact ones_pos m hm
  obtain ⟨u, e1, r1⟩ := tile_eq h (by rw [hl]; exact hm) hne hpos (by rw [hl]; exact h.adm.len) (by simpa using hfit)
    (by rw [hl]; simp)
  have hpad : ∀ l : List Nat, padLeft l.length l = l := by intro l; simp [padLeft]
  have hpad' : padLeft (pre ++ d :: post).length (List.replicate pre.length 1 ++ n :: List.replicate post.length 1)
      = List.replicate pre.length 1 ++ n :: List.replicate post.length 1 := by rw [← hl]; exact hpad _
  rw [hl, Nat.max_self, hpad, hpad', mulDims_axis] at r1
  have hcat := tileElems_axis (pre := pre) (post := post) (d := d) n hx
  generalize tileElems _ _ xs = out at r1 hcat
  have hone : out ≠ [] := by
    rw [← List.length_pos_iff, r1.length]
    rw [List.prod_append, List.prod_cons] at hxp ⊢
    exact Nat.mul_pos (Nat.pos_of_mul_pos_right hxp)
      (Nat.mul_pos (Nat.mul_pos hn (Nat.pos_of_mul_pos_right (Nat.pos_of_mul_pos_left hxp)))
        (Nat.pos_of_mul_pos_left (Nat.pos_of_mul_pos_left hxp)))
  obtain ⟨ts, e2, hl2, p2⟩ := C30_split_equal r1 hone (a := a) (by rw [← ha]; simp) n ⟨d, rfl⟩
  rw [Nat.mul_div_cancel_left _ hn] at p2
  refine ⟨ts, by rw [e1]; exact e2, ?_⟩
  have slice : ∀ k, k < n → IsSlice pre (n * d) post out (k * d) d xs := by
    intro k hk
    have := hcat (List.replicate k (d, xs)) (d, xs) (List.replicate (n - k - 1) (d, xs)) (by
      rw [← List.replicate_succ, ← List.replicate_add]; congr 1; omega)
    simpa using this
  have : ∀ {ts : List (Tensor α)} {ks : List Nat}, (∀ k ∈ ks, k < n) →
      IsPieces pre (n * d) post out ts (ks.map fun k => (k * d, (k + 1) * d)) →
      RepAll ts (List.replicate ks.length (pre ++ d :: post, xs)) := by
    intro ts ks hks hp
    induction ks generalizing ts with
    | nil => cases hp; exact .nil
    | cons k ks ih =>
      rw [List.map_cons] at hp
      cases hp with
      | cons hr hs hp =>
        have e : (k + 1) * d - k * d = d := by rw [Nat.succ_mul]; omega
        rw [e] at hr hs
        rw [← hs.unique (slice k (hks k (by simp)))]
        rw [← hs.unique (slice k (hks k (by simp)))] at ih
        exact .cons hr (ih (fun k hk => hks k (by simp [hk])) hp)
  have := this (fun k hk => List.mem_range.1 hk) p2
  rwa [List.length_range] at this

example : ∃ ts, (exMat.tile (mulT [1, 2]) >>= fun u => u.splitAxis (some 1) (.splitEqual 2)) = .ok ts ∧
    RepAll ts [([2, 3], [1, 2, 3, 4, 5, 6]), ([2, 3], [1, 2, 3, 4, 5, 6])] :=
  C102_tile (pre := [2]) (d := 3) (post := []) exMat_rep (by simp) (n := 2) (by simp) (by simp)
    (mulT_rep [1, 2] (by simp)) (by decide)

/-! ### concatenating -/

theorem IsConcat.zipWith (f : α → β → γ) {pre post : List Nat} {ps : List (Nat × List α × List β)} {xs : List α} {ys : List β}
    (h : IsConcat pre post (ps.map fun p => (p.1, p.2.1)) xs) (h' : IsConcat pre post (ps.map fun p => (p.1, p.2.2)) ys) :
    IsConcat pre post (ps.map fun p => (p.1, List.zipWith f p.2.1 p.2.2)) (List.zipWith f xs ys) := by
  intro A p B e
  obtain ⟨A', B', rfl, rfl, e2⟩ := List.map_eq_append_iff.1 e
  obtain ⟨p', B'', rfl, rfl, rfl⟩ := List.map_eq_cons_iff.1 e2
  have k1 := h (A'.map fun p => (p.1, p.2.1)) (p'.1, p'.2.1) (B''.map fun p => (p.1, p.2.1)) (by simp)
  have k2 := h' (A'.map fun p => (p.1, p.2.2)) (p'.1, p'.2.2) (B''.map fun p => (p.1, p.2.2)) (by simp)
  simp only [List.map_map, Function.comp_def] at k1 k2 ⊢
  exact k1.zipWith f k2

/-- C102: an elementwise operation between two concatenations with the same parts is the concatenation of the operations
between the parts. -/
theorem C102_concatenate (f : α → β → γ) {pre post : List Nat} {ps : List (Nat × List α × List β)} {ts : List (Tensor α)}
    {us : List (Tensor β)} (ht : RepAll ts (ps.map fun p => (pre ++ p.1 :: post, p.2.1)))
    (hu : RepAll us (ps.map fun p => (pre ++ p.1 :: post, p.2.2))) (hne : ps ≠ []) (hnz : ∀ p ∈ ps, p.2.2 ≠ []) {D : Nat}
    (hD : (ps.map (·.1)).sum = D) (hD32 : D < 2 ^ 32) (hfit : Fits (pre ++ D :: post)) (hpre : Fits pre)
    (hr : post.length < 5) {a : Int} (ha : axisIndex (pre.length + 1 + post.length) a = some pre.length) :
    Same (Tensor.concatenateAxis (some a) ts >>= fun t => Tensor.concatenateAxis (some a) us >>= fun u => zipped f t u)
      ((ts.zip us).mapM (fun p => zipped f p.1 p.2) >>= Tensor.concatenateAxis (some a)) (pre ++ D :: post) := by
  obtain ⟨t, xs, e1, r1, c1⟩ := C27_concatenate_partial (ps := ps.map fun p => (p.1, p.2.1)) (by
    rw [List.map_map]; exact ht) (by simpa using hne) (by simpa [List.map_map, Function.comp_def] using hD) hD32 hfit hpre hr ha
  obtain ⟨u, ys, e2, r2, c2⟩ := C27_concatenate_partial (ps := ps.map fun p => (p.1, p.2.2)) (by
    rw [List.map_map]; exact hu) (by simpa using hne) (by simpa [List.map_map, Function.comp_def] using hD) hD32 hfit hpre hr ha
  have key : ∀ {ps : List (Nat × List α × List β)} {ts : List (Tensor α)} {us : List (Tensor β)},
      RepAll ts (ps.map fun p => (pre ++ p.1 :: post, p.2.1)) → RepAll us (ps.map fun p => (pre ++ p.1 :: post, p.2.2)) →
      (∀ p ∈ ps, p.2.2 ≠ []) → ∃ vs, ((ts.zip us).mapM fun p => zipped f p.1 p.2) = .ok vs ∧
        RepAll vs (ps.map fun p => (pre ++ p.1 :: post, List.zipWith f p.2.1 p.2.2)) := by
    intro ps
    induction ps with
    | nil => intro ts us h1 h2 _; cases h1; cases h2; exact ⟨[], rfl, .nil⟩
    | cons p ps ih =>
      intro ts us h1 h2 hz
      cases h1 with
      | cons h1 h1' =>
        cases h2 with
        | cons h2 h2' =>
          obtain ⟨vs, e, r⟩ := ih h1' h2' fun p hp => hz p (by simp [hp])
          obtain ⟨v, e', r'⟩ := zipped_rep f h1 h2 (hz p (by simp))
          exact ⟨v :: vs, mapM_ok_cons (f := fun p : Tensor α × Tensor β => zipped f p.1 p.2) e' e, .cons r' r⟩
  obtain ⟨vs, e3, r3⟩ := key ht hu hnz
  obtain ⟨w, zs, e4, r4, c4⟩ := C27_concatenate_partial (ps := ps.map fun p => (p.1, List.zipWith f p.2.1 p.2.2)) (by
    rw [List.map_map]; exact r3) (by simpa using hne) (by simpa [List.map_map, Function.comp_def] using hD) hD32 hfit hpre hr ha
  have hy : ys ≠ [] := by
    rintro rfl
    obtain ⟨p, ps, rfl⟩ := List.exists_cons_of_ne_nil hne
    have hs := c2 [] (p.1, p.2.2) (ps.map fun p => (p.1, p.2.2)) rfl
    have hp := hnz p (by simp)
    have h0 := r2.length
    rw [List.length_nil, List.prod_append, List.prod_cons] at h0
    have h1 := hs.1
    dsimp only at h1
    rw [List.prod_append, List.prod_cons] at h1
    have h2 := List.length_pos_iff.2 hp
    rw [h1] at h2
    have h3 := hs.2.1
    rw [show ((List.map (fun x : Nat × List β => x.1) (List.map (fun p : Nat × List α × List β => (p.1, p.2.2)) (p :: ps))).sum) = D by
      rw [← hD]; simp [List.map_map, Function.comp_def]] at h3
    simp at h3
    have h4 : 0 < p.1 := Nat.pos_of_mul_pos_right (Nat.pos_of_mul_pos_left h2)
    have : 0 < pre.prod * (D * post.prod) :=
      Nat.mul_pos (Nat.pos_of_mul_pos_right h2) (Nat.mul_pos (by omega) (Nat.pos_of_mul_pos_left (Nat.pos_of_mul_pos_left h2)))
    omega
  obtain ⟨v, e5, r5⟩ := zipped_rep f r1 r2 hy
  have := IsConcat.unique (D := D) (by simpa [List.map_map, Function.comp_def] using hD) r5.length r4.length (c1.zipWith f c2) c4
  rw [this] at r5
  refine ⟨v, w, zs, ?_, by rw [e3]; exact e4, r5, r4⟩
  rw [e1, ok_bind, e2]; exact e5

example : Same (Tensor.concatenateAxis (some 0) [exMat, exMat] >>= fun t =>
      Tensor.concatenateAxis (some 0) [exMat, exMat] >>= fun u => zipped (· + ·) t u)
    ([(exMat, exMat), (exMat, exMat)].mapM (fun p => zipped (· + ·) p.1 p.2) >>= Tensor.concatenateAxis (some 0)) [4, 3] :=
  C102_concatenate _ (pre := []) (post := [3]) (ps := [(2, [1, 2, 3, 4, 5, 6], [1, 2, 3, 4, 5, 6]), (2, [1, 2, 3, 4, 5, 6], [1, 2, 3, 4, 5, 6])])
    (ts := [exMat, exMat]) (us := [exMat, exMat]) (.cons exMat_rep (.cons exMat_rep .nil)) (.cons exMat_rep (.cons exMat_rep .nil))
    (by simp) (by simp) (D := 4) rfl (by simp) (fits_of_pos (by simp) (by simp)) fits_nil (by simp) (by decide)

end Essay
