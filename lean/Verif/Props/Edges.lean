import Verif.Props.Axes
import Verif.Props.Linalg
import Verif.Props.Rejects
import Verif.Lemmas.SafeArray

/-!
# C26-C32 at the edges

What the array operations do outside the domain of the main theorems in `Props/Array.lean`: empty tensors, results that are
too large for 32 bits, and ranks at the limit of six.
-/

namespace Essay

open Shape

variable {α : Type}

/-! ## helpers -/

theorem post_write {b : Buf α} {i L : Nat} {v : α} (h : b.length = L) : Post (b.write i v) (·.length = L) := by
  intro b' hb
  unfold Buf.write at hb
  split at hb
  · cases hb; simpa using h
  · cases hb

theorem complete_length {b : Buf α} {l : List α} (h : b.complete = some l) : l.length = b.length := by
  induction b generalizing l with
  | nil => simp [Buf.complete] at h; simp [← h]
  | cons x b ih =>
    unfold Buf.complete at h ih
    simp only [List.mapM_cons, id, Option.bind_eq_bind, Option.pure_def] at h
    obtain ⟨y, _, h⟩ := Option.bind_eq_some_iff.1 h
    obtain ⟨ys, h1, h⟩ := Option.bind_eq_some_iff.1 h
    cases h
    simp [ih h1]

/-- What `unsafe_init` returns has the size it was asked for. -/
theorem unsafeInit_size {L : Nat} {s : Shape} {f : Buf α → Res (Buf α)} (hf : ∀ b, b.length = L → Post (f b) (·.length = L)) :
    Post (Tensor.unsafeInit L s f) fun _ => s.size = .ok L := by
  unfold Tensor.unsafeInit
  refine (hf _ (by simp [Buf.uninit])).bind fun b hb => ?_
  unfold Tensor.finish
  split
  · rename_i data hd
    intro t ht
    obtain ⟨n, h1, h2⟩ := bind_eq_ok.1 ht
    obtain ⟨h3, _⟩ := ensure_bind_eq_ok.1 h2
    rw [h1, h3, complete_length hd, hb]
  · exact post_error

theorem size_lt_any {s : Shape} {n : Nat} (h : s.size = .ok n) : n < 2 ^ 32 := by
  unfold Shape.size productTo at h
  obtain ⟨_, _, h⟩ := bind_eq_ok.1 h
  have : ∀ (l : List Nat) a, a < 2 ^ 32 → ∀ n, l.foldlM mulU32 a = .ok n → n < 2 ^ 32 := by
    intro l
    induction l with
    | nil => intro a ha n hn; cases hn; exact ha
    | cons b l ih =>
      intro a ha n hn
      rw [List.foldlM_cons] at hn
      obtain ⟨c, h1, h2⟩ := bind_eq_ok.1 hn
      have := mulU32_eq_ok.1 h1
      exact ih c (by omega) n h2
  exact this _ 1 (by decide) n h

theorem post_false {γ : Type} {x : Res γ} (h : NoUB x) (hp : Post x fun _ => False) : x = .error .panic :=
  panic_of_noUB h fun a ha => hp a ha

theorem RepAll.lwf {ts : List (Tensor α)} {ps : List (List Nat × List α)} (h : RepAll ts ps) : ∀ t ∈ ts, t.LWF := by
  induction h with
  | nil => simp
  | cons h1 _ ih => 
    intro t ht
    rcases List.mem_cons.1 ht with rfl | ht
    · exact h1.wf.loose
    · exact ih t ht

theorem RepAll.sizes {ts : List (Tensor α)} {ps : List (List Nat × List α)} (h : RepAll ts ps) :
    (ts.map (·.size)).sum = (ps.map fun p => p.2.length).sum := by
  induction h with
  | nil => rfl
  | cons h1 _ ih => simp only [List.map_cons, List.sum_cons, ih, h1.size]

theorem RepAll.mem {ts : List (Tensor α)} {ps : List (List Nat × List α)} (h : RepAll ts ps) {p : List Nat × List α}
    (hp : p ∈ ps) : ∃ t ∈ ts, Rep t p.1 p.2 := by
  induction h with
  | nil => cases hp
  | cons h1 _ ih =>
    rcases List.mem_cons.1 hp with rfl | hp
    · exact ⟨_, by simp, h1⟩
    · obtain ⟨t, ht, hr⟩ := ih hp
      exact ⟨t, List.mem_cons_of_mem _ ht, hr⟩

theorem forL_step {γ β : Type} (x : γ) (xs : List γ) (s : β) (body : γ → β → Res β) :
    forL (x :: xs) s body = body x s >>= fun s => forL xs s body := by
  unfold forL
  rw [List.foldlM_cons]

/-! ## C26 -/

/-- C26: an empty vector becomes a column without rows. -/
theorem C26_empty_vector {t : Tensor α} {xs : List α} (h : Rep t [0] xs) : ∃ u, t.transpose = .ok u ∧ Rep u [0, 1] [] := by
  have hx : xs = [] := List.length_eq_zero_iff.1 (by simpa using h.length)
  subst hx
  have hsh : t.shape = ofRev [0] := by rw [h.shape]; rfl
  unfold Tensor.transpose
  rw [cols_eq h.wf.shape, ok_bind, rows_eq h.wf.shape, ok_bind, h.size_eq, ok_bind, h.toDims]
  have e3 : ofRev ([0].insertIdx 0 (asU32 1)) = ofDims [0, 1] := by simp [ofDims, asU32]
  simp only [List.reverse_singleton, List.getElem?_cons_zero, Option.getD_some]
  rw [udiv_ok (by simp), ok_bind, if_pos (by rw [h.rank]; rfl), hsh, rinsert_ofRev (by simp) (by simp) (by omega), e3, ok_bind]
  simp only [h.elems, ok_bind]
  exact unsafeInit_puts_rep (L := [0].prod) (ys := []) (P := fun _ => False) (by simp) (by
      intro b hb
      exact ⟨b, by simp, hb, fun p hp => by simp at hp⟩) (by simp) ⟨by simp, by simp⟩
    (fits_cons.2 ⟨by simp, fits_one (by simp)⟩) (by simp)

/-- C26: what `transpose` does with a matrix or a batch of matrices without elements. The result has the two innermost
dimensions exchanged, but a 0 among them becomes a 1: if no other dimension is 0 the shape then asks for an element, and
the call panics. -/
theorem C26_empty_actual {t : Tensor α} {pre : List Nat} {r c : Nat} (h : Rep t (pre ++ [r, c]) []) :
    (0 ∈ pre ∧ Fits (pre ++ [max c 1, max r 1]) → ∃ u, t.transpose = .ok u ∧ Rep u (pre ++ [max c 1, max r 1]) []) ∧
    (¬ (0 ∈ pre ∧ Fits (pre ++ [max c 1, max r 1])) → t.transpose = .error .panic) := by
  have hlen := h.adm.len
  have hrb : max r 1 < 4294967296 := by have := h.adm.lt r (by simp); omega
  have hcb : max c 1 < 4294967296 := by have := h.adm.lt c (by simp); omega
  have h0 : (pre ++ [r, c]).prod = 0 := by rw [← h.length]; rfl
  have hrev : (pre ++ [r, c]).reverse = c :: r :: pre.reverse := by simp
  have hsh : t.shape = ofRev (c :: r :: pre.reverse) := by rw [h.shape, ofDims, hrev]
  have h6 : (c :: r :: pre.reverse).length ≤ 6 := by simp at hlen ⊢; omega
  have hadm : Adm (pre ++ [max c 1, max r 1]) := ⟨by simp at hlen ⊢; omega, fun d hd => by
    rcases List.mem_append.1 hd with hd | hd
    · exact h.adm.lt d (List.mem_append_left _ hd)
    · simp only [List.mem_cons, List.not_mem_nil, or_false] at hd
      rcases hd with rfl | rfl <;> assumption⟩
  have e : t.transpose = Tensor.new [] (ofDims (pre ++ [max c 1, max r 1])) := by
    unfold Tensor.transpose
    rw [cols_eq h.wf.shape, ok_bind, rows_eq h.wf.shape, ok_bind, h.size_eq, ok_bind, h.toDims, hrev]
    simp only [List.getElem?_cons_zero, List.getElem?_cons_succ, Option.getD_some]
    have hp : 0 < max c 1 * max r 1 := Nat.mul_pos (by omega) (by omega)
    rw [udiv_ok (by omega), ok_bind, if_neg (by rw [h.rank]; simp), hsh, withCols_ofRev h6 (by simp), ok_bind,
      withRows_ofRev (by simpa using h6) (by simp), asU32_of_lt hrb, asU32_of_lt hcb]
    have e3 : ofRev (((c :: r :: pre.reverse).set 0 (max r 1)).set 1 (max c 1)) = ofDims (pre ++ [max c 1, max r 1]) := by
      simp [ofDims]
    rw [e3, ok_bind]
    simp only [h.elems, ok_bind]
    rw [h0, Nat.zero_div]
    rfl
  rw [e]
  constructor
  · rintro ⟨hz, hf⟩
    have hl : ([] : List α).length = (pre ++ [max c 1, max r 1]).prod := by
      rw [List.prod_append, List.prod_eq_zero hz]; simp
    exact ⟨_, new_ok hadm hf hl, rep_fresh hadm hf hl⟩
  · intro hn
    apply new_panic
    intro hs
    obtain ⟨hf, hp⟩ := (size_ofDims_iff hadm).1 hs
    refine hn ⟨?_, ?_⟩
    · have h1 : pre.prod * (max c 1 * max r 1) = 0 := by
        have := hp; rw [List.prod_append] at this; simpa using this.symm
      have hp : 0 < max c 1 * max r 1 := Nat.mul_pos (by omega) (by omega)
      have h2 : pre.prod = 0 := by
        rcases Nat.mul_eq_zero.1 h1 with h | h
        · exact h
        · omega
      exact Classical.byContradiction fun h3 => by
        have : 0 < pre.prod := by
          clear * - h3
          induction pre with
          | nil => simp
          | cons d ds ih =>
            rw [List.prod_cons]
            refine Nat.mul_pos (Nat.pos_of_ne_zero fun h => h3 (by simp [h])) (ih fun h => h3 (List.mem_cons_of_mem _ h))
        omega
    · exact hf

def exNoCol3 : Tensor Nat := ⟨ofDims [3, 0], 0, 0, []⟩
theorem exNoCol3_rep : Rep exNoCol3 [3, 0] [] := ⟨⟨wf_ofDims (l := [3, 0]) ⟨by simp, by simp⟩, rfl, by simp [exNoCol3]⟩, rfl, rfl⟩

/-- A 3 by 0 matrix cannot be transposed, but a batch of no 2 by 3 matrices can. -/
example : exNoCol3.transpose = .error .panic := (C26_empty_actual (pre := []) exNoCol3_rep).2 (by simp)
example : ∃ u, (⟨ofDims [0, 2, 3], 0, 0, []⟩ : Tensor Nat).transpose = .ok u ∧ Rep u [0, 3, 2] [] :=
  (C26_empty_actual (pre := [0]) (r := 2) (c := 3)
    ⟨⟨wf_ofDims (l := [0, 2, 3]) ⟨by simp, by simp⟩, rfl, by simp⟩, rfl, rfl⟩).1
    ⟨by simp, fits_cons.2 ⟨by simp, fits_of_pos (by simp) (by simp)⟩⟩

/-! ## C27 -/

theorem concatAxis_too_large {ts : List (Tensor α)} {ps : List (List Nat × List α)} (h : RepAll ts ps)
    (hn : 2 ^ 32 ≤ (ps.map fun p => p.2.length).sum) (axis : Nat) : Tensor.concatAxis axis ts = .error .panic := by
  refine post_false (noUB_concatAxis h.lwf axis) ?_
  unfold Tensor.concatAxis
  refine Post.bind' fun _ _ => Post.bind' fun D _ => Post.bind' fun sI _ => ?_
  have key : ∀ no ni (s : Shape), Post (Tensor.unsafeInit (ts.map (·.size)).sum s fun o => do
      let jStride := ni * D
      let st ← forL ts (0, o) fun tensor st => do
        let nAxis ← tensor.shape.dim axis
        let x ← tensor.asSlice
        let o ← forR 0 no st.2 fun j o =>
          forR 0 nAxis o fun k o =>
            forR 0 ni o fun i o => do
              let v ← idx x (j * nAxis * ni + k * ni + i)
              o.write (j * jStride + st.1 + k * ni + i) v
        return (st.1 + nAxis * ni, o)
      return st.2) fun _ => False := by
    intro no ni s
    refine (unsafeInit_size fun b hb => ?_).mono fun _ hs => ?_
    · refine Post.bind (Q := fun st => st.2.length = (ts.map (·.size)).sum) (forL_post hb fun t _ st hst => ?_)
        fun st hst => post_pure hst
      refine Post.bind' fun nA _ => Post.bind' fun x _ => ?_
      refine Post.bind (Q := fun o : Buf α => o.length = (ts.map (·.size)).sum) (forR_post hst fun _ _ h1 =>
        forR_post h1 fun _ _ h2 => forR_post h2 fun _ _ h3 => Post.bind' fun v _ => post_write h3) fun o ho => post_pure ho
    · have := size_lt_any hs
      rw [h.sizes] at this
      omega
  dsimp only
  refine Post.bind' fun no _ => ?_
  split
  · exact Post.bind' fun ni _ => Post.bind' fun s _ => key _ _ _
  · exact Post.bind' fun ni _ => Post.bind' fun s _ => key _ _ _

/-- C27: if the parts together have 2^32 or more elements, `concatenate` panics. -/
theorem C27_too_large {ts : List (Tensor α)} {ps : List (List Nat × List α)} (h : RepAll ts ps)
    (hn : 2 ^ 32 ≤ (ps.map fun p => p.2.length).sum) (axis : Axis) :
    Tensor.concatenateAxis axis ts = .error .panic ∧ Tensor.concatenate ts = .error .panic := by
  refine ⟨?_, concatAxis_too_large h hn 0⟩
  unfold Tensor.concatenateAxis
  split
  · exact res_bind_panic (noUB_axisFromRank _ _) fun _ => concatAxis_too_large h hn _
  · exact concatAxis_too_large h hn 0

theorem concatAxis_rank6 {t : Tensor α} {ds : List Nat} {xs : List α} (h : Rep t ds xs) (h6 : ds.length = 6)
    (ts : List (Tensor α)) : Tensor.concatAxis 0 (t :: ts) = .error .panic := by
  unfold Tensor.concatAxis
  rw [idx_ok (x := t) (by simp), ok_bind]
  refine res_bind_panic (noUB_validate _ _) fun D => ?_
  rw [h.shape, remove_ofDims h.adm.len (by omega), ok_bind]
  dsimp only
  refine res_bind_panic (noUB_sublen _ _ _) fun no => ?_
  have hi : (ofDims (ds.eraseIdx 0)).insert 0 D = .error .panic := by
    unfold Shape.insert
    rw [usub_ok (Nat.zero_le _), ok_bind, rank_ofDims, List.length_eraseIdx, if_pos (by omega), h6]
    unfold Shape.rinsert
    rw [ensure_false (by decide)]
    rfl
  have ha := h.adm.eraseIdx 0
  rw [rank_ofDims]
  split
  · exact res_bind_panic (noUB_sublen _ _ _) fun _ => by rw [hi]; rfl
  · rw [pure_eq_ok, ok_bind, hi]; rfl

/-- C27 for six dimensions: whatever the parts are, joining six-dimensional tensors along the outermost axis panics. -/
theorem C27_rank6_actual {t : Tensor α} {ds : List Nat} {xs : List α} (h : Rep t ds xs) (h6 : ds.length = 6)
    (ts : List (Tensor α)) : Tensor.concatenate (t :: ts) = .error .panic ∧
      Tensor.concatenateAxis none (t :: ts) = .error .panic ∧
      ∀ a : Int, axisIndex ds.length a = some 0 → Tensor.concatenateAxis (some a) (t :: ts) = .error .panic := by
  refine ⟨concatAxis_rank6 h h6 ts, concatAxis_rank6 h h6 ts, fun a ha => ?_⟩
  rw [axis_head (t := t) rfl (by rw [h.rank]; exact axisFromRank_eq h.adm.len ha), concatAxis_rank6 h h6]

example : Tensor.concatenateAxis (some (-6)) [exDeep, exDeep, exDeep] = .error .panic :=
  (C27_rank6_actual exDeep_rep (by rfl) _).2.2 (-6) (by decide)

/-- A vector of `n` sevens. -/
def exLong (n : Nat) : Tensor Nat := ⟨ofDims [n], 0, (List.replicate n 7).length, List.replicate n 7⟩
theorem exLong_rep {n : Nat} (h : n < 4294967296) : Rep (exLong n) [n] (List.replicate n 7) :=
  rep_fresh (ds := [n]) ⟨by simp, by simpa using h⟩ (fits_one h) (by simp)

example : Tensor.concatenateAxis (some 0) [exLong 4294967295, exLong 1] = .error .panic :=
  (C27_too_large (.cons (exLong_rep (n := 4294967295) (by omega)) (.cons (exLong_rep (n := 1) (by omega)) .nil)) (by
    simp only [List.map_cons, List.length_replicate, List.map_nil, List.sum_cons, List.sum_nil]
    omega) _).1

/-! ## C28 -/

theorem axisFromRank_valid {rank : Nat} (hr : rank < 2 ^ 62) {a : Int} {i : Nat} (h : axisIndex rank a = some i) :
    Axis.axisFromRank (some a) rank = .ok i := by
  obtain ⟨h1, h2, _⟩ := axisIndex_bounds h
  rw [axisFromRank_wrapped (by omega) hr (by omega) (by omega), wrappedAxis_valid h]

/-- C28: if the tensors together have 2^32 or more elements, `stack` panics. -/
theorem C28_too_large {ts : List (Tensor α)} {ps : List (List Nat × List α)} (h : RepAll ts ps)
    (hn : 2 ^ 32 ≤ (ps.map fun p => p.2.length).sum) (axis : Axis) :
    Tensor.stackVec axis ts = .error .panic ∧ Tensor.stack ts = .error .panic := by
  have : ∀ axis, Tensor.stackVec axis ts = .error .panic := by
    intro axis
    refine post_false (noUB_stackVec h.lwf axis) ?_
    unfold Tensor.stackVec
    refine Post.bind' fun _ _ => Post.bind' fun x0 _ => Post.bind' fun a _ => Post.bind' fun xLen _ =>
      Post.bind' fun ni _ => Post.bind' fun no _ => Post.bind' fun s _ => ?_
    refine (unsafeInit_size fun b hb => ?_).mono fun _ hs => ?_
    · refine forR_post hb fun j b hb => Post.bind' fun x _ => Post.bind' fun _ _ => Post.bind' fun x _ => ?_
      exact forR_post hb fun _ _ h1 => forR_post h1 fun _ _ h2 => Post.bind' fun v _ => post_write h2
    · have := size_lt_any hs
      rw [h.sizes] at this
      omega
  exact ⟨this axis, this none⟩

/-- C28: five-dimensional tensors cannot be stacked along axis 0, six-dimensional tensors along no axis. -/
theorem C28_deep_actual {t : Tensor α} {ds : List Nat} {xs : List α} (h : Rep t ds xs) (ts : List (Tensor α)) :
    (5 ≤ ds.length → Tensor.stack (t :: ts) = .error .panic ∧
      ∀ a : Int, axisIndex (ds.length + 1) a = some 0 → Tensor.stackVec (some a) (t :: ts) = .error .panic) ∧
    (ds.length = 6 → ∀ a : Int, ∀ k, axisIndex (ds.length + 1) a = some k →
      Tensor.stackVec (some a) (t :: ts) = .error .panic) := by
  have hlen := h.adm.len
  have key : ∀ axis : Axis, ∀ k ≤ ds.length, axis.axisFromRank (ds.length + 1) = .ok k → 5 ≤ ds.length - k ∨ ds.length = 6 →
      Tensor.stackVec axis (t :: ts) = .error .panic := by
    intro axis k hk ha hb
    unfold Tensor.stackVec
    refine res_bind_panic (noUB_stackCheck _) fun _ => ?_
    rw [idx_ok (x := t) (by simp), ok_bind]
    dsimp only
    rw [h.rank, ha, ok_bind]
    refine res_bind_panic (noUB_size _) fun _ => res_bind_panic (noUB_sublen _ _ _) fun _ =>
      res_bind_panic (noUB_udiv _ _) fun _ => ?_
    have : t.shape.insert k (t :: ts).length = .error .panic := by
      unfold Shape.insert
      rw [h.rank, usub_ok hk, ok_bind, C02_rinsert_panics h.wf.shape h.dims _ _ (by omega)]
    rw [this]
    rfl
  have hax : ∀ {a : Int} {k : Nat}, axisIndex (ds.length + 1) a = some k → k ≤ ds.length ∧
      Axis.axisFromRank (some a) (ds.length + 1) = .ok k := by
    intro a k ha
    have := axisIndex_lt ha
    refine ⟨by omega, ?_⟩
    exact axisFromRank_valid (by omega) ha
  refine ⟨fun h5 => ⟨key none 0 (Nat.zero_le _) rfl (by omega), fun a ha => ?_⟩, fun h6 a k ha => ?_⟩
  · exact key _ 0 (Nat.zero_le _) (hax ha).2 (by omega)
  · exact key _ k (hax ha).1 (hax ha).2 (by omega)

example : Tensor.stackVec (some 3) [exDeep, exDeep] = .error .panic :=
  (C28_deep_actual exDeep_rep _).2 rfl 3 3 (by decide)

/-! ## C29 -/

theorem vstack_loop_panic {ts : List (Tensor α)} {t : Tensor α} (ht : t ∈ ts) {ds : List Nat} {xs : List α}
    (h : Rep t ds xs) (h5 : 5 ≤ ds.length) (acc : List (Tensor α)) :
    forL ts acc (fun t acc => do
      let s ← t.shape.insert 0 1
      let y ← t.reshape s
      return acc ++ [y]) = .error .panic := by
  induction ts generalizing acc with
  | nil => cases ht
  | cons u ts ih =>
    rw [forL_step]
    rcases List.mem_cons.1 ht with rfl | ht
    · have : t.shape.insert 0 1 = .error .panic := by
        unfold Shape.insert
        rw [usub_ok (Nat.zero_le _), ok_bind, h.rank]
        exact C02_rinsert_panics h.wf.shape h.dims _ _ (Or.inl (by omega))
      rw [this]
      rfl
    · refine res_bind_panic ?_ fun acc' => ih ht acc'
      exact noUB_bind (noUB_insert _ _ _) fun _ _ => noUB_bind (noUB_reshape _ _) fun _ _ => by simp

/-- C29: `vstack` panics if any of the tensors has five or six dimensions. -/
theorem C29_vstack_deep {ts : List (Tensor α)} {t : Tensor α} (ht : t ∈ ts) {ds : List Nat} {xs : List α}
    (h : Rep t ds xs) (h5 : 5 ≤ ds.length) : Tensor.vstack ts = .error .panic := by
  unfold Tensor.vstack
  rw [vstack_loop_panic ht h h5]
  rfl

example : Tensor.vstack [exMat, exFive] = .error .panic := C29_vstack_deep (t := exFive) (by simp) exFive_rep (by simp)

theorem vstack_loop_rep {ts : List (Tensor α)} {ps : List (List Nat × List α)} (h : RepAll ts ps)
    (h5 : ∀ p ∈ ps, p.1.length < 5) (acc : List (Tensor α)) :
    ∃ us, forL ts acc (fun t acc => do
      let s ← t.shape.insert 0 1
      let y ← t.reshape s
      return acc ++ [y]) = .ok (acc ++ us) ∧ RepAll us (ps.map fun p => (1 :: p.1, p.2)) := by
  induction h generalizing acc with
  | nil => exact ⟨[], by simp [forL], .nil⟩
  | cons h1 _ ih =>
    rename_i t ds xs ts ps _
    rw [forL_step]
    have hl : ds.length < 5 := h5 (ds, xs) (by simp)
    have ha : Adm (1 :: ds) := ⟨by simp; omega, fun d hd => by
      rcases List.mem_cons.1 hd with rfl | hd
      · omega
      · exact h1.adm.lt d hd⟩
    have hf : Fits (1 :: ds) := fits_cons.2 ⟨by have := h1.fits.prod_lt; omega, h1.fits⟩
    obtain ⟨u, e, r⟩ := h1.reshape ha hf (by simp)
    rw [h1.shape, insert_ofDims (by omega) (Nat.zero_le _) (by omega), ok_bind, asU32_of_lt (by omega)]
    simp only [List.insertIdx_zero]
    rw [e, ok_bind, pure_eq_ok, ok_bind]
    obtain ⟨us, e2, r2⟩ := ih (fun p hp => h5 p (List.mem_cons_of_mem _ hp)) (acc ++ [u])
    refine ⟨u :: us, ?_, .cons r r2⟩
    rw [e2]
    simp

/-- C29: `vstack` of tensors of different shapes panics. -/
theorem C29_vstack_rejects {ts : List (Tensor α)} {ps : List (List Nat × List α)} (h : RepAll ts ps)
    {p q : List Nat × List α} (hp : p ∈ ps) (hq : q ∈ ps) (hne : p.1 ≠ q.1) : Tensor.vstack ts = .error .panic := by
  by_cases h5 : ∀ p ∈ ps, p.1.length < 5
  · obtain ⟨us, e, r⟩ := vstack_loop_rep h h5 []
    unfold Tensor.vstack
    rw [e, ok_bind, List.nil_append]
    obtain ⟨u, hu, ru⟩ := r.mem (List.mem_map.2 ⟨p, hp, rfl⟩)
    obtain ⟨v, hv, rv⟩ := r.mem (List.mem_map.2 ⟨q, hq, rfl⟩)
    clear h e
    cases ps with
    | nil => cases hp
    | cons p0 ps =>
      rw [List.map_cons] at r
      cases r with
      | cons r0 _ =>
      refine C27_rejects (k := 0) rfl r0 hu hv ru rv ?_ ?_
      · simp [axisIndex]
      · by_cases hl : p.1.length = q.1.length
        · right
          exact Classical.byContradiction fun hc => hne (List.ext_getElem? fun i => Classical.byContradiction fun hi =>
            hc ⟨i + 1, by omega, by simpa using hi⟩)
        · left; simpa using hl
  · obtain ⟨p, hp, h5⟩ : ∃ p ∈ ps, 5 ≤ p.1.length := by
      refine Classical.byContradiction fun hc => h5 fun p hp => ?_
      exact Classical.byContradiction fun h => hc ⟨p, hp, by omega⟩
    obtain ⟨u, hu, ru⟩ := h.mem hp
    exact C29_vstack_deep hu ru h5

/-- C29: `hstack` of tensors with different ranks, or that differ in a dimension other than the one joined along (axis 0
for vectors, axis 1 otherwise), panics. -/
theorem C29_hstack_rejects {t0 : Tensor α} {ts : List (Tensor α)} {d0 : List Nat} {e0 : List α} (h0 : Rep t0 d0 e0)
    {x y : Tensor α} {dx dy : List Nat} {ex ey : List α} (hx : x ∈ t0 :: ts) (hy : y ∈ t0 :: ts) (hrx : Rep x dx ex)
    (hry : Rep y dy ey)
    (hbad : dx.length ≠ dy.length ∨ ∃ i, i ≠ (if d0.length = 1 then 0 else 1) ∧ dx[i]? ≠ dy[i]?) :
    Tensor.hstack (t0 :: ts) = .error .panic := by
  by_cases hz : d0 = []
  · subst hz; exact (C29_scalars_panic h0 ts).1
  have hlen := List.length_pos_iff.2 hz
  unfold Tensor.hstack
  rw [idx_ok (x := t0) (by simp), ok_bind, h0.rank]
  split
  · rename_i h1
    rw [if_pos h1] at hbad
    exact C27_rejects (t0 := t0) rfl h0 hx hy hrx hry (k := 0) (by rw [h1]; rfl) hbad
  · rename_i h1
    rw [if_neg h1] at hbad
    exact C27_rejects (t0 := t0) rfl h0 hx hy hrx hry (k := 1) (by simp [axisIndex]; omega) hbad

/-- C29: `dstack` of tensors of different shapes panics. -/
theorem C29_dstack_rejects {t0 : Tensor α} {ts : List (Tensor α)} {d0 : List Nat} {e0 : List α} (h0 : Rep t0 d0 e0)
    {x : Tensor α} {dx : List Nat} {ex : List α} (hx : x ∈ ts) (hrx : Rep x dx ex) (hne : dx ≠ d0) :
    Tensor.dstack (t0 :: ts) = .error .panic := by
  unfold Tensor.dstack
  rw [idx_ok (x := t0) (by simp), ok_bind]
  have hs : t0.shape ≠ x.shape := by
    intro he
    apply hne
    rw [← hrx.toDims, ← he, h0.toDims]
  have hd : ∀ z : Tensor α, NoUB (Tensor.dstackArg z) := by
    intro z
    unfold Tensor.dstackArg
    split
    · simp
    · exact noUB_bind (by simp) fun _ _ => noUB_reshape _ _
    · exact noUB_bind (noUB_rows _) fun _ _ => noUB_bind (noUB_cols _) fun _ _ => noUB_bind (by simp) fun _ _ => noUB_reshape _ _
    · simp
  have key : ∀ (l : List (Tensor α)) (acc : List (Tensor α)), x ∈ l → forL l acc (fun x acc => do
      ensure (t0.shape = x.shape)
      let y ← Tensor.dstackArg x
      return acc ++ [y]) = .error .panic := by
    intro l
    induction l with
    | nil => intro _ h; cases h
    | cons z l ih =>
      intro acc h
      rw [forL_step]
      rcases List.mem_cons.1 h with rfl | h
      · rw [ensure_false hs]; rfl
      · refine res_bind_panic ?_ fun acc' => ih acc' h
        exact noUB_bind (by simp) fun _ _ => noUB_bind (hd _) fun _ _ => by simp
  unfold Tensor.dstackArgs
  rw [key _ _ (List.mem_cons_of_mem _ hx)]
  rfl

def exTall : Tensor Nat := ⟨ofDims [3, 1], 0, 3, [7, 8, 9]⟩
theorem exTall_rep : Rep exTall [3, 1] [7, 8, 9] :=
  rep_fresh (ds := [3, 1]) (xs := [7, 8, 9]) ⟨by simp, by simp⟩ (fits_of_pos (by simp) (by simp)) rfl

example : Tensor.hstack [exMat, exTall] = .error .panic ∧ Tensor.vstack [exMat, exTall] = .error .panic ∧
    Tensor.dstack [exMat, exTall] = .error .panic := by
  refine ⟨C29_hstack_rejects exMat_rep (x := exMat) (y := exTall) (by simp) (by simp) exMat_rep exTall_rep (Or.inr ⟨0, by simp, by simp⟩), ?_,
    C29_dstack_rejects exMat_rep (x := exTall) (by simp) exTall_rep (by simp)⟩
  exact C29_vstack_rejects (.cons exMat_rep (.cons exTall_rep .nil)) (p := ([2, 3], _)) (q := ([3, 1], _)) (by simp; rfl) (by simp; rfl) (by simp)

/-! ## C30 -/

/-- C30: what a number `n` of equal sections gives for an axis of length `d`: if `d / n` divides `d`, pieces of `d / n`
coordinates each, `d / (d / n)` of them, which is `n` only if `n` divides `d`. In every other case the call panics
(`C30_split_equal_uneven`). -/
theorem C30_split_equal_actual {t : Tensor α} {pre post : List Nat} {d : Nat} {xs : List α} (h : Rep t (pre ++ d :: post) xs)
    (hne : xs ≠ []) {a : Int} (ha : axisIndex (pre ++ d :: post).length a = some pre.length) (n : Nat)
    (hn : (d / n) ∣ d) :
    ∃ ts, t.splitAxis (some a) (.splitEqual n) = .ok ts ∧ ts.length = d / (d / n) ∧
      IsPieces pre d post xs ts ((List.range (d / (d / n))).map fun k => (k * (d / n), (k + 1) * (d / n))) := by
  have hxp : 0 < (pre ++ d :: post).prod := by rw [← h.length]; exact List.length_pos_iff.2 hne
  have hd : 0 < d := (pos_mid hxp).2.1
  have hdn : 0 < d / n := Nat.pos_of_dvd_of_pos hn hd
  have hn0 : n ≠ 0 := fun h => by subst h; simp at hdn
  have hm : d / (d / n) ∣ d := ⟨d / n, by rw [Nat.mul_comm]; exact (Nat.mul_div_cancel' hn).symm⟩
  have hm0 : d / (d / n) ≠ 0 := Nat.pos_iff_ne_zero.1 (Nat.div_pos (Nat.div_le_self _ _) hdn)
  have hq : d / (d / (d / n)) = d / n := Nat.div_div_self hn (by omega)
  obtain ⟨ts, e, l, hp⟩ := C30_split_equal h hne ha (d / (d / n)) hm
  rw [hq] at hp
  refine ⟨ts, ?_, l, hp⟩
  rw [← e]
  have hs : Tensor.sectionCuts d (.splitEqual n) = Tensor.sectionCuts d (.splitEqual (d / (d / n))) := by
    simp only [Tensor.sectionCuts]
    rw [udiv_ok hn0, udiv_ok hm0, hq]
  have hdim : t.shape.dim pre.length = Except.ok d := dim_eq h.wf.shape (by rw [h.toDims]; simp)
  unfold Tensor.splitAxis
  rw [h.rank, axisFromRank_eq h.adm.len ha, ok_bind, ok_bind, hdim, ok_bind, ok_bind, hs]

example : ∃ ts, exSix.splitAxis (some 0) (.splitEqual 4) = .ok ts ∧ ts.length = 6 ∧
    IsPieces [] 6 [] [0, 1, 2, 3, 4, 5] ts [(0, 1), (1, 2), (2, 3), (3, 4), (4, 5), (5, 6)] :=
  C30_split_equal_actual (pre := []) (post := []) (rep_fresh (ds := [6]) (xs := [0, 1, 2, 3, 4, 5]) ⟨by simp, by simp⟩
    (fits_of_pos (by simp) (by simp)) rfl) (by simp) (by decide) 4 (by decide)

/-- C30: an axis of length 0 cannot be cut anywhere but at 0. -/
theorem C30_zero_axis_rejects {t : Tensor α} {pre post : List Nat} {xs : List α} (h : Rep t (pre ++ 0 :: post) xs)
    {a : Int} (ha : axisIndex (pre ++ 0 :: post).length a = some pre.length) (cuts : List Nat) (hc : ∃ c ∈ cuts, c ≠ 0) :
    t.splitAxis (some a) (.splitCuts cuts) = .error .panic := by
  have hx : xs = [] := List.length_eq_zero_iff.1 (by rw [h.length]; simp)
  subst hx
  have hdim : t.shape.dim pre.length = Except.ok 0 := dim_eq h.wf.shape (by rw [h.toDims]; simp)
  have hc' : ∃ c ∈ cuts ++ [0], c ≠ 0 := by
    obtain ⟨c, h1, h2⟩ := hc
    exact ⟨c, List.mem_append_left _ h1, h2⟩
  generalize hcs : cuts ++ [0] = cs at hc'
  unfold Tensor.splitAxis
  rw [h.rank, axisFromRank_eq h.adm.len ha, ok_bind, hdim, ok_bind]
  simp only [Tensor.sectionCuts, pure_eq_ok, ok_bind]
  rw [hcs]
  split
  · rename_i hp
    have : pre = [] := List.length_eq_zero_iff.1 hp
    subst this
    have hsub : ∀ n, n ≠ 0 → t.subslice 0 n = .error .panic := by
      intro n hn
      unfold Tensor.subslice
      simp only [wrap_checked]
      rw [List.length_nil] at hdim
      rw [hdim, ok_bind]
      rw [ensure_false (by omega)]
      rfl
    clear hcs
    induction cs with
    | nil => obtain ⟨c, h, _⟩ := hc'; cases h
    | cons c cs ih =>
      unfold Tensor.splitOuter
      by_cases e : c = 0
      · subst e
        rw [if_neg (by simp)]
        apply ih
        obtain ⟨c, h1, h2⟩ := hc'
        rcases List.mem_cons.1 h1 with rfl | h1
        · exact absurd rfl h2
        · exact ⟨c, h1, h2⟩
      · rw [if_pos e, usub_ok (Nat.zero_le _), ok_bind, Nat.sub_zero, hsub c e]
        rfl
  · unfold Tensor.splitByAxis
    by_cases h0 : 0 ∈ pre ++ post
    · refine res_bind_panic (noUB_sublen _ _ _) fun no => ?_
      rw [h.rank, if_pos (by simp)]
      refine res_bind_panic (noUB_sublen _ _ _) fun ni => ?_
      dsimp only
      rw [hdim, ok_bind, h.elems, ok_bind]
      exact splitInner_zero h h0 _ _ _ _ cs 0 hc'
    · have hpos : ∀ l : List Nat, 0 ∉ l → 0 < l.prod := by
        intro l
        induction l with
        | nil => simp
        | cons d l ih =>
          intro hl
          rw [List.prod_cons]
          exact Nat.mul_pos (Nat.pos_of_ne_zero fun h => hl (by simp [h])) (ih fun h => hl (List.mem_cons_of_mem _ h))
      refine bind_panic (noUB_sublen _ _ _) fun no hno => ?_
      have hno' := sublen_eq_ok h.wf.shape (Nat.zero_le _) (by rw [h.rank]; simp) hno
      rw [h.toDims] at hno'
      have hno0 : 0 < no := by
        rw [hno', Nat.sub_zero, List.drop_zero, List.take_left' rfl]
        exact hpos pre fun h => h0 (List.mem_append_left _ h)
      rw [h.rank, if_pos (by simp)]
      refine bind_panic (noUB_sublen _ _ _) fun ni hni => ?_
      have hni' := sublen_eq_ok h.wf.shape (by simp) (by rw [h.rank]) hni
      rw [h.toDims] at hni'
      have hni0 : 0 < ni := by
        have : List.drop (pre.length + 1) (pre ++ 0 :: post) = post := by rw [List.drop_append]; simp
        rw [hni', this, List.take_of_length_le (by simp; omega)]
        exact hpos post fun h => h0 (List.mem_append_right _ h)
      dsimp only
      rw [hdim, ok_bind, h.elems, ok_bind]
      have hpiece : ∀ c, c ≠ 0 → Tensor.splitPiece t pre.length no ni 0 [] 0 c = .error .panic := by
        intro c hc
        refine post_false (noUB_splitPiece _ _ _ _ _ _ _ _) ?_
        unfold Tensor.splitPiece
        refine Post.bind' fun _ _ => Post.bind' fun _ _ => Post.bind' fun _ _ => Post.bind' fun s _ => ?_
        unfold Tensor.unsafeInit
        refine Post.bind' fun b hb => ?_
        exfalso
        obtain ⟨_, _, e1⟩ := forR_ok_all hb 0 (Nat.zero_le _) hno0
        obtain ⟨_, _, e2⟩ := forR_ok_all e1 0 (Nat.zero_le _) (by omega)
        obtain ⟨_, _, e3⟩ := forR_ok_all e2 0 (Nat.le_refl _) hni0
        obtain ⟨v, e4, _⟩ := bind_eq_ok.1 e3
        have := idx_eq_ok.1 e4
        simp at this
      clear hcs
      induction cs with
      | nil => obtain ⟨c, h, _⟩ := hc'; cases h
      | cons c cs ih =>
        unfold Tensor.splitInner
        by_cases e : c = 0
        · subst e
          rw [if_pos rfl]
          apply ih
          obtain ⟨c, h1, h2⟩ := hc'
          rcases List.mem_cons.1 h1 with rfl | h1
          · exact absurd rfl h2
          · exact ⟨c, h1, h2⟩
        · rw [if_neg e, hpiece c e]
          rfl

example : exNoCol3.splitAxis (some 1) (.splitCuts [0, 2]) = .error .panic :=
  C30_zero_axis_rejects (pre := [3]) (post := []) exNoCol3_rep (by decide) _ ⟨2, by simp, by simp⟩

/-! ## C31 -/

/-- C31: `unstack` of a tensor without elements along an axis other than 0: no pieces if the axis has length 0, and a panic
if another dimension is 0. (`Fits pre`: the dimensions in front multiply to less than 2^32.) -/
theorem C31_unstack_empty {t : Tensor α} {pre post : List Nat} {d : Nat} (h : Rep t (pre ++ d :: post) []) (hp : pre ≠ [])
    {a : Int} (ha : axisIndex (pre ++ d :: post).length a = some pre.length) :
    (d = 0 → Fits pre → t.unstack (some a) = .ok []) ∧ (d ≠ 0 → t.unstack (some a) = .error .panic) := by
  have hl := axisIndex_lt ha
  have hk : axisIndex (pre ++ d :: post).length (pre.length : Int) = some pre.length := by
    simp only [axisIndex]; rw [if_pos (by omega)]; simp
  unfold Tensor.unstack
  rw [h.rank, axisFromRank_eq h.adm.len ha, ok_bind]
  dsimp only
  rw [if_neg (by simpa using hp)]
  constructor
  · rintro rfl hf
    exact (C30_zero_axis h hf hk [] (by simp) 0).1
  · intro hd
    refine C30_empty_violates h ?_ (by omega) hk _
    have h0 : (pre ++ d :: post).prod = 0 := by rw [← h.length]; rfl
    have := List.prod_eq_zero_iff.1 h0
    simp only [List.mem_append, List.mem_cons] at this ⊢
    rcases this with h | h | h
    · exact Or.inl h
    · exact absurd h.symm hd
    · exact Or.inr h

example : exNoCol3.unstack (some 1) = .ok [] :=
  (C31_unstack_empty (pre := [3]) (post := []) exNoCol3_rep (by simp) (by decide)).1 rfl (fits_one (by simp))

/-! ## C32 -/

/-- C32: a tensor with a dimension 0 cannot be tiled, whatever the multiples are. -/
theorem C32_empty_violates {t : Tensor α} {ds : List Nat} {xs : List α} (h : Rep t ds xs) (h0 : 0 ∈ ds) {mt : Tensor Nat}
    {es ms : List Nat} (hm : Rep mt es ms) : Tensor.tile t mt = .error .panic := by
  unfold Tensor.tile
  rw [asVec_eq h.wf.shape, ok_bind, h.toDims, hm.elems, ok_bind, h.size_eq, ok_bind, h.elems, ok_bind, h.rank]
  refine res_bind_panic (noUB_len _) fun ml => ?_
  dsimp only
  obtain ⟨k, hk, hk0⟩ := List.mem_iff_getElem.1 (List.mem_reverse.2 h0)
  rw [List.length_reverse] at hk
  have hloop := forR_noUB (lo := 0) (hi := max ds.length ml) (s := ([] : List Nat)) (body := fun i vec => do
      let tileDim ← if i < ds.length then idx ds.reverse i else pure 1
      let repeatDim ← if i < ml then idx ms.reverse i else pure 1
      return vec ++ [tileDim * repeatDim]) (fun i vec => k < i → 0 ∈ vec) (by omega) (by
    intro i vec _ hi hP
    refine ⟨by dsimp only; noub, fun vec' hv h1 => ?_⟩
    rw [← ite_bind'] at hv
    obtain ⟨a, ha, hv⟩ := bind_eq_ok.1 hv
    dsimp only at hv
    rw [← ite_bind'] at hv
    obtain ⟨b, hb, hv⟩ := bind_eq_ok.1 hv
    cases hv
    by_cases hki : k < i
    · exact List.mem_append_left _ (hP hki)
    · have : i = k := by omega
      subst this
      rw [if_pos hk, idx_lt (by simpa using hk), hk0] at ha
      cases ha
      simp)
  refine bind_panic hloop.1 fun vec hv => ?_
  have hz : 0 ∈ vec := hloop.2 vec hv (by omega) (by omega)
  rcases ofVec_cases vec.reverse with ⟨_, hpos, _⟩ | hp
  · have := hpos 0 (List.mem_reverse.2 hz)
    omega
  · rw [hp]; rfl

example : Tensor.tile exNoCol3 exMul23 = .error .panic := C32_empty_violates exNoCol3_rep (by simp) exMul23_rep

theorem tileRec_keeps (x : List α) (xs ms : List Nat) {L : Nat} (j xOff xLen : Nat) (st : Buf α × Nat)
    (h : st.1.length = L) : Post (Tensor.tileRec x xs ms j xOff xLen st) fun st => st.1.length = L := by
  induction j generalizing xOff xLen st with
  | zero =>
    unfold Tensor.tileRec
    rw [← ite_bind']
    refine Post.bind' fun r _ => forR_post h fun _ st hst => ?_
    exact Post.bind (Q := fun o : Buf α => o.length = L) (forR_post hst fun _ _ h1 => Post.bind' fun v _ => post_write h1)
      fun o ho => post_pure ho
  | succ j ih =>
    unfold Tensor.tileRec
    rw [← ite_bind']
    refine Post.bind' fun r _ => forR_post h fun _ st hst => post_ite (fun _ => ?_) fun _ => ih _ _ _ hst
    exact Post.bind' fun d _ => forR_post hst fun _ st h1 => ih _ _ _ h1

/-- C32: a result with 2^32 or more elements, or more than six multiples, panics. -/
theorem C32_too_large {t : Tensor α} {ds : List Nat} {xs : List α} (h : Rep t ds xs) {mt : Tensor Nat} {ms : List Nat}
    (hm : Rep mt [ms.length] ms) (hbig : 2 ^ 32 ≤ ms.prod * ds.prod ∨ 6 < ms.length) : Tensor.tile t mt = .error .panic := by
  refine post_false (noUB_tile h.wf.loose hm.wf.loose (by rw [hm.rank]; rfl)) ?_
  have hlen : mt.shape.len = Except.ok ms.length := by
    unfold Shape.len
    exact dim_eq hm.wf.shape (by rw [hm.toDims]; rfl)
  unfold Tensor.tile
  rw [asVec_eq h.wf.shape, ok_bind, h.toDims, hm.elems, ok_bind, h.size_eq, ok_bind, h.elems, ok_bind, hlen, ok_bind, h.rank]
  have ht := tile_shape (ds := ds) (ms := ms) (N := max ds.length ms.length)
  dsimp only at ht ⊢
  rw [ht, ok_bind]
  refine Post.bind' fun s hs => ?_
  refine (unsafeInit_size fun b hb => ?_).mono fun _ hsz => ?_
  · refine Post.bind' fun j _ => ?_
    exact (tileRec_keeps _ _ _ _ _ _ _ hb).bind fun st hst => post_pure hst
  · rcases hbig with hbig | hbig
    · have := size_lt_any hsz
      rw [foldl_mul_eq, Nat.one_mul] at this
      omega
    · rw [ofVec_panic (by simp; omega)] at hs
      cases hs

example : Tensor.tile (exLong 65536) (⟨ofDims [1], 0, 1, [65536]⟩ : Tensor Nat) = .error .panic :=
  C32_too_large (exLong_rep (n := 65536) (by omega)) (ms := [65536])
    (rep_fresh (ds := [1]) (xs := [65536]) ⟨by simp, by simp⟩ (fits_of_pos (by simp) (by simp)) rfl) (Or.inl (by simp))

/-- C32: no multiples for a scalar panics. -/
theorem C32_nothing {t : Tensor α} {xs : List α} (h : Rep t [] xs) {mt : Tensor Nat} (hm : Rep mt [0] []) :
    Tensor.tile t mt = .error .panic := by
  have hlen : mt.shape.len = Except.ok 0 := by
    unfold Shape.len
    exact dim_eq hm.wf.shape (by rw [hm.toDims]; rfl)
  unfold Tensor.tile
  rw [asVec_eq h.wf.shape, ok_bind, h.toDims, hm.elems, ok_bind, h.size_eq, ok_bind, h.elems, ok_bind, hlen, ok_bind, h.rank]
  rfl

example : Tensor.tile (⟨ofDims [], 0, 1, [4]⟩ : Tensor Nat) (⟨ofDims [0], 0, 0, []⟩ : Tensor Nat) = .error .panic :=
  C32_nothing (rep_fresh (ds := []) (xs := [4]) ⟨by simp, by simp⟩ fits_nil rfl)
    (rep_fresh (ds := [0]) (xs := []) ⟨by simp, by simp⟩ (fits_one (by simp)) rfl)

end Essay
