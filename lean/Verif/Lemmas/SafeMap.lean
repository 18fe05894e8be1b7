import Verif.Lemmas.SafeOps

/-! # Absence of undefined behaviour of the functions taking closures (no claims here) -/

namespace Essay

open Shape

section
variable {σ T U V W S S1 : Type}

theorem init_safe (s : Shape) {f : Exec σ V} (hf : ∀ st, NoUB (f.run st)) : SafeE (Tensor.init s f) fun _ => True := by
  unfold Tensor.init
  refine SafeE.lift_bind (noUB_size _) fun n _ => ?_
  refine unsafeInitM_safe _ cover1 fun b hb => ?_
  refine forR_hasE hb fun i b V _ hi hb => ?_
  exact (safeE_closure hf).bind fun v _ => safeE_lift (write_safe hb hi v)

theorem initRindexed_safe (s : Shape) {f : List Nat → Exec σ V} (hf : ∀ i st, NoUB ((f i).run st)) :
    SafeE (Tensor.initRindexed s f) fun _ => True := by
  unfold Tensor.initRindexed
  refine SafeE.lift_bind (noUB_size _) fun n _ => ?_
  refine unsafeInitM_safe (fun j => j < n) (fun _ h => h) fun b hb => ?_
  refine SafeE.bind (Q := fun st => Has n (fun j => j < n) st.1) ?_ fun st hst => safeE_pure hst
  refine forR_safeE (fun i (st : Buf V × List Nat) => Has n (fun j => j < i) st.1) (Nat.zero_le _) (hb.mono fun j hj => by omega) ?_
  intro i st _ hi hst
  refine (safeE_closure (hf _)).bind fun v _ => ?_
  refine (safeE_lift (write_safe hst hi v)).bind fun o ho => ?_
  refine SafeE.lift_bind (noUB_nextIndex _ _) fun l _ => ?_
  exact safeE_pure (ho.mono fun j hj => by omega)

theorem map_safe {a : Tensor U} (h : a.LWF) {f : U → Exec σ V} (hf : ∀ x st, NoUB ((f x).run st)) :
    SafeE (a.map f) fun _ => True := by
  unfold Tensor.map Tensor.mapShape
  refine unsafeInitM_safe _ cover1 fun b hb => ?_
  refine SafeE.lift_bind (noUB_asSlice h) fun xs _ => ?_
  refine forR_hasE hb fun i b V _ hi hb => ?_
  refine SafeE.lift_bind (noUB_idx _ _) fun x _ => ?_
  exact (safeE_closure (hf x)).bind fun v _ => safeE_lift (write_safe hb hi v)

theorem writeRow_safe {L : Nat} {W : Nat → Prop} {b : Buf V} (hb : Has L W b) {base : Nat} {row : List V}
    (h : base + row.length ≤ L) :
    SafeR (Tensor.writeRow b base row) (Has L fun j => W j ∨ ∃ k, k < row.length ∧ j = base + k) := by
  unfold Tensor.writeRow
  have := forR_has (lo := 0) (hi := row.length) (W := fun k j => j = base + k) hb (body := fun j o => do
    let v ← idx row j
    o.write (base + j) v) fun i b V _ hi hb => SafeR.bind' (noUB_idx _ _) fun v _ => write_safe hb (by omega) v
  refine this.mono fun b hb => hb.mono fun j hj => ?_
  rcases hj with hj | ⟨k, hk, rfl⟩
  · exact Or.inl hj
  · exact Or.inr ⟨k, by omega, hk, rfl⟩

theorem mapRow_safe {a : Tensor U} (h : a.LWF) {N : Nat} {f : List U → Exec σ (Vector V N)}
    (hf : ∀ x st, NoUB ((f x).run st)) : SafeE (a.mapRow N f) fun _ => True := by
  have hb := h.bound
  have key : ∀ s, SafeE (Tensor.mapRowShape s a N f) fun _ => True := fun s => by
    unfold Tensor.mapRowShape
    refine SafeE.lift_bind (noUB_cols _) fun c _ => ?_
    refine SafeE.lift_bind (noUB_udiv _ _) fun n hn => ?_
    obtain ⟨hc, rfl⟩ := udiv_eq_ok.1 hn
    refine unsafeInitM_safe _ ?_ fun b hb => forR_hasE (W := fun i j => ∃ k, k < N ∧ j = i * N + k) hb ?_
    · intro j hj
      rw [Nat.mul_comm] at hj
      obtain ⟨i, k, h1, h2, h3⟩ := exists_mul_add hj
      exact Or.inr ⟨i, by omega, h1, k, h2, h3⟩
    · intro i b V _ hi hb
      have h1 : (i + 1) * c ≤ a.size := Nat.le_trans (Nat.mul_le_mul_right c hi) (Nat.div_mul_le_self _ _)
      rw [Nat.succ_mul] at h1
      refine SafeE.lift_bind (noUB_rawSlice (by omega)) fun xs _ => ?_
      refine (safeE_closure (hf xs)).bind fun v _ => safeE_lift ?_
      have h2 : (i + 1) * N ≤ a.size / c * N := Nat.mul_le_mul_right N hi
      rw [Nat.succ_mul, Nat.mul_comm (a.size / c)] at h2
      simpa using writeRow_safe hb (base := i * N) (row := v.toList) (by simpa using h2)
  unfold Tensor.mapRow
  split
  · exact SafeE.lift_bind (noUB_rremove _ _) fun s _ => key s
  · exact SafeE.lift_bind (noUB_withCols _ _) fun s _ => key s

theorem mapExpand_safe {a : Tensor U} (h : a.LWF) {N : Nat} {f : U → Exec σ (Vector V N)}
    (hf : ∀ x st, NoUB ((f x).run st)) : SafeE (a.mapExpand N f) fun _ => True := by
  unfold Tensor.mapExpand Tensor.mapExpandShape
  refine SafeE.lift_bind (noUB_rinsert _ _ _) fun s _ => ?_
  refine unsafeInitM_safe (fun j => False ∨ ∃ i, 0 ≤ i ∧ i < a.size ∧ ∃ k, k < N ∧ j = i * N + k) ?_ fun b hb => ?_
  · intro j hj
    rw [Nat.mul_comm] at hj
    obtain ⟨i, k, h1, h2, h3⟩ := exists_mul_add hj
    exact Or.inr ⟨i, by omega, h1, k, h2, h3⟩
  · refine SafeE.lift_bind (noUB_asSlice h) fun xs _ => ?_
    refine forR_hasE (W := fun i j => ∃ k, k < N ∧ j = i * N + k) hb fun i b V _ hi hb => ?_
    refine SafeE.lift_bind (noUB_idx _ _) fun x _ => ?_
    refine (safeE_closure (hf x)).bind fun v _ => safeE_lift ?_
    have h2 : (i + 1) * N ≤ a.size * N := Nat.mul_le_mul_right N hi
    rw [Nat.succ_mul, Nat.mul_comm a.size] at h2
    simpa using writeRow_safe hb (base := i * N) (row := v.toList) (by simpa using h2)

/-- Two nested loops writing at `n * inner + k`. -/
theorem cover2 {batch inner : Nat} : ∀ j, j < batch * inner →
    False ∨ ∃ n, 0 ≤ n ∧ n < batch ∧ ∃ k, 0 ≤ k ∧ k < inner ∧ j = n * inner + k := fun j hj => by
  obtain ⟨n, k, h1, h2, h3⟩ := exists_mul_add hj
  exact Or.inr ⟨n, by omega, h1, k, by omega, h2, h3⟩

theorem map2_safe {a : Tensor T} {b : Tensor U} (ha : a.LWF) (hb : b.LWF) {f : T → U → Exec σ V}
    (hf : ∀ x y st, NoUB ((f x y).run st)) : SafeE (a.map2 b f) fun _ => True := by
  unfold Tensor.map2 Tensor.map2Shape
  refine SafeE.lift_bind (noUB_broadcastTo _ _) fun s _ => ?_
  refine SafeE.lift_bind (noUB_udiv _ _) fun n _ => ?_
  refine SafeE.lift_bind (noUB_ensure _) fun _ he => ?_
  have he := ensure_eq_ok.1 he
  rw [← he]
  refine unsafeInitM_safe _ cover2 fun o ho => forR_hasE ho fun i o V _ hi ho => ?_
  refine SafeE.lift_bind (noUB_asWrapSlice ha _) fun as _ => ?_
  refine SafeE.lift_bind (noUB_asWrapSlice hb _) fun bs _ => ?_
  refine forR_hasE ho fun k o V _ hk ho => ?_
  refine SafeE.lift_bind (noUB_idx _ _) fun x _ => ?_
  refine SafeE.lift_bind (noUB_idx _ _) fun y _ => ?_
  exact (safeE_closure (hf x y)).bind fun v _ => safeE_lift (write_safe ho (lt_of_lt_mul hi hk) v)

theorem map3_safe {a : Tensor T} {b : Tensor U} {c : Tensor V} (ha : a.LWF) (hb : b.LWF) (hc : c.LWF)
    {f : T → U → V → Exec σ W} (hf : ∀ x y z st, NoUB ((f x y z).run st)) : SafeE (a.map3 b c f) fun _ => True := by
  unfold Tensor.map3 Tensor.map3Shape
  refine SafeE.lift_bind (noUB_broadcastTo _ _) fun s _ => ?_
  refine SafeE.lift_bind (noUB_broadcastTo _ _) fun s _ => ?_
  refine SafeE.lift_bind (noUB_udiv _ _) fun n _ => ?_
  refine SafeE.lift_bind (noUB_ensure _) fun _ he => ?_
  have he := ensure_eq_ok.1 he
  rw [← he]
  refine unsafeInitM_safe _ cover2 fun o ho => forR_hasE ho fun i o V _ hi ho => ?_
  refine SafeE.lift_bind (noUB_asWrapSlice ha _) fun as _ => ?_
  refine SafeE.lift_bind (noUB_asWrapSlice hb _) fun bs _ => ?_
  refine SafeE.lift_bind (noUB_asWrapSlice hc _) fun cs _ => ?_
  refine forR_hasE ho fun k o V _ hk ho => ?_
  refine SafeE.lift_bind (noUB_idx _ _) fun x _ => ?_
  refine SafeE.lift_bind (noUB_idx _ _) fun y _ => ?_
  refine SafeE.lift_bind (noUB_idx _ _) fun z _ => ?_
  exact (safeE_closure (hf x y z)).bind fun v _ => safeE_lift (write_safe ho (lt_of_lt_mul hi hk) v)

/-! ### folds -/

/-- A loop on a state without a block whose body is free of undefined behaviour. -/
theorem forR_plain {β : Type} {lo hi : Nat} {s : β} {body : Nat → β → Exec σ β}
    (h : ∀ i s, SafeE (body i s) fun _ => True) : SafeE (forR lo hi s body) fun _ => True :=
  forR_closure fun i s st => (h i s st).1

theorem fold_safe {a : Tensor U} (h : a.LWF) {i : S} {f : S → U → Exec σ S} {g : S → V}
    (hf : ∀ x y st, NoUB ((f x y).run st)) : SafeE (a.fold i f g) fun _ => True := by
  unfold Tensor.fold
  refine SafeE.lift_bind (noUB_asSlice h) fun xs _ => ?_
  refine (forR_plain fun i s => ?_).bind fun v _ => safeE_lift (safeR_true (noUB_new _))
  exact SafeE.lift_bind (noUB_idx _ _) fun x _ => safeE_closure (hf s x)

theorem reduce_safe {a : Tensor T} (h : a.LWF) {f : T → T → Exec σ T}
    (hf : ∀ x y st, NoUB ((f x y).run st)) : SafeE (a.reduce f) fun _ => True := by
  unfold Tensor.reduce
  refine SafeE.lift_bind (noUB_asSlice h) fun xs _ => ?_
  refine SafeE.lift_bind (noUB_idx _ _) fun x _ => ?_
  refine (forR_plain fun i s => ?_).bind fun v _ => safeE_lift (safeR_true (noUB_new _))
  exact SafeE.lift_bind (noUB_idx _ _) fun x _ => safeE_closure (hf s x)

theorem normAxis_post {a : Int} {n : Nat} : Post (Axis.normAxis a n) fun i => i < n := by
  unfold Axis.normAxis
  exact Post.bind' fun _ _ => Post.bind' fun _ _ => Post.bind' fun _ he => post_pure (ensure_eq_ok.1 he)

theorem ofVec_post {l : List Nat} (hl : ∀ d ∈ l, d < 4294967296) :
    Post (ofVec l) fun s => ∀ n, s.size = Except.ok n → n = l.prod := by
  intro s hs n hn
  rcases ofVec_cases l with ⟨h6, _, h⟩ | h <;> rw [h] at hs <;> cases hs
  rw [map_asU32 hl] at hn
  exact ((size_ofDims_iff ⟨h6, hl⟩).1 hn).2

theorem ofSlice_post {l : List Nat} (hl : ∀ d ∈ l, d < 4294967296) :
    Post (ofSlice l) fun s => ∀ n, s.size = Except.ok n → n = l.prod := by
  intro s hs n hn
  rcases ofSlice_cases l with ⟨h6, h⟩ | h <;> rw [h] at hs <;> cases hs
  rw [map_asU32 hl] at hn
  exact ((size_ofDims_iff ⟨h6, hl⟩).1 hn).2

theorem toDims_lt {s : Shape} (h : s.WF) : ∀ d ∈ s.toDims, d < 4294967296 := fun d hd => by
  obtain ⟨ds, hadm, _, h2⟩ := h.exists_dims
  exact hadm.lt d (h2 ▸ hd)

theorem prod_split (l : List Nat) {a : Nat} {d : Nat} (hd : l[a]? = some d) :
    l.prod = (l.take a).prod * (l.drop (a + 1)).prod * d := by
  obtain ⟨ha, rfl⟩ := List.getElem?_eq_some_iff.1 hd
  conv => lhs; rw [← List.take_append_drop a l, List.drop_eq_getElem_cons ha]
  rw [List.prod_append, List.prod_cons, Nat.mul_comm l[a], Nat.mul_assoc]

theorem axisReduce_post {s : Shape} (h : s.WF) {axis : Axis} :
    Post (axis.reduce s) fun r => (∀ n, r.1.size = Except.ok n → n = r.2.1 * r.2.2.2) ∧
      (∀ n, s.size = Except.ok n → n = r.2.1 * r.2.2.2 * r.2.2.1) := by
  have key : ∀ m, s.size = Except.ok m → (∀ n, Shape.scalar.size = Except.ok n → n = 1 * 1) ∧
      (∀ n, s.size = Except.ok n → n = 1 * 1 * m) := fun m hm =>
    ⟨fun n hn => by rw [size_scalar] at hn; cases hn; rfl, fun n hn => by rw [hm] at hn; cases hn; omega⟩
  unfold Axis.reduce
  split
  · exact Post.bind' fun m hm => post_pure (key m hm)
  · refine normAxis_post.bind fun a ha => ?_
    split
    · exact Post.bind' fun m hm => post_pure (key m hm)
    · rw [dimsLoop_eq h (Nat.zero_le _) (by omega), ok_bind]
      dsimp only
      rw [dimsLoop_eq h (by omega) (by omega), ok_bind]
      dsimp only
      have hr := h.rank_eq
      have h1 : (s.toDims.drop (a + 1)).take (s.rank - (a + 1)) = s.toDims.drop (a + 1) :=
        List.take_of_length_le (by simp; omega)
      rw [h1]
      simp only [List.drop_zero, Nat.sub_zero, List.nil_append]
      have hlt := toDims_lt h
      refine (ofVec_post fun d hd => ?_).bind fun o ho => Post.bind' fun d hd => post_pure ⟨fun n hn => ?_, fun n hn => ?_⟩
      · rcases List.mem_append.1 hd with hd | hd
        · exact hlt d (List.mem_of_mem_take hd)
        · exact hlt d (List.mem_of_mem_drop hd)
      · rw [ho n hn, List.prod_append]
      · have ha' : a < s.toDims.length := by omega
        rw [dim_lt h ha'] at hd
        cases hd
        rw [size_eq_ok_prod h hn]
        exact prod_split _ (List.getElem?_eq_getElem ha')

theorem axisReduceRow_post {s : Shape} (h : s.WF) {axis : Axis} {N : Nat} (hN : N < 4294967296) :
    Post (axis.reduceRow s N) fun r => ∀ n, r.1.size = Except.ok n → n = r.2.1 * r.2.2.2 * N := by
  have key : Post (ofSlice [N]) fun o => ∀ n, o.size = Except.ok n → n = 1 * 1 * N :=
    (ofSlice_post (by simpa using hN)).mono fun o ho n hn => by rw [ho n hn]; simp
  unfold Axis.reduceRow
  split
  · exact key.bind fun o ho => Post.bind' fun _ _ => Post.bind' fun _ _ => Post.bind' fun _ _ => post_pure ho
  · refine normAxis_post.bind fun a ha => ?_
    split
    · exact key.bind fun o ho => Post.bind' fun _ _ => post_pure ho
    · refine Post.bind' fun _ he => ?_
      have he := ensure_eq_ok.1 he
      rw [dimsLoop_eq h (Nat.zero_le _) (by omega), ok_bind]
      dsimp only
      rw [usub_ok (by omega), ok_bind, dimsLoop_eq h (by omega) (by omega), ok_bind]
      dsimp only
      have hlt := toDims_lt h
      refine (ofVec_post fun d hd => ?_).bind fun o ho => Post.bind' fun d hd => post_pure fun n hn => ?_
      · simp only [List.nil_append, List.mem_append, List.mem_singleton] at hd
        rcases hd with (hd | hd) | rfl
        · exact hlt d (List.mem_of_mem_drop (List.mem_of_mem_take hd))
        · exact hlt d (List.mem_of_mem_drop (List.mem_of_mem_take hd))
        · exact hN
      · rw [ho n hn]
        simp [List.prod_append, Nat.mul_assoc]

theorem axisReduce_loose {s : Shape} (h : s.Loose) {axis : Axis} :
    Post (axis.reduce s) fun r => (∀ n, r.1.size = Except.ok n → n = r.2.1 * r.2.2.2) ∧
      (∀ n, s.size = Except.ok n → n = r.2.1 * r.2.2.2 * r.2.2.1) := by
  rw [← h.reduce_canon, ← h.size_canon]
  exact axisReduce_post h.canon_wf

theorem axisReduceRow_loose {s : Shape} (h : s.Loose) {axis : Axis} {N : Nat} (hN : N < 4294967296) :
    Post (axis.reduceRow s N) fun r => ∀ n, r.1.size = Except.ok n → n = r.2.1 * r.2.2.2 * N := by
  rw [← h.reduceRow_canon]
  exact axisReduceRow_post h.canon_wf hN

theorem foldAxis_safe {a : Tensor U} (h : a.LWF) {axis : Axis} {i : S} {f : S → U → Exec σ S} {g : S → V}
    (hf : ∀ x y st, NoUB ((f x y).run st)) : SafeE (a.foldAxis axis i f g) fun _ => True := by
  unfold Tensor.foldAxis
  refine SafeE.lift_bind (noUB_axisReduce _ _) fun r hr => ?_
  have hp := (axisReduce_loose h.shape r hr).1
  obtain ⟨s, batch, len, inner⟩ := r
  dsimp only at hp ⊢
  refine SafeE.lift_bind (noUB_size _) fun n hn => ?_
  rw [hp n hn]
  refine unsafeInitM_safe _ cover2 fun o ho => ?_
  refine SafeE.lift_bind (noUB_asSlice h) fun xs _ => ?_
  refine forR_hasE ho fun i o V _ hi ho => forR_hasE ho fun k o V _ hk ho => ?_
  refine (forR_plain fun i s => ?_).bind fun v _ => safeE_lift (write_safe ho (lt_of_lt_mul hi hk) _)
  exact SafeE.lift_bind (noUB_idx _ _) fun x _ => safeE_closure (hf s x)

theorem reduceAxis_safe {a : Tensor T} (h : a.LWF) {axis : Axis} {f : T → T → Exec σ T}
    (hf : ∀ x y st, NoUB ((f x y).run st)) : SafeE (a.reduceAxis axis f) fun _ => True := by
  unfold Tensor.reduceAxis
  refine SafeE.lift_bind (noUB_axisReduce _ _) fun r hr => ?_
  have hp := (axisReduce_loose h.shape r hr).1
  obtain ⟨s, batch, len, inner⟩ := r
  dsimp only at hp ⊢
  refine SafeE.lift_bind (noUB_size _) fun n hn => ?_
  rw [hp n hn]
  refine unsafeInitM_safe _ cover2 fun o ho => ?_
  refine SafeE.lift_bind (noUB_asSlice h) fun xs _ => ?_
  refine forR_hasE ho fun i o V _ hi ho => forR_hasE ho fun k o V _ hk ho => ?_
  refine SafeE.lift_bind (noUB_idx _ _) fun x _ => ?_
  refine (forR_plain fun i s => ?_).bind fun v _ => safeE_lift (write_safe ho (lt_of_lt_mul hi hk) _)
  exact SafeE.lift_bind (noUB_idx _ _) fun x _ => safeE_closure (hf s x)

theorem foldRow_safe {a : Tensor U} (h : a.LWF) {axis : Axis} {N : Nat} (hN : N < 4294967296) {i : S}
    {f : S → List U → Exec σ S} {g : S → Vector V N}
    (hf : ∀ x y st, NoUB ((f x y).run st)) : SafeE (a.foldRow axis N i f g) fun _ => True := by
  unfold Tensor.foldRow
  refine SafeE.lift_bind (noUB_axisReduceRow _ _ _) fun r hr => ?_
  have hp := axisReduceRow_loose h.shape hN r hr
  obtain ⟨s, batch, len, inner⟩ := r
  dsimp only at hp ⊢
  refine SafeE.lift_bind (noUB_cols _) fun c _ => ?_
  refine SafeE.lift_bind (noUB_size _) fun n hn => ?_
  rw [hp n hn]
  refine unsafeInitM_safe _ ?_ fun o ho => forR_hasE ho fun i o V _ hi ho =>
    forR_hasE (W := fun k j => ∃ l, l < N ∧ j = (i * inner + k) * N + l) ho fun k o V _ hk ho => ?_
  · intro j hj
    obtain ⟨m, l, h1, h2, h3⟩ := exists_mul_add hj
    obtain ⟨i, k, h4, h5, rfl⟩ := exists_mul_add h1
    exact Or.inr ⟨i, by omega, h4, k, by omega, h5, l, h2, h3⟩
  · refine (forR_plain fun i s => ?_).bind fun v _ => safeE_lift ?_
    · exact SafeE.lift_bind (noUB_asWrapSliceN h _ _) fun x _ => safeE_closure (hf s x)
    · have h1 := lt_of_lt_mul hi hk
      have h2 : (i * inner + k + 1) * N ≤ batch * inner * N := Nat.mul_le_mul_right N h1
      rw [Nat.succ_mul] at h2
      simpa using writeRow_safe ho (base := (i * inner + k) * N) (row := (g v).toList) (by simpa using h2)

theorem normalize_safe {a : Tensor T} (h : a.LWF) {axis : Axis} {i : S} {f : S → T → Exec σ S} {c : S → Exec σ S1}
    {g : S1 → T → Exec σ V} (hf : ∀ x y st, NoUB ((f x y).run st)) (hc : ∀ x st, NoUB ((c x).run st))
    (hg : ∀ x y st, NoUB ((g x y).run st)) : SafeE (a.normalize axis i f c g) fun _ => True := by
  unfold Tensor.normalize
  refine SafeE.lift_bind (noUB_axisReduce _ _) fun r hr => ?_
  have hp := (axisReduce_loose h.shape r hr).2
  obtain ⟨s, batch, len, inner⟩ := r
  dsimp only at hp ⊢
  refine SafeE.lift_bind (noUB_size _) fun n hn => ?_
  rw [hp n hn]
  refine unsafeInitM_safe (fun j => False ∨ ∃ i, 0 ≤ i ∧ i < batch ∧ ∃ k, 0 ≤ k ∧ k < inner ∧ ∃ l, 0 ≤ l ∧ l < len ∧
    j = (i * inner + k) * len + l) ?_ fun o ho => ?_
  · intro j hj
    obtain ⟨m, l, h1, h2, h3⟩ := exists_mul_add hj
    obtain ⟨i, k, h4, h5, rfl⟩ := exists_mul_add h1
    exact Or.inr ⟨i, by omega, h4, k, by omega, h5, l, by omega, h2, h3⟩
  refine SafeE.lift_bind (noUB_asSlice h) fun xs _ => ?_
  refine forR_hasE ho fun i o V _ hi ho => forR_hasE ho fun k o V _ hk ho => ?_
  refine (forR_plain fun i s => ?_).bind fun v _ => (safeE_closure (hc v)).bind fun w _ => ?_
  · exact SafeE.lift_bind (noUB_idx _ _) fun x _ => safeE_closure (hf s x)
  · refine forR_hasE ho fun l o V _ hl ho => ?_
    refine SafeE.lift_bind (noUB_idx _ _) fun x _ => ?_
    exact (safeE_closure (hg w x)).bind fun v _ => safeE_lift (write_safe ho (lt_of_lt_mul (lt_of_lt_mul hi hk) hl) v)

end

end Essay
