import Verif.Props.Fold

/-!
# C23: what `fold_row` does on views and on vectors
-/

namespace Essay

open Shape

variable {σ T V S : Type}

theorem exec_forR_ok_all {β : Type} {lo hi : Nat} {a a' : β} {s s' : σ} {body : Nat → β → Exec σ β}
    (h : (forR lo hi a body).run s = .ok (a', s')) :
    ∀ i, lo ≤ i → i < hi → ∃ b s1 r, (body i b).run s1 = .ok r := by
  by_cases hle : lo ≤ hi
  · obtain ⟨n, rfl⟩ : ∃ n, hi = lo + n := ⟨hi - lo, by omega⟩
    clear hle
    induction n generalizing a' s' with
    | zero => intro i h1 h2; omega
    | succ n ih =>
      rw [← Nat.add_assoc, forR_snoc (by omega)] at h
      obtain ⟨b, s1, h1, h2⟩ := run_bind_ok h
      intro i hi1 hi2
      by_cases hi : i < lo + n
      · exact ih h1 i hi1 hi
      · have : i = lo + n := by omega
        subst this; exact ⟨_, _, _, h2⟩
  · intro i h1 h2; omega

theorem take_drop_prod (l : List Nat) (a : Nat) (h : a + 1 < l.length) :
    (l.take a).prod * l.getD a 0 * ((l.drop (a + 1)).take (l.length - 1 - (a + 1))).prod * l.getD (l.length - 1) 0 =
      l.prod := by
  have h1 : l = l.take a ++ l.getD a 0 :: ((l.drop (a + 1)).take (l.length - 1 - (a + 1)) ++ [l.getD (l.length - 1) 0]) := by
    conv_lhs => rw [← List.take_append_drop a l]
    congr 1
    rw [List.drop_eq_getElem_cons (by omega)]
    congr 1
    · rw [List.getD_eq_getElem?_getD, List.getElem?_eq_getElem (by omega)]; rfl
    · conv_lhs => rw [← List.take_append_drop (l.length - 1 - (a + 1)) (l.drop (a + 1))]
      congr 1
      rw [List.drop_drop, show a + 1 + (l.length - 1 - (a + 1)) = l.length - 1 by omega,
        List.drop_eq_getElem_cons (by omega), List.drop_of_length_le (by omega), List.getD_eq_getElem?_getD,
        List.getElem?_eq_getElem (by omega)]
      rfl
  conv_rhs => rw [h1]
  simp only [List.prod_append, List.prod_cons, List.prod_nil, Nat.mul_one, Nat.mul_assoc]

/-- The loop bounds of `fold_row` on a shape with positive dimensions. -/
theorem reduceRow_loops {ds : List Nat} (hadm : Adm ds) (hfit : Fits ds) (hp : 0 < ds.prod) {axis : Axis} {N c : Nat}
    {o : Shape} {b a i : Nat} (hr : Axis.reduceRow axis (ofDims ds) N = .ok (o, b, a, i)) (hc : (ofDims ds).cols = .ok c) :
    0 < c ∧ 0 < b ∧ 0 < a ∧ 0 < i ∧ (c * (b * a * i) = ds.prod ∨ c = ds.prod) := by
  have hwf := wf_ofDims hadm
  have hpos := pos_of_prod_pos hp
  have hsize := (size_ofDims_iff hadm).2 ⟨hfit, rfl⟩
  have hrk : (ofDims ds).rank = ds.length := by simp
  rw [cols_eq hwf, toDims_ofDims] at hc
  have hc' : ds.reverse[0]?.getD 0 = c := by simpa using hc
  unfold Axis.reduceRow at hr
  cases axis with
  | none =>
    simp only at hr
    obtain ⟨o', _, hr⟩ := bind_eq_ok.1 hr
    obtain ⟨n, hn, hr⟩ := bind_eq_ok.1 hr
    obtain ⟨c1, hc1, hr⟩ := bind_eq_ok.1 hr
    obtain ⟨q, hq, hr⟩ := bind_eq_ok.1 hr
    rw [cols_eq hwf, toDims_ofDims, hc'] at hc1
    rw [hsize] at hn
    cases hr; cases hn; cases hc1
    unfold udiv at hq
    split at hq
    · cases hq
    · rename_i hc0
      have hd : c ∣ ds.prod := by
        rcases List.eq_nil_or_concat ds with rfl | ⟨l, x, rfl⟩
        · simp at hc'; omega
        · have : x = c := by simpa [List.concat_eq_append] using hc'
          subst this
          rw [List.concat_eq_append, List.prod_append, List.prod_singleton]
          exact Nat.dvd_mul_left _ _
      cases hq
      have := Nat.mul_div_cancel' hd
      have hq0 : 0 < ds.prod / c := Nat.div_pos (Nat.le_of_dvd hp hd) (by omega)
      refine ⟨by omega, by omega, hq0, by omega, .inl ?_⟩
      rw [Nat.one_mul, Nat.mul_one, this]
  | some axis =>
    simp only at hr
    obtain ⟨k, hk, hr⟩ := bind_eq_ok.1 hr
    rw [hrk] at hr hk
    have hk' : k < ds.length := by
      unfold Axis.normAxis at hk
      obtain ⟨_, _, hk⟩ := bind_eq_ok.1 hk
      obtain ⟨_, _, hk⟩ := bind_eq_ok.1 hk
      obtain ⟨_, he, hk⟩ := bind_eq_ok.1 hk
      cases hk
      unfold ensure at he
      split at he
      · assumption
      · cases he
    by_cases h1 : ds.length = 1
    · rw [if_pos h1] at hr
      obtain ⟨x, rfl⟩ := List.length_eq_one_iff.1 h1
      obtain ⟨o', _, hr⟩ := bind_eq_ok.1 hr
      obtain ⟨n, hn, hr⟩ := bind_eq_ok.1 hr
      rw [hsize] at hn
      cases hr; cases hn
      have : x = c := by simpa using hc'
      subst this
      simp at hp ⊢
      exact hp
    · rw [if_neg h1] at hr
      obtain ⟨_, he, hr⟩ := bind_eq_ok.1 hr
      have hk1 : k + 1 < ds.length := by
        unfold ensure at he
        split at he
        · assumption
        · cases he
      rw [dimsLoop_eq hwf (Nat.zero_le _) (by rw [hrk]; omega), ok_bind] at hr
      simp only [toDims_ofDims] at hr
      rw [usub_ok (by omega), ok_bind, dimsLoop_eq hwf (by omega) (by rw [hrk]; omega), ok_bind] at hr
      simp only [toDims_ofDims] at hr
      obtain ⟨o', _, hr⟩ := bind_eq_ok.1 hr
      rw [dim_eq hwf (d := ds.getD k 0) (by
        rw [toDims_ofDims, List.getD_eq_getElem?_getD, List.getElem?_eq_getElem hk']; rfl), ok_bind] at hr
      cases hr
      have hlast : ds.getD (ds.length - 1) 0 = c := by
        rw [← hc', List.getD_eq_getElem?_getD, List.getElem?_reverse (by omega), Nat.sub_zero]
      have key := take_drop_prod ds k hk1
      rw [hlast] at key
      simp only [Nat.sub_zero, List.drop_zero]
      have hne : (List.take k ds).prod * ds.getD k 0 * ((ds.drop (k + 1)).take (ds.length - 1 - (k + 1))).prod * c ≠ 0 := by
        rw [key]; omega
      simp only [ne_eq, Nat.mul_eq_zero, not_or] at hne
      refine ⟨by omega, by omega, by omega, by omega, .inl ?_⟩
      rw [Nat.mul_comm, key]

theorem asWrapSliceN_beyond {t : Tensor T} {offset len : Nat} (h1 : offset < t.size) (h2 : t.size < t.offset + offset + len) :
    t.asWrapSliceN offset len = .error .panic := by
  unfold Tensor.asWrapSliceN
  simp only [if_pos h1]
  show (ensure _ >>= _) = _
  rw [ensure_false (by simp; omega), error_bind]

/-- C23 on views: `fold_row` never returns on a tensor that does not start at its buffer's beginning, whatever the axis and
the closure (unless there are no elements): one of the rows it asks for is outside the view. -/
theorem C23_view_actual {t : Tensor T} {ds : List Nat} {xs : List T} (h : Rep t ds xs) (hne : xs ≠ []) (h0 : t.offset ≠ 0)
    (axis : Axis) (N : Nat) (init : S) (f : S → List T → Exec σ S) (g : S → Vector V N) (s : σ) :
    ∀ r, (t.foldRow axis N init f g).run s ≠ .ok r := by
  rintro ⟨u, s'⟩ hrun
  have hp : 0 < ds.prod := by rw [← h.length]; exact List.length_pos_iff.2 hne
  have hsz : t.size = ds.prod := by rw [h.size, h.length]
  unfold Tensor.foldRow at hrun
  obtain ⟨⟨o, b, a, i⟩, s1, h1, hrun⟩ := run_bind_ok hrun
  obtain ⟨c, s2, h2, hrun⟩ := run_bind_ok hrun
  obtain ⟨n, s3, h3, hrun⟩ := run_bind_ok hrun
  have e1 : Axis.reduceRow axis t.shape N = .ok (o, b, a, i) := by
    cases e : Axis.reduceRow axis t.shape N with
    | error x => rw [e] at h1; cases h1
    | ok x => rw [e] at h1; cases h1; rfl
  have e2 : t.shape.cols = .ok c := by
    cases e : t.shape.cols with
    | error x => rw [e] at h2; cases h2
    | ok x => rw [e] at h2; cases h2; rfl
  rw [h.shape] at e1 e2
  obtain ⟨hc, hb, ha, hi, hprod⟩ := reduceRow_loops h.adm h.fits hp e1 e2
  unfold Tensor.unsafeInitM at hrun
  obtain ⟨o', s4, h4, hrun⟩ := run_bind_ok hrun
  have key : ∀ p q k, p < b → q < i → k < a →
      ∃ s r, ((liftM (t.asWrapSliceN (c * ((p * a + k) * i + q)) c) : Exec σ (List T))).run s = .ok r := by
    intro p q k hp hq hk
    obtain ⟨_, _, ⟨_, _⟩, h5⟩ := exec_forR_ok_all h4 p (Nat.zero_le _) hp
    obtain ⟨_, _, ⟨_, _⟩, h6⟩ := exec_forR_ok_all h5 q (Nat.zero_le _) hq
    obtain ⟨_, _, h7, _⟩ := run_bind_ok h6
    obtain ⟨_, _, ⟨_, _⟩, h8⟩ := exec_forR_ok_all h7 k (Nat.zero_le _) hk
    obtain ⟨_, _, h9, _⟩ := run_bind_ok h8
    exact ⟨_, _, h9⟩
  have bad : ∀ p q k, p < b → q < i → k < a → c * ((p * a + k) * i + q) < t.size →
      t.size < t.offset + c * ((p * a + k) * i + q) + c → False := by
    intro p q k hp hq hk hx hy
    obtain ⟨s, r, e⟩ := key p q k hp hq hk
    rw [asWrapSliceN_beyond hx hy] at e
    cases e
  rcases hprod with hprod | hprod
  · refine bad (b - 1) (i - 1) (a - 1) (by omega) (by omega) (by omega) ?_ ?_
    all_goals
      have e : ((b - 1) * a + (a - 1)) * i + (i - 1) + 1 = b * a * i := by
        obtain ⟨b, rfl⟩ : ∃ b', b = b' + 1 := ⟨b - 1, by omega⟩
        obtain ⟨a, rfl⟩ : ∃ a', a = a' + 1 := ⟨a - 1, by omega⟩
        obtain ⟨i, rfl⟩ : ∃ i', i = i' + 1 := ⟨i - 1, by omega⟩
        simp only [Nat.add_sub_cancel]
        grind
      have e2 : c * (((b - 1) * a + (a - 1)) * i + (i - 1)) + c = t.size := by
        rw [hsz, ← hprod, ← e, Nat.mul_succ]
      omega
  · refine bad 0 0 0 hb hi ha ?_ ?_
    · simp; omega
    · simp; omega

example (axis : Axis) (r) : (exView2.foldRow axis 1 0 (fun s x => (pure (s + x.sum) : Exec Unit Nat)) fun s => #v[s]).run () ≠
    .ok r :=
  C23_view_actual exView2_rep (by simp) (by decide) axis 1 0 _ _ () r

/-- The vector 1, 2, 3. -/
def exRow0 : Tensor Nat := { shape := ofDims [3], offset := 0, size := 3, data := [1, 2, 3] }
theorem exRow0_rep : Rep exRow0 [3] [1, 2, 3] := ⟨⟨wf_ofDims ⟨by simp, by simp⟩, rfl, by simp [exRow0]⟩, rfl, rfl⟩

/-- C23 on vectors with an axis: `fold_row` calls the closure with the whole vector, once for each of its elements. -/
theorem C23_vector_axis_actual {t : Tensor T} {n N : Nat} {xs : List T} (h : Rep t [n] xs) (h0 : t.offset = 0) (hn : 0 < n)
    (hN : N < 2 ^ 32) {a : Int} (hl : -2 ^ 62 ≤ a) (hu : a < 2 ^ 62) (init : S) (f : S → List T → Exec σ S)
    (g : S → Vector V N) :
    Yields (t.foldRow (some a) N init f g) ((List.replicate n xs).foldlM f init >>= fun s => pure (g s).toList) [N] := by
  have hadm : Adm [N] := ⟨by simp, by simpa using hN⟩
  have hlen : xs.length = n := by rw [h.length]; simp
  have hsz : t.size = n := by rw [h.size, hlen]
  have hcols : t.shape.cols = Except.ok n := by rw [cols_eq h.wf.shape, h.toDims]; simp
  have hred : Axis.reduceRow (some a) t.shape N = .ok (ofDims [N], 1, n, 1) := by
    unfold Axis.reduceRow
    simp only
    rw [h.rank]
    have : Axis.normAxis a ([n] : List Nat).length = .ok 0 := by
      unfold Axis.normAxis
      simp only [List.length_cons, List.length_nil]
      rw [iadd_small (by omega) (by omega), ok_bind]
      simp [imod, isizeAsUsize, ensure, ok_bind]
    rw [this, ok_bind, if_pos (by rfl), ofSlice_adm hadm, ok_bind, h.size_eq, ok_bind]
    simp
  have hrow : ∀ k, t.asWrapSliceN (n * k) n = .ok xs := by
    intro k
    have e0 := asWrapSliceN_eq h h0 (c := n) (n := 1) (i := 0) (by omega) (by omega) hn
    rw [Nat.zero_mul, List.drop_zero, List.take_of_length_le (by omega)] at e0
    rw [← e0]
    rcases Nat.eq_zero_or_pos k with rfl | hk
    · rfl
    · have hge : n ≤ n * k := Nat.le_mul_of_pos_right n hk
      unfold Tensor.asWrapSliceN
      rw [if_neg (by omega), if_pos (by omega), umod_ok (by omega), hsz, Nat.mul_mod_right, ok_bind, Nat.mul_zero]
      rfl
  apply yields_of_eq _ _ hadm (fits_one hN)
  · unfold Tensor.foldRow
    rw [hred, lift_ok, pure_bind]
    simp only
    rw [hcols, lift_ok, pure_bind, (size_ofDims_iff hadm).2 ⟨fits_one hN, rfl⟩, lift_ok, pure_bind]
    apply unsafeInitM_eq
    have e1 : ∀ s : S, forR 0 n s (fun k state => do
        let v ← (liftM (t.asWrapSliceN (n * ((0 * n + k) * 1 + 0)) n) : Exec σ (List T))
        f state v) = (List.replicate n xs).foldlM f s := by
      intro s
      simp only [hrow, lift_ok, pure_bind]
      unfold forR
      rw [Nat.sub_zero]
      have : ∀ (m lo : Nat) (s : S), (List.range' lo m).foldlM (fun s _ => f s xs) s = (List.replicate m xs).foldlM f s := by
        intro m
        induction m with
        | zero => intro lo s; rfl
        | succ m ih =>
          intro lo s
          rw [List.range'_succ, List.foldlM_cons, List.replicate_succ, List.foldlM_cons]
          congr 1; funext s; exact ih _ s
      exact this n 0 s
    have e2 : ∀ (o : Buf V) (body : Nat → Buf V → Exec σ (Buf V)), forR 0 1 o body = body 0 o := by
      intro o body; simp [forR]
    rw [e2, e2]
    rw [e1, bind_assoc]
    congr 1; funext s
    have := writeRow_pre [] 0 (g s).toList
    rw [show (g s).toList.length = N by simp] at this
    simp only [Nat.add_zero, List.length_nil, List.nil_append, pre, List.map_nil, List.replicate_zero, List.append_nil] at this
    simp only [Nat.zero_mul, Nat.add_zero, pure_bind, List.prod_singleton, Buf.uninit]
    rw [this]; rfl
  · intro s vs s' hr
    obtain ⟨ws, s1, h1, h2⟩ := run_bind_ok hr
    cases h2; simp

example : Yields (exRow0.foldRow (some 0) 1 0 (fun s x => (pure (s + x.sum) : Exec Unit Nat)) fun s => #v[s])
    ((List.replicate 3 [1, 2, 3]).foldlM (fun s x => (pure (s + x.sum) : Exec Unit Nat)) 0 >>= fun s => pure #v[s].toList) [1] :=
  C23_vector_axis_actual exRow0_rep rfl (by decide) (by decide) (by decide) (by decide) 0 _ _

end Essay
