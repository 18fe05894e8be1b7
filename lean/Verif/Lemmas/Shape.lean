import Verif.Lemmas.Base
import Verif.Spec.Shape
import Verif.Model.Axis

/-! # Helper lemmas about shapes (no claims here) -/

namespace Essay

namespace Shape

/-- Admissible innermost-first dimension lists. -/
structure Adm (l : List Nat) : Prop where
  len : l.length ≤ 6
  lt : ∀ d ∈ l, d < 4294967296

theorem wf_ofRev {l : List Nat} (h : Adm l) : (ofRev l).WF := by
  have := h.len
  constructor
  · simp [ofRev]; omega
  · exact h.len
  · intro i h1 h2
    simp only [ofRev] at *
    rw [List.getElem?_append_right h1, List.getElem?_replicate]
    simp; omega
  · intro d hd
    simp [ofRev] at hd
    rcases hd with hd | hd
    · exact h.lt d hd
    · omega

theorem toDims_ofRev (l : List Nat) : (ofRev l).toDims = l.reverse := by
  simp [toDims, ofRev]

theorem toDims_ofDims (l : List Nat) : (ofDims l).toDims = l := by
  simp [ofDims, toDims_ofRev]

theorem WF.eq_ofRev {s : Shape} (h : s.WF) : s = ofRev (s.dims.take s.rank) := by
  obtain ⟨dims, rank⟩ := s
  have h1 := h.len; have h2 := h.rank_le; have h3 := h.tail
  simp only at *
  have hl : (dims.take rank).length = rank := by simp; omega
  unfold ofRev
  rw [Shape.mk.injEq]
  refine ⟨?_, hl.symm⟩
  apply List.ext_getElem?
  intro i
  by_cases hi : i < rank
  · rw [List.getElem?_append_left (by omega), List.getElem?_take]; simp [hi]
  · rw [List.getElem?_append_right (by omega), List.getElem?_replicate]
    by_cases hi6 : i < 6
    · rw [h3 i (by omega) hi6]; simp; omega
    · rw [List.getElem?_eq_none (by omega)]
      simp; omega

theorem WF.eq_ofDims {s : Shape} (h : s.WF) : s = ofDims s.toDims := by
  simpa [ofDims, toDims] using h.eq_ofRev

theorem WF.adm {s : Shape} (h : s.WF) : Adm (s.dims.take s.rank) := by
  have h1 := h.len; have h2 := h.rank_le
  exact ⟨by simp; omega, fun d hd => h.lt d (List.mem_of_mem_take hd)⟩

theorem WF.exists_rev {s : Shape} (h : s.WF) : ∃ l, Adm l ∧ s = ofRev l :=
  ⟨_, h.adm, h.eq_ofRev⟩

theorem WF.exists_dims {s : Shape} (h : s.WF) : ∃ ds, Adm ds ∧ s = ofDims ds ∧ s.toDims = ds := by
  refine ⟨s.toDims, ?_, h.eq_ofDims, rfl⟩
  have := h.adm
  exact ⟨by simpa [toDims] using this.len, fun d hd => this.lt d (by simpa [toDims] using hd)⟩

theorem Adm.reverse {l : List Nat} (h : Adm l) : Adm l.reverse :=
  ⟨by simpa using h.len, fun d hd => h.lt d (by simpa using hd)⟩

theorem wf_ofDims {l : List Nat} (h : Adm l) : (ofDims l).WF := wf_ofRev h.reverse

theorem WF.rank_eq {s : Shape} (h : s.WF) : s.rank = s.toDims.length := by
  have h1 := h.len; have h2 := h.rank_le
  simp [toDims]; omega

theorem toDims_inj {s t : Shape} (hs : s.WF) (ht : t.WF) (h : s.toDims = t.toDims) : s = t := by
  rw [hs.eq_ofDims, ht.eq_ofDims, h]

@[simp] theorem rank_ofRev (l : List Nat) : (ofRev l).rank = l.length := rfl
@[simp] theorem rank_ofDims (l : List Nat) : (ofDims l).rank = l.length := by simp [ofDims]
theorem dims_ofRev_length {l : List Nat} (h : l.length ≤ 6) : (ofRev l).dims.length = 6 := by
  simp [ofRev]; omega

theorem ofRev_get {l : List Nat} (h : l.length ≤ 6) (i : Nat) :
    (ofRev l).dims[i]? = if i < l.length then l[i]? else if i < 6 then some 0 else none := by
  simp only [ofRev]
  split
  · rw [List.getElem?_append_left (by assumption)]
  · rw [List.getElem?_append_right (by omega), List.getElem?_replicate]
    congr 1
    simp; omega

/-- To show that a storage array is canonical it is enough to compare slots. -/
theorem eq_ofRev_iff {dims : List Nat} {rank : Nat} {l : List Nat} (hl : l.length ≤ 6) (hr : rank = l.length)
    (hlen : dims.length = 6)
    (h : ∀ i, i < 6 → dims[i]? = if i < l.length then l[i]? else some 0) :
    ({ dims, rank } : Shape) = ofRev l := by
  unfold ofRev
  rw [Shape.mk.injEq]
  refine ⟨?_, hr⟩
  apply List.ext_getElem?
  intro i
  have := ofRev_get hl i
  simp only [ofRev] at this
  rw [this]
  by_cases hi : i < 6
  · rw [h i hi]; simp [hi]
  · rw [List.getElem?_eq_none (by omega), if_neg (by omega), if_neg hi]

/-! ### products -/

theorem foldlM_mul_eq_ok {l : List Nat} {a n : Nat} (ha : a < 4294967296) :
    l.foldlM mulU32 a = Except.ok n ↔ (∀ k, k ≤ l.length → a * (l.take k).prod < 4294967296) ∧ n = a * l.prod := by
  induction l generalizing a with
  | nil =>
    simp only [List.foldlM_nil, pure_eq_ok, Except.ok.injEq, List.length_nil, Nat.le_zero, List.take_nil,
      List.prod_nil, Nat.mul_one, forall_eq]
    constructor
    · rintro rfl; exact ⟨ha, rfl⟩
    · rintro ⟨_, rfl⟩; rfl
  | cons b l ih =>
    simp only [List.foldlM_cons, List.prod_cons]
    by_cases hab : a * b < 4294967296
    · rw [mulU32_ok hab, ok_bind, ih hab]
      constructor
      · rintro ⟨h1, rfl⟩
        refine ⟨fun k hk => ?_, by rw [Nat.mul_assoc]⟩
        cases k with
        | zero => simpa using ha
        | succ k =>
          have := h1 k (by simpa using hk)
          simpa [Nat.mul_assoc] using this
      · rintro ⟨h1, rfl⟩
        refine ⟨fun k hk => ?_, by rw [Nat.mul_assoc]⟩
        have := h1 (k + 1) (by simpa using hk)
        simpa [Nat.mul_assoc] using this
    · constructor
      · intro h
        simp [mulU32, hab] at h
      · rintro ⟨h1, _⟩
        have := h1 1 (by simp)
        simp at this
        omega

theorem prod_pos {l : List Nat} (h : ∀ d ∈ l, 0 < d) : 0 < l.prod := by
  induction l with
  | nil => simp
  | cons a l ih =>
    rw [List.prod_cons]
    exact Nat.mul_pos (h a (by simp)) (ih fun d hd => h d (by simp [hd]))

theorem prod_eq_zero {l : List Nat} (h : 0 ∈ l) : l.prod = 0 := by
  induction l with
  | nil => simp at h
  | cons a l ih =>
    rw [List.prod_cons]
    rcases List.mem_cons.1 h with h | h
    · subst h; simp
    · rw [ih h]; simp

theorem pos_of_prod_pos {l : List Nat} (h : 0 < l.prod) : ∀ d ∈ l, 0 < d := by
  intro d hd
  rcases Nat.eq_zero_or_pos d with h0 | h0
  · subst h0; rw [prod_eq_zero hd] at h; omega
  · exact h0

theorem prod_take_le {l : List Nat} (h : 0 < l.prod) (k : Nat) : (l.take k).prod ≤ l.prod := by
  conv => rhs; rw [← List.take_append_drop k l, List.prod_append]
  have : 0 < (l.drop k).prod := prod_pos fun d hd => pos_of_prod_pos h d (List.mem_of_mem_drop hd)
  exact Nat.le_mul_of_pos_right _ this

theorem prod_drop_le {l : List Nat} (h : 0 < l.prod) (k : Nat) : (l.drop k).prod ≤ l.prod := by
  conv => rhs; rw [← List.take_append_drop k l, List.prod_append]
  have : 0 < (l.take k).prod := prod_pos fun d hd => pos_of_prod_pos h d (List.mem_of_mem_take hd)
  exact Nat.le_mul_of_pos_left _ this

theorem foldlM_mul_ok {l : List Nat} (h0 : 0 < l.prod) (h : l.prod < 4294967296) :
    l.foldlM mulU32 1 = Except.ok l.prod := by
  rw [foldlM_mul_eq_ok (by omega)]
  refine ⟨fun k _ => ?_, by simp⟩
  have := prod_take_le h0 k
  omega

theorem noUB_foldlM_mul (l : List Nat) (a : Nat) : NoUB (l.foldlM mulU32 a) := by
  induction l generalizing a with
  | nil => simp
  | cons b l ih => exact noUB_bind (by simp) fun c _ => ih c

theorem size_ofRev {l : List Nat} (_h : l.length ≤ 6) : (ofRev l).size = l.foldlM mulU32 1 := by
  unfold size productTo
  rw [ensure_true (by simp [ofRev])]
  simp [ofRev]

theorem size_eq_ok_prod {s : Shape} (h : s.WF) {n : Nat} (hn : s.size = Except.ok n) : n = s.toDims.prod := by
  obtain ⟨l, hl, rfl⟩ := h.exists_rev
  rw [size_ofRev hl.len, foldlM_mul_eq_ok (by omega)] at hn
  rw [toDims_ofRev, List.prod_reverse, hn.2, Nat.one_mul]

theorem size_ok {s : Shape} (h : s.WF) (h0 : 0 < s.toDims.prod) (hlt : s.toDims.prod < 4294967296) :
    s.size = Except.ok s.toDims.prod := by
  obtain ⟨l, hl, rfl⟩ := h.exists_rev
  rw [toDims_ofRev, List.prod_reverse] at *
  rw [size_ofRev hl.len, foldlM_mul_ok h0 hlt]

theorem size_lt {s : Shape} (h : s.WF) {n : Nat} (hn : s.size = Except.ok n) : n < 4294967296 := by
  obtain ⟨l, hl, rfl⟩ := h.exists_rev
  rw [size_ofRev hl.len, foldlM_mul_eq_ok (by omega)] at hn
  have := hn.1 l.length (Nat.le_refl _)
  rw [List.take_length] at this
  rw [hn.2]; exact this

@[simp] theorem noUB_size (s : Shape) : NoUB s.size := by
  unfold size productTo
  exact noUB_bind (by simp) fun _ _ => noUB_foldlM_mul _ _

/-! ### observers -/

theorem dim_ofRev {l : List Nat} (h : l.length ≤ 6) {i : Nat} (hi : i < l.length) :
    (ofRev l).dim i = Except.ok (l.reverse[i]'(by simpa using hi)) := by
  unfold dim
  rw [rank_ofRev, usub_ok (by omega), ok_bind, usub_ok (by omega), ok_bind, idx_ok]
  rw [ofRev_get h]
  rw [if_pos (by omega), List.getElem_reverse, List.getElem?_eq_getElem]

theorem dim_eq {s : Shape} (h : s.WF) {i : Nat} {d : Nat} (hd : s.toDims[i]? = some d) : s.dim i = Except.ok d := by
  obtain ⟨l, hl, rfl⟩ := h.exists_rev
  rw [toDims_ofRev] at hd
  obtain ⟨hi, rfl⟩ := List.getElem?_eq_some_iff.1 hd
  rw [dim_ofRev hl.len (by simpa using hi)]

theorem dim_lt {s : Shape} (h : s.WF) {i : Nat} (hi : i < s.toDims.length) : s.dim i = Except.ok s.toDims[i] :=
  dim_eq h (by simp [hi])

theorem dim_ge {s : Shape} {i : Nat} (hi : s.rank ≤ i) : s.dim i = Except.error Err.panic := by
  unfold dim
  by_cases h0 : s.rank = 0
  · simp [usub, h0]
  · rw [usub_ok (by omega), ok_bind, show usub (s.rank - 1) i = Except.error Err.panic by
      simp [usub]; omega]
    rfl

@[simp] theorem noUB_dim (s : Shape) (i : Nat) : NoUB (s.dim i) := by
  unfold dim
  exact noUB_bind (by simp) fun _ _ => noUB_bind (by simp) fun _ _ => by simp

theorem cols_eq {s : Shape} (h : s.WF) : s.cols = Except.ok (s.toDims.reverse[0]?.getD 0) := by
  obtain ⟨l, hl, rfl⟩ := h.exists_rev
  unfold cols
  rw [toDims_ofRev, List.reverse_reverse]
  apply idx_ok
  rw [ofRev_get hl.len]
  cases l <;> simp

theorem rows_eq {s : Shape} (h : s.WF) : s.rows = Except.ok (s.toDims.reverse[1]?.getD 0) := by
  obtain ⟨l, hl, rfl⟩ := h.exists_rev
  have := hl.len
  unfold rows
  rw [toDims_ofRev, List.reverse_reverse, rank_ofRev]
  split
  · apply idx_ok
    rw [ofRev_get hl.len, if_pos (by omega), List.getElem?_eq_getElem (by omega)]; rfl
  · rw [List.getElem?_eq_none (by omega)]; rfl

theorem rdim_eq {s : Shape} (h : s.WF) {i : Nat} (hi : i < 6) :
    s.rdim i = Except.ok (s.toDims.reverse[i]?.getD 0) := by
  obtain ⟨l, hl, rfl⟩ := h.exists_rev
  have := hl.len
  unfold rdim
  rw [toDims_ofRev, List.reverse_reverse]
  apply idx_ok
  rw [ofRev_get hl.len]
  split
  · rw [List.getElem?_eq_getElem (by omega)]; rfl
  · rw [List.getElem?_eq_none (by omega)]; simp

theorem rdim_ge {s : Shape} (h : s.WF) {i : Nat} (hi : 6 ≤ i) : s.rdim i = Except.error Err.panic := by
  unfold rdim; apply idx_ge; rw [h.len]; omega

/-- A loop pushing `g i` for `i` in `lo..hi`. -/
theorem forR_collect {γ : Type} (g : Nat → Res γ) (h : Nat → γ) {lo hi : Nat} (acc : List γ)
    (hg : ∀ i, lo ≤ i → i < hi → g i = Except.ok (h i)) :
    forR lo hi acc (fun i vec => do let d ← g i; return vec ++ [d]) =
      Except.ok (acc ++ (List.range' lo (hi - lo)).map h) := by
  by_cases hle : lo ≤ hi
  · obtain ⟨n, rfl⟩ : ∃ n, hi = lo + n := ⟨hi - lo, by omega⟩
    induction n with
    | zero => rw [forR_stop (by omega)]; simp
    | succ n ih =>
      rw [← Nat.add_assoc, forR_snoc (by omega), ih (fun i h1 h2 => hg i h1 (by omega)) (by omega)]
      simp only [ok_bind]
      rw [hg (lo + n) (by omega) (by omega)]
      simp [show lo + n + 1 - lo = n + 1 by omega, List.range'_concat]
  · rw [forR_stop (by omega), show hi - lo = 0 by omega]; simp

theorem map_range'_getElem (l : List Nat) (lo n : Nat) (h : lo + n ≤ l.length) :
    (List.range' lo n).map (fun i => l[i]?.getD 0) = (l.drop lo).take n := by
  apply List.ext_getElem
  · simp; omega
  · intro i h1 h2
    simp at h1
    have : lo + i < l.length := by omega
    simp [this]

theorem asVec_eq {s : Shape} (h : s.WF) : s.asVec = Except.ok s.toDims := by
  unfold asVec
  rw [forR_collect _ (fun i => s.toDims[i]?.getD 0)]
  · rw [map_range'_getElem _ _ _ (by rw [h.rank_eq]; omega)]
    simp [h.rank_eq]
  · intro i _ hi
    rw [h.rank_eq] at hi
    rw [dim_lt h hi]; simp [hi]

/-- Dimension loops of `split_by_axis` and `Axis::reduce`. -/
theorem forR_dims {s : Shape} (h : s.WF) {lo hi : Nat} (hlo : lo ≤ hi) (hhi : hi ≤ s.rank) (acc : List Nat) :
    forR lo hi acc (fun i vec => do let d ← s.dim i; return vec ++ [d]) =
      Except.ok (acc ++ (s.toDims.drop lo).take (hi - lo)) := by
  rw [forR_collect _ (fun i => s.toDims[i]?.getD 0)]
  · rw [map_range'_getElem _ _ _ (by rw [← h.rank_eq]; omega)]
  · intro i _ hi
    have : i < s.toDims.length := by rw [← h.rank_eq]; omega
    rw [dim_lt h this]; simp [this]

/-! ### constructors -/

theorem zeroDims_length : zeroDims.length = 6 := rfl

theorem ofLoop {value : List Nat} (h6 : value.length ≤ 6) (body : Nat → List Nat → Res (List Nat))
    (hb : ∀ i dims, i < value.length → dims.length = 6 →
      body i dims = Except.ok (dims.set i (asU32 (value.reverse[i]?.getD 0)))) :
    forR 0 value.length zeroDims body = Except.ok (ofDims (value.map asU32)).dims := by
  obtain ⟨s', e, hl, hw⟩ := forR_inv (Nat.zero_le value.length) (s := zeroDims) (body := body)
    (fun k dims => dims.length = 6 ∧ ∀ i, i < 6 →
      dims[i]? = if i < k then some (asU32 (value.reverse[i]?.getD 0)) else some 0)
    ⟨rfl, fun i hi => by
      unfold zeroDims; rw [List.getElem?_replicate, if_pos (by unfold MAX_RANK; omega), if_neg (by omega)]⟩
    (by
      rintro i dims _ hi ⟨hl, hw⟩
      refine ⟨_, hb i dims hi hl, by simpa using hl, fun j hj => ?_⟩
      by_cases hij : i = j
      · subst hij; rw [List.getElem?_set_self (by omega), if_pos (by omega)]
      · rw [List.getElem?_set_ne hij, hw j hj]
        congr 1
        simp; omega)
  rw [e]
  have : ({ dims := s', rank := value.length } : Shape) = ofRev (value.map asU32).reverse := by
    apply eq_ofRev_iff (by simpa using h6) (by simp) hl
    intro i hi
    rw [hw i hi]
    simp only [List.length_reverse, List.length_map]
    by_cases hiv : i < value.length
    · rw [if_pos hiv, if_pos hiv, ← List.map_reverse]
      simp [hiv]
    · rw [if_neg hiv, if_neg hiv]
  rw [ofDims, ← this]

theorem ofSlice_eq {value : List Nat} (h6 : value.length ≤ 6) :
    ofSlice value = Except.ok (ofDims (value.map asU32)) := by
  unfold ofSlice
  rw [ofLoop h6]
  · simp [ofDims, ofRev]
  · intro i dims hi hl
    rw [idx_lt (by simpa using hi), ok_bind, setIdx_ok (by omega)]
    simp [hi]

theorem ofVec_eq {value : List Nat} (h6 : value.length ≤ 6) (hpos : ∀ d ∈ value, 0 < d) :
    ofVec value = Except.ok (ofDims (value.map asU32)) := by
  unfold ofVec
  rw [ofLoop h6]
  · simp [ofDims, ofRev]
  · intro i dims hi hl
    rw [idx_lt (by simpa using hi), ok_bind, ensure_true, ok_bind, setIdx_ok (by omega)]
    · simp [hi]
    · apply hpos
      rw [List.getElem_reverse]; exact List.getElem_mem _

theorem adm_map_asU32 {value : List Nat} (h6 : value.length ≤ 6) : Adm (value.map asU32) :=
  ⟨by simpa using h6, fun d hd => by
    obtain ⟨a, _, rfl⟩ := List.mem_map.1 hd; exact asU32_lt a⟩

theorem map_asU32 {value : List Nat} (h : ∀ d ∈ value, d < 4294967296) : value.map asU32 = value := by
  conv => rhs; rw [← List.map_id value]
  exact List.map_congr_left fun d hd => asU32_of_lt (h d hd)

theorem ofSlice_adm {ds : List Nat} (h : Adm ds) : ofSlice ds = Except.ok (ofDims ds) := by
  rw [ofSlice_eq h.len, map_asU32 h.lt]

theorem ofVec_adm {ds : List Nat} (h : Adm ds) (hpos : ∀ d ∈ ds, 0 < d) : ofVec ds = Except.ok (ofDims ds) := by
  rw [ofVec_eq h.len hpos, map_asU32 h.lt]

theorem ofLoop_panic {value : List Nat} (h6 : 6 < value.length) (body : Nat → List Nat → Res (List Nat))
    (hlen : ∀ i dims dims', body i dims = Except.ok dims' → dims'.length = dims.length)
    (hub : ∀ i dims, NoUB (body i dims))
    (hb : ∀ dims, dims.length = 6 → body 6 dims = Except.error Err.panic) :
    forR 0 value.length zeroDims body = Except.error Err.panic := by
  have hfull := forR_noUB (lo := 0) (hi := value.length) (s := zeroDims) (body := body)
    (fun _ _ => True) trivial (fun i s _ _ _ => ⟨hub i s, fun _ _ => trivial⟩)
  have h7 : forR 0 7 zeroDims body = Except.error Err.panic := by
    rw [forR_snoc (Nat.zero_le 6)]
    have h6' := forR_noUB (lo := 0) (hi := 6) (s := zeroDims) (body := body)
      (fun _ d => d.length = 6) rfl (fun i s _ _ hs => ⟨hub i s, fun s' hs' => by rw [hlen _ _ _ hs', hs]⟩)
    cases hc : forR 0 6 zeroDims body with
    | error e =>
      have := h6'.1; rw [hc] at this
      cases e
      · rfl
      · exact absurd rfl this
    | ok d => rw [ok_bind, hb d (h6'.2 d hc (by omega))]
  obtain ⟨n, hn⟩ : ∃ n, value.length = 7 + n := ⟨value.length - 7, by omega⟩
  rw [hn]
  clear hn hfull
  induction n with
  | zero => exact h7
  | succ n ih => rw [← Nat.add_assoc, forR_snoc (by omega), ih]; rfl

theorem ofSlice_panic {value : List Nat} (h6 : 6 < value.length) : ofSlice value = Except.error Err.panic := by
  unfold ofSlice
  rw [ofLoop_panic h6]
  · rfl
  · intro i dims dims' h
    obtain ⟨a, _, h2⟩ := bind_eq_ok.1 h
    rw [(setIdx_eq_ok.1 h2).2]; simp
  · intro i dims; exact noUB_bind (by simp) fun _ _ => by simp
  · intro dims hd
    rw [idx_lt (by simpa using h6), ok_bind]; simp [setIdx, hd]

theorem ofVec_panic {value : List Nat} (h6 : 6 < value.length) : ofVec value = Except.error Err.panic := by
  unfold ofVec
  rw [ofLoop_panic h6]
  · rfl
  · intro i dims dims' h
    obtain ⟨a, _, h2⟩ := bind_eq_ok.1 h
    rw [ensure_bind_eq_ok] at h2
    rw [(setIdx_eq_ok.1 h2.2).2]; simp
  · intro i dims; exact noUB_bind (by simp) fun _ _ => noUB_bind (by simp) fun _ _ => by simp
  · intro dims hd
    rw [idx_lt (by simpa using h6), ok_bind]
    by_cases h0 : value.reverse[6]'(by simpa using h6) > 0
    · rw [ensure_true h0, ok_bind]; simp [setIdx, hd]
    · rw [ensure_false h0]; rfl

theorem ofVec_zero_panic {value : List Nat} (_h6 : value.length ≤ 6) (h0 : 0 ∈ value) :
    ofVec value = Except.error Err.panic := by
  obtain ⟨k, hk, hk0⟩ := List.mem_iff_getElem.1 (List.mem_reverse.2 h0)
  unfold ofVec
  have hub : ∀ i (dims : List Nat), NoUB (do
      let d ← idx value.reverse i
      ensure (d > 0)
      setIdx dims i (asU32 d)) := by
    intro i dims; exact noUB_bind (by simp) fun _ _ => noUB_bind (by simp) fun _ _ => by simp
  have hk' : forR 0 (k + 1) zeroDims (fun i dims => do
      let d ← idx value.reverse i
      ensure (d > 0)
      setIdx dims i (asU32 d)) = Except.error Err.panic := by
    rw [forR_snoc (Nat.zero_le _)]
    have h6' := (forR_noUB (lo := 0) (hi := k) (s := zeroDims) (fun _ _ => True) trivial
      (fun i s _ _ _ => ⟨hub i s, fun _ _ => trivial⟩)).1
    cases hc : forR 0 k zeroDims (fun i dims => do
      let d ← idx value.reverse i
      ensure (d > 0)
      setIdx dims i (asU32 d)) with
    | error e =>
      rw [hc] at h6'
      cases e
      · rfl
      · exact absurd rfl h6'
    | ok d => rw [ok_bind, idx_lt hk, ok_bind, hk0]; simp [ensure]
  obtain ⟨n, hn⟩ : ∃ n, value.length = k + 1 + n := ⟨value.length - (k + 1), by simp at hk; omega⟩
  rw [hn]
  have : forR 0 (k + 1 + n) zeroDims (fun i dims => do
      let d ← idx value.reverse i
      ensure (d > 0)
      setIdx dims i (asU32 d)) = Except.error Err.panic := by
    clear hn
    induction n with
    | zero => exact hk'
    | succ n ih => rw [← Nat.add_assoc, forR_snoc (by omega), ih]; rfl
  rw [this]; rfl

theorem ofVec_cases (value : List Nat) :
    (value.length ≤ 6 ∧ (∀ d ∈ value, 0 < d) ∧ ofVec value = Except.ok (ofDims (value.map asU32))) ∨
    ofVec value = Except.error Err.panic := by
  by_cases h6 : value.length ≤ 6
  · by_cases h0 : 0 ∈ value
    · exact Or.inr (ofVec_zero_panic h6 h0)
    · have hp : ∀ d ∈ value, 0 < d := fun d hd => Nat.pos_of_ne_zero (fun h => h0 (h ▸ hd))
      exact Or.inl ⟨h6, hp, ofVec_eq h6 hp⟩
  · exact Or.inr (ofVec_panic (by omega))

@[simp] theorem noUB_ofVec (value : List Nat) : NoUB (ofVec value) := by
  rcases ofVec_cases value with ⟨_, _, h⟩ | h <;> rw [h] <;> simp

theorem ofSlice_cases (value : List Nat) :
    (value.length ≤ 6 ∧ ofSlice value = Except.ok (ofDims (value.map asU32))) ∨
    ofSlice value = Except.error Err.panic := by
  by_cases h6 : value.length ≤ 6
  · exact Or.inl ⟨h6, ofSlice_eq h6⟩
  · exact Or.inr (ofSlice_panic (by omega))

@[simp] theorem noUB_ofSlice (value : List Nat) : NoUB (ofSlice value) := by
  rcases ofSlice_cases value with ⟨_, h⟩ | h <;> rw [h] <;> simp

theorem ofVec_wf {value : List Nat} {s : Shape} (h : ofVec value = Except.ok s) : s.WF := by
  rcases ofVec_cases value with ⟨h6, _, h'⟩ | h' <;> rw [h'] at h
  · cases h; exact wf_ofDims (adm_map_asU32 h6)
  · cases h

theorem ofSlice_wf {value : List Nat} {s : Shape} (h : ofSlice value = Except.ok s) : s.WF := by
  rcases ofSlice_cases value with ⟨h6, h'⟩ | h' <;> rw [h'] at h
  · cases h; exact wf_ofDims (adm_map_asU32 h6)
  · cases h

theorem ofUsize_eq (n : Nat) : ofUsize n = Except.ok (ofDims [asU32 n]) := by
  unfold ofUsize
  rw [setIdx_ok (by decide)]
  rfl

theorem scalar_eq : scalar = ofDims [] := rfl

theorem adm_nil : Adm [] := ⟨by simp, by simp⟩
theorem adm_singleton (n : Nat) : Adm [asU32 n] := ⟨by simp, by simp [asU32_lt]⟩
theorem wf_scalar : scalar.WF := wf_ofDims adm_nil
theorem size_scalar : scalar.size = Except.ok 1 := rfl

/-! ### editors, on innermost-first lists -/

theorem rreplace_ofRev {l : List Nat} (h : l.length ≤ 6) {i : Nat} (hi : i < l.length) (v : Nat) :
    (ofRev l).rreplace i v = Except.ok (ofRev (l.set i (asU32 v))) := by
  unfold rreplace
  rw [rank_ofRev, ensure_true hi, ok_bind, setIdx_ok (by rw [dims_ofRev_length h]; omega)]
  simp [ofRev, List.set_append_left _ _ hi]

theorem withCols_ofRev {l : List Nat} (h : l.length ≤ 6) (hl : 0 < l.length) (v : Nat) :
    (ofRev l).withCols v = Except.ok (ofRev (l.set 0 (asU32 v))) := by
  unfold withCols
  rw [setIdx_ok (by rw [dims_ofRev_length h]; omega)]
  simp [ofRev, List.set_append_left _ _ hl]

theorem withRows_ofRev {l : List Nat} (h : l.length ≤ 6) (hl : 1 < l.length) (v : Nat) :
    (ofRev l).withRows v = Except.ok (ofRev (l.set 1 (asU32 v))) := by
  unfold withRows
  rw [rank_ofRev, ensure_true hl, ok_bind, setIdx_ok (by rw [dims_ofRev_length h]; omega)]
  simp [ofRev, List.set_append_left _ _ hl]

theorem push_ofRev {l : List Nat} (h : l.length < 6) (v : Nat) :
    (ofRev l).push v = Except.ok (ofRev (l ++ [asU32 v])) := by
  unfold push
  rw [rank_ofRev, setIdx_ok (by rw [dims_ofRev_length (by omega)]; omega)]
  simp only [ok_bind, pure_eq_ok, Except.ok.injEq]
  apply eq_ofRev_iff (by simp; omega) (by simp) (by simp [dims_ofRev_length (l := l) (by omega)])
  intro i hi
  have h6 := dims_ofRev_length (l := l) (by omega)
  by_cases hil : l.length = i
  · subst hil; rw [List.getElem?_set_self (by omega)]; simp
  · rw [List.getElem?_set_ne hil, ofRev_get (by omega)]
    by_cases h1 : i < l.length
    · simp [h1, List.getElem?_append_left h1]; omega
    · simp [h1, hi]; omega

theorem pop_ofRev {l : List Nat} (h : l.length ≤ 6) (hl : 0 < l.length) :
    (ofRev l).pop = Except.ok (ofRev l.dropLast) := by
  unfold pop
  rw [rank_ofRev, usub_ok hl, ok_bind, setIdx_ok (by rw [dims_ofRev_length h]; omega)]
  simp only [ok_bind, pure_eq_ok, Except.ok.injEq]
  apply eq_ofRev_iff (by simp; omega) (by simp; omega) (by simp [dims_ofRev_length h])
  intro i hi
  have h6 := dims_ofRev_length h
  by_cases hil : l.length - 1 = i
  · rw [hil, List.getElem?_set_self (by omega)]; simp; omega
  · rw [List.getElem?_set_ne hil, ofRev_get (by omega)]
    by_cases h1 : i < l.length
    · have : i < l.length - 1 := by omega
      simp [h1, this]
    · simp [h1, hi]; omega

theorem rremove_ofRev {l : List Nat} (h : l.length ≤ 6) {axis : Nat} (ha : axis < l.length) :
    (ofRev l).rremove axis = Except.ok (ofRev (l.eraseIdx axis)) := by
  unfold rremove
  have h6 := dims_ofRev_length h
  rw [rank_ofRev, ensure_true ha, ok_bind, usub_ok (by omega), ok_bind]
  obtain ⟨d, e, hl, hw⟩ := forR_inv (lo := axis) (hi := l.length - 1) (by omega) (s := (ofRev l).dims)
    (body := fun i dims => do let d ← idx dims (i + 1); setIdx dims i d)
    (fun k d => d.length = 6 ∧ ∀ i, i < 6 →
      d[i]? = if axis ≤ i ∧ i < k then (ofRev l).dims[i + 1]? else (ofRev l).dims[i]?)
    ⟨h6, fun i _ => by rw [if_neg (by omega)]⟩
    (by
      rintro i dims h1 h2 ⟨hl, hw⟩
      have hlt : i + 1 < dims.length := by omega
      refine ⟨dims.set i dims[i+1], ?_, by simpa using hl, fun j hj => ?_⟩
      · show (idx dims (i+1) >>= fun d => setIdx dims i d) = _
        rw [idx_lt hlt, ok_bind, setIdx_ok (by omega)]
      · by_cases hij : i = j
        · subst hij
          rw [List.getElem?_set_self (by omega), if_pos (by omega), ← List.getElem?_eq_getElem hlt, hw _ (by omega),
            if_neg (by omega)]
        · rw [List.getElem?_set_ne hij, hw j hj]
          congr 1
          simp; omega)
  rw [e, ok_bind, setIdx_ok (by omega)]
  simp only [ok_bind, pure_eq_ok, Except.ok.injEq]
  apply eq_ofRev_iff (by rw [List.length_eraseIdx]; split <;> omega)
    (by rw [List.length_eraseIdx]; simp [ha]) (by simpa using hl)
  intro i hi
  rw [List.length_eraseIdx, if_pos ha]
  by_cases hil : l.length - 1 = i
  · rw [hil, List.getElem?_set_self (by omega), if_neg (by omega)]
  · rw [List.getElem?_set_ne hil, hw i hi, ofRev_get h, ofRev_get h, List.getElem?_eraseIdx]
    by_cases h1 : i < axis
    · rw [if_neg (by omega), if_pos (by omega), if_pos (by omega), if_pos h1]
    · by_cases h2 : i < l.length - 1
      · rw [if_pos (by omega), if_pos (by omega), if_pos h2, if_neg h1]
      · rw [if_neg (by omega), if_neg (by omega), if_pos hi, if_neg h2]

theorem rinsert_ofRev {l : List Nat} (h : l.length < 6) {axis : Nat} (ha : axis ≤ l.length) (ha5 : axis < 5)
    (n : Nat) : (ofRev l).rinsert axis n = Except.ok (ofRev (l.insertIdx axis (asU32 n))) := by
  unfold rinsert
  have h6 := dims_ofRev_length (l := l) (by omega)
  rw [ensure_true (by unfold MAX_RANK; omega), ok_bind, rank_ofRev]
  obtain ⟨d, e, hl, hw⟩ := forR_inv (lo := 0) (hi := l.length - axis) (by omega) (s := (ofRev l).dims)
    (body := fun k dims => do
      let i := l.length - 1 - k
      let d ← idx dims i
      setIdx dims (i + 1) d)
    (fun k d => d.length = 6 ∧ ∀ i, i < 6 →
      d[i]? = if l.length - k < i ∧ i ≤ l.length then (ofRev l).dims[i - 1]? else (ofRev l).dims[i]?)
    ⟨h6, fun i _ => by rw [if_neg (by omega)]⟩
    (by
      rintro k dims h1 h2 ⟨hl, hw⟩
      have hlt : l.length - 1 - k < dims.length := by omega
      refine ⟨dims.set (l.length - 1 - k + 1) dims[l.length - 1 - k], ?_, by simpa using hl, fun j hj => ?_⟩
      · show (idx dims (l.length - 1 - k) >>= fun d => setIdx dims (l.length - 1 - k + 1) d) = _
        rw [idx_lt hlt, ok_bind, setIdx_ok (by omega)]
      · by_cases hij : l.length - 1 - k + 1 = j
        · rw [hij, List.getElem?_set_self (by omega), if_pos (by omega), ← List.getElem?_eq_getElem hlt,
            hw _ (by omega), if_neg (by omega)]
          congr 1; omega
        · rw [List.getElem?_set_ne hij, hw j hj]
          congr 1
          simp; omega)
  rw [e, ok_bind, setIdx_ok (by omega)]
  simp only [ok_bind, pure_eq_ok, Except.ok.injEq]
  have hli : (l.insertIdx axis (asU32 n)).length = l.length + 1 := by
    rw [List.length_insertIdx]; simp [ha]
  apply eq_ofRev_iff (by omega) (by omega) (by simpa using hl)
  intro i hi
  rw [hli, List.getElem?_insertIdx]
  by_cases hil : axis = i
  · subst hil; rw [List.getElem?_set_self (by omega)]; simp [ha]; omega
  · rw [List.getElem?_set_ne hil, hw i hi, ofRev_get (by omega), ofRev_get (by omega)]
    by_cases h1 : i < axis
    · rw [if_neg (by omega), if_pos (by omega), if_pos (by omega), if_pos h1]
    · by_cases h2 : i ≤ l.length
      · rw [if_pos (by omega), if_pos (by omega), if_pos (by omega), if_neg (by omega), if_neg (by omega)]
      · rw [if_neg (by omega), if_neg (by omega), if_pos hi, if_neg (by omega)]

/-! ### reversal of list edits -/

theorem reverse_set (l : List Nat) {i : Nat} (hi : i < l.length) (v : Nat) :
    (l.set (l.length - 1 - i) v).reverse = l.reverse.set i v := by
  apply List.ext_getElem?
  intro j
  by_cases hj : j < l.length
  · rw [List.getElem?_reverse (by simpa using hj)]
    simp only [List.length_set]
    by_cases hij : i = j
    · subst hij; rw [List.getElem?_set_self (by omega), List.getElem?_set_self (by simpa using hj)]
    · rw [List.getElem?_set_ne (by omega), List.getElem?_set_ne hij, List.getElem?_reverse hj]
  · rw [List.getElem?_eq_none (by simp; omega), List.getElem?_eq_none (by simp; omega)]

theorem reverse_eraseIdx (l : List Nat) {i : Nat} (hi : i < l.length) :
    (l.eraseIdx (l.length - 1 - i)).reverse = l.reverse.eraseIdx i := by
  apply List.ext_getElem?
  intro j
  rw [List.getElem?_eraseIdx]
  by_cases hj : j < l.length - 1
  · rw [List.getElem?_reverse (by rw [List.length_eraseIdx]; split <;> omega), List.length_eraseIdx,
      if_pos (by omega), List.getElem?_eraseIdx]
    split
    · rw [if_neg (by omega), List.getElem?_reverse (by omega)]; congr 1; omega
    · rw [if_pos (by omega), List.getElem?_reverse (by omega)]; congr 1; omega
  · rw [List.getElem?_eq_none (by simp [List.length_eraseIdx]; split <;> omega)]
    rw [if_neg (by omega), List.getElem?_eq_none (by simp; omega)]

theorem reverse_insertIdx (l : List Nat) {i : Nat} (hi : i ≤ l.length) (v : Nat) :
    (l.insertIdx (l.length - i) v).reverse = l.reverse.insertIdx i v := by
  have hlen : (l.insertIdx (l.length - i) v).length = l.length + 1 := by
    rw [List.length_insertIdx]; simp
  apply List.ext_getElem?
  intro j
  rw [List.getElem?_insertIdx]
  by_cases hj : j < l.length + 1
  · rw [List.getElem?_reverse (by omega), hlen, List.getElem?_insertIdx]
    by_cases h1 : j < i
    · rw [if_pos h1, if_neg (by omega), if_neg (by omega), List.getElem?_reverse (by omega)]
      congr 1; omega
    · by_cases h2 : j = i
      · subst h2
        rw [if_neg h1, if_pos rfl, if_neg (by omega), if_pos (by omega), if_pos (by omega), if_pos (by simpa using hi)]
      · rw [if_neg h1, if_neg h2, if_pos (by omega), List.getElem?_reverse (by omega)]
        congr 1; omega
  · rw [List.getElem?_eq_none (by simp; omega), if_neg (by omega), if_neg (by omega),
      List.getElem?_eq_none (by simp; omega)]

/-! ### editors, on outermost-first lists -/

theorem Adm.set {l : List Nat} (h : Adm l) (i n : Nat) : Adm (l.set i (asU32 n)) :=
  ⟨by simpa using h.len, fun d hd => by
    rcases List.mem_or_eq_of_mem_set hd with hd | hd
    · exact h.lt d hd
    · exact hd ▸ asU32_lt n⟩

theorem Adm.eraseIdx {l : List Nat} (h : Adm l) (i : Nat) : Adm (l.eraseIdx i) :=
  ⟨by rw [List.length_eraseIdx]; have := h.len; split <;> omega, fun d hd => h.lt d (List.mem_of_mem_eraseIdx hd)⟩

theorem mem_insertIdx' {l : List Nat} {i v d : Nat} (hd : d ∈ l.insertIdx i v) : d ∈ l ∨ d = v := by
  obtain ⟨k, hk⟩ := List.getElem?_of_mem hd
  rw [List.getElem?_insertIdx] at hk
  split at hk
  · exact Or.inl (List.mem_of_getElem? hk)
  · split at hk
    · split at hk
      · cases hk; exact Or.inr rfl
      · cases hk
    · exact Or.inl (List.mem_of_getElem? hk)

theorem Adm.insertIdx {l : List Nat} (h : Adm l) (hl : l.length < 6) (i n : Nat) : Adm (l.insertIdx i (asU32 n)) :=
  ⟨by rw [List.length_insertIdx]; split <;> omega, fun d hd => by
    rcases mem_insertIdx' hd with hd | rfl
    · exact h.lt d hd
    · exact asU32_lt n⟩

theorem replace_ofDims {ds : List Nat} (h : ds.length ≤ 6) {i : Nat} (hi : i < ds.length) (v : Nat) :
    (ofDims ds).replace i v = Except.ok (ofDims (ds.set i (asU32 v))) := by
  unfold replace
  rw [rank_ofDims, ensure_true hi, ok_bind, usub_ok (by omega), ok_bind, usub_ok (by omega), ok_bind]
  unfold ofDims
  rw [rreplace_ofRev (by simpa using h) (by simp; omega)]
  have := reverse_set ds.reverse (i := i) (by simpa using hi) (asU32 v)
  simp only [List.length_reverse, List.reverse_reverse] at this
  rw [← this, List.reverse_reverse]

theorem remove_ofDims {ds : List Nat} (h : ds.length ≤ 6) {i : Nat} (hi : i < ds.length) :
    (ofDims ds).remove i = Except.ok (ofDims (ds.eraseIdx i)) := by
  unfold remove
  rw [rank_ofDims, ensure_true hi, ok_bind, usub_ok (by omega), ok_bind, usub_ok (by omega), ok_bind]
  unfold ofDims
  rw [rremove_ofRev (by simpa using h) (by simp; omega)]
  have := reverse_eraseIdx ds.reverse (i := i) (by simpa using hi)
  simp only [List.length_reverse, List.reverse_reverse] at this
  rw [← this, List.reverse_reverse]

theorem insert_ofDims {ds : List Nat} (h : ds.length < 6) {i : Nat} (hi : i ≤ ds.length) (h5 : ds.length - i < 5)
    (n : Nat) : (ofDims ds).insert i n = Except.ok (ofDims (ds.insertIdx i (asU32 n))) := by
  unfold insert
  rw [rank_ofDims, usub_ok hi, ok_bind]
  unfold ofDims
  rw [rinsert_ofRev (by simpa using h) (by simp) h5]
  have := reverse_insertIdx ds.reverse (i := i) (by simpa using hi) (asU32 n)
  simp only [List.length_reverse, List.reverse_reverse] at this
  rw [← this, List.reverse_reverse]

theorem push_ofDims {ds : List Nat} (h : ds.length < 6) (n : Nat) :
    (ofDims ds).push n = Except.ok (ofDims (asU32 n :: ds)) := by
  unfold ofDims
  rw [push_ofRev (by simpa using h)]
  simp

theorem pop_ofDims {ds : List Nat} (h : ds.length ≤ 6) (hl : 0 < ds.length) :
    (ofDims ds).pop = Except.ok (ofDims ds.tail) := by
  unfold ofDims
  rw [pop_ofRev (by simpa using h) (by simpa using hl)]
  simp

/-! ### squeeze and expand_dims -/

theorem set_snoc {l : List Nat} (h : l.length < 6) (d : Nat) :
    (ofRev l).dims.set l.length d = (ofRev (l ++ [d])).dims := by
  simp only [ofRev]
  rw [List.set_append_right _ _ (Nat.le_refl _)]
  obtain ⟨n, hn⟩ : ∃ n, 6 - l.length = n + 1 := ⟨5 - l.length, by omega⟩
  rw [hn, Nat.sub_self, List.replicate_succ, List.set_cons_zero, List.length_append, List.length_singleton,
    show 6 - (l.length + 1) = n by omega]
  simp

theorem squeezeLoop_ofRev {l : List Nat} (h : l.length ≤ 6) (keep : Nat → Nat → Bool) (K : Nat → List Nat)
    (h0 : K 0 = [])
    (hs : ∀ i (hi : i < l.length), K (i + 1) = if keep i l[i] then K i ++ [l[i]] else K i) :
    (ofRev l).squeezeLoop keep =
      Except.ok (if K l.length = [] then ofRev [1] else ofRev (K l.length)) := by
  unfold squeezeLoop
  rw [setIdx_ok (by decide), ok_bind, rank_ofRev]
  obtain ⟨st, e, h1, h2, h3⟩ := forR_inv (Nat.zero_le l.length) (s := (0, zeroDims.set 0 1))
    (body := fun i st => do
      let d ← idx (ofRev l).dims i
      if keep i d then do
        let dims ← setIdx st.2 st.1 d
        return (st.1 + 1, dims)
      else return st)
    (fun i st => st.1 = (K i).length ∧ (K i).length ≤ i ∧
      st.2 = if K i = [] then (ofRev [1]).dims else (ofRev (K i)).dims)
    ⟨by simp [h0], by simp [h0], by simp [h0]; rfl⟩
    (by
      rintro i ⟨r, dims⟩ _ hi ⟨h1, h2, h3⟩
      simp only at h1 h3
      have hd : (ofRev l).dims[i]? = some l[i] := by rw [ofRev_get h, if_pos hi, List.getElem?_eq_getElem hi]
      show ∃ s', (idx (ofRev l).dims i >>= _) = _ ∧ _
      rw [idx_ok hd, ok_bind, hs i hi]
      by_cases hk : keep i l[i]
      · have hlen : dims.length = 6 := by
          rw [h3]; split
          · rfl
          · exact dims_ofRev_length (by omega)
        simp only [hk, if_true]
        rw [setIdx_ok (by omega)]
        refine ⟨(r + 1, dims.set r l[i]), rfl, by simp [h1], by simp; omega, ?_⟩
        simp only [List.append_eq_nil_iff, List.cons_ne_self, and_false, if_false]
        rw [h3, h1]
        split
        · rename_i hnil; rw [hnil]; rfl
        · rw [set_snoc (by omega)]
      · simp only [hk]
        exact ⟨(r, dims), rfl, h1, by simp; omega, by simpa using h3⟩)
  rw [e]
  simp only [ok_bind, pure_eq_ok, Except.ok.injEq]
  split
  · rename_i hnil
    rw [h3, h1, hnil]; rfl
  · rename_i hnil
    have : 0 < (K l.length).length := List.length_pos_iff.2 hnil
    rw [h3, h1, if_neg hnil, Nat.max_eq_left this]; rfl

theorem squeezeNone_ofRev {l : List Nat} (h : l.length ≤ 6) :
    (ofRev l).squeeze none =
      Except.ok (if l.filter (· ≠ 1) = [] then ofRev [1] else ofRev (l.filter (· ≠ 1))) := by
  unfold squeeze
  simp only
  rw [squeezeLoop_ofRev h _ (fun i => (l.take i).filter (· ≠ 1)) (by simp)]
  · simp
  · intro i hi
    rw [List.take_add_one, List.getElem?_eq_getElem hi, List.filter_append]
    by_cases h1 : l[i] = 1 <;> simp [h1]

/-- `squeeze(Some axis)` inspects the slot `rank - a` of the storage (`a` the normalised axis). -/
theorem squeezeLoop_axis_ofRev {l : List Nat} (h : l.length ≤ 6) (a : Nat) :
    (ofRev l).squeezeLoop (fun i d => i != a || d != 1) =
      Except.ok (if l[a]? = some 1 then (if l.length = 1 then ofRev [1] else ofRev (l.eraseIdx a))
        else if l = [] then ofRev [1] else ofRev l) := by
  rw [squeezeLoop_ofRev h _ (fun i => if a < i ∧ l[a]? = some 1 then (l.take i).eraseIdx a else l.take i) (by simp)]
  · simp only [List.take_length]
    by_cases h1 : l[a]? = some 1
    · have ha : a < l.length := (List.getElem?_eq_some_iff.1 h1).1
      simp only [ha, h1, and_self, if_true]
      congr 1
      by_cases hl : l.length = 1
      · rw [if_pos hl, if_pos (by rw [← List.length_eq_zero_iff, List.length_eraseIdx, if_pos ha]; omega)]
      · rw [if_neg hl, if_neg (by rw [← List.length_eq_zero_iff, List.length_eraseIdx, if_pos ha]; omega)]
    · simp only [h1, and_false, if_false]
  · intro i hi
    have hap : l.take (i + 1) = l.take i ++ [l[i]] := by
      rw [List.take_add_one, List.getElem?_eq_getElem hi]; rfl
    rw [hap]
    by_cases h1 : l[a]? = some 1
    · obtain ⟨ha, ha'⟩ := List.getElem?_eq_some_iff.1 h1
      simp only [h1, and_true]
      by_cases hai : a < i
      · rw [if_pos (by omega), if_pos hai, List.eraseIdx_append_of_lt_length (by simp; omega)]
        simp [show i ≠ a by omega]
      · by_cases hae : a = i
        · subst hae
          rw [if_pos (by omega), if_neg (Nat.lt_irrefl a),
            List.eraseIdx_append_of_length_le (by simp; omega)]
          simp [ha', Nat.min_eq_left (Nat.le_of_lt ha)]
        · rw [if_neg (by omega), if_neg hai]
          simp [show i ≠ a by omega]
    · simp only [h1, and_false, if_false]
      have : (i != a || l[i] != 1) = true := by
        by_cases hia : i = a
        · subst hia
          rw [List.getElem?_eq_getElem hi] at h1
          simp at h1 ⊢; exact h1
        · simp [hia]
      rw [this]; simp

theorem iadd_ok {a b : Int} (h1 : -9223372036854775808 ≤ a + b) (h2 : a + b < 9223372036854775808) :
    iadd a b = Except.ok (a + b) := by simp [iadd, h1, h2]

theorem isizeAsUsize_nonneg {x : Int} (h0 : 0 ≤ x) (h1 : x < 18446744073709551616) : isizeAsUsize x = x.toNat := by
  unfold isizeAsUsize; rw [Int.emod_eq_of_lt h0 h1]

theorem expandDims_ofDims {ds : List Nat} (h : Adm ds) (hpos : ∀ d ∈ ds, 0 < d) (hl : ds.length < 6) {axis : Int}
    (h1 : -((ds.length : Int) + 1) ≤ axis) (h2 : axis ≤ ds.length) :
    (ofDims ds).expandDims axis =
      Except.ok (ofDims (ds.insertIdx (if 0 ≤ axis then axis.toNat else (axis + (ds.length : Int) + 1).toNat) 1)) := by
  unfold expandDims
  rw [asVec_eq (wf_ofDims h), ok_bind, toDims_ofDims]
  have hfin : (if axis ≥ 0 then (pure (isizeAsUsize axis) : Res Nat) else do
      let x ← iadd ds.length axis
      let y ← iadd x 1
      pure (isizeAsUsize y)) =
      Except.ok (if 0 ≤ axis then axis.toNat else (axis + (ds.length : Int) + 1).toNat) := by
    split
    · rename_i h0
      rw [isizeAsUsize_nonneg h0 (by omega)]; rfl
    · rename_i h0
      rw [iadd_ok (by omega) (by omega), ok_bind, iadd_ok (by omega) (by omega), ok_bind,
        isizeAsUsize_nonneg (by omega) (by omega)]
      simp only [pure_eq_ok, Except.ok.injEq]
      congr 1; omega
  have hre : ∀ (k : Nat → Res Shape), (if axis ≥ 0 then ((pure (isizeAsUsize axis) : Res Nat) >>= k) else do
      let x ← iadd ds.length axis
      let y ← iadd x 1
      let i ← pure (isizeAsUsize y)
      k i) = ((if axis ≥ 0 then (pure (isizeAsUsize axis) : Res Nat) else do
      let x ← iadd ds.length axis
      let y ← iadd x 1
      pure (isizeAsUsize y)) >>= k) := by
    intro k
    split
    · rfl
    · cases iadd ds.length axis with
      | error e => rfl
      | ok x => simp only [ok_bind]; cases iadd x 1 <;> rfl
  refine (hre _).trans ?_
  rw [hfin, ok_bind]
  dsimp only
  rw [ensure_true (by split <;> omega), ok_bind]
  rw [ofVec_adm]
  · have := h.insertIdx hl (if 0 ≤ axis then axis.toNat else (axis + (ds.length : Int) + 1).toNat) 1
    exact this
  · intro d hd
    rcases mem_insertIdx' hd with hd | rfl
    · exact hpos d hd
    · omega

/-! ### sub-products -/

theorem rsublen_ofRev {l : List Nat} (h : l.length ≤ 6) {lo hi : Nat} (hle : lo ≤ hi) (hhi : hi ≤ l.length) :
    (ofRev l).rsublen lo hi = ((l.drop lo).take (hi - lo)).foldlM mulU32 1 := by
  unfold rsublen
  obtain ⟨n, rfl⟩ : ∃ n, hi = lo + n := ⟨hi - lo, by omega⟩
  rw [Nat.add_sub_cancel_left]
  clear hle
  induction n with
  | zero => rw [forR_stop (by omega)]; simp
  | succ n ih =>
    rw [← Nat.add_assoc, forR_snoc (by omega), ih (by omega)]
    have hlt : lo + n < l.length := by omega
    have : (l.drop lo).take (n + 1) = (l.drop lo).take n ++ [l[lo + n]] := by
      rw [List.take_add_one, List.getElem?_drop, List.getElem?_eq_getElem hlt]; rfl
    rw [this, List.foldlM_append]
    congr 1
    funext a
    rw [idx_ok (x := l[lo+n]) (by rw [ofRev_get h, if_pos hlt, List.getElem?_eq_getElem hlt])]
    simp only [ok_bind, List.foldlM_cons, List.foldlM_nil]
    cases mulU32 a l[lo + n] <;> rfl

theorem sublen_ofDims {ds : List Nat} (h : ds.length ≤ 6) {lo hi : Nat} (hle : lo ≤ hi) (hhi : hi ≤ ds.length) :
    (ofDims ds).sublen lo hi = (((ds.drop lo).take (hi - lo)).reverse).foldlM mulU32 1 := by
  unfold sublen
  rw [rank_ofDims, usub_ok hhi, ok_bind, usub_ok (by omega), ok_bind]
  unfold ofDims
  rw [rsublen_ofRev (by simpa using h) (by omega) (by simp)]
  congr 1
  apply List.ext_getElem?
  intro j
  by_cases hj : j < hi - lo
  · rw [List.getElem?_take, if_pos (by omega), List.getElem?_drop, List.getElem?_reverse (by omega),
      List.getElem?_reverse (by simp; omega)]
    simp only [List.length_take, List.length_drop]
    rw [List.getElem?_take, if_pos (by omega), List.getElem?_drop]
    congr 1; omega
  · rw [List.getElem?_eq_none (by simp; omega), List.getElem?_eq_none (by simp; omega)]

theorem sublen_eq_ok {s : Shape} (h : s.WF) {lo hi n : Nat} (hle : lo ≤ hi) (hhi : hi ≤ s.rank)
    (hn : s.sublen lo hi = Except.ok n) : n = ((s.toDims.drop lo).take (hi - lo)).prod := by
  obtain ⟨ds, hds, he, ht⟩ := h.exists_dims
  rw [ht]; rw [he] at hn hhi
  rw [sublen_ofDims hds.len hle (by simpa using hhi), foldlM_mul_eq_ok (by omega)] at hn
  rw [hn.2, List.prod_reverse, Nat.one_mul]

theorem sublen_ok {s : Shape} (h : s.WF) {lo hi : Nat} (hle : lo ≤ hi) (hhi : hi ≤ s.rank)
    (h0 : 0 < s.toDims.prod) (hlt : s.toDims.prod < 4294967296) :
    s.sublen lo hi = Except.ok ((s.toDims.drop lo).take (hi - lo)).prod := by
  obtain ⟨ds, hds, he, ht⟩ := h.exists_dims
  rw [ht] at h0 hlt ⊢; rw [he] at hhi ⊢
  have hpos : ∀ d ∈ ((ds.drop lo).take (hi - lo)), 0 < d := fun d hd =>
    pos_of_prod_pos h0 d (List.mem_of_mem_drop (List.mem_of_mem_take hd))
  have h1 := prod_pos hpos
  have h2 : ((ds.drop lo).take (hi - lo)).prod ≤ ds.prod :=
    Nat.le_trans (prod_take_le (prod_pos fun d hd => pos_of_prod_pos h0 d (List.mem_of_mem_drop hd)) _)
      (prod_drop_le h0 _)
  rw [sublen_ofDims hds.len hle (by simpa using hhi)]
  rw [foldlM_mul_ok (by rwa [List.prod_reverse]) (by rw [List.prod_reverse]; omega), List.prod_reverse]

end Shape

end Essay
