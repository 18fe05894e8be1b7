import Verif.Lemmas.Shape
import Verif.Spec.Tensor

/-! # Helper lemmas about tensors, `Rep`, `ravel` (no claims here) -/

namespace Essay

open Shape

variable {α β : Type}

/-! ### ravel -/

theorem ravel_lt {ds is : List Nat} {p : Nat} (h : ravel ds is = some p) : p < ds.prod := by
  induction ds generalizing is p with
  | nil =>
    cases is with
    | nil => simp [ravel] at h; subst h; simp
    | cons i is => simp [ravel] at h
  | cons d ds ih =>
    cases is with
    | nil => simp [ravel] at h
    | cons i is =>
      simp only [ravel] at h
      split at h
      · rename_i hi
        obtain ⟨q, hq, rfl⟩ := Option.map_eq_some_iff.1 h
        have := ih hq
        rw [List.prod_cons]
        calc i * ds.prod + q < i * ds.prod + ds.prod := by omega
          _ = (i + 1) * ds.prod := by rw [Nat.succ_mul]
          _ ≤ d * ds.prod := Nat.mul_le_mul_right _ hi
      · cases h

theorem ravel_length {ds is : List Nat} {p : Nat} (h : ravel ds is = some p) : is.length = ds.length := by
  induction ds generalizing is p with
  | nil => cases is <;> simp_all [ravel]
  | cons d ds ih =>
    cases is with
    | nil => simp [ravel] at h
    | cons i is =>
      simp only [ravel] at h
      split at h
      · obtain ⟨q, hq, rfl⟩ := Option.map_eq_some_iff.1 h
        simp [ih hq]
      · cases h

theorem ravel_append {ds es is js : List Nat} (hl : is.length = ds.length) :
    ravel (ds ++ es) (is ++ js) =
      (ravel ds is).bind fun p => (ravel es js).map fun q => p * es.prod + q := by
  induction ds generalizing is with
  | nil =>
    cases is with
    | nil => simp [ravel]
    | cons i is => simp at hl
  | cons d ds ih =>
    cases is with
    | nil => simp at hl
    | cons i is =>
      simp only [List.cons_append, ravel]
      split
      · rw [ih (by simpa using hl), List.prod_append]
        cases ravel ds is with
        | none => rfl
        | some p =>
          cases ravel es js with
          | none => rfl
          | some q =>
            simp only [Option.bind_some, Option.map_some]
            congr 1
            rw [Nat.add_mul, Nat.mul_assoc, Nat.add_assoc]
      · rfl

/-- Every position below the product is the position of some index. -/
theorem ravel_surj (ds : List Nat) {p : Nat} (h : p < ds.prod) : ∃ is, ravel ds is = some p := by
  induction ds generalizing p with
  | nil => exact ⟨[], by simp at h; simp [ravel, h]⟩
  | cons d ds ih =>
    rw [List.prod_cons] at h
    have hpos : 0 < ds.prod := by
      rcases Nat.eq_zero_or_pos ds.prod with h0 | h0
      · rw [h0] at h; omega
      · exact h0
    obtain ⟨is, his⟩ := ih (Nat.mod_lt p hpos)
    refine ⟨p / ds.prod :: is, ?_⟩
    have hd : p / ds.prod < d := (Nat.div_lt_iff_lt_mul hpos).2 h
    simp only [ravel, hd, if_true, his, Option.map_some]
    congr 1
    have := Nat.div_add_mod p ds.prod
    rw [Nat.mul_comm] at this
    exact this

theorem ravel_cons {d : Nat} {ds is : List Nat} {i p : Nat} :
    ravel (d :: ds) (i :: is) = some p ↔ i < d ∧ ∃ q, ravel ds is = some q ∧ p = i * ds.prod + q := by
  simp only [ravel]
  constructor
  · intro h
    split at h
    · obtain ⟨q, hq, e⟩ := Option.map_eq_some_iff.1 h
      exact ⟨by assumption, q, hq, e.symm⟩
    · cases h
  · rintro ⟨hi, q, hq, rfl⟩
    simp [hi, hq]

theorem ravel_inj {ds is js : List Nat} {p : Nat} (h1 : ravel ds is = some p) (h2 : ravel ds js = some p) :
    is = js := by
  induction ds generalizing is js p with
  | nil => cases is <;> cases js <;> simp_all [ravel]
  | cons d ds ih =>
    cases is with
    | nil => simp [ravel] at h1
    | cons i is =>
      cases js with
      | nil => simp [ravel] at h2
      | cons j js =>
        obtain ⟨_, q1, e1, f1⟩ := ravel_cons.1 h1
        obtain ⟨_, q2, e2, f2⟩ := ravel_cons.1 h2
        have l1 := ravel_lt e1
        have l2 := ravel_lt e2
        have hpos : 0 < ds.prod := by omega
        have hi : i = j := by
          have a1 : (i * ds.prod + q1) / ds.prod = i := by
            rw [Nat.mul_comm, Nat.mul_add_div hpos, Nat.div_eq_of_lt l1]; rfl
          have a2 : (j * ds.prod + q2) / ds.prod = j := by
            rw [Nat.mul_comm, Nat.mul_add_div hpos, Nat.div_eq_of_lt l2]; rfl
          rw [← f1] at a1; rw [← f2] at a2; omega
        subst hi
        have hq : q1 = q2 := by omega
        subst hq
        rw [ih e1 e2]

/-! ### sizes -/

theorem prod_take_reverse (ds : List Nat) (k : Nat) :
    (ds.reverse.take k).prod = (ds.drop (ds.length - k)).prod := by
  rw [List.take_reverse, List.prod_reverse]

theorem size_ofDims_iff {ds : List Nat} (h : Adm ds) {n : Nat} :
    (ofDims ds).size = Except.ok n ↔ Fits ds ∧ n = ds.prod := by
  unfold ofDims
  rw [size_ofRev (by simpa using h.len), foldlM_mul_eq_ok (by omega), List.prod_reverse, Nat.one_mul]
  simp only [Nat.one_mul, prod_take_reverse, List.length_reverse]
  constructor
  · rintro ⟨h1, h2⟩
    refine ⟨fun k => ?_, h2⟩
    by_cases hk : k ≤ ds.length
    · have := h1 (ds.length - k) (by omega)
      rw [show ds.length - (ds.length - k) = k by omega] at this
      exact this
    · rw [List.drop_of_length_le (by omega)]; simp
  · rintro ⟨h1, h2⟩
    exact ⟨fun k _ => h1 _, h2⟩

theorem fits_of_pos {ds : List Nat} (h0 : 0 < ds.prod) (h : ds.prod < 2 ^ 32) : Fits ds := by
  intro k
  have := prod_drop_le h0 k
  omega

theorem Fits.prod_lt {ds : List Nat} (h : Fits ds) : ds.prod < 4294967296 := by
  have := h 0; simpa using this

theorem fits_nil : Fits [] := fun k => by simp

theorem fits_cons {d : Nat} {ds : List Nat} : Fits (d :: ds) ↔ d * ds.prod < 2 ^ 32 ∧ Fits ds := by
  constructor
  · intro h
    exact ⟨by simpa using h 0, fun k => by simpa using h (k + 1)⟩
  · rintro ⟨h1, h2⟩ k
    cases k with
    | zero => simpa using h1
    | succ k => simpa using h2 k

theorem fits_one {d : Nat} (h : d < 4294967296) : Fits [d] := fits_cons.2 ⟨by simpa using h, fits_nil⟩

/-! ### Rep -/

theorem rawSlice_ok {xs : List α} {off len : Nat} (h : off + len ≤ xs.length) :
    rawSlice xs off len = Except.ok ((xs.drop off).take len) := by simp [rawSlice, h]

theorem rawAdd_ok {xs : List α} {i : Nat} (h : i ≤ xs.length) : rawAdd xs i = Except.ok i := if_pos h

theorem rawRead_ok {xs : List α} {i : Nat} {x : α} (h : xs[i]? = some x) : rawRead xs i = Except.ok x := by
  simp [rawRead, h]

theorem Tensor.WF.asSlice {t : Tensor α} (h : t.WF) : t.asSlice = Except.ok t.elems := by
  unfold Tensor.asSlice Tensor.elems
  rw [rawSlice_ok h.bound]

theorem Tensor.WF.elems_length {t : Tensor α} (h : t.WF) : t.elems.length = t.size := by
  unfold Tensor.elems; have := h.bound; simp; omega

theorem Tensor.WF.rep {t : Tensor α} (h : t.WF) : Rep t t.shape.toDims t.elems :=
  ⟨h, asVec_eq h.shape, h.asSlice⟩

section
variable {t : Tensor α} {ds : List Nat} {xs : List α}

theorem Rep.toDims (h : Rep t ds xs) : t.shape.toDims = ds := by
  have := h.dims; rw [asVec_eq h.wf.shape] at this; exact Except.ok.inj this

theorem Rep.elems_eq (h : Rep t ds xs) : t.elems = xs := by
  have := h.elems; rw [h.wf.asSlice] at this; exact Except.ok.inj this

theorem Rep.shape (h : Rep t ds xs) : t.shape = ofDims ds := by rw [← h.toDims]; exact h.wf.shape.eq_ofDims

theorem Rep.adm (h : Rep t ds xs) : Adm ds := by
  obtain ⟨ds', h1, _, h3⟩ := h.wf.shape.exists_dims
  rw [← h.toDims, h3]; exact h1

theorem Rep.size (h : Rep t ds xs) : t.size = xs.length := by rw [← h.elems_eq, h.wf.elems_length]

theorem Rep.fits (h : Rep t ds xs) : Fits ds := by
  have := h.wf.size; rw [h.shape, size_ofDims_iff h.adm] at this; exact this.1

theorem Rep.length (h : Rep t ds xs) : xs.length = ds.prod := by
  have := h.wf.size; rw [h.shape, size_ofDims_iff h.adm] at this; rw [← h.size]; exact this.2

theorem Rep.size_eq (h : Rep t ds xs) : t.shape.size = Except.ok ds.prod := by
  rw [h.wf.size, h.size, h.length]

theorem Rep.rank (h : Rep t ds xs) : t.shape.rank = ds.length := by rw [h.shape, rank_ofDims]

theorem Rep.data_get (h : Rep t ds xs) {i : Nat} (hi : i < xs.length) : t.data[t.offset + i]? = xs[i]? := by
  rw [← h.elems_eq]
  unfold Tensor.elems
  rw [h.size, List.getElem?_take, if_pos hi, List.getElem?_drop]

theorem Rep.prod_lt (h : Rep t ds xs) : ds.prod < 4294967296 := h.fits.prod_lt

theorem rep_fresh (ha : Adm ds) (hf : Fits ds) (hl : xs.length = ds.prod) :
    Rep ({ shape := ofDims ds, offset := 0, size := xs.length, data := xs } : Tensor α) ds xs := by
  have hs : (ofDims ds).size = Except.ok xs.length := (size_ofDims_iff ha).2 ⟨hf, hl⟩
  have hw : Tensor.WF ({ shape := ofDims ds, offset := 0, size := xs.length, data := xs } : Tensor α) :=
    ⟨wf_ofDims ha, hs, by simp⟩
  refine ⟨hw, ?_, ?_⟩
  · show (ofDims ds).asVec = _
    rw [asVec_eq (wf_ofDims ha), toDims_ofDims]
  · rw [hw.asSlice]; simp [Tensor.elems]

theorem new_ok (ha : Adm ds) (hf : Fits ds) (hl : xs.length = ds.prod) :
    Tensor.new xs (ofDims ds) =
      Except.ok ({ shape := ofDims ds, offset := 0, size := xs.length, data := xs } : Tensor α) := by
  unfold Tensor.new
  rw [(size_ofDims_iff ha).2 ⟨hf, hl⟩, ok_bind, ensure_true rfl]; rfl

theorem new_eq_ok {s : Shape} (h : Tensor.new xs s = Except.ok t) :
    s.size = Except.ok xs.length ∧ t = { shape := s, offset := 0, size := xs.length, data := xs } := by
  unfold Tensor.new at h
  obtain ⟨n, hn, h⟩ := bind_eq_ok.1 h
  rw [ensure_bind_eq_ok] at h
  obtain ⟨rfl, h⟩ := h
  exact ⟨hn, (Except.ok.inj h).symm⟩

theorem new_wf {s : Shape} (hs : s.WF) (h : Tensor.new xs s = Except.ok t) : t.WF := by
  obtain ⟨h1, rfl⟩ := new_eq_ok h
  exact ⟨hs, h1, by simp⟩

@[simp] theorem noUB_new (s : Shape) : NoUB (Tensor.new xs s) := by
  unfold Tensor.new
  exact noUB_bind (noUB_size s) fun _ _ => noUB_bind (by simp) fun _ _ => by simp

theorem new_panic {s : Shape} (h : s.size ≠ Except.ok xs.length) :
    Tensor.new xs s = (Except.error Err.panic : Res (Tensor α)) := by
  have hub := noUB_new (xs := xs) s
  cases hc : Tensor.new xs s with
  | ok t => exact absurd (new_eq_ok hc).1 h
  | error e =>
    rw [hc] at hub
    cases e
    · rfl
    · exact absurd rfl hub

/-- A closed form of `unsafe_init` for code that fills every slot. -/
theorem unsafeInit_fills {L : Nat} {P : Nat → Prop} {g : Nat → α} {s : Shape} {body : Buf α → Res (Buf α)}
    (h : Fills L P g body) (hP : ∀ p, p < L → P p) :
    Tensor.unsafeInit L s body = Tensor.new ((List.range L).map g) s := by
  unfold Tensor.unsafeInit
  rw [h.complete hP, ok_bind]
  unfold Tensor.finish
  rw [Buf.complete_map_some]

theorem unsafeInit_rep {L : Nat} {P : Nat → Prop} {g : Nat → α} {body : Buf α → Res (Buf α)}
    (h : Fills L P g body) (hP : ∀ p, p < L → P p) (ha : Adm ds) (hf : Fits ds) (hL : L = ds.prod) :
    ∃ t, Tensor.unsafeInit L (ofDims ds) body = Except.ok t ∧ Rep t ds ((List.range L).map g) := by
  have hl : ((List.range L).map g).length = ds.prod := by simp [hL]
  exact ⟨_, by rw [unsafeInit_fills h hP, new_ok ha hf hl], rep_fresh ha hf hl⟩

theorem Rep.reshape (h : Rep t ds xs) {es : List Nat} (ha : Adm es) (hf : Fits es) (hp : es.prod = ds.prod) :
    ∃ t', t.reshape (ofDims es) = Except.ok t' ∧ Rep t' es xs := by
  unfold Tensor.reshape
  rw [(size_ofDims_iff ha).2 ⟨hf, rfl⟩, ok_bind, ensure_true (by rw [h.size, h.length, hp]), ok_bind]
  have hw : Tensor.WF ({ t with shape := ofDims es }) := by
    refine ⟨wf_ofDims ha, ?_, h.wf.bound⟩
    show (ofDims es).size = Except.ok t.size
    rw [(size_ofDims_iff ha).2 ⟨hf, rfl⟩, h.size, h.length, hp]
  refine ⟨_, rfl, hw, ?_, ?_⟩
  · show (ofDims es).asVec = _
    rw [asVec_eq (wf_ofDims ha), toDims_ofDims]
  · rw [hw.asSlice, ← h.elems_eq]; rfl

end

theorem foldl_mul_eq (l : List Nat) (a : Nat) : l.foldl (· * ·) a = a * l.prod := by
  induction l generalizing a with
  | nil => simp
  | cons b l ih => simp [ih, Nat.mul_assoc]

theorem Fits.of_pos_subset {ds : List Nat} (h : Fits ds) (k : Nat) : Fits (ds.drop k) := by
  intro j; rw [List.drop_drop]; exact h _

theorem chunks_flatten (n : Nat) (k : Nat) (xs : List α) (h : xs.length = k * n) :
    ((List.range k).map fun i => (xs.drop (i * n)).take n).flatten = xs := by
  induction k generalizing xs with
  | zero => simp at h; simp [h]
  | succ k ih =>
    rw [List.range_succ_eq_map]
    simp only [List.map_cons, List.map_map, List.flatten_cons, Nat.zero_mul, List.drop_zero]
    have := ih (xs.drop n) (by simp [h, Nat.succ_mul])
    have e : (List.range k).map ((fun i => (xs.drop (i * n)).take n) ∘ Nat.succ) =
        (List.range k).map fun i => ((xs.drop n).drop (i * n)).take n := by
      apply List.map_congr_left
      intro i _
      simp only [Function.comp, List.drop_drop, Nat.succ_mul, Nat.add_comm]
    rw [e, this, List.take_append_drop]

end Essay
