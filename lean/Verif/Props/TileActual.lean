import Verif.Props.Tile
import Verif.Lemmas.Clones

/-!
# C32: what `tile` does with multiples of any rank

The multiples are read in row order, but only as many as the first dimension of the multiples count for the shape, and
only as many as the result has dimensions are used for the elements, while the buffer is allocated for all of them.
-/

namespace Essay

open Shape

variable {α : Type}

/-- Multiples as `tile` sees them, from the outermost: those it allocates for but never uses, those it uses without
counting them for the shape, and those that count. -/
structure Multiples (mt : Tensor Nat) (rank : Nat) (outer mid shown : List Nat) : Prop where
  rep : ∃ es, Rep mt (shown.length :: es) (outer ++ mid ++ shown)
  fit : (mid ++ shown).length ≤ max rank shown.length
  full : outer ≠ [] → (mid ++ shown).length = max rank shown.length

theorem downFrom_congr {f g : Nat → Nat} {n : Nat} (h : ∀ k, k ≤ n → f k = g k) : downFrom f n = downFrom g n := by
  induction n with
  | zero => simp [downFrom, h 0 (Nat.le_refl 0)]
  | succ n ih => rw [downFrom, downFrom, h _ (Nat.le_refl _), ih fun k hk => h k (by omega)]

theorem getD_tail {outer inner : List Nat} {k : Nat} (h : k < inner.length ∨ outer = []) :
    (outer ++ inner).reverse.getD k 1 = inner.reverse.getD k 1 := by
  rcases h with h | rfl
  · rw [List.reverse_append, List.getD_eq_getElem?_getD, List.getD_eq_getElem?_getD, List.getElem?_append_left (by simpa using h)]
  · rfl

/-- With no room at all, the first write is outside. -/
theorem tileRec_no_room (x : List α) (shR mR : List Nat) (j off len k : Nat) (hm : ∀ k, k ≤ j → 0 < mR.getD k 1)
    (hs : ∀ k, k ≤ j → 0 < shR.getD k 1) (hlen : len = (downFrom (fun k => shR.getD k 1) j).prod) (hoff : off + len ≤ x.length) :
    Tensor.tileRec x shR mR j off len ([], k) = .error .ub := by
  induction j generalizing off len with
  | zero =>
    have h0 := hm 0 (Nat.le_refl 0)
    have hl : 0 < len := by rw [hlen]; simpa [downFrom] using hs 0 (Nat.le_refl 0)
    unfold Tensor.tileRec
    rw [← ite_bind', getD_idx, ok_bind]
    show forR 0 (mR.getD 0 1) _ _ = _
    rw [forR_cons h0]
    dsimp only
    rw [forR_cons hl, idx_lt (by omega), ok_bind]
    rfl
  | succ j ih =>
    have h0 := hm (j + 1) (Nat.le_refl _)
    have hd := hs (j + 1) (Nat.le_refl _)
    unfold Tensor.tileRec
    rw [← ite_bind', getD_idx, ok_bind]
    show forR 0 (mR.getD (j + 1) 1) _ _ = _
    rw [forR_cons h0]
    by_cases hj : j + 1 < shR.length
    · rw [if_pos hj, idx_lt hj, ok_bind]
      have hg : shR.getD (j + 1) 1 = shR[j + 1] := by
        rw [List.getD_eq_getElem?_getD, List.getElem?_eq_getElem hj]; rfl
      rw [hg] at hd
      have hp : (shR.take (j + 1)).foldl (· * ·) 1 = (downFrom (fun k => shR.getD k 1) j).prod := by
        rw [foldl_mul_eq, Nat.one_mul, downFrom_prod]
      have hle : (downFrom (fun k => shR.getD k 1) j).prod ≤ len := by
        rw [hlen, downFrom, List.prod_cons]
        exact Nat.le_mul_of_pos_left _ (hs _ (Nat.le_refl _))
      rw [forR_cons hd, ih _ _ (fun k hk => hm k (by omega)) (fun k hk => hs k (by omega)) hp (by rw [hp]; omega)]
      rfl
    · rw [if_neg hj]
      have h1 : shR.getD (j + 1) 1 = 1 := by
        rw [List.getD_eq_getElem?_getD, List.getElem?_eq_none (by omega)]; rfl
      rw [downFrom, List.prod_cons, h1, Nat.one_mul] at hlen
      rw [ih _ _ (fun k hk => hm k (by omega)) (fun k hk => hs k (by omega)) hlen hoff]
      rfl

/-- `tile`, once the shape is made. -/
theorem tile_run {t : Tensor α} {ds : List Nat} {xs : List α} (h : Rep t ds xs) {mt : Tensor Nat} {outer mid shown : List Nat}
    (hm : Multiples mt ds.length outer mid shown) {n : Nat} (hn : max ds.length shown.length = n + 1) :
    Tensor.tile t mt = (Shape.ofVec (mulDims (padLeft (n + 1) shown) (padLeft (n + 1) ds)) >>= fun s =>
      Tensor.unsafeInit ((outer ++ mid ++ shown).prod * ds.prod) s fun o => do
        let st ← Tensor.tileRec xs ds.reverse (outer ++ mid ++ shown).reverse n 0 xs.length (o, 0)
        return st.1) := by
  obtain ⟨es, hr⟩ := hm.rep
  have hlen : mt.shape.len = Except.ok shown.length := by
    unfold Shape.len
    exact dim_eq hr.wf.shape (by rw [hr.toDims]; rfl)
  have hsh : (forR 0 (n + 1) [] fun i vec => do
      let tileDim ← if i < ds.length then idx ds.reverse i else pure 1
      let repeatDim ← if i < shown.length then idx (outer ++ mid ++ shown).reverse i else pure 1
      return vec ++ [tileDim * repeatDim]) =
      Except.ok ((List.range (n + 1)).map fun k => ds.reverse.getD k 1 * shown.reverse.getD k 1) := by
    rw [← tile_shape (ds := ds) (ms := shown) (N := n + 1)]
    apply forR_congr
    intro i s _ _
    have : (if i < shown.length then idx (outer ++ mid ++ shown).reverse i else (pure 1 : Res Nat)) =
        if i < shown.length then idx shown.reverse i else pure 1 := by
      split
      · rename_i hi
        rw [idx_lt (by simp; omega), idx_lt (by simpa using hi)]
        congr 1
        rw [List.getElem_of_eq (List.reverse_append ..), List.getElem_append_left]
      · rfl
    simp only [← ite_bind', this]
  unfold Tensor.tile
  rw [asVec_eq h.wf.shape, ok_bind, h.toDims, hr.elems, ok_bind, h.size_eq, ok_bind, h.elems, ok_bind, hlen, ok_bind, h.rank]
  dsimp only at hsh ⊢
  rw [hn, hsh, ok_bind, range_reverse_downFrom]
  have hdims : mulDims (padLeft (n + 1) shown) (padLeft (n + 1) ds) =
      downFrom (fun k => ds.reverse.getD k 1 * shown.reverse.getD k 1) n := by
    rw [padLeft_eq_downFrom (by omega), padLeft_eq_downFrom (by omega), mulDims_downFrom]
    congr 1
    funext k
    exact Nat.mul_comm _ _
  rw [hdims, foldl_mul_eq, Nat.one_mul, usub_ok (by omega)]
  simp only [ok_bind, Nat.add_sub_cancel]

theorem pos_of_mem_mulDims {a b : List Nat} (h : a.length = b.length) (ha : ∀ e ∈ a, 0 < e) (hb : ∀ e ∈ b, 0 < e) :
    ∀ e ∈ mulDims a b, 0 < e := by
  induction a generalizing b with
  | nil => cases b <;> simp [mulDims]
  | cons x a ih => cases b with
    | nil => simp at h
    | cons y b =>
      intro e he
      rcases List.mem_cons.1 he with rfl | he
      · exact Nat.mul_pos (ha x (by simp)) (hb y (by simp))
      · exact ih (b := b) (by simpa using h) (fun e he => ha e (by simp [he])) (fun e he => hb e (by simp [he])) e he

/-- What the loop writes. -/
theorem tile_emits {t : Tensor α} {ds : List Nat} {xs : List α} (h : Rep t ds xs) {mt : Tensor Nat} {outer mid shown : List Nat}
    (hm : Multiples mt ds.length outer mid shown) {n : Nat} (hn : max ds.length shown.length = n + 1) :
    Emits (tileElems (padLeft (n + 1) (mid ++ shown)) (padLeft (n + 1) ds) xs)
      (Tensor.tileRec xs ds.reverse (outer ++ mid ++ shown).reverse n 0 xs.length) ∧
    (tileElems (padLeft (n + 1) (mid ++ shown)) (padLeft (n + 1) ds) xs).length = (mid ++ shown).prod * ds.prod ∧
    ∀ k, k ≤ n → (outer ++ mid ++ shown).reverse.getD k 1 = (mid ++ shown).reverse.getD k 1 := by
  have hfit := hm.fit
  have hgetD : ∀ k, k ≤ n → (outer ++ mid ++ shown).reverse.getD k 1 = (mid ++ shown).reverse.getD k 1 := by
    intro k hk
    rw [List.append_assoc]
    apply getD_tail
    by_cases ho : outer = []
    · exact Or.inr ho
    · have := hm.full ho
      left; omega
  have hem := tileRec_emits xs ds.reverse (outer ++ mid ++ shown).reverse n 0 xs.length (by
    rw [← padLeft_eq_downFrom (by omega), padLeft_prod, h.length]) (by omega)
  rw [List.drop_zero, List.take_length, downFrom_congr hgetD, ← padLeft_eq_downFrom (by omega),
    ← padLeft_eq_downFrom (by omega)] at hem
  have htl := tileElems_length (padLeft (n + 1) (mid ++ shown)) (padLeft (n + 1) ds)
    (by rw [padLeft_length (by omega), padLeft_length (by omega)]) xs (by rw [padLeft_prod, h.length])
  rw [mulDims_prod (by rw [padLeft_length (by omega), padLeft_length (by omega)]), padLeft_prod, padLeft_prod] at htl
  exact ⟨hem, htl, hgetD⟩

/-- When the unused multiples have product 1, `tile` gives the elements written the shape made. -/
theorem tile_unused_one {t : Tensor α} {ds : List Nat} {xs : List α} (h : Rep t ds xs) {mt : Tensor Nat} {outer mid shown : List Nat}
    (hm : Multiples mt ds.length outer mid shown) {n : Nat} (hn : max ds.length shown.length = n + 1) (ho : outer.prod = 1) :
    Tensor.tile t mt = (Shape.ofVec (mulDims (padLeft (n + 1) shown) (padLeft (n + 1) ds)) >>= fun s =>
      Tensor.new (tileElems (padLeft (n + 1) (mid ++ shown)) (padLeft (n + 1) ds) xs) s) := by
  obtain ⟨hem, htl, -⟩ := tile_emits h hm hn
  rw [tile_run h hm hn]
  congr 1
  funext s
  unfold Tensor.unsafeInit
  obtain ⟨k, ek⟩ := emits_complete (L := (outer ++ mid ++ shown).prod * ds.prod) hem (by
    rw [htl, List.append_assoc, List.prod_append, ho, Nat.one_mul])
  simp only [ek, ok_bind]
  unfold Tensor.finish
  rw [pure_eq_ok, ok_bind]
  simp only [Buf.complete_map_some]

theorem used_dims {ds shown : List Nat} {n : Nat} (hn : max ds.length shown.length = n + 1) :
    (mulDims (padLeft (n + 1) shown) (padLeft (n + 1) ds)).length = n + 1 := by
  unfold mulDims
  rw [List.length_zipWith, padLeft_length (by omega), padLeft_length (by omega)]
  omega

/-- C32, multiples of any rank, positive where they are used: undefined behaviour exactly when the product of the
multiples that are allocated for but not used is not 1. -/
theorem C32_multiples_undefined {t : Tensor α} {ds : List Nat} {xs : List α} (h : Rep t ds xs) (hxs : xs ≠ []) {mt : Tensor Nat}
    {outer mid shown : List Nat} (hm : Multiples mt ds.length outer mid shown) (hpos : ∀ m ∈ mid ++ shown, 0 < m)
    (h0 : 0 < max ds.length shown.length) (hN : shown.length ≤ 6) : Tensor.tile t mt = .error .ub ↔ outer.prod ≠ 1 := by
  obtain ⟨n, hn⟩ : ∃ n, max ds.length shown.length = n + 1 := ⟨max ds.length shown.length - 1, by omega⟩
  have hxp : 0 < ds.prod := by rw [← h.length]; exact List.length_pos_iff.2 hxs
  have hdpos := pos_of_prod_pos hxp
  have hdl := h.adm.len
  have hl := used_dims hn
  have hsp : ∀ e ∈ mulDims (padLeft (n + 1) shown) (padLeft (n + 1) ds), 0 < e :=
    pos_of_mem_mulDims (by rw [padLeft_length (by omega), padLeft_length (by omega)])
      (padLeft_pos fun e he => hpos e (by simp [he])) (padLeft_pos hdpos)
  have hip : 0 < (mid ++ shown).prod := prod_pos hpos
  obtain ⟨hem, htl, hgetD⟩ := tile_emits h hm hn
  have es := ofVec_eq (by omega : (mulDims (padLeft (n + 1) shown) (padLeft (n + 1) ds)).length ≤ 6) hsp
  refine ⟨fun hub ho => ?_, fun ho => ?_⟩
  · rw [tile_unused_one h hm hn ho, es, ok_bind] at hub
    exact noUB_new _ hub
  have hprod : (outer ++ mid ++ shown).prod * ds.prod = outer.prod * ((mid ++ shown).prod * ds.prod) := by
    rw [List.append_assoc, List.prod_append, Nat.mul_assoc]
  rw [tile_run h hm hn, es, ok_bind, hprod]
  unfold Tensor.unsafeInit
  rcases Nat.eq_zero_or_pos outer.prod with hz | hz
  · rw [hz, Nat.zero_mul]
    have := tileRec_no_room xs ds.reverse (outer ++ mid ++ shown).reverse n 0 xs.length 0 (fun k hk => by
        rw [hgetD k hk]; exact getD_pos hpos k) (fun k _ => getD_pos hdpos k)
      (by rw [← padLeft_eq_downFrom (by omega), padLeft_prod, h.length]) (by omega)
    show ((Tensor.tileRec xs ds.reverse (outer ++ mid ++ shown).reverse n 0 xs.length ([], 0) >>= fun st =>
      (pure st.1 : Res (Buf α))) >>= _) = _
    rw [this]
    rfl
  · have h1 := hem [] ((outer.prod - 1) * ((mid ++ shown).prod * ds.prod))
    have e : outer.prod * ((mid ++ shown).prod * ds.prod) =
        (mid ++ shown).prod * ds.prod + (outer.prod - 1) * ((mid ++ shown).prod * ds.prod) := by
      obtain ⟨p, hp⟩ : ∃ p, outer.prod = p + 1 := ⟨outer.prod - 1, by omega⟩
      rw [hp, Nat.add_sub_cancel, Nat.succ_mul, Nat.add_comm]
    rw [htl, ← e] at h1
    have e2 : (Buf.uninit (outer.prod * ((mid ++ shown).prod * ds.prod)) : Buf α) =
        pre [] (outer.prod * ((mid ++ shown).prod * ds.prod)) := by simp [pre, Buf.uninit]
    simp only [e2]
    rw [List.length_nil] at h1
    rw [h1]
    simp only [ok_bind]
    unfold Tensor.finish
    rw [pure_eq_ok, ok_bind]
    cases hc : Buf.complete (pre ([] ++ tileElems (padLeft (n + 1) (mid ++ shown)) (padLeft (n + 1) ds) xs)
        ((outer.prod - 1) * ((mid ++ shown).prod * ds.prod))) with
    | none => rfl
    | some l =>
      exfalso
      have h2 := Clones.complete_iff.1 hc
      have h3 : (none : Option α) ∈ l.map some := by
        rw [← h2]
        refine List.mem_append_right _ (List.mem_replicate.2 ⟨?_, rfl⟩)
        have : 0 < outer.prod - 1 := by omega
        have := Nat.mul_pos this (Nat.mul_pos hip hxp)
        omega
      simp at h3

example : Tensor.tile exOne exMul03 = .error .ub ∧ Tensor.tile exOne exMul23 = .error .ub :=
  ⟨(C32_multiples_undefined (outer := [0]) (mid := []) (shown := [3]) exOne_rep (by simp)
      ⟨⟨_, exMul03_rep⟩, by simp, by simp⟩ (by simp) (by simp) (by simp)).2 (by simp),
   (C32_multiples_undefined (outer := [2]) (mid := []) (shown := [3]) exOne_rep (by simp)
      ⟨⟨_, exMul23_rep⟩, by simp, by simp⟩ (by simp) (by simp) (by simp)).2 (by simp)⟩

/-- C32, multiples of any rank: when those that do not count for the shape are all 1, tiling is tiling by the vector of
those that do. -/
theorem C32_multiples_vector {t : Tensor α} {ds : List Nat} {xs : List α} (h : Rep t ds xs) {mt mv : Tensor Nat}
    {outer mid shown : List Nat} (hm : Multiples mt ds.length outer mid shown) (h0 : 0 < max ds.length shown.length)
    (ho : outer.prod = 1) (hmid : mid.prod = 1) (hv : Rep mv [shown.length] shown) : Tensor.tile t mt = Tensor.tile t mv := by
  obtain ⟨n, hn⟩ : ∃ n, max ds.length shown.length = n + 1 := ⟨max ds.length shown.length - 1, by omega⟩
  have hfit := hm.fit
  rw [List.length_append] at hfit
  have hm' : Multiples mv ds.length [] [] shown := ⟨⟨[], hv⟩, by simp, by simp⟩
  have e : padLeft (n + 1) (mid ++ shown) = padLeft (n + 1) shown := by
    have : mid = List.replicate mid.length 1 := List.eq_replicate_iff.2 ⟨rfl, fun b hb =>
      Nat.dvd_one.1 (hmid ▸ List.dvd_prod hb)⟩
    unfold padLeft
    rw [this, ← List.append_assoc, List.replicate_append_replicate]
    congr 2
    simp
    omega
  rw [tile_unused_one h hm hn ho, tile_unused_one h hm' hn rfl, List.nil_append, e]

/-- C32, multiples of any rank, positive where they are used: multiples that are used and do not count for the shape make
the operation panic, unless they are all 1. -/
theorem C32_multiples_panic {t : Tensor α} {ds : List Nat} {xs : List α} (h : Rep t ds xs) (hxs : xs ≠ []) {mt : Tensor Nat}
    {outer mid shown : List Nat} (hm : Multiples mt ds.length outer mid shown) (hpos : ∀ m ∈ mid ++ shown, 0 < m)
    (h0 : 0 < max ds.length shown.length) (hN : shown.length ≤ 6) (hbig : shown.prod * ds.prod < 4294967296)
    (ho : outer.prod = 1) (hmid : mid.prod ≠ 1) : Tensor.tile t mt = .error .panic := by
  obtain ⟨n, hn⟩ : ∃ n, max ds.length shown.length = n + 1 := ⟨max ds.length shown.length - 1, by omega⟩
  have hxp : 0 < ds.prod := by rw [← h.length]; exact List.length_pos_iff.2 hxs
  have hdpos := pos_of_prod_pos hxp
  have hdl := h.adm.len
  have hl := used_dims hn
  have hle : (padLeft (n + 1) shown).length = (padLeft (n + 1) ds).length := by
    rw [padLeft_length (by omega), padLeft_length (by omega)]
  have hsp : ∀ e ∈ mulDims (padLeft (n + 1) shown) (padLeft (n + 1) ds), 0 < e :=
    pos_of_mem_mulDims hle (padLeft_pos fun e he => hpos e (by simp [he])) (padLeft_pos hdpos)
  have hdp : (mulDims (padLeft (n + 1) shown) (padLeft (n + 1) ds)).prod = shown.prod * ds.prod := by
    rw [mulDims_prod hle, padLeft_prod, padLeft_prod]
  have hf := fits_of_pos (prod_pos hsp) (by rw [hdp]; exact hbig)
  have hadm : Adm (mulDims (padLeft (n + 1) shown) (padLeft (n + 1) ds)) := ⟨by omega, fun d hd =>
    Nat.lt_of_le_of_lt (Nat.le_of_dvd (prod_pos hsp) (List.dvd_prod hd)) (by rw [hdp]; exact hbig)⟩
  obtain ⟨-, htl, -⟩ := tile_emits h hm hn
  rw [tile_unused_one h hm hn ho, ofVec_adm hadm hsp, ok_bind]
  apply new_panic
  intro e
  have e := ((size_ofDims_iff hadm).1 e).2
  rw [hdp, htl] at e
  have e := Nat.eq_of_mul_eq_mul_right hxp e
  rw [List.prod_append] at e
  have hs : 0 < shown.prod := prod_pos fun m hm => hpos m (by simp [hm])
  exact hmid (Nat.eq_of_mul_eq_mul_right hs (by omega))

/-- A matrix of multiples with the first dimension 1, as many as the tensor has dimensions. -/
theorem exMulMid : Multiples exMul23 2 [] [2] [3] := ⟨⟨_, exMul23_rep⟩, by simp, by simp⟩

example : Tensor.tile exMat exMul23 = .error .panic :=
  C32_multiples_panic exMat_rep (by simp) exMulMid (by simp) (by simp) (by simp) (by simp) rfl (by simp)

def exMul13 : Tensor Nat := { shape := ofDims [1, 2], offset := 0, size := 2, data := [1, 3] }
def exMul3 : Tensor Nat := { shape := ofDims [1], offset := 0, size := 1, data := [3] }

example : Tensor.tile exMat exMul13 = Tensor.tile exMat exMul3 :=
  C32_multiples_vector exMat_rep (outer := []) (mid := [1]) (shown := [3])
    ⟨⟨_, ⟨wf_ofDims ⟨by simp, by simp⟩, rfl, by simp [exMul13]⟩, rfl, rfl⟩, by simp, by simp⟩ (by simp) rfl rfl
    ⟨⟨wf_ofDims ⟨by simp, by simp⟩, rfl, by simp [exMul3]⟩, rfl, rfl⟩

end Essay
