import Verif.Model.Map2Row
import Verif.Lemmas.Fold
import Verif.Lemmas.Reach
import Verif.Props.Array

/-!
# C89: the implementation prepared for `map2_row`

It works for functions that return one value per pair of rows, and for no others.
-/

namespace Essay

open Shape

variable {σ T U V : Type}

/-- Row `i` of a flat list whose rows have `c` elements. -/
def rowOf (xs : List T) (c i : Nat) : List T := (xs.drop (i * c)).take c

theorem asWrapSliceN_wraps {t : Tensor T} {ds : List Nat} {xs : List T} (h : Rep t ds xs) (h0 : t.offset = 0) {c n : Nat}
    (hx : xs.length = n * c) (hn : 0 < n) (hc : 0 < c) (i : Nat) :
    t.asWrapSliceN (c * i) c = Except.ok (rowOf xs c (i % n)) := by
  have e := asWrapSliceN_eq h h0 hx (Nat.mod_lt i hn) hc
  rw [rowOf, ← e]
  by_cases hi : i < n
  · rw [Nat.mod_eq_of_lt hi]
  have hs : t.size = c * n := by rw [h.size, hx, Nat.mul_comm]
  have h1 : ¬ c * i < t.size := by rw [hs]; exact Nat.not_lt.2 (Nat.mul_le_mul_left _ (Nat.not_lt.1 hi))
  have h2 : c * (i % n) < t.size := by rw [hs]; exact Nat.mul_lt_mul_of_pos_left (Nat.mod_lt i hn) hc
  have hp : 0 < t.size := by rw [hs]; exact Nat.mul_pos hc hn
  unfold Tensor.asWrapSliceN
  rw [if_neg h1, if_pos h2, umod_ok (Nat.pos_iff_ne_zero.1 hp)]
  have em : c * i % t.size = c * (i % n) := by rw [hs, Nat.mul_mod_mul_left]
  rw [em]
  rfl

theorem writeRow_one (o : Buf V) (base : Nat) (v : V) : Tensor.writeRow o base [v] = o.write base v := by
  unfold Tensor.writeRow
  rw [show [v].length = 1 from rfl, forR_cons (by omega)]
  simp [idx, forR]
  cases o.write base v <;> rfl

theorem rows_batches {p q : Nat} (hp : 0 < p) (hq : 0 < q) (hd : p ∣ q ∨ q ∣ p) :
    0 < min p q ∧ min p q ∣ max p q := by
  refine ⟨by omega, ?_⟩
  rcases hd with h | h
  · have := Nat.le_of_dvd hq h
    rwa [Nat.min_eq_left this, Nat.max_eq_right this]
  · have := Nat.le_of_dvd hp h
    rwa [Nat.min_eq_right this, Nat.max_eq_left this]

theorem map2RowPrepared_run {a : Tensor T} {b : Tensor U} {da db : List Nat} {xs : List T} {ys : List U} (ha : Rep a da xs)
    (hb : Rep b db ys) (ha0 : a.offset = 0) (hb0 : b.offset = 0) {p c q d : Nat} (hx : xs.length = p * c)
    (hy : ys.length = q * d) (hp : 0 < p) (hq : 0 < q) (hc : 0 < c) (hd : 0 < d) (hdvd : p ∣ q ∨ q ∣ p) (shape : Shape)
    (N : Nat) (f : List T → List U → Exec σ (Vector V N)) :
    a.map2RowPrepared shape c b d N f = Tensor.unsafeInitM (max p q) shape fun o =>
      forR 0 (max p q) o fun i o => f (rowOf xs c (i % p)) (rowOf ys d (i % q)) >>= fun value =>
        (liftM (Tensor.writeRow o (i / min p q * min p q + i % min p q * N) value.toList) : Exec σ (Buf V)) := by
  obtain ⟨hi, hdv⟩ := rows_batches hp hq hdvd
  unfold Tensor.map2RowPrepared
  rw [ha.size, hb.size, hx, hy, udiv_ok (by omega), lift_ok, pure_bind, Nat.mul_div_cancel _ hc, ensure_true rfl, lift_ok, pure_bind,
    udiv_ok (by omega), lift_ok, pure_bind, Nat.mul_div_cancel _ hd, ensure_true rfl, lift_ok, pure_bind]
  dsimp only
  rw [udiv_ok (by omega), lift_ok, pure_bind, ensure_true (Nat.div_mul_cancel hdv), lift_ok, pure_bind]
  congr 1
  funext o
  rw [forR_nest, Nat.div_mul_cancel hdv]
  apply forR_congr
  intro i o _ _
  have e : i / min p q * min p q + i % min p q = i := div_add_mod'
  rw [e, asWrapSliceN_wraps ha ha0 hx hp hc, lift_ok, pure_bind, asWrapSliceN_wraps hb hb0 hy hq hd, lift_ok, pure_bind]

/-- C89, the prepared implementation with one value for each pair of rows, on tensors that start at their buffer's
beginning: the function is called once for each pair, in order, the rows of the shorter operand being used again. -/
theorem C89_prepared_one_partial {a : Tensor T} {b : Tensor U} {da db : List Nat} {xs : List T} {ys : List U} (ha : Rep a da xs)
    (hb : Rep b db ys) (ha0 : a.offset = 0) (hb0 : b.offset = 0) {p c q d : Nat} (hx : xs.length = p * c)
    (hy : ys.length = q * d) (hp : 0 < p) (hq : 0 < q) (hc : 0 < c) (hd : 0 < d) (hdvd : p ∣ q ∨ q ∣ p) {ds : List Nat}
    (hds : Adm ds) (hf : Fits ds) (hprod : ds.prod = max p q) (f : List T → List U → Exec σ (Vector V 1)) :
    Yields (a.map2RowPrepared (ofDims ds) c b d 1 f)
      ((List.range (max p q)).mapM fun i => f (rowOf xs c (i % p)) (rowOf ys d (i % q)) >>= fun v => pure v[0]) ds := by
  obtain ⟨hi, -⟩ := rows_batches hp hq hdvd
  rw [map2RowPrepared_run ha hb ha0 hb0 hx hy hp hq hc hd hdvd]
  refine yields_of_eq (unsafeInitM_eq ?_) ?_ hds hf
  · rw [← forR_push0]
    apply forR_congr
    intro i o _ _
    have e : i / min p q * min p q + i % min p q * 1 = i := by rw [Nat.mul_one]; exact div_add_mod'
    simp only [bind_assoc, pure_bind]
    congr 1
    funext v
    have ev : v.toList = [v[0]] := by
      apply List.ext_getElem (by simp)
      intro k h1 h2
      have : k = 0 := by simpa using h2
      subst this
      simp
    rw [e, ev, writeRow_one]
  · intro s vs s' h
    rw [mapM_length _ _ _ _ _ h, List.length_range, hprod]

theorem postE_forR {β : Type} {P : β → Prop} {body : Nat → β → Exec σ β} {b : β} (h0 : P b)
    (hb : ∀ i b, P b → PostE (body i b) P) (n : Nat) : PostE (forR 0 n b body) P := by
  induction n with
  | zero =>
    intro s r h
    simp [forR] at h
    cases h
    exact h0
  | succ n ih =>
    rw [forR_snoc (Nat.zero_le n)]
    intro s r h
    rw [StateT.run_bind] at h
    obtain ⟨⟨b', s'⟩, h1, h2⟩ := bind_eq_ok.1 h
    exact hb n b' (ih s _ h1) s' r h2

theorem writeRow_ok {o o' : Buf V} {base : Nat} {row : List V} (h : Tensor.writeRow o base row = .ok o') :
    o'.length = o.length ∧ (row ≠ [] → base + row.length ≤ o.length) := by
  unfold Tensor.writeRow at h
  suffices key : ∀ n o', n ≤ row.length → (forR 0 n o fun j o => do
      let v ← idx row j
      o.write (base + j) v) = Except.ok o' → o'.length = o.length ∧ (0 < n → base + n ≤ o.length) by
    obtain ⟨h1, h2⟩ := key _ _ (Nat.le_refl _) h
    exact ⟨h1, fun hr => h2 (List.length_pos_iff.2 hr)⟩
  intro n
  induction n with
  | zero =>
    intro o' _ h
    simp [forR] at h
    cases h
    simp
  | succ n ih =>
    intro o' hn h
    rw [forR_snoc (Nat.zero_le n)] at h
    obtain ⟨o1, h1, h2⟩ := bind_eq_ok.1 h
    obtain ⟨i1, -⟩ := ih o1 (by omega) h1
    obtain ⟨v, -, h3⟩ := bind_eq_ok.1 h2
    unfold Buf.write at h3
    split at h3
    · cases h3
      simp
      omega
    · cases h3

/-- Scalar products of the rows of a matrix with one row. -/
example : ∃ t, (exMat.map2RowPrepared (ofDims [2]) 3 (⟨ofDims [3], 0, 3, [1, 0, 2]⟩ : Tensor Nat) 3 1 fun x y =>
      (pure #v[(x.zipWith (· * ·) y).sum] : Exec Unit (Vector Nat 1))).run () = .ok (t, ()) ∧ Rep t [2] [7, 16] := by
  have h := C89_prepared_one_partial (p := 2) (c := 3) (q := 1) (d := 3) exMat_rep (ys := [1, 0, 2]) (db := [3])
    (b := ⟨ofDims [3], 0, 3, [1, 0, 2]⟩) ⟨⟨wf_ofDims ⟨by simp, by simp⟩, rfl, by simp⟩, rfl, rfl⟩ rfl rfl rfl rfl (by simp)
    (by simp) (by simp) (by simp) (by simp) (ds := [2]) ⟨by simp, by simp⟩ (fits_one (by simp)) rfl
    (fun x y => (pure #v[(x.zipWith (· * ·) y).sum] : Exec Unit (Vector Nat 1))) ()
  simpa [List.range, List.range.loop, rowOf] using h

/-- C89 is false for the prepared implementation with two or more values for each pair of rows: no call returns. -/
theorem C89_prepared_many_violates {a : Tensor T} {b : Tensor U} {da db : List Nat} {xs : List T} {ys : List U} (ha : Rep a da xs)
    (hb : Rep b db ys) (ha0 : a.offset = 0) (hb0 : b.offset = 0) {p c q d : Nat} (hx : xs.length = p * c)
    (hy : ys.length = q * d) (hp : 0 < p) (hq : 0 < q) (hc : 0 < c) (hd : 0 < d) (hdvd : p ∣ q ∨ q ∣ p) (shape : Shape)
    {N : Nat} (hN : 2 ≤ N) (f : List T → List U → Exec σ (Vector V N)) (s : σ) (r : Tensor V × σ) :
    (a.map2RowPrepared shape c b d N f).run s ≠ .ok r := by
  obtain ⟨hi, hdv⟩ := rows_batches hp hq hdvd
  rw [map2RowPrepared_run ha hb ha0 hb0 hx hy hp hq hc hd hdvd]
  intro h
  unfold Tensor.unsafeInitM at h
  rw [StateT.run_bind] at h
  obtain ⟨⟨o, s1⟩, h, -⟩ := bind_eq_ok.1 h
  obtain ⟨m, hm⟩ : ∃ m, max p q = m + 1 := ⟨max p q - 1, by omega⟩
  dsimp only at h
  rw [hm, forR_snoc (Nat.zero_le m), StateT.run_bind] at h
  obtain ⟨⟨o2, s2⟩, h2, h⟩ := bind_eq_ok.1 h
  have hl : o2.length = m + 1 := by
    refine postE_forR (P := fun o => o.length = m + 1) (by simp [Buf.uninit]) ?_ m s (o2, s2) h2
    intro i o ho
    refine PostE.bind fun v => postE_lift fun o' h' => ?_
    rw [(writeRow_ok h').1, ho]
  rw [StateT.run_bind] at h
  obtain ⟨⟨v, s3⟩, -, h⟩ := bind_eq_ok.1 h
  have h3 : Tensor.writeRow o2 (m / min p q * min p q + m % min p q * N) v.toList = .ok o := by
    revert h
    cases Tensor.writeRow o2 (m / min p q * min p q + m % min p q * N) v.toList with
    | error e => intro h; cases h
    | ok o' => intro h; cases h; rfl
  have hv : v.toList.length = N := by simp
  have h4 := (writeRow_ok h3).2 (by intro e; rw [e] at hv; simp at hv; omega)
  rw [hv, hl] at h4
  obtain ⟨k, hk⟩ := hdv
  generalize min p q = w at *
  have hk0 : 0 < k := by
    rcases Nat.eq_zero_or_pos k with rfl | h
    · omega
    · exact h
  obtain ⟨k, rfl⟩ : ∃ k', k = k' + 1 := ⟨k - 1, by omega⟩
  have em : m = w * k + (w - 1) := by
    rw [Nat.mul_succ] at hk
    omega
  have e1 : m / w = k := by
    rw [em, Nat.mul_add_div hi, Nat.div_eq_of_lt (by omega), Nat.add_zero]
  have e2 : m % w = w - 1 := by
    rw [em, Nat.mul_add_mod, Nat.mod_eq_of_lt (by omega)]
  rw [e1, e2, Nat.mul_comm k w] at h4
  have : (w - 1) * 2 ≤ (w - 1) * N := Nat.mul_le_mul_left _ hN
  omega

example (f : List Nat → List Nat → Exec Unit (Vector Nat 2)) (s : Shape) (r : Tensor Nat × Unit) :
    (exMat.map2RowPrepared s 3 exMat 3 2 f).run () ≠ .ok r :=
  C89_prepared_many_violates (p := 2) (q := 2) exMat_rep exMat_rep rfl rfl rfl rfl (by simp) (by simp) (by simp) (by simp)
    (by simp) s (by simp) f () r

end Essay
