import Verif.Spec.Math
import Verif.Props.Ops

/-!
# Properties C72 - C74: elementwise mathematics on floats, integers and complex numbers
-/

namespace Essay

open Shape

variable {F T U V W : Type} {w n : Nat}

theorem mapMethod_results (f : T → V) {a : Tensor T} {ds : List Nat} {xs : List T} (ha : Rep a ds xs) :
    ∃ t, Tensor.mapMethod f a = .ok t ∧ Rep t ds (xs.map f) := by
  have h := C18_unary (fun x => (.ok (f x) : Res V)) ha
  have e : (xs.mapM fun x => (.ok (f x) : Res V)) = .ok (xs.map f) := by
    clear h ha
    induction xs with
    | nil => rfl
    | cons x xs ih => rw [List.mapM_cons, ok_bind, ih]; rfl
  rw [e] at h
  exact h

theorem zip_mapM_ok (f : T → U → V) (l : List (T × U)) :
    (l.mapM fun p => (.ok (f p.1 p.2) : Res V)) = .ok (l.map fun p => f p.1 p.2) := by
  induction l with
  | nil => rfl
  | cons x xs ih => rw [List.mapM_cons, ok_bind, ih]; rfl

theorem map2Method_pointwise (f : T → U → V) {a : Tensor T} {b : Tensor U} {ds es big : List Nat} {xs : List T}
    {ys : List U} (ha : Rep a ds xs) (hb : Rep b es ys) (hd : ds <:+ big) (he : es <:+ big)
    (hbig : big = ds ∨ big = es) (hne : 0 < big.prod) :
    ∃ t, Tensor.map2Method f a b = .ok t ∧ Pointwise2 f ds xs es ys big t := by
  have key : ∃ as bs, Bcast ds xs big as ∧ Bcast es ys big bs ∧
      Results (Tensor.map2Method f a b) ((as.zip bs).mapM fun p => (.ok (f p.1 p.2) : Res V)) big := by
    rcases hbig with rfl | rfl
    · obtain ⟨as, bs, h1, h2, h3⟩ := C15_map2_right ha hb he
        (by rintro rfl; have := ha.length; simp at this; omega) fun x y => (liftM (.ok (f x y) : Res V) : Exec Unit V)
      exact ⟨as, bs, h1, h2, results_of_yields (f := fun p : T × U => (.ok (f p.1 p.2) : Res V)) h3⟩
    · obtain ⟨as, bs, h1, h2, h3⟩ := C15_map2_left ha hb hd
        (by rintro rfl; have := hb.length; simp at this; omega) fun x y => (liftM (.ok (f x y) : Res V) : Exec Unit V)
      exact ⟨as, bs, h1, h2, results_of_yields (f := fun p : T × U => (.ok (f p.1 p.2) : Res V)) h3⟩
  obtain ⟨as, bs, h1, h2, h3⟩ := key
  rw [zip_mapM_ok] at h3
  obtain ⟨t, e, hr⟩ := h3
  refine ⟨t, e, _, hr, fun idx p hp => ?_⟩
  obtain ⟨x, hx1, hx2⟩ := h1.2 idx p hp
  obtain ⟨y, hy1, hy2⟩ := h2.2 idx p hp
  refine ⟨x, y, hx2, hy2, ?_⟩
  have hz : (as.zip bs)[p]? = some (x, y) := List.getElem?_zip_eq_some.2 ⟨hx1, hy1⟩
  simp only [at?, hp, Option.bind_some, List.getElem?_map, hz, Option.map_some]

theorem map2Method_rejects (f : T → U → V) {a : Tensor T} {b : Tensor U} {ds es : List Nat} {xs : List T} {ys : List U}
    (ha : Rep a ds xs) (hb : Rep b es ys) (hs : (¬ ds <:+ es ∧ ¬ es <:+ ds) ∨ xs = [] ∨ ys = []) :
    Tensor.map2Method f a b = .error .panic := by
  simp only [Tensor.map2Method, Tensor.opTT, Tensor.runPure]
  rcases hs with hs | hs
  · rw [C16_incompatible ha hb hs.1 hs.2]; rfl
  · rw [C16_empty ha hb hs]; rfl

/-- Two arrays with the same elements at every index are equal. -/
theorem eq_of_at {ds : List Nat} {xs ys : List T} (hx : xs.length = ds.prod) (hy : ys.length = ds.prod)
    (h : ∀ idx p, ravel ds idx = some p → at? ds xs idx = at? ds ys idx) : xs = ys := by
  apply List.ext_getElem?
  intro p
  by_cases hp : p < ds.prod
  · obtain ⟨idx, hi⟩ := ravel_surj ds hp
    have := h idx p hi
    simpa [at?, hi] using this
  · rw [List.getElem?_eq_none (by omega), List.getElem?_eq_none (by omega)]

/-! ## C72 -/

/-- C72: every one-argument method (`floor`, `sqrt`, `sin`, ...) keeps the dimensions and applies the scalar function of
its name to each element in place. -/
theorem C72_unary (m : FloatLib F) (name : Tensor.Float1) {a : Tensor F} {ds : List Nat} {xs : List F}
    (ha : Rep a ds xs) : ∃ t, name.call m a = .ok t ∧ Rep t ds (xs.map (meaning1 m name)) := by
  cases name <;> exact mapMethod_results _ ha

/-- C72: every two-argument method broadcasts like an operator and calls the scalar function of its name with the
receiver's element first. -/
theorem C72_binary (m : FloatLib F) (name : Tensor.Float2) {a b : Tensor F} {ds es big : List Nat} {xs ys : List F}
    (ha : Rep a ds xs) (hb : Rep b es ys) (hd : ds <:+ big) (he : es <:+ big) (hbig : big = ds ∨ big = es)
    (hne : 0 < big.prod) : ∃ t, name.call m a b = .ok t ∧ Pointwise2 (meaning2 m name) ds xs es ys big t := by
  cases name <;> exact map2Method_pointwise _ ha hb hd he hbig hne

/-- C72: operands that do not broadcast, or an empty operand, make the two-argument methods panic. -/
theorem C72_rejects (m : FloatLib F) (name : Tensor.Float2) {a b : Tensor F} {ds es : List Nat} {xs ys : List F}
    (ha : Rep a ds xs) (hb : Rep b es ys) (hs : (¬ ds <:+ es ∧ ¬ es <:+ ds) ∨ xs = [] ∨ ys = []) :
    name.call m a b = .error .panic := by
  cases name <;> exact map2Method_rejects _ ha hb hs

/-- C72: `powi` raises the receiver's elements to the broadcast integer exponents. -/
theorem C72_powi (m : FloatLib F) {a : Tensor F} {b : Tensor Int} {ds es big : List Nat} {xs : List F} {ys : List Int}
    (ha : Rep a ds xs) (hb : Rep b es ys) (hd : ds <:+ big) (he : es <:+ big) (hbig : big = ds ∨ big = es)
    (hne : 0 < big.prod) : ∃ t, a.powi m b = .ok t ∧ Pointwise2 (fun x k => m.powi x k) ds xs es ys big t :=
  map2Method_pointwise _ ha hb hd he hbig hne

/-- C72: `sin_cos` keeps the dimensions and pairs the two values of each element. -/
theorem C72_sin_cos (m : FloatLib F) {a : Tensor F} {ds : List Nat} {xs : List F} (ha : Rep a ds xs) :
    ∃ t, a.sinCos m = .ok t ∧ Rep t ds (xs.map m.sinCos) := mapMethod_results _ ha

/-- C72: `a.mul_add(b, c)` has at every index `f x y z` for the elements of `a`, `b`, `c` at the trailing coordinates,
`f x y z` being the scalar `x * y + z`. -/
theorem C72_mul_add (f : T → T → T → T) {a b c : Tensor T} {ds es fs big : List Nat} {xs ys zs : List T}
    (ha : Rep a ds xs) (hb : Rep b es ys) (hc : Rep c fs zs) (h1 : ds <:+ big) (h2 : es <:+ big) (h3 : fs <:+ big)
    (hbig : big = ds ∨ big = es ∨ big = fs) (hne : 0 < big.prod) :
    ∃ t rs, a.mulAdd f b c = .ok t ∧ Rep t big rs ∧ ∀ idx p, ravel big idx = some p → ∃ x y z,
      at? ds xs (idx.drop (big.length - ds.length)) = some x ∧ at? es ys (idx.drop (big.length - es.length)) = some y ∧
      at? fs zs (idx.drop (big.length - fs.length)) = some z ∧ at? big rs idx = some (f x y z) := by
  obtain ⟨as, bs, cs, g1, g2, g3, g4⟩ := C17_map3 ha hb hc h1 h2 h3 hbig hne
    fun x y z => (pure (f x y z) : Exec Unit T)
  have g := g4 ()
  rw [mapM_pure (fun p : T × T × T => f p.1 p.2.1 p.2.2)] at g
  obtain ⟨t, e, hr⟩ := g
  refine ⟨t, _, by simp only [Tensor.mulAdd, Tensor.runPure, e, ok_bind]; rfl, hr, fun idx p hp => ?_⟩
  obtain ⟨x, hx1, hx2⟩ := g1.2 idx p hp
  obtain ⟨y, hy1, hy2⟩ := g2.2 idx p hp
  obtain ⟨z, hz1, hz2⟩ := g3.2 idx p hp
  refine ⟨x, y, z, hx2, hy2, hz2, ?_⟩
  have hz : (as.zip (bs.zip cs))[p]? = some (x, y, z) :=
    List.getElem?_zip_eq_some.2 ⟨hx1, List.getElem?_zip_eq_some.2 ⟨hy1, hz1⟩⟩
  simp only [at?, hp, Option.bind_some, List.getElem?_map, hz, Option.map_some]

/-- Integers instead of floats, to instantiate the theorems. -/
def exMathLib : FloatLib Int :=
  { floor := id, ceil := id, round := id, trunc := id, fract := fun _ => 0, signum := Int.sign, recip := fun x => 1 / x,
    sqrt := id, exp := id, exp2 := id, ln := id, log2 := id, log10 := id, toDegrees := id, toRadians := id, cbrt := id,
    sin := id, asin := id, sinh := id, asinh := id, cos := id, acos := id, cosh := id, acosh := id, tan := id, atan := id,
    tanh := id, atanh := id, expM1 := id, ln1p := id, powf := fun x y => x ^ y.toNat, log := fun x y => x / y,
    hypot := fun x y => x * x + y * y, atan2 := fun x y => x - y, copysign := fun x y => x.natAbs * y.sign,
    powi := fun x y => x ^ y.toNat, sinCos := fun x => (x, -x), mulAdd := fun x y z => x * y + z }

def exMathA : Tensor Int := ⟨ofDims [2, 2], 0, 4, [3, -4, 5, -6]⟩
def exMathB : Tensor Int := ⟨ofDims [2], 1, 2, [9, -1, 2]⟩
theorem exMathA_rep : Rep exMathA [2, 2] [3, -4, 5, -6] :=
  ⟨⟨wf_ofDims ⟨by simp, by simp⟩, by decide +kernel, by decide +kernel⟩, by decide +kernel, by decide +kernel⟩
theorem exMathB_rep : Rep exMathB [2] [-1, 2] :=
  ⟨⟨wf_ofDims ⟨by simp, by simp⟩, by decide +kernel, by decide +kernel⟩, by decide +kernel, by decide +kernel⟩

example : ∃ t, Tensor.Float1.signum.call exMathLib exMathA = .ok t ∧ Rep t [2, 2] [1, -1, 1, -1] := C72_unary exMathLib .signum exMathA_rep
example : ∃ t, Tensor.Float2.atan2.call exMathLib exMathA exMathB = .ok t ∧
    Pointwise2 (fun x y => x - y) [2, 2] [3, -4, 5, -6] [2] [-1, 2] [2, 2] t :=
  C72_binary exMathLib .atan2 exMathA_rep exMathB_rep ⟨[], rfl⟩ ⟨[2], rfl⟩ (.inl rfl) (by simp)
/-- The receiver stays first when it is the shorter operand. -/
example : ∃ t, Tensor.Float2.atan2.call exMathLib exMathB exMathA = .ok t ∧ t.data = [-4, 6, -6, 8] := ⟨_, rfl, rfl⟩
example : ∃ t rs, exMathB.mulAdd exMathLib.mulAdd exMathA exMathA = .ok t ∧ Rep t [2, 2] rs ∧
    ∀ idx p, ravel [2, 2] idx = some p → ∃ x y z, at? [2] [-1, 2] (idx.drop 1) = some x ∧
      at? [2, 2] [3, -4, 5, -6] (idx.drop 0) = some y ∧ at? [2, 2] [3, -4, 5, -6] (idx.drop 0) = some z ∧
      at? [2, 2] rs idx = some (x * y + z) :=
  C72_mul_add exMathLib.mulAdd exMathB_rep exMathA_rep exMathA_rep ⟨[2], rfl⟩ ⟨[], rfl⟩ ⟨[], rfl⟩ (.inr (.inl rfl)) (by simp)

/-! ## C73 -/

/-- Rotating left by `k` moves bit `i` to position `(i + k) mod w`. -/
theorem getLsbD_rotateLeft_mod (x : BitVec w) (k : Nat) {i : Nat} (hi : i < w) :
    (x.rotateLeft k).getLsbD ((i + k) % w) = x.getLsbD i := by
  have hk := Nat.mod_lt k (by omega : w > 0)
  have e : (i + k) % w = if i + k % w < w then i + k % w else i + k % w - w := by
    rw [Nat.add_mod, Nat.mod_eq_of_lt hi]
    split
    · exact Nat.mod_eq_of_lt ‹_›
    · rw [Nat.mod_eq_sub_mod (by omega), Nat.mod_eq_of_lt (by omega)]
  rw [e, BitVec.getLsbD_rotateLeft]
  split
  · rw [decide_eq_false (by omega), cond_false, decide_eq_true (by omega), Bool.true_and]; congr 1; omega
  · rw [decide_eq_true (by omega), cond_true]; congr 1; omega

/-- Rotating right by `k` moves bit `(i + k) mod w` to position `i`. -/
theorem getLsbD_rotateRight_mod (x : BitVec w) (k : Nat) {i : Nat} (hi : i < w) :
    (x.rotateRight k).getLsbD i = x.getLsbD ((i + k) % w) := by
  have hk := Nat.mod_lt k (by omega : w > 0)
  have e : (i + k) % w = if i + k % w < w then i + k % w else i + k % w - w := by
    rw [Nat.add_mod, Nat.mod_eq_of_lt hi]
    split
    · exact Nat.mod_eq_of_lt ‹_›
    · rw [Nat.mod_eq_sub_mod (by omega), Nat.mod_eq_of_lt (by omega)]
  rw [e, BitVec.getLsbD_rotateRight]
  split
  · rw [decide_eq_true (by omega), cond_true]; congr 1; omega
  · rw [decide_eq_false (by omega), cond_false, decide_eq_true (by omega), Bool.true_and]; congr 1; omega

theorem rotateRight_rotateLeft (x : BitVec w) (k : Nat) : (x.rotateLeft k).rotateRight k = x := by
  apply BitVec.eq_of_getLsbD_eq
  intro i hi
  rw [getLsbD_rotateRight_mod _ _ hi, getLsbD_rotateLeft_mod _ _ hi]

theorem rot_surj {i : Nat} (hi : i < w) (k : Nat) : ∃ j, j < w ∧ (j + k) % w = i := by
  have hk := Nat.mod_lt k (by omega : w > 0)
  refine ⟨(i + (w - k % w)) % w, Nat.mod_lt _ (by omega), ?_⟩
  rw [Nat.mod_add_mod, Nat.add_assoc, Nat.add_mod, show (w - k % w + k) % w = 0 from ?_, Nat.add_zero, Nat.mod_mod,
    Nat.mod_eq_of_lt hi]
  rw [← Nat.add_mod_mod, show w - k % w + k % w = w by omega, Nat.mod_self]

theorem rotateLeft_rotateRight (x : BitVec w) (k : Nat) : (x.rotateRight k).rotateLeft k = x := by
  apply BitVec.eq_of_getLsbD_eq
  intro i hi
  obtain ⟨j, hj, rfl⟩ := rot_surj hi k
  rw [getLsbD_rotateLeft_mod _ _ hj, getLsbD_rotateRight_mod _ _ hj]

/-- Broadcasting twice over the same amounts and undoing the scalar function gives the broadcast receiver back. -/
theorem map2_undo (f g : T → U → T) (hfg : ∀ x k, g (f x k) k = x) {a : Tensor T} {b : Tensor U} {ds es big : List Nat}
    {xs : List T} {ys : List U} (ha : Rep a ds xs) (hb : Rep b es ys) (hd : ds <:+ big) (he : es <:+ big)
    (hbig : big = ds ∨ big = es) (hne : 0 < big.prod) :
    ∃ t u zs, Tensor.map2Method f a b = .ok t ∧ Tensor.map2Method g t b = .ok u ∧ Rep u big zs ∧ Bcast ds xs big zs := by
  obtain ⟨t, e, ts, hr, hp⟩ := map2Method_pointwise f ha hb hd he hbig hne
  obtain ⟨u, e', us, hr', hp'⟩ := map2Method_pointwise g hr hb (List.suffix_refl _) he (.inl rfl) hne
  refine ⟨t, u, us, e, e', hr', hr'.length, fun idx p hi => ?_⟩
  obtain ⟨x, y, h1, h2, h3⟩ := hp idx p hi
  obtain ⟨x', y', h1', h2', h3'⟩ := hp' idx p hi
  simp only [Nat.sub_self, List.drop_zero] at h1'
  rw [h3] at h1'
  rw [h2] at h2'
  cases h1'; cases h2'
  rw [hfg] at h3'
  refine ⟨x, ?_, h1⟩
  simpa [at?, hi] using h3'

theorem bcast_self {ds : List Nat} {xs zs : List T} (hx : xs.length = ds.prod) (h : Bcast ds xs ds zs) : zs = xs := by
  refine eq_of_at h.1 hx fun idx p hp => ?_
  obtain ⟨x, h1, h2⟩ := h.2 idx p hp
  simp only [Nat.sub_self, List.drop_zero] at h2
  rw [h2]; simp [at?, hp, h1]

/-- C73: rotating left and then right by the same amounts (or the other way round) gives back the original bits, for
every width, all amounts and every way the operands broadcast. -/
theorem C73_rotate {a : Tensor (BitVec w)} {b : Tensor Nat} {ds es big : List Nat} {xs : List (BitVec w)} {ys : List Nat}
    (ha : Rep a ds xs) (hb : Rep b es ys) (hd : ds <:+ big) (he : es <:+ big) (hbig : big = ds ∨ big = es)
    (hne : 0 < big.prod) :
    (∃ t u zs, a.rotateLeft b = .ok t ∧ t.rotateRight b = .ok u ∧ Rep u big zs ∧ Bcast ds xs big zs) ∧
    (∃ t u zs, a.rotateRight b = .ok t ∧ t.rotateLeft b = .ok u ∧ Rep u big zs ∧ Bcast ds xs big zs) :=
  ⟨map2_undo _ _ rotateRight_rotateLeft ha hb hd he hbig hne, map2_undo _ _ rotateLeft_rotateRight ha hb hd he hbig hne⟩

theorem countP_rot (q : Nat → Bool) (k : Nat) :
    (List.range w).countP (fun i => q ((i + k) % w)) = (List.range w).countP q := by
  rcases Nat.eq_zero_or_pos w with rfl | hw
  · rfl
  have hp : ((List.range w).map fun i => (i + k) % w).Perm (List.range w) := by
    refine (List.perm_ext_iff_of_nodup ?_ List.nodup_range).2 fun i => ?_
    · refine List.Nodup.map_on ?_ List.nodup_range
      intro x hx y hy h
      rw [List.mem_range] at hx hy
      have : x ≡ y [MOD w] := Nat.ModEq.add_right_cancel' k h
      rwa [Nat.ModEq, Nat.mod_eq_of_lt hx, Nat.mod_eq_of_lt hy] at this
    · simp only [List.mem_map, List.mem_range]
      constructor
      · rintro ⟨j, _, rfl⟩; exact Nat.mod_lt _ hw
      · intro hi; obtain ⟨j, hj, e⟩ := rot_surj hi k; exact ⟨j, hj, e⟩
  rw [← hp.countP_eq q, List.countP_map]
  rfl

theorem countOnes_rotateLeft (x : BitVec w) (k : Nat) : Bits.countOnes (x.rotateLeft k) = Bits.countOnes x := by
  unfold Bits.countOnes
  rw [← countP_rot (fun i => (x.rotateLeft k).getLsbD i) k]
  apply List.countP_congr
  intro i hi
  rw [getLsbD_rotateLeft_mod _ _ (List.mem_range.1 hi)]

theorem countOnes_add_countZeros (x : BitVec w) : Bits.countOnes x + Bits.countZeros x = w := by
  unfold Bits.countOnes Bits.countZeros
  have := List.length_eq_countP_add_countP (fun i => x.getLsbD i) (l := List.range w)
  simp only [List.length_range] at this
  conv_rhs => rw [this]
  congr 1
  apply List.countP_congr; simp

theorem leading_reverse (x : BitVec w) : Bits.leadingZeros x.reverse = Bits.trailingZeros x ∧
    Bits.leadingOnes x.reverse = Bits.trailingOnes x := by
  simp [Bits.leadingZeros, Bits.trailingZeros, Bits.leadingOnes, Bits.trailingOnes, BitVec.getMsbD_reverse]

theorem getLsbD_swapBytes (x : BitVec (8 * n)) {i : Nat} (hi : i < 8 * n) :
    (Bits.swapBytes x).getLsbD i = x.getLsbD (8 * (n - 1 - i / 8) + i % 8) :=
  BitVec.iunfoldr_getLsbD (fun _ => ()) ⟨i, hi⟩ (by simp)

theorem swapBytes_swapBytes (x : BitVec (8 * n)) : Bits.swapBytes (Bits.swapBytes x) = x := by
  apply BitVec.eq_of_getLsbD_eq
  intro i hi
  rw [getLsbD_swapBytes _ hi, getLsbD_swapBytes _ (by omega)]
  congr 1
  omega

theorem takeWhile_range (q : Nat → Bool) (w : Nat) :
    ((List.range w).takeWhile q).length ≤ w ∧ (∀ i < ((List.range w).takeWhile q).length, q i = true) ∧
      (((List.range w).takeWhile q).length < w → q ((List.range w).takeWhile q).length = false) := by
  have hle : ((List.range w).takeWhile q).length ≤ w := by
    simpa using (List.takeWhile_prefix q (l := List.range w)).length_le
  refine ⟨hle, fun i hi => ?_, fun h => ?_⟩
  · have h1 := List.all_eq_true.1 (List.all_takeWhile (p := q) (l := List.range w)) _ (List.getElem_mem hi)
    have h2 : ((List.range w).takeWhile q)[i] = i := by
      rw [(List.takeWhile_prefix q (l := List.range w)).getElem hi]; simp
    rwa [h2] at h1
  · have hd : (List.range w).dropWhile q ≠ [] := by
      intro hc
      have := congrArg List.length (List.takeWhile_append_dropWhile (p := q) (l := List.range w))
      rw [hc] at this
      simp at this
      omega
    have h1 := List.head_dropWhile_not q hd
    have h2 : ((List.range w).dropWhile q).head hd = ((List.range w).takeWhile q).length := by
      have e := List.takeWhile_append_dropWhile (p := q) (l := List.range w)
      have : (List.range w)[((List.range w).takeWhile q).length]? = some (((List.range w).dropWhile q).head hd) := by
        have e' : ((List.range w).takeWhile q ++ (List.range w).dropWhile q)[((List.range w).takeWhile q).length]? =
            (List.range w)[((List.range w).takeWhile q).length]? := by rw [e]
        rw [← e', List.getElem?_append_right (Nat.le_refl _), Nat.sub_self, ← List.head?_eq_getElem?,
          List.head?_eq_some_head hd]
      rw [List.getElem?_range h] at this
      exact (Option.some.inj this).symm
    rwa [h2] at h1

/-- C73: `rotate_left` by `k` moves each bit `i` to position `(i + k) mod w`, `rotate_right` moves it back: at every
index, for the elements of the receiver and of the amounts at the trailing coordinates. -/
theorem C73_rotate_bits {a : Tensor (BitVec w)} {b : Tensor Nat} {ds es big : List Nat} {xs : List (BitVec w)}
    {ys : List Nat} (ha : Rep a ds xs) (hb : Rep b es ys) (hd : ds <:+ big) (he : es <:+ big)
    (hbig : big = ds ∨ big = es) (hne : 0 < big.prod) :
    ∃ l r ls rs, a.rotateLeft b = .ok l ∧ Rep l big ls ∧ a.rotateRight b = .ok r ∧ Rep r big rs ∧
      ∀ idx p, ravel big idx = some p → ∃ x k zl zr,
        at? ds xs (idx.drop (big.length - ds.length)) = some x ∧ at? es ys (idx.drop (big.length - es.length)) = some k ∧
        at? big ls idx = some zl ∧ at? big rs idx = some zr ∧
        ∀ i < w, zl.getLsbD ((i + k) % w) = x.getLsbD i ∧ zr.getLsbD i = x.getLsbD ((i + k) % w) := by
  obtain ⟨l, e1, ls, r1, h1⟩ := map2Method_pointwise (fun (x : BitVec w) n => x.rotateLeft n) ha hb hd he hbig hne
  obtain ⟨r, e2, rs, r2, h2⟩ := map2Method_pointwise (fun (x : BitVec w) n => x.rotateRight n) ha hb hd he hbig hne
  refine ⟨l, r, ls, rs, e1, r1, e2, r2, fun idx p hp => ?_⟩
  obtain ⟨x, k, g1, g2, g3⟩ := h1 idx p hp
  obtain ⟨x', k', g1', g2', g3'⟩ := h2 idx p hp
  rw [g1] at g1'; rw [g2] at g2'
  cases g1'; cases g2'
  exact ⟨x, k, _, _, g1, g2, g3, g3', fun i hi => ⟨getLsbD_rotateLeft_mod x k hi, getLsbD_rotateRight_mod x k hi⟩⟩

/-- C73: `count_ones` and `count_zeros` of an element add up to the width, and rotating does not change them. -/
theorem C73_counts {a : Tensor (BitVec w)} {b : Tensor Nat} {ds es : List Nat} {xs : List (BitVec w)} {ys : List Nat}
    (ha : Rep a ds xs) (hb : Rep b es ys) (hs : es <:+ ds) (hne : xs ≠ []) :
    ∃ ones zeros l lones os, a.countOnes = .ok ones ∧ Rep ones ds os ∧
      a.countZeros = .ok zeros ∧ Rep zeros ds (os.map fun k => w - k) ∧ (∀ k ∈ os, k ≤ w) ∧
      a.rotateLeft b = .ok l ∧ l.countOnes = .ok lones ∧ Rep lones ds os := by
  obtain ⟨ones, e1, r1⟩ := mapMethod_results (Bits.countOnes (w := w)) ha
  obtain ⟨zeros, e2, r2⟩ := mapMethod_results (Bits.countZeros (w := w)) ha
  have hp : 0 < ds.prod := by rw [← ha.length]; exact List.length_pos_iff.2 hne
  obtain ⟨l, e3, ls, r3, h3⟩ := map2Method_pointwise (fun (x : BitVec w) n => x.rotateLeft n) ha hb (List.suffix_refl _)
    hs (.inl rfl) hp
  obtain ⟨lones, e4, r4⟩ := mapMethod_results (Bits.countOnes (w := w)) r3
  have e5 : ls.map Bits.countOnes = xs.map Bits.countOnes := by
    refine eq_of_at (ds := ds) (by simp [r3.length]) (by simp [ha.length]) fun idx p hp => ?_
    obtain ⟨x, k, g1, g2, g3⟩ := h3 idx p hp
    simp only [Nat.sub_self, List.drop_zero, at?, hp, Option.bind_some] at g1 g3
    simp [at?, hp, g1, g3, countOnes_rotateLeft]
  refine ⟨ones, zeros, l, lones, _, e1, r1, e2, ?_, ?_, e3, e4, e5 ▸ r4⟩
  · rw [List.map_map]
    rwa [show (fun k => w - k) ∘ Bits.countOnes = Bits.countZeros (w := w) from funext fun x => ?_]
    have := countOnes_add_countZeros x
    simp only [Function.comp]; omega
  · intro k hk
    obtain ⟨x, _, rfl⟩ := List.mem_map.1 hk
    have := countOnes_add_countZeros x
    omega

theorem countOnes_card (x : BitVec w) : Bits.countOnes x = ((Finset.range w).filter fun i => x.getLsbD i = true).card := by
  unfold Bits.countOnes
  rw [Finset.card_def, Finset.filter_val, ← Multiset.countP_eq_card_filter, Finset.range_val, Multiset.range,
    Multiset.coe_countP]
  congr 1
  funext i; simp

/-- C73: `count_ones` is the number of one bits of each element, and bit `i` of `reverse_bits` is bit `w - 1 - i`. -/
theorem C73_count_reverse {a : Tensor (BitVec w)} {ds : List Nat} {xs : List (BitVec w)} (ha : Rep a ds xs) :
    (∃ t, a.countOnes = .ok t ∧ Rep t ds (xs.map fun x => ((Finset.range w).filter fun i => x.getLsbD i = true).card)) ∧
    (∃ t f, a.reverseBits = .ok t ∧ Rep t ds (xs.map f) ∧ ∀ x, ∀ i < w, (f x).getLsbD i = x.getLsbD (w - 1 - i)) := by
  constructor
  · obtain ⟨t, e, r⟩ := mapMethod_results (Bits.countOnes (w := w)) ha
    exact ⟨t, e, by rwa [← funext (countOnes_card (w := w))]⟩
  · obtain ⟨t, e, r⟩ := mapMethod_results (BitVec.reverse (w := w)) ha
    refine ⟨t, _, e, r, fun x i hi => ?_⟩
    rw [BitVec.getLsbD_reverse, BitVec.getMsbD_eq_getLsbD]
    simp [hi]

example : ∃ t : Tensor Nat, Tensor.countOnes (⟨ofDims [2], 0, 2, [5#8, 255#8]⟩ : Tensor (BitVec 8)) = .ok t ∧ Rep t [2] [2, 8] :=
  (C73_count_reverse (rep_fresh (ds := [2]) (xs := [5#8, 255#8]) ⟨by simp, by simp⟩ (fits_of_pos (by simp) (by simp)) rfl)).1

/-- C73: `leading_zeros` counts the zero bits above the highest one bit, `trailing_zeros` those below the lowest;
reversing the bits exchanges them. Likewise for ones. -/
theorem C73_leading_trailing {a : Tensor (BitVec w)} {ds : List Nat} {xs : List (BitVec w)} (ha : Rep a ds xs) :
    ∃ r lz tz lo tro rlz rlo, a.reverseBits = .ok r ∧
      a.leadingZeros = .ok lz ∧ a.trailingZeros = .ok tz ∧ a.leadingOnes = .ok lo ∧ a.trailingOnes = .ok tro ∧
      r.leadingZeros = .ok rlz ∧ r.leadingOnes = .ok rlo ∧
      (∃ fz fo gz go : BitVec w → Nat, Rep lz ds (xs.map fz) ∧ Rep tz ds (xs.map gz) ∧ Rep lo ds (xs.map fo) ∧
        Rep tro ds (xs.map go) ∧ Rep rlz ds (xs.map gz) ∧ Rep rlo ds (xs.map go) ∧
        ∀ x, (fz x ≤ w ∧ (∀ i < fz x, x.getMsbD i = false) ∧ (fz x < w → x.getMsbD (fz x) = true)) ∧
          (fo x ≤ w ∧ (∀ i < fo x, x.getMsbD i = true) ∧ (fo x < w → x.getMsbD (fo x) = false)) ∧
          (gz x ≤ w ∧ (∀ i < gz x, x.getLsbD i = false) ∧ (gz x < w → x.getLsbD (gz x) = true)) ∧
          (go x ≤ w ∧ (∀ i < go x, x.getLsbD i = true) ∧ (go x < w → x.getLsbD (go x) = false))) := by
  obtain ⟨r, e0, r0⟩ := mapMethod_results (BitVec.reverse (w := w)) ha
  obtain ⟨lz, e1, r1⟩ := mapMethod_results (Bits.leadingZeros (w := w)) ha
  obtain ⟨tz, e2, r2⟩ := mapMethod_results (Bits.trailingZeros (w := w)) ha
  obtain ⟨lo, e3, r3⟩ := mapMethod_results (Bits.leadingOnes (w := w)) ha
  obtain ⟨tro, e4, r4⟩ := mapMethod_results (Bits.trailingOnes (w := w)) ha
  obtain ⟨rlz, e5, r5⟩ := mapMethod_results (Bits.leadingZeros (w := w)) r0
  obtain ⟨rlo, e6, r6⟩ := mapMethod_results (Bits.leadingOnes (w := w)) r0
  refine ⟨r, lz, tz, lo, tro, rlz, rlo, e0, e1, e2, e3, e4, e5, e6, _, _, _, _, r1, r2, r3, r4, ?_, ?_, fun x => ?_⟩
  · rw [List.map_map] at r5
    convert r5 using 2
    exact funext fun x => (leading_reverse x).1.symm
  · rw [List.map_map] at r6
    convert r6 using 2
    exact funext fun x => (leading_reverse x).2.symm
  · refine ⟨?_, ?_, ?_, ?_⟩
    · simpa [Bits.leadingZeros] using takeWhile_range (fun i => !x.getMsbD i) w
    · simpa [Bits.leadingOnes] using takeWhile_range (fun i => x.getMsbD i) w
    · simpa [Bits.trailingZeros] using takeWhile_range (fun i => !x.getLsbD i) w
    · simpa [Bits.trailingOnes] using takeWhile_range (fun i => x.getLsbD i) w

theorem map_undo (f g : T → T) (h : ∀ x, g (f x) = x) {a : Tensor T} {ds : List Nat} {xs : List T} (ha : Rep a ds xs) :
    ∃ t u, Tensor.mapMethod f a = .ok t ∧ Tensor.mapMethod g t = .ok u ∧ Rep u ds xs := by
  obtain ⟨t, e, hr⟩ := mapMethod_results f ha
  obtain ⟨u, e', hr'⟩ := mapMethod_results g hr
  refine ⟨t, u, e, e', ?_⟩
  rw [List.map_map, show (g ∘ f) = id from funext h, List.map_id] at hr'
  exact hr'

/-- C73: `reverse_bits`, `swap_bytes`, `to_be` and `to_le` are their own inverses, on machines of either byte order. -/
theorem C73_involutions {a : Tensor (BitVec (8 * n))} {ds : List Nat} {xs : List (BitVec (8 * n))} (ha : Rep a ds xs)
    (bigEndian : Bool) :
    (∃ t u, a.reverseBits = .ok t ∧ t.reverseBits = .ok u ∧ Rep u ds xs) ∧
    (∃ t u, a.swapBytes = .ok t ∧ t.swapBytes = .ok u ∧ Rep u ds xs) ∧
    (∃ t u, a.toBe bigEndian = .ok t ∧ t.toBe bigEndian = .ok u ∧ Rep u ds xs) ∧
    (∃ t u, a.toLe bigEndian = .ok t ∧ t.toLe bigEndian = .ok u ∧ Rep u ds xs) := by
  refine ⟨map_undo _ _ (fun x => BitVec.reverse_reverse_eq) ha, map_undo _ _ swapBytes_swapBytes ha, map_undo _ _ ?_ ha,
    map_undo _ _ ?_ ha⟩ <;> cases bigEndian <;> simp [swapBytes_swapBytes]

/-- C73: byte `j` of `swap_bytes` is byte `n - 1 - j` of the element; of `to_be` and `to_le` exactly one swaps. -/
theorem C73_bytes {a : Tensor (BitVec (8 * n))} {ds : List Nat} {xs : List (BitVec (8 * n))} (ha : Rep a ds xs)
    (bigEndian : Bool) :
    ∃ t be le f, a.swapBytes = .ok t ∧ Rep t ds (xs.map f) ∧
      (∀ x j k, j < n → k < 8 → (f x).getLsbD (8 * j + k) = x.getLsbD (8 * (n - 1 - j) + k)) ∧
      a.toBe bigEndian = .ok be ∧ Rep be ds (if bigEndian then xs else xs.map f) ∧
      a.toLe bigEndian = .ok le ∧ Rep le ds (if bigEndian then xs.map f else xs) := by
  obtain ⟨t, e1, r1⟩ := mapMethod_results (Bits.swapBytes (n := n)) ha
  obtain ⟨be, e2, r2⟩ := mapMethod_results (fun x : BitVec (8 * n) => if bigEndian then x else Bits.swapBytes x) ha
  obtain ⟨le, e3, r3⟩ := mapMethod_results (fun x : BitVec (8 * n) => if bigEndian then Bits.swapBytes x else x) ha
  refine ⟨t, be, le, _, e1, r1, fun x j k hj hk => ?_, e2, ?_, e3, ?_⟩
  · rw [getLsbD_swapBytes _ (by omega)]
    congr 1
    omega
  · cases bigEndian <;> simpa using r2
  · cases bigEndian <;> simpa using r3

def exBits : Tensor (BitVec 16) := ⟨ofDims [2], 0, 2, [0x1234#16, 0x00f0#16]⟩
def exAmounts : Tensor Nat := ⟨ofDims [], 0, 1, [20]⟩
theorem exBits_rep : Rep exBits [2] [0x1234#16, 0x00f0#16] :=
  ⟨⟨wf_ofDims ⟨by simp, by simp⟩, by decide +kernel, by decide +kernel⟩, by decide +kernel, by decide +kernel⟩
theorem exAmounts_rep : Rep exAmounts [] [20] :=
  ⟨⟨wf_ofDims ⟨by simp, by simp⟩, by decide +kernel, by decide +kernel⟩, by decide +kernel, by decide +kernel⟩

/-- Rotating by 20 rotates a 16-bit integer by 4. -/
example : ∃ t, exBits.rotateLeft exAmounts = .ok t ∧ t.data = [0x2341#16, 0x0f00#16] := ⟨_, rfl, by decide +kernel⟩
example := C73_rotate exBits_rep exAmounts_rep (List.suffix_refl _) ⟨[2], rfl⟩ (.inl rfl) (by simp)
example := C73_counts exBits_rep exAmounts_rep ⟨[2], rfl⟩ (by simp)
example : ∃ t u, exBits.swapBytes (n := 2) = .ok t ∧ t.swapBytes (n := 2) = .ok u ∧ Rep u [2] [0x1234#16, 0x00f0#16] :=
  (C73_involutions (n := 2) exBits_rep false).2.1
example : ∃ t, exBits.swapBytes (n := 2) = .ok t ∧ t.data = [0x3412#16, 0xf000#16] := ⟨_, rfl, by decide +kernel⟩

/-! ## C74 -/

theorem Cx.toC_inj {z w : Cx ℝ} (h : z.toC = w.toC) : z = w := by
  cases z; cases w
  simpa [Cx.toC] using h

theorem normSqr_real (z : Cx ℝ) : z.normSqr .real = Complex.normSq z.toC := rfl

theorem norm_real (z : Cx ℝ) : z.norm .real = ‖z.toC‖ := by
  rw [Complex.norm_def, Complex.normSq_apply]
  simp [Cx.norm, CxLib.real, Cx.toC, sq]

theorem arg_real (z : Cx ℝ) : z.arg .real = z.toC.arg := rfl

theorem mul_real (z w : Cx ℝ) : (Cx.mul .real z w).toC = z.toC * w.toC := by
  apply Complex.ext <;> simp [Cx.mul, CxLib.real, Cx.toC]

theorem conj_real (z : Cx ℝ) : (z.conj .real).toC = (starRingEnd ℂ) z.toC := by
  apply Complex.ext <;> simp [Cx.conj, CxLib.real, Cx.toC]

theorem scale_real (z : Cx ℝ) (t : ℝ) : (z.scale .real t).toC = z.toC * t := by
  apply Complex.ext <;> simp [Cx.scale, CxLib.real, Cx.toC]

theorem unscale_real (z : Cx ℝ) (t : ℝ) : (z.unscale .real t).toC = z.toC / t := by
  apply Complex.ext
  · simp [Cx.unscale, CxLib.real, Cx.toC]
  · simp [Cx.unscale, CxLib.real, Cx.toC]

theorem powu_real (z : Cx ℝ) (k : Nat) : (z.powu .real k).toC = z.toC ^ k := by
  induction k with
  | zero => apply Complex.ext <;> simp [Cx.powu, CxLib.real, Cx.toC]
  | succ k ih => rw [Cx.powu, mul_real, ih, pow_succ]

theorem inv_real (z : Cx ℝ) : (z.inv .real).toC = z.toC⁻¹ := by
  apply Complex.ext
  · rw [Complex.inv_re]; rfl
  · rw [Complex.inv_im]; rfl

theorem finv_real (z : Cx ℝ) : (z.finv .real).toC = z.toC⁻¹ := by
  rw [Cx.finv, unscale_real, unscale_real, conj_real, norm_real, Complex.inv_def, div_div, div_eq_mul_inv,
    ← Complex.ofReal_mul, ← sq, Complex.sq_norm, Complex.ofReal_inv]

theorem fdiv_real (z w : Cx ℝ) : (z.fdiv .real w).toC = z.toC / w.toC := by
  rw [Cx.fdiv, mul_real, finv_real, div_eq_mul_inv]

theorem fromPolar_real (r θ : ℝ) : (Cx.fromPolar .real r θ).toC = r * Complex.exp (θ * Complex.I) := by
  rw [Complex.exp_mul_I, ← Complex.ofReal_cos, ← Complex.ofReal_sin]
  apply Complex.ext <;> simp [Cx.fromPolar, CxLib.real, Cx.toC, -Complex.ofReal_cos, -Complex.ofReal_sin]

theorem expf_real (z : Cx ℝ) {b : ℝ} (hb : 0 < b) : (z.expf .real b).toC = (b : ℂ) ^ z.toC := by
  rw [Cx.expf, fromPolar_real, Complex.cpow_def_of_ne_zero (by exact_mod_cast hb.ne'), ← Complex.ofReal_log hb.le]
  show ((b ^ z.re : ℝ) : ℂ) * Complex.exp (((z.im * Real.log b : ℝ) : ℂ) * Complex.I) = _
  rw [Real.rpow_def_of_pos hb, Complex.ofReal_exp, ← Complex.exp_add]
  congr 1
  apply Complex.ext
  · simp [Cx.toC]
  · simp [Cx.toC]; ring

theorem powc_real (z w : Cx ℝ) (h : z.toC ≠ 0 ∨ w.toC = 0) :
    (z.powc .real (fun w => decide (w.toC = 0)) w).toC = z.toC ^ w.toC := by
  unfold Cx.powc
  by_cases hw : w.toC = 0
  · rw [if_pos (by simpa using hw), hw, Complex.cpow_zero]
    apply Complex.ext <;> simp [CxLib.real, Cx.toC]
  · have hz := h.resolve_right hw
    rw [if_neg (by simpa using hw), fromPolar_real, Complex.cpow_def_of_ne_zero hz]
    have hr : 0 < ‖z.toC‖ := norm_pos_iff.2 hz
    simp only [norm_real, arg_real]
    show (((‖z.toC‖ ^ w.re * Real.exp (-(w.im * z.toC.arg)) : ℝ)) : ℂ) *
      Complex.exp ((((w.re * z.toC.arg + w.im * Real.log ‖z.toC‖ : ℝ)) : ℂ) * Complex.I) = _
    rw [Real.rpow_def_of_pos hr, ← Real.exp_add, Complex.ofReal_exp, ← Complex.exp_add]
    congr 1
    apply Complex.ext
    · simp [Complex.log_re, Complex.log_im, Cx.toC]; ring
    · simp [Complex.log_re, Complex.log_im, Cx.toC]; ring

/-- C74: `re` and `im` keep the dimensions and hold the parts of each element. -/
theorem C74_parts {a : Tensor (Cx F)} {ds : List Nat} {xs : List (Cx F)} (ha : Rep a ds xs) :
    ∃ re im res ims, a.re = .ok re ∧ Rep re ds res ∧ a.im = .ok im ∧ Rep im ds ims ∧
      xs = (res.zip ims).map fun p => ⟨p.1, p.2⟩ := by
  obtain ⟨t, e, hr⟩ := mapMethod_results (fun z : Cx F => z.re) ha
  obtain ⟨u, e', hr'⟩ := mapMethod_results (fun z : Cx F => z.im) ha
  refine ⟨t, u, _, _, e, hr, e', hr', ?_⟩
  clear ha e e' hr hr'
  induction xs with
  | nil => rfl
  | cons x xs ih => simpa using ih

/-- C74, real arithmetic: the one-argument methods are the complex functions of their names: `norm_sqr` is `|z|^2`,
`norm` is `|z|`, `arg` the argument in (-pi, pi], `l1_norm` is `|re| + |im|`, `conj` the conjugate, `inv` and `finv` the
reciprocal, `to_polar` the pair of modulus and argument. -/
theorem C74_unary {a : Tensor (Cx ℝ)} {ds : List Nat} {xs : List (Cx ℝ)} (ha : Rep a ds xs) :
    (∃ t, a.normSqr .real = .ok t ∧ Rep t ds (xs.map fun z => ‖z.toC‖ ^ 2)) ∧
    (∃ t, a.norm .real = .ok t ∧ Rep t ds (xs.map fun z => ‖z.toC‖)) ∧
    (∃ t, a.arg .real = .ok t ∧ Rep t ds (xs.map fun z => z.toC.arg)) ∧
    (∃ t, a.l1Norm .real = .ok t ∧ Rep t ds (xs.map fun z => |z.toC.re| + |z.toC.im|)) ∧
    (∃ t, a.toPolar .real = .ok t ∧ Rep t ds (xs.map fun z => (‖z.toC‖, z.toC.arg))) ∧
    (∃ t ts, a.conj .real = .ok t ∧ Rep t ds ts ∧ ts.map Cx.toC = xs.map fun z => (starRingEnd ℂ) z.toC) ∧
    (∃ t ts, a.inv .real = .ok t ∧ Rep t ds ts ∧ ts.map Cx.toC = xs.map fun z => z.toC⁻¹) ∧
    (∃ t ts, a.finv .real = .ok t ∧ Rep t ds ts ∧ ts.map Cx.toC = xs.map fun z => z.toC⁻¹) := by
  refine ⟨?_, ?_, ?_, mapMethod_results _ ha, ?_, ?_, ?_, ?_⟩
  · simp only [Complex.sq_norm]; exact mapMethod_results (Cx.normSqr .real) ha
  · simp only [← norm_real]; exact mapMethod_results (Cx.norm .real) ha
  · exact mapMethod_results _ ha
  · simp only [← norm_real, ← arg_real]; exact mapMethod_results (Cx.toPolar .real) ha
  · obtain ⟨t, e, hr⟩ := mapMethod_results (Cx.conj .real) ha
    exact ⟨t, _, e, hr, by simp [List.map_map, Function.comp_def, conj_real]⟩
  · obtain ⟨t, e, hr⟩ := mapMethod_results (Cx.inv .real) ha
    exact ⟨t, _, e, hr, by simp [List.map_map, Function.comp_def, inv_real]⟩
  · obtain ⟨t, e, hr⟩ := mapMethod_results (Cx.finv .real) ha
    exact ⟨t, _, e, hr, by simp [List.map_map, Function.comp_def, finv_real]⟩

/-- C74, real arithmetic: `from_polar(to_polar(t))` is `t`, for every tensor. -/
theorem C74_polar {a : Tensor (Cx ℝ)} {ds : List Nat} {xs : List (Cx ℝ)} (ha : Rep a ds xs) :
    ∃ t u, a.toPolar .real = .ok t ∧ t.fromPolar .real = .ok u ∧ Rep u ds xs := by
  obtain ⟨t, e, hr⟩ := mapMethod_results (Cx.toPolar .real) ha
  obtain ⟨u, e', hr'⟩ := mapMethod_results (fun p : ℝ × ℝ => Cx.fromPolar .real p.1 p.2) hr
  refine ⟨t, u, e, e', ?_⟩
  rw [List.map_map, show (fun p : ℝ × ℝ => Cx.fromPolar .real p.1 p.2) ∘ Cx.toPolar .real = id from funext fun z => ?_,
    List.map_id] at hr'
  · exact hr'
  · apply Cx.toC_inj
    simp only [Function.comp, Cx.toPolar, fromPolar_real, norm_real, arg_real, id]
    exact Complex.norm_mul_exp_arg_mul_I _

/-- C74, real arithmetic: `to_polar(from_polar(t))` is `t` when every radius is positive and every angle in (-pi, pi]. -/
theorem C74_polar_back {a : Tensor (ℝ × ℝ)} {ds : List Nat} {xs : List (ℝ × ℝ)} (ha : Rep a ds xs)
    (hx : ∀ p ∈ xs, 0 < p.1 ∧ p.2 ∈ Set.Ioc (-Real.pi) Real.pi) :
    ∃ t u, a.fromPolar .real = .ok t ∧ t.toPolar .real = .ok u ∧ Rep u ds xs := by
  obtain ⟨t, e, hr⟩ := mapMethod_results (fun p : ℝ × ℝ => Cx.fromPolar .real p.1 p.2) ha
  obtain ⟨u, e', hr'⟩ := mapMethod_results (Cx.toPolar .real) hr
  refine ⟨t, u, e, e', ?_⟩
  convert hr' using 1
  rw [List.map_map]
  conv_lhs => rw [← List.map_id xs]
  apply List.map_congr_left
  intro p hp
  obtain ⟨h1, h2⟩ := hx p hp
  simp only [Function.comp, Cx.toPolar, norm_real, arg_real, fromPolar_real, id]
  rw [norm_mul, Complex.norm_exp_ofReal_mul_I, mul_one, Complex.norm_real, Real.norm_of_nonneg h1.le, Complex.exp_mul_I,
    Complex.arg_mul_cos_add_sin_mul_I h1 h2]

/-- C74, real arithmetic: the two-argument methods broadcast and are the complex operations of their names, receiver
first: `scale` multiplies and `unscale` divides by the real, `powu` is the power, `fdiv` the quotient. -/
theorem C74_binary {a : Tensor (Cx ℝ)} {b : Tensor ℝ} {c : Tensor (Cx ℝ)} {k : Tensor Nat} {ds es big : List Nat}
    {xs cs : List (Cx ℝ)} {ys : List ℝ} {ks : List Nat} (ha : Rep a ds xs) (hb : Rep b es ys) (hc : Rep c es cs)
    (hk : Rep k es ks) (hd : ds <:+ big) (he : es <:+ big) (hbig : big = ds ∨ big = es) (hne : 0 < big.prod) :
    (∃ t f, a.scale .real b = .ok t ∧ Pointwise2 f ds xs es ys big t ∧ ∀ z r, (f z r).toC = z.toC * r) ∧
    (∃ t f, a.unscale .real b = .ok t ∧ Pointwise2 f ds xs es ys big t ∧ ∀ z r, (f z r).toC = z.toC / r) ∧
    (∃ t f, a.powu .real k = .ok t ∧ Pointwise2 f ds xs es ks big t ∧ ∀ z n, (f z n).toC = z.toC ^ n) ∧
    (∃ t f, a.fdiv .real c = .ok t ∧ Pointwise2 f ds xs es cs big t ∧ ∀ z w, (f z w).toC = z.toC / w.toC) ∧
    (∃ t f, a.expf .real b = .ok t ∧ Pointwise2 f ds xs es ys big t ∧
      ∀ z r, 0 < r → (f z r).toC = (r : ℂ) ^ z.toC) ∧
    (∃ t f, a.powc .real (fun w => decide (w.toC = 0)) c = .ok t ∧ Pointwise2 f ds xs es cs big t ∧
      ∀ z w, z.toC ≠ 0 ∨ w.toC = 0 → (f z w).toC = z.toC ^ w.toC) := by
  refine ⟨?_, ?_, ?_, ?_, ?_, ?_⟩
  · obtain ⟨t, e, h⟩ := map2Method_pointwise (Cx.scale .real) ha hb hd he hbig hne
    exact ⟨t, _, e, h, scale_real⟩
  · obtain ⟨t, e, h⟩ := map2Method_pointwise (Cx.unscale .real) ha hb hd he hbig hne
    exact ⟨t, _, e, h, unscale_real⟩
  · obtain ⟨t, e, h⟩ := map2Method_pointwise (Cx.powu .real) ha hk hd he hbig hne
    exact ⟨t, _, e, h, powu_real⟩
  · obtain ⟨t, e, h⟩ := map2Method_pointwise (Cx.fdiv .real) ha hc hd he hbig hne
    exact ⟨t, _, e, h, fdiv_real⟩
  · obtain ⟨t, e, h⟩ := map2Method_pointwise (Cx.expf .real) ha hb hd he hbig hne
    exact ⟨t, _, e, h, fun z r hr => expf_real z hr⟩
  · obtain ⟨t, e, h⟩ := map2Method_pointwise (Cx.powc .real fun w => decide (w.toC = 0)) ha hc hd he hbig hne
    exact ⟨t, _, e, h, powc_real⟩

noncomputable def exCx : Tensor (Cx ℝ) := ⟨ofDims [2], 0, 2, [⟨3, 4⟩, ⟨0, -1⟩]⟩
theorem exCx_rep : Rep exCx [2] [⟨3, 4⟩, ⟨0, -1⟩] :=
  rep_fresh (ds := [2]) (xs := ([⟨3, 4⟩, ⟨0, -1⟩] : List (Cx ℝ))) ⟨by simp, by simp⟩ (fits_of_pos (by simp) (by simp)) rfl
example := C74_polar exCx_rep
example : (Cx.norm .real ⟨3, 4⟩ : ℝ) = 5 := by
  simp only [Cx.norm, CxLib.real]
  rw [show ((3 : ℝ) ^ 2 + 4 ^ 2) = 5 ^ 2 by norm_num, Real.sqrt_sq (by norm_num)]
noncomputable def exReal : Tensor ℝ := ⟨ofDims [], 0, 1, [2]⟩
theorem exReal_rep : Rep exReal [] [2] :=
  rep_fresh (ds := []) (xs := [2]) ⟨by simp, by simp⟩ (fits_of_pos (by simp) (by simp)) rfl
noncomputable def exCx1 : Tensor (Cx ℝ) := ⟨ofDims [], 0, 1, [⟨1, 1⟩]⟩
theorem exCx1_rep : Rep exCx1 [] [⟨1, 1⟩] :=
  rep_fresh (ds := []) (xs := ([⟨1, 1⟩] : List (Cx ℝ))) ⟨by simp, by simp⟩ (fits_of_pos (by simp) (by simp)) rfl
example := C74_binary exCx_rep exReal_rep exCx1_rep exAmounts_rep (List.suffix_refl _) ⟨[2], rfl⟩ (.inl rfl) (by simp)

example : exMathLib.hypot 3 4 = 25 ∧ Tensor.Float2.hypot.call exMathLib exMathA (⟨ofDims [3], 0, 3, [1, 2, 3]⟩ : Tensor Int) =
    .error .panic :=
  ⟨rfl, C72_rejects _ _ exMathA_rep
    (rep_fresh (ds := [3]) (xs := [1, 2, 3]) ⟨by simp, by simp⟩ (fits_of_pos (by simp) (by simp)) rfl) (.inl (by decide))⟩

example : ∃ t, exMathA.powi exMathLib (⟨ofDims [2], 0, 2, [2, 3]⟩ : Tensor Int) = .ok t ∧
    Pointwise2 (fun (x k : Int) => x ^ k.toNat) [2, 2] [3, -4, 5, -6] [2] [2, 3] [2, 2] t :=
  C72_powi exMathLib exMathA_rep
    (rep_fresh (ds := [2]) (xs := [2, 3]) ⟨by simp, by simp⟩ (fits_of_pos (by simp) (by simp)) rfl) (by decide) (by decide)
    (.inl rfl) (by simp)

example : ∃ t, exMathB.sinCos exMathLib = .ok t ∧ Rep t [2] [(-1, 1), (2, -2)] := C72_sin_cos exMathLib exMathB_rep

example : ∃ l r ls rs, exBits.rotateLeft exAmounts = .ok l ∧ Rep l [2] ls ∧ exBits.rotateRight exAmounts = .ok r ∧ Rep r [2] rs ∧
    ∀ idx p, ravel [2] idx = some p → ∃ x k zl zr,
      at? [2] [0x1234#16, 0x00f0#16] (idx.drop 0) = some x ∧ at? [] [20] (idx.drop 1) = some k ∧
      at? [2] ls idx = some zl ∧ at? [2] rs idx = some zr ∧
      ∀ i < 16, zl.getLsbD ((i + k) % 16) = x.getLsbD i ∧ zr.getLsbD i = x.getLsbD ((i + k) % 16) :=
  C73_rotate_bits exBits_rep exAmounts_rep (by simp) (by simp) (.inl rfl) (by simp)

example : ∃ lz tz, exBits.leadingZeros = .ok lz ∧ Rep lz [2] [3, 8] ∧ exBits.trailingZeros = .ok tz ∧ Rep tz [2] [2, 4] := by
  obtain ⟨r, lz, tz, lo, tro, rlz, rlo, -, e1, e2, -, -, -, -, fz, fo, gz, go, h1, h2, -, -, -, -, h⟩ :=
    C73_leading_trailing exBits_rep
  refine ⟨lz, tz, e1, ?_, e2, ?_⟩
  · have a : ∀ (x : BitVec 16) (k : Nat), k < 16 → (∀ i < k, x.getMsbD i = false) → x.getMsbD k = true → fz x = k := by
      intro x k hk h0 h1
      obtain ⟨-, ⟨h2, h3⟩⟩ := (h x).1
      rcases Nat.lt_trichotomy (fz x) k with h4 | h4 | h4
      · exact absurd (h3 (by omega)) (by simp [h0 _ h4])
      · exact h4
      · exact absurd (h2 k h4) (by simp [h1])
    rw [List.map_cons, List.map_cons, List.map_nil, a 0x1234#16 3 (by decide) (by decide) (by decide),
      a 0x00f0#16 8 (by decide) (by decide) (by decide)] at h1
    exact h1
  · have a : ∀ (x : BitVec 16) (k : Nat), k < 16 → (∀ i < k, x.getLsbD i = false) → x.getLsbD k = true → gz x = k := by
      intro x k hk h0 h1
      obtain ⟨-, ⟨h2, h3⟩⟩ := (h x).2.2.1
      rcases Nat.lt_trichotomy (gz x) k with h4 | h4 | h4
      · exact absurd (h3 (by omega)) (by simp [h0 _ h4])
      · exact h4
      · exact absurd (h2 k h4) (by simp [h1])
    rw [List.map_cons, List.map_cons, List.map_nil, a 0x1234#16 2 (by decide) (by decide) (by decide),
      a 0x00f0#16 4 (by decide) (by decide) (by decide)] at h2
    exact h2

example : ∃ t be le, ∃ f : BitVec 16 → BitVec 16, Tensor.swapBytes (n := 2) exBits = .ok t ∧ Rep t [2] [f 0x1234#16, f 0x00f0#16] ∧
    (∀ x j k, j < 2 → k < 8 → (f x).getLsbD (8 * j + k) = x.getLsbD (8 * (2 - 1 - j) + k)) ∧
    Tensor.toBe (n := 2) false exBits = .ok be ∧ Rep be [2] [f 0x1234#16, f 0x00f0#16] ∧
    Tensor.toLe (n := 2) false exBits = .ok le ∧ Rep le [2] [0x1234#16, 0x00f0#16] :=
  C73_bytes (n := 2) exBits_rep false

example : ∃ re im res ims, exCx.re = .ok re ∧ Rep re [2] res ∧ exCx.im = .ok im ∧ Rep im [2] ims ∧
    [⟨3, 4⟩, ⟨0, -1⟩] = (res.zip ims).map fun p => (⟨p.1, p.2⟩ : Cx ℝ) := C74_parts exCx_rep

example : ∃ t, exCx.normSqr .real = .ok t ∧ Rep t [2] [25, 1] := by
  have := (C74_unary exCx_rep).1
  simpa [Complex.sq_norm, Complex.normSq_apply, Cx.toC, show (3 * 3 + 4 * 4 : ℝ) = 25 by norm_num] using this

example : ∃ t u, (⟨ofDims [2], 0, 2, [(2, 0), (1, Real.pi)]⟩ : Tensor (ℝ × ℝ)).fromPolar .real = .ok t ∧ t.toPolar .real = .ok u ∧
    Rep u [2] [(2, 0), (1, Real.pi)] := by
  refine C74_polar_back
    (rep_fresh (ds := [2]) (xs := [(2, 0), (1, Real.pi)]) ⟨by simp, by simp⟩ (fits_of_pos (by simp) (by simp)) rfl) ?_
  have h3 := Real.pi_pos
  simp only [List.mem_cons, List.not_mem_nil, or_false, Set.mem_Ioc]
  rintro p (rfl | rfl)
  · exact ⟨by norm_num, by simp only; linarith, by simp only; linarith⟩
  · exact ⟨by norm_num, by simp only; linarith, by simp only; linarith⟩

end Essay
