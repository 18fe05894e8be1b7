import Verif.Props.Fold
import Verif.Props.Array
import Verif.Model.Methods
import Verif.Model.Stats

/-!
# Property C25 for the operations that take an axis

Every axis an `isize` can hold, for every operation of the crate that takes one, in terms of the operation itself.
-/

namespace Essay

open Shape

variable {σ α β S S1 T V F : Type}

/-- The axis that joining, stacking and splitting use for the argument `a`: from `-rank` on it counts modulo the rank,
below it also wraps at 2^64 first. -/
def wrappedAxis (rank : Nat) (a : Int) : Nat :=
  if -(rank : Int) ≤ a then (a % rank).toNat else ((a + rank + 2 ^ 64) % rank).toNat

theorem axisFromRank_wrapped {rank : Nat} (h0 : 0 < rank) (hr : rank < 2 ^ 62) {a : Int} (hl : -2 ^ 63 ≤ a)
    (hu : a < 2 ^ 63 - rank) : Axis.axisFromRank (some a) rank = .ok (wrappedAxis rank a) := by
  unfold Axis.axisFromRank wrappedAxis
  simp only
  rw [iadd_small (by omega) (by omega), ok_bind, umod_ok (by omega)]
  congr 1
  have key : ∀ x : Int, 0 ≤ x → x.toNat % rank = (x % (rank : Int)).toNat := by
    intro x hx
    obtain ⟨n, rfl⟩ := Int.eq_ofNat_of_zero_le hx
    simp only [Int.toNat_natCast]
    rw [← Int.natCast_emod, Int.toNat_natCast]
  unfold isizeAsUsize
  split
  · rw [Int.emod_eq_of_lt (by omega) (by omega), key _ (by omega), Int.add_emod_right]
  · rw [key _ (Int.emod_nonneg _ (by simp))]
    congr 2
    rw [← Int.add_emod_right, Int.emod_eq_of_lt (by omega) (by omega)]
    rfl

theorem axisFromRank_over {rank : Nat} {a : Int} (hu : 2 ^ 63 - rank ≤ a) :
    Axis.axisFromRank (some a) rank = .error .panic := by
  unfold Axis.axisFromRank iadd
  simp only
  rw [if_neg (by omega)]
  rfl

theorem wrappedAxis_lt {rank : Nat} (h0 : 0 < rank) (a : Int) : wrappedAxis rank a < rank := by
  unfold wrappedAxis
  split
  · have := Int.emod_lt_of_pos a (b := rank) (by omega)
    have := Int.emod_nonneg a (b := rank) (by omega)
    omega
  · have := Int.emod_lt_of_pos (a + rank + 2 ^ 64) (b := rank) (by omega)
    have := Int.emod_nonneg (a + rank + 2 ^ 64) (b := rank) (by omega)
    omega

theorem axisFromRank_nat {rank i : Nat} (hr : rank < 2 ^ 62) (hi : i < rank) :
    Axis.axisFromRank (some (i : Int)) rank = .ok i := by
  rw [axisFromRank_wrapped (by omega) hr (by omega) (by omega)]
  unfold wrappedAxis
  rw [if_pos (by omega), Int.emod_eq_of_lt (by omega) (by omega), Int.toNat_natCast]

/-- An axis the user may mean is not changed. -/
theorem wrappedAxis_valid {rank : Nat} {a : Int} {i : Nat} (h : axisIndex rank a = some i) : wrappedAxis rank a = i := by
  unfold axisIndex at h
  unfold wrappedAxis
  split at h
  · cases h
    rw [if_pos (by omega), Int.emod_eq_of_lt (by omega) (by omega)]
  · split at h
    · cases h
      rw [if_pos (by omega), ← Int.add_emod_right, Int.emod_eq_of_lt (by omega) (by omega)]
    · cases h

theorem axisFromRank_same {rank : Nat} (h0 : 0 < rank) (hr : rank < 2 ^ 62) {a : Int} (hl : -2 ^ 63 ≤ a)
    (hu : a < 2 ^ 63 - rank) :
    Axis.axisFromRank (some a) rank = Axis.axisFromRank (some (wrappedAxis rank a : Int)) rank := by
  rw [axisFromRank_wrapped h0 hr hl hu, axisFromRank_nat hr (wrappedAxis_lt h0 a)]

theorem stackVec_congr {t : Tensor α} {ts : List (Tensor α)} {a b : Axis}
    (e : a.axisFromRank (t.shape.rank + 1) = b.axisFromRank (t.shape.rank + 1)) :
    Tensor.stackVec a (t :: ts) = Tensor.stackVec b (t :: ts) := by
  unfold Tensor.stackVec
  rw [show idx (t :: ts) 0 = .ok t from rfl]
  simp only [ok_bind]
  rw [e]

/-- C25 for joining, stacking and splitting, every `isize` axis: each operation does what it does for the axis number
`wrappedAxis` (which is the meant one if the axis is in range, `wrappedAxis_valid`), or panics because the sum of axis and
rank overflows. -/
theorem C25_array_operations {t : Tensor α} {ds : List Nat} {xs : List α} (h : Rep t ds xs) {a : Int} (hl : -2 ^ 63 ≤ a) :
    (ds ≠ [] → a < 2 ^ 63 - ds.length →
      (∀ ts, Tensor.concatenateAxis (some a) (t :: ts) =
        Tensor.concatenateAxis (some (wrappedAxis ds.length a : Int)) (t :: ts)) ∧
      (∀ s, t.splitAxis (some a) s = t.splitAxis (some (wrappedAxis ds.length a : Int)) s) ∧
      t.unstack (some a) = t.unstack (some (wrappedAxis ds.length a : Int))) ∧
    (a < 2 ^ 63 - ds.length - 1 → ∀ ts, Tensor.stackVec (some a) (t :: ts) =
      Tensor.stackVec (some (wrappedAxis (ds.length + 1) a : Int)) (t :: ts)) ∧
    (2 ^ 63 - ds.length ≤ a →
      (∀ ts, Tensor.concatenateAxis (some a) (t :: ts) = .error .panic) ∧ (∀ s, t.splitAxis (some a) s = .error .panic) ∧
      t.unstack (some a) = .error .panic) := by
  have hr : t.shape.rank = ds.length := h.rank
  have h6 := h.adm.len
  refine ⟨fun h0 hu => ?_, fun hu ts => ?_, fun hu => ?_⟩
  · have hp : 0 < ds.length := List.length_pos_of_ne_nil h0
    have e : Axis.axisFromRank (some a) t.shape.rank = Axis.axisFromRank (some (wrappedAxis ds.length a : Int)) t.shape.rank := by
      rw [hr, axisFromRank_wrapped hp (by omega) hl hu, axisFromRank_nat (by omega) (wrappedAxis_lt hp a)]
    refine ⟨fun ts => ?_, fun s => ?_, ?_⟩
    · unfold Tensor.concatenateAxis; simp only [e]
    · unfold Tensor.splitAxis; simp only [e]
    · unfold Tensor.unstack
      rw [e, hr, axisFromRank_nat (by omega) (wrappedAxis_lt hp a)]
  · apply stackVec_congr
    rw [hr]
    generalize hn : ds.length + 1 = n
    exact axisFromRank_same (by omega) (by omega) hl (by omega)
  · have e : Axis.axisFromRank (some a) t.shape.rank = .error .panic := axisFromRank_over (by omega)
    refine ⟨fun ts => ?_, fun s => ?_, ?_⟩
    · unfold Tensor.concatenateAxis; simp only [e]; rfl
    · unfold Tensor.splitAxis; simp only [e]; rfl
    · unfold Tensor.unstack; simp only [e]; rfl

/-- The axis that folds, reductions and `normalize` use: modulo the rank, but below `-rank` only multiples of the rank are
accepted. -/
def foldedAxis (rank : Nat) (a : Int) : Option Nat :=
  if -(rank : Int) ≤ a ∨ (rank : Int) ∣ a then some (a % rank).toNat else none

theorem normAxis_folded {rank : Nat} (h0 : 0 < rank) (hr : rank < 2 ^ 62) {a : Int} (hl : -2 ^ 63 ≤ a)
    (hu : a < 2 ^ 63 - rank) :
    Axis.normAxis a rank = match foldedAxis rank a with
      | some i => .ok i
      | none => .error .panic := by
  unfold Axis.normAxis foldedAxis
  rw [iadd_small (by omega) (by omega), ok_bind]
  unfold imod
  rw [if_neg (by omega), ok_bind]
  have hm0 := Int.emod_nonneg a (b := rank) (by omega)
  have hm1 := Int.emod_lt_of_pos a (b := rank) (by omega)
  have he : (a + rank) % (rank : Int) = a % rank := Int.add_emod_right ..
  by_cases hb : -(rank : Int) ≤ a ∨ (rank : Int) ∣ a
  · rw [if_pos hb]
    have ht : (a + rank).tmod (rank : Int) = a % rank := by
      rcases hb with hb | hb
      · rw [Int.tmod_eq_emod_of_nonneg (by omega), he]
      · rw [Int.tmod_eq_zero_of_dvd (Int.dvd_add hb (Int.dvd_refl _)), Int.emod_eq_zero_of_dvd hb]
    rw [ht, isizeAsUsize_eq hm0 (by omega)]
    simp only
    rw [ensure_true (by omega)]
    rfl
  · rw [if_neg hb]
    push Not at hb
    obtain ⟨n, hn⟩ : ∃ n : Nat, a + rank = -(n : Int) := ⟨(-(a + rank)).toNat, by omega⟩
    have ht : (a + rank).tmod (rank : Int) = -((n % rank : Nat) : Int) := by
      rw [hn, Int.neg_tmod, Int.tmod_eq_emod_of_nonneg (by omega), Int.natCast_emod]
    have h1 := Nat.mod_lt n h0
    have h2 : n % rank ≠ 0 := fun hz => hb.2 (by
      have h3 : (rank : Int) ∣ a + rank := by
        rw [hn]
        exact (Int.dvd_neg).2 (Int.natCast_dvd_natCast.2 (Nat.dvd_of_mod_eq_zero hz))
      exact (Int.dvd_add_left (Int.dvd_refl _)).1 h3)
    have : isizeAsUsize ((a + rank).tmod (rank : Int)) ≥ rank := by
      unfold isizeAsUsize
      rw [ht, ← Int.add_emod_right, Int.emod_eq_of_lt (by omega) (by omega)]
      omega
    simp only
    rw [ensure_false (by omega)]
    rfl

theorem normAxis_over {rank : Nat} {a : Int} (hu : 2 ^ 63 - rank ≤ a) : Axis.normAxis a rank = .error .panic := by
  unfold Axis.normAxis iadd
  rw [if_neg (by omega)]
  rfl

theorem foldedAxis_lt {rank : Nat} (h0 : 0 < rank) {a : Int} {i : Nat} (h : foldedAxis rank a = some i) : i < rank := by
  unfold foldedAxis at h
  have hm0 := Int.emod_nonneg a (b := rank) (by omega)
  have hm1 := Int.emod_lt_of_pos a (b := rank) (by omega)
  split at h
  · cases h; omega
  · cases h

theorem foldedAxis_valid {rank : Nat} {a : Int} {i : Nat} (h : axisIndex rank a = some i) : foldedAxis rank a = some i := by
  have hw := wrappedAxis_valid h
  have hb : -(rank : Int) ≤ a := by
    unfold axisIndex at h
    split at h
    · omega
    · split at h
      · omega
      · cases h
  unfold wrappedAxis at hw
  rw [if_pos hb] at hw
  unfold foldedAxis
  rw [if_pos (.inl hb), hw]

theorem normAxis_nat {rank i : Nat} (hr : rank < 2 ^ 62) (hi : i < rank) : Axis.normAxis i rank = .ok i := by
  rw [normAxis_folded (by omega) hr (by omega) (by omega)]
  unfold foldedAxis
  rw [if_pos (.inl (by omega)), Int.emod_eq_of_lt (by omega) (by omega), Int.toNat_natCast]

/-- Two axes with the same outcome of `normAxis` cannot be told apart. -/
theorem fold_congr {t : Tensor T} {a b : Int} (e : Axis.normAxis a t.shape.rank = Axis.normAxis b t.shape.rank) :
    (∀ (init : S) (f : S → T → Exec σ S) (g : S → V), t.foldAxis (some a) init f g = t.foldAxis (some b) init f g) ∧
    (∀ N (init : S) (f : S → List T → Exec σ S) (g : S → Vector V N),
      t.foldRow (some a) N init f g = t.foldRow (some b) N init f g) ∧
    (∀ f : T → T → Exec σ T, t.reduceAxis (some a) f = t.reduceAxis (some b) f) ∧
    (∀ (init : S) (f : S → T → Exec σ S) (c : S → Exec σ S1) (n : S1 → T → Exec σ V),
      t.normalize (some a) init f c n = t.normalize (some b) init f c n) := by
  have e1 : Axis.reduce (some a) t.shape = Axis.reduce (some b) t.shape := by unfold Axis.reduce; simp only [e]
  have e2 : ∀ N, Axis.reduceRow (some a) t.shape N = Axis.reduceRow (some b) t.shape N := by
    intro N; unfold Axis.reduceRow; simp only [e]
  refine ⟨fun _ _ _ => ?_, fun _ _ _ _ => ?_, fun _ => ?_, fun _ _ _ _ => ?_⟩
  · unfold Tensor.foldAxis; rw [e1]
  · unfold Tensor.foldRow; rw [e2]
  · unfold Tensor.reduceAxis; rw [e1]
  · unfold Tensor.normalize; rw [e1]

theorem fold_panics {t : Tensor T} {a : Int} (e : Axis.normAxis a t.shape.rank = .error .panic) (s : σ) :
    (∀ (init : S) (f : S → T → Exec σ S) (g : S → V), (t.foldAxis (some a) init f g).run s = .error .panic) ∧
    (∀ N (init : S) (f : S → List T → Exec σ S) (g : S → Vector V N), (t.foldRow (some a) N init f g).run s = .error .panic) ∧
    (∀ f : T → T → Exec σ T, (t.reduceAxis (some a) f).run s = .error .panic) ∧
    (∀ (init : S) (f : S → T → Exec σ S) (c : S → Exec σ S1) (n : S1 → T → Exec σ V),
      (t.normalize (some a) init f c n).run s = .error .panic) := by
  have e1 : Axis.reduce (some a) t.shape = .error .panic := by unfold Axis.reduce; simp only [e]; rfl
  have e2 : ∀ N, Axis.reduceRow (some a) t.shape N = .error .panic := by
    intro N; unfold Axis.reduceRow; simp only [e]; rfl
  refine ⟨fun _ _ _ => ?_, fun _ _ _ _ => ?_, fun _ => ?_, fun _ _ _ _ => ?_⟩
  · unfold Tensor.foldAxis; rw [e1]; rfl
  · unfold Tensor.foldRow; rw [e2]; rfl
  · unfold Tensor.reduceAxis; rw [e1]; rfl
  · unfold Tensor.normalize; rw [e1]; rfl

/-- C25 for folds, row folds, reductions and `normalize`, every `isize` axis: each does what it does for the axis number
`foldedAxis`, and panics if there is none or the sum of axis and rank overflows. The statistics along an axis are made of
these. -/
theorem C25_fold_operations {t : Tensor T} {ds : List Nat} {xs : List T} (h : Rep t ds xs) (h0 : ds ≠ []) {a : Int}
    (hl : -2 ^ 63 ≤ a) :
    (∀ i, foldedAxis ds.length a = some i → a < 2 ^ 63 - ds.length →
      (∀ (init : S) (f : S → T → Exec σ S) (g : S → V), t.foldAxis (some a) init f g = t.foldAxis (some (i : Int)) init f g) ∧
      (∀ N (init : S) (f : S → List T → Exec σ S) (g : S → Vector V N),
        t.foldRow (some a) N init f g = t.foldRow (some (i : Int)) N init f g) ∧
      (∀ f : T → T → Exec σ T, t.reduceAxis (some a) f = t.reduceAxis (some (i : Int)) f) ∧
      (∀ (init : S) (f : S → T → Exec σ S) (c : S → Exec σ S1) (n : S1 → T → Exec σ V),
        t.normalize (some a) init f c n = t.normalize (some (i : Int)) init f c n)) ∧
    (foldedAxis ds.length a = none ∨ 2 ^ 63 - ds.length ≤ a → ∀ s : σ,
      (∀ (init : S) (f : S → T → Exec σ S) (g : S → V), (t.foldAxis (some a) init f g).run s = .error .panic) ∧
      (∀ N (init : S) (f : S → List T → Exec σ S) (g : S → Vector V N), (t.foldRow (some a) N init f g).run s = .error .panic) ∧
      (∀ f : T → T → Exec σ T, (t.reduceAxis (some a) f).run s = .error .panic) ∧
      (∀ (init : S) (f : S → T → Exec σ S) (c : S → Exec σ S1) (n : S1 → T → Exec σ V),
        (t.normalize (some a) init f c n).run s = .error .panic)) := by
  have hr : t.shape.rank = ds.length := h.rank
  have h6 := h.adm.len
  have hp : 0 < ds.length := List.length_pos_of_ne_nil h0
  refine ⟨fun i hi hu => ?_, fun hbad s => ?_⟩
  · apply fold_congr
    rw [hr, normAxis_folded hp (by omega) hl hu, hi, normAxis_nat (by omega) (foldedAxis_lt hp hi)]
  · apply fold_panics
    rw [hr]
    by_cases hu : 2 ^ 63 - ds.length ≤ a
    · exact normAxis_over hu
    · rcases hbad with hb | hb
      · rw [normAxis_folded hp (by omega) hl (by omega), hb]
      · omega

/-- C25: a scalar has no axis; every operation along an axis panics on it. -/
theorem C25_scalar {t : Tensor α} {xs : List α} (h : Rep t [] xs) (a : Int) (s : σ) :
    (∀ ts, Tensor.concatenateAxis (some a) (t :: ts) = .error .panic) ∧ (∀ c, t.splitAxis (some a) c = .error .panic) ∧
    t.unstack (some a) = .error .panic ∧
    (∀ (init : S) (f : S → α → Exec σ S) (g : S → V), (t.foldAxis (some a) init f g).run s = .error .panic) ∧
    (∀ N (init : S) (f : S → List α → Exec σ S) (g : S → Vector V N), (t.foldRow (some a) N init f g).run s = .error .panic) ∧
    (∀ f : α → α → Exec σ α, (t.reduceAxis (some a) f).run s = .error .panic) ∧
    (∀ (init : S) (f : S → α → Exec σ S) (c : S → Exec σ S1) (n : S1 → α → Exec σ V),
      (t.normalize (some a) init f c n).run s = .error .panic) := by
  have hr : t.shape.rank = 0 := h.rank
  have e : Axis.axisFromRank (some a) t.shape.rank = .error .panic := by
    rw [hr]
    unfold Axis.axisFromRank
    simp only
    unfold iadd
    split <;> rfl
  have e2 : Axis.normAxis a t.shape.rank = .error .panic := by
    rw [hr]
    unfold Axis.normAxis iadd
    split <;> rfl
  obtain ⟨f1, f2, f3, f4⟩ := fold_panics (S := S) (S1 := S1) (V := V) e2 s
  refine ⟨fun ts => ?_, fun c => ?_, ?_, f1, f2, f3, f4⟩
  · unfold Tensor.concatenateAxis; simp only [e]; rfl
  · unfold Tensor.splitAxis; simp only [e]; rfl
  · unfold Tensor.unstack; simp only [e]; rfl

/-- C25 for the statistics along an axis. -/
theorem C25_statistics {t : Tensor F} {ds : List Nat} {xs : List F} (h : Rep t ds xs) (h0 : ds ≠ []) {a : Int}
    (hl : -2 ^ 63 ≤ a) (hu : a < 2 ^ 63 - ds.length) {i : Nat} (hi : foldedAxis ds.length a = some i) (fo : FOps F)
    (op : F → F → Res F) :
    Stats.reduceMinAxis fo t (some a) = Stats.reduceMinAxis fo t (some (i : Int)) ∧
    Stats.reduceMaxAxis fo t (some a) = Stats.reduceMaxAxis fo t (some (i : Int)) ∧
    Stats.reduceMeanAxis fo t (some a) = Stats.reduceMeanAxis fo t (some (i : Int)) ∧
    Stats.reduceStdAxis fo t (some a) = Stats.reduceStdAxis fo t (some (i : Int)) ∧
    Stats.reduceVarianceAxis fo t (some a) = Stats.reduceVarianceAxis fo t (some (i : Int)) ∧
    Stats.reduceOpAxis op t (some a) = Stats.reduceOpAxis op t (some (i : Int)) := by
  have c1 := ((C25_fold_operations (σ := Unit) (S := Stats.Mean F) (S1 := Unit) (V := F) h h0 hl).1 i hi hu).1
  have c2 := ((C25_fold_operations (σ := Unit) (S := Stats.Var F) (S1 := Unit) (V := F) h h0 hl).1 i hi hu).1
  have c3 := ((C25_fold_operations (σ := Unit) (S := Unit) (S1 := Unit) (V := F) h h0 hl).1 i hi hu).2.2.1
  refine ⟨?_, ?_, ?_, ?_, ?_, ?_⟩
  · unfold Stats.reduceMinAxis; rw [c3]
  · unfold Stats.reduceMaxAxis; rw [c3]
  · unfold Stats.reduceMeanAxis; rw [c1]
  · unfold Stats.reduceStdAxis; rw [c2]
  · unfold Stats.reduceVarianceAxis; rw [c2]
  · unfold Stats.reduceOpAxis; rw [c3]

/-- Axis 5 of a matrix is axis 1, and so is axis -5 (2^64 is even); but axis -5 of a cube, -2 modulo 3, is axis 2, since
2^64 leaves 1 modulo 3. -/
example : wrappedAxis 2 5 = 1 ∧ wrappedAxis 2 (-5) = 1 ∧ wrappedAxis 3 (-5) = 2 ∧ foldedAxis 2 5 = some 1 ∧
    foldedAxis 2 (-5) = none ∧ foldedAxis 2 (-6) = some 0 := by decide

example (s : Tensor.Sections) : exMat.splitAxis (some 5) s = exMat.splitAxis (some 1) s :=
  ((C25_array_operations exMat_rep (a := 5) (by decide)).1 (by simp) (by decide)).2.1 s

example : Tensor.stackVec (some (-5)) [exMat, exMat] = Tensor.stackVec (some 2) [exMat, exMat] :=
  (C25_array_operations exMat_rep (a := -5) (by decide)).2.1 (by decide) [exMat]

example : exMat.unstack (some (2 ^ 63 - 1)) = .error .panic :=
  ((C25_array_operations exMat_rep (a := 2 ^ 63 - 1) (by decide)).2.2 (by decide)).2.2

example (f : Nat → Nat → Exec Unit Nat) : exMat.reduceAxis (some 5) f = exMat.reduceAxis (some 1) f :=
  ((C25_fold_operations (S := Unit) (S1 := Unit) (V := Unit) exMat_rep (by simp) (a := 5) (by decide)).1 1 (by decide)
    (by decide)).2.2.1 f

example (f : Nat → Nat → Exec Unit Nat) : (exMat.reduceAxis (some (-5)) f).run () = .error .panic :=
  ((C25_fold_operations (S := Unit) (S1 := Unit) (V := Unit) exMat_rep (by simp) (a := -5) (by decide)).2 (.inl (by decide))
    ()).2.2.1 f

example : (⟨ofDims [], 0, 1, [7]⟩ : Tensor Nat).unstack (some 0) = .error .panic :=
  (C25_scalar (σ := Unit) (S := Unit) (S1 := Unit) (V := Unit) (rep_fresh (ds := []) (xs := [7]) ⟨by simp, by simp⟩ fits_nil rfl)
    0 ()).2.2.1

example (op : Nat → Nat → Res Nat) : Stats.reduceOpAxis op exMat (some 4) = Stats.reduceOpAxis op exMat (some 0) :=
  (C25_statistics exMat_rep (by simp) (a := 4) (by decide) (by decide) (i := 0) (by decide)
    ⟨0, 1, (· + ·), (· - ·), (· * ·), (· / ·), id, (· == ·), fun x y => decide (x < y), fun x y => decide (x ≤ y), id, id, id,
      fun x _ => x⟩ op).2.2.2.2.2

end Essay
