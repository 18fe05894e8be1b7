import Verif.Lemmas.Twin
import Verif.Lemmas.Exec

/-!
# Loops over raw memory on tensors that show the same
-/

namespace Essay

variable {α σ : Type}

/-- Loop bodies that agree on the range. -/
theorem forR_same {m : Type → Type} [Monad m] {β : Type} {lo hi : Nat} {s : β} {f g : Nat → β → m β}
    (h : ∀ i s, lo ≤ i → i < hi → f i s = g i s) : forR lo hi s f = forR lo hi s g := by
  unfold forR
  have hm : ∀ i ∈ List.range' lo (hi - lo), ∀ s, f i s = g i s := fun i hi s => by
    rw [List.mem_range'_1] at hi
    exact h i s (by omega) (by omega)
  generalize List.range' lo (hi - lo) = l at hm
  induction l generalizing s with
  | nil => rfl
  | cons i l ih =>
    rw [List.foldlM_cons, List.foldlM_cons, hm i (by simp)]
    congr 1
    funext s
    exact ih fun i hi s => hm i (by simp [hi]) s

section closures

variable {U V S : Type} {a a' : Tensor U}

theorem mapRow_twin (h : Twin a a') (N : Nat) (f : List U → Exec σ (Vector V N)) : a.mapRow N f = a'.mapRow N f := by
  have hs : ∀ s, Tensor.mapRowShape s a N f = Tensor.mapRowShape s a' N f := by
    intro s
    unfold Tensor.mapRowShape
    rw [h.shape, h.size]
    refine bind_congr fun c => ?_
    by_cases hc : c = 0
    · rw [show udiv a'.size c = .error .panic from if_pos hc]
      rfl
    · rw [show udiv a'.size c = .ok (a'.size / c) from if_neg hc]
      rw [lift_ok, pure_bind, pure_bind]
      refine congrArg _ (funext fun o => forR_same fun i o _ hi => ?_)
      rw [h.rawSlice]
      rw [h.size]
      calc i * c + c = (i + 1) * c := by rw [Nat.add_mul, Nat.one_mul]
        _ ≤ a'.size / c * c := Nat.mul_le_mul_right _ hi
        _ ≤ a'.size := Nat.div_mul_le_self _ _
  simp only [Tensor.mapRow, h.shape, hs]

theorem foldRow_twin (h : Twin a a') (h0 : a.offset = 0) (h0' : a'.offset = 0) (axis : Axis) (N : Nat) (i : S)
    (f : S → List U → Exec σ S) (g : S → Vector V N) : a.foldRow axis N i f g = a'.foldRow axis N i f g := by
  simp only [Tensor.foldRow, h.shape, h.asWrapSliceN h0 h0']

end closures

theorem fmtRec_twin {t u : Tensor α} (h : Twin t u) (ht : t.offset = 0) (hu : u.offset = 0) (fmt : α → String)
    (n o : Nat) : Fmt.fmtRec fmt t n o = Fmt.fmtRec fmt u n o := by
  induction n using Nat.strongRecOn generalizing o with
  | _ n ih =>
    match n with
    | 0 => simp only [Fmt.fmtRec, h.get ht hu]
    | 1 => simp only [Fmt.fmtRec, h.shape, h.get ht hu]
    | 2 =>
      simp only [Fmt.fmtRec, h.shape, h.get ht hu]
    | n + 3 =>
      simp only [Fmt.fmtRec, h.shape, ih (n + 2) (by omega)]

theorem debug_twin {t u : Tensor α} (h : Twin t u) (ht : t.offset = 0) (hu : u.offset = 0) (fmt : α → String)
    (name : String) : Fmt.debug fmt name t = Fmt.debug fmt name u := by
  simp only [Fmt.debug, h.shape, fmtRec_twin h ht hu]

end Essay
