import Verif.Spec.Twin
import Verif.Lemmas.Loose
import Verif.Lemmas.Array

/-!
# Functions on tensors that show the same

Everything a function learns of a tensor comes through its shape, its size, the elements it shows and reads inside them.
-/

namespace Essay

variable {α β σ : Type}

theorem rawSlice_inv {xs ys : List α} {o n : Nat} (h : rawSlice xs o n = .ok ys) :
    o + n ≤ xs.length ∧ ys = (xs.drop o).take n := by
  unfold rawSlice at h
  split at h
  · exact ⟨by assumption, (Except.ok.inj h).symm⟩
  · cases h

theorem ok_then {γ : Type} (a : γ) (f : γ → Res α) : ((Except.ok a : Res γ) >>= f) = f a := rfl

theorem error_then {γ : Type} (e : Err) (f : γ → Res α) : ((Except.error e : Res γ) >>= f) = .error e := rfl

namespace Twin

variable {t u : Tensor α}

theorem refl (t : Tensor α) : Twin t t := .inl rfl

theorem shape (h : Twin t u) : t.shape = u.shape := by
  rcases h with rfl | h
  · rfl
  · exact h.1

theorem asSlice (h : Twin t u) : t.asSlice = u.asSlice := by
  rcases h with rfl | ⟨_, xs, h1, h2⟩
  · rfl
  · rw [h1, h2]

theorem size (h : Twin t u) : t.size = u.size := by
  rcases h with rfl | ⟨_, xs, h1, h2⟩
  · rfl
  · obtain ⟨b1, e1⟩ := rawSlice_inv h1
    obtain ⟨b2, e2⟩ := rawSlice_inv h2
    have : xs.length = t.size := by rw [e1]; simp; omega
    have : xs.length = u.size := by rw [e2]; simp; omega
    omega

/-- Inside the view the buffers agree. -/
theorem inside (h : Twin t u) :
    t = u ∨ t.offset + t.size ≤ t.data.length ∧ u.offset + t.size ≤ u.data.length ∧
      ∀ i, i < t.size → t.data[t.offset + i]? = u.data[u.offset + i]? := by
  have hs := h.size
  rcases h with rfl | ⟨_, xs, h1, h2⟩
  · exact .inl rfl
  · obtain ⟨b1, e1⟩ := rawSlice_inv h1
    obtain ⟨b2, e2⟩ := rawSlice_inv h2
    refine .inr ⟨b1, by omega, fun i hi => ?_⟩
    have hx : xs[i]? = t.data[t.offset + i]? := by
      rw [e1, List.getElem?_take_of_lt hi, List.getElem?_drop]
    have hy : xs[i]? = u.data[u.offset + i]? := by
      rw [e2, List.getElem?_take_of_lt (by omega), List.getElem?_drop]
    rw [← hx, hy]

theorem rawRead (h : Twin t u) {i : Nat} (hi : i < t.size) :
    rawRead t.data (t.offset + i) = rawRead u.data (u.offset + i) := by
  rcases h.inside with rfl | ⟨_, _, he⟩
  · rfl
  · unfold Essay.rawRead; rw [he i hi]

theorem rawSlice (h : Twin t u) {i n : Nat} (hi : i + n ≤ t.size) :
    rawSlice t.data (t.offset + i) n = rawSlice u.data (u.offset + i) n := by
  rcases h.inside with rfl | ⟨b1, b2, he⟩
  · rfl
  · unfold Essay.rawSlice
    rw [if_pos (by omega), if_pos (by omega)]
    congr 1
    apply List.ext_getElem?
    intro j
    by_cases hj : j < n
    · rw [List.getElem?_take_of_lt hj, List.getElem?_take_of_lt hj, List.getElem?_drop, List.getElem?_drop,
        Nat.add_assoc, Nat.add_assoc, he _ (by omega)]
    · rw [List.getElem?_eq_none (by simp; omega), List.getElem?_eq_none (by simp; omega)]

theorem index1 (h : Twin t u) (i : Nat) : t.index1 i = u.index1 i := by
  unfold Tensor.index1
  rw [h.size]
  by_cases hi : i < u.size
  · rw [h.rawRead (by rw [h.size]; exact hi)]
  · rw [show (ensure (i < u.size) : Res Unit) = .error .panic from if_neg hi]; rfl

theorem asWrapSlice (h : Twin t u) (i : Nat) : t.asWrapSlice i = u.asWrapSlice i := by
  unfold Tensor.asWrapSlice
  have hw : ∀ c, c ≤ u.size →
      (usub u.size c >>= fun len => Essay.rawSlice t.data (t.offset + c) len) =
        (usub u.size c >>= fun len => Essay.rawSlice u.data (u.offset + c) len) := by
    intro c hc
    rw [show usub u.size c = .ok (u.size - c) from if_pos hc]
    show Essay.rawSlice _ _ _ = Essay.rawSlice _ _ _
    exact h.rawSlice (by rw [h.size]; omega)
  rw [h.size]
  split
  · exact hw i (by omega)
  · unfold umod
    split
    · rfl
    · exact hw _ (by have := Nat.mod_lt i (y := u.size) (by omega); omega)

theorem get (h : Twin t u) (ht : t.offset = 0) (hu : u.offset = 0) (i : Nat) : t.get i = u.get i := by
  unfold Tensor.get
  rw [h.size]
  split
  · have hr := h.rawRead (i := i) (by rw [h.size]; assumption)
    rw [ht, hu] at hr
    rw [ht, hu]
    simp only [Nat.zero_add, Nat.add_zero] at hr ⊢
    rw [hr]
  · rfl

theorem asWrapSliceN (h : Twin t u) (ht : t.offset = 0) (hu : u.offset = 0) (i n : Nat) :
    t.asWrapSliceN i n = u.asWrapSliceN i n := by
  unfold Tensor.asWrapSliceN
  simp only [wrap_checked]
  rw [h.size, ht, hu]
  have hw : ∀ c, (ensure (0 + c + n ≤ u.size) >>= fun _ => Essay.rawSlice t.data (0 + (0 + c)) n) =
      (ensure (0 + c + n ≤ u.size) >>= fun _ => Essay.rawSlice u.data (0 + (0 + c)) n) := by
    intro c
    by_cases hc : 0 + c + n ≤ u.size
    · have hr := h.rawSlice (i := c) (n := n) (by rw [h.size]; omega)
      rw [ht, hu] at hr
      simp only [Nat.zero_add] at hr ⊢
      rw [hr]
    · rw [show (ensure (0 + c + n ≤ u.size) : Res Unit) = .error .panic from if_neg hc]; rfl
  split
  · exact hw i
  · unfold umod
    split
    · rfl
    · exact hw _

/-- A part of the view. -/
theorem part (h : Twin t u) {o n : Nat} {s : Shape} (ho : o + n ≤ t.size) :
    Twin ⟨s, t.offset + o, n, t.data⟩ ⟨s, u.offset + o, n, u.data⟩ := by
  have hs := h.rawSlice ho
  rcases h.inside with rfl | ⟨b1, b2, _⟩
  · exact .inl rfl
  · refine .inr ⟨rfl, (t.data.drop (t.offset + o)).take n, ?_, ?_⟩
    · exact if_pos (show t.offset + o + n ≤ t.data.length by omega)
    · refine Eq.trans hs.symm ?_
      exact if_pos (by omega)

/-- The same elements under another shape. -/
theorem with_shape (h : Twin t u) (s : Shape) : Twin { t with shape := s } { u with shape := s } := by
  have h' := h.part (o := 0) (n := t.size) (s := s) (by omega)
  have hs := h.size
  cases t; cases u
  simp only [Nat.add_zero] at h' hs ⊢
  subst hs
  exact h'

end Twin

/-! ### Outcomes -/

theorem SameSeen.refl (o : Seen) : SameSeen o o := by
  cases o with
  | tensor t => exact .tensor (.refl t)
  | value b => exact .value

theorem forall2_refl {γ : Type 1} {R : γ → γ → Prop} (h : ∀ a, R a a) : ∀ l : List γ, List.Forall₂ R l l
  | [] => .nil
  | a :: l => .cons (h a) (forall2_refl h l)

theorem Alike.of_eq {x x' : Res α} {shows : α → List Seen} (h : x = x') : Alike x x' shows := by
  subst h
  cases x with
  | error e => exact .inl ⟨e, rfl, rfl⟩
  | ok r => exact .inr ⟨r, r, rfl, rfl, forall2_refl SameSeen.refl _⟩

theorem Alike.error {e : Err} {shows : α → List Seen} : Alike (.error e) (.error e) shows := .inl ⟨e, rfl, rfl⟩

theorem Alike.ok {r r' : α} {shows : α → List Seen} (h : List.Forall₂ SameSeen (shows r) (shows r')) :
    Alike (.ok r) (.ok r') shows := .inr ⟨r, r', rfl, rfl, h⟩

/-- The same computation before both calls. -/
theorem Alike.bind_same {y : Res β} {f f' : β → Res α} {shows : α → List Seen}
    (h : ∀ v, y = .ok v → Alike (f v) (f' v) shows) : Alike (y >>= f) (y >>= f') shows := by
  cases y with
  | error e => exact .error
  | ok v => exact h v rfl

theorem Alike.bind {γ : Type} {y y' : Res β} {f f' : β → Res α} {shows : α → List Seen} {shows' : β → List Seen}
    (hy : Alike y y' shows') (h : ∀ r r', List.Forall₂ SameSeen (shows' r) (shows' r') → Alike (f r) (f' r') shows) :
    Alike (y >>= f) (y' >>= f') shows := by
  rcases hy with ⟨e, rfl, rfl⟩ | ⟨r, r', rfl, rfl, hr⟩
  · exact .error
  · exact h r r' hr

/-! ### Views -/

section views

variable {t u : Tensor α}

/-- What a call returning a tensor shows. -/
abbrev showT : Tensor α → List Seen := fun t => [.tensor t]

theorem showT_twin (h : Twin t u) : List.Forall₂ SameSeen (showT t) (showT u) := .cons (.tensor h) .nil

theorem reshape_twin (h : Twin t u) (s : Shape) : Alike (t.reshape s) (u.reshape s) showT := by
  unfold Tensor.reshape
  refine .bind_same fun n _ => ?_
  have he : (ensure (n = t.size) : Res Unit) = ensure (n = u.size) := by rw [h.size]
  rw [he]
  exact .bind_same fun _ _ => .ok (showT_twin (h.with_shape s))

theorem expandDims_twin (h : Twin t u) (a : Axis) : Alike (t.expandDims a) (u.expandDims a) showT := by
  unfold Tensor.expandDims
  rw [h.shape]
  exact .bind_same fun s _ => reshape_twin h s

theorem flatten_twin (h : Twin t u) : Alike t.flatten u.flatten showT := by
  unfold Tensor.flatten
  rw [h.size]
  exact .bind_same fun s _ => reshape_twin h s

theorem squeeze_twin (h : Twin t u) : Alike t.squeeze u.squeeze showT := by
  unfold Tensor.squeeze
  rw [h.shape]
  exact .bind_same fun s _ => reshape_twin h s

theorem squeezeAxis_twin (h : Twin t u) (a : Axis) : Alike (t.squeezeAxis a) (u.squeezeAxis a) showT := by
  unfold Tensor.squeezeAxis
  rw [h.shape]
  exact .bind_same fun s _ => reshape_twin h s

theorem subsliceFlat_twin (h : Twin t u) (o n : Nat) (s : Shape) :
    Alike (t.subsliceFlat o n s) (u.subsliceFlat o n s) showT := by
  unfold Tensor.subsliceFlat
  simp only [wrap_checked]
  rw [h.size]
  refine .bind_same fun _ _ => ?_
  by_cases hon : o + n ≤ u.size
  · exact .bind_same fun _ _ => .bind_same fun _ _ => .bind_same fun _ _ =>
      .ok (showT_twin (h.part (by rw [h.size]; exact hon)))
  · rw [show (ensure (o + n ≤ u.size) : Res Unit) = .error .panic from if_neg hon]
    exact .error

theorem subslice_twin (h : Twin t u) (o n : Nat) : Alike (t.subslice o n) (u.subslice o n) showT := by
  unfold Tensor.subslice
  simp only [wrap_checked]
  rw [h.shape]
  exact .bind_same fun _ _ => .bind_same fun _ _ => .bind_same fun _ _ => .bind_same fun _ _ => .bind_same fun _ _ =>
    .bind_same fun _ _ => subsliceFlat_twin h _ _ _

/-- What a call returning a list of tensors shows. -/
abbrev showL : List (Tensor α) → List Seen := fun us => us.map .tensor

theorem splitOuter_twin (h : Twin t u) (cuts : List Nat) (prev : Nat) :
    Alike (t.splitOuter cuts prev) (u.splitOuter cuts prev) showL := by
  induction cuts generalizing prev with
  | nil => exact .of_eq rfl
  | cons i cuts ih =>
    unfold Tensor.splitOuter
    split
    · refine .bind_same fun n _ => ?_
      refine .bind (γ := α) (subslice_twin h prev n) fun r r' hr => ?_
      refine .bind (γ := α) (ih i) fun l l' hl => ?_
      exact .ok (by cases hr with | cons h1 _ => exact .cons h1 hl)
    · exact ih i

theorem splitPiece_twin (h : Twin t u) (axis a b c : Nat) (x : List α) (p q : Nat) :
    t.splitPiece axis a b c x p q = u.splitPiece axis a b c x p q := by
  simp only [Tensor.splitPiece, h.shape]

theorem splitInner_twin (h : Twin t u) (axis a b c : Nat) (x : List α) (cuts : List Nat) (p : Nat) :
    t.splitInner axis a b c x cuts p = u.splitInner axis a b c x cuts p := by
  induction cuts generalizing p with
  | nil => rfl
  | cons i cuts ih => simp only [Tensor.splitInner, ih, splitPiece_twin h]

theorem splitAxis_twin (h : Twin t u) (axis : Axis) (sec : Tensor.Sections) :
    Alike (t.splitAxis axis sec) (u.splitAxis axis sec) showL := by
  unfold Tensor.splitAxis
  rw [h.shape]
  refine .bind_same fun a _ => .bind_same fun len _ => .bind_same fun cuts _ => ?_
  split
  · exact splitOuter_twin h _ _
  · refine .of_eq ?_
    simp only [Tensor.splitByAxis, h.shape, h.asSlice, splitInner_twin h]

theorem unstack_twin (h : Twin t u) (axis : Axis) : Alike (t.unstack axis) (u.unstack axis) showL := by
  unfold Tensor.unstack
  rw [h.shape]
  refine .bind_same fun a _ => ?_
  show Alike (if a = 0 then _ else _) (if a = 0 then _ else _) _
  split
  · exact splitOuter_twin h _ _
  · exact splitAxis_twin h _ _

end views

/-! ### Lists of tensors -/

/-- Pairwise showing the same. -/
abbrev Twins (ts us : List (Tensor α)) : Prop := List.Forall₂ Twin ts us

section lists

variable {ts us : List (Tensor α)}

theorem forL_twins {γ : Type} {ts us : List (Tensor α)} (h : Twins ts us) {s : γ} {f g : Tensor α → γ → Res γ}
    (hf : ∀ t u s, Twin t u → f t s = g u s) : forL ts s f = forL us s g := by
  induction h generalizing s with
  | nil => rfl
  | @cons t u ts us htu _ ih =>
    show (f t s >>= fun s => forL ts s f) = (g u s >>= fun s => forL us s g)
    rw [hf t u s htu]
    congr 1
    funext s
    exact ih

theorem sizes_twins (h : Twins ts us) : ts.map (·.size) = us.map (·.size) := by
  induction h with
  | nil => rfl
  | cons htu _ ih => simp [htu.size, ih]

theorem idx_twins (h : Twins ts us) (i : Nat) :
    (idx ts i = .error .panic ∧ idx us i = .error .panic) ∨
      ∃ t u, idx ts i = .ok t ∧ idx us i = .ok u ∧ Twin t u := by
  induction h generalizing i with
  | nil => exact .inl ⟨rfl, rfl⟩
  | @cons t u ts us htu _ ih =>
    cases i with
    | zero => exact .inr ⟨t, u, rfl, rfl, htu⟩
    | succ i => simpa [idx] using ih i

theorem Twins.reverse (h : Twins ts us) : Twins ts.reverse us.reverse := List.rel_reverse h

theorem concatSlices_twins (h : Twins ts us) : Tensor.concatSlices ts = Tensor.concatSlices us :=
  forL_twins h fun t u s htu => by rw [htu.asSlice]

theorem fromMerge_twins (h : Twins ts us) (s : Shape) : Tensor.fromMerge ts s = Tensor.fromMerge us s := by
  unfold Tensor.fromMerge
  rw [sizes_twins h, concatSlices_twins h]

theorem ofTensors_twins (h : Twins ts us) : Tensor.ofTensors ts = Tensor.ofTensors us := by
  unfold Tensor.ofTensors
  rw [h.length_eq, concatSlices_twins h]
  rcases idx_twins h 0 with ⟨h1, h2⟩ | ⟨t, u, h1, h2, htu⟩
  · rw [h1, h2]
    rfl
  · rw [h1, h2]
    simp only [ok_then, htu.size, htu.shape]
    congr 1
    funext _
    rw [forL_twins h (g := fun value _ => do ensure (u.size = value.size); ensure (u.shape = value.shape))]
    intro t u _ htu
    rw [htu.size, htu.shape]

theorem append_twin {t t' u u' : Tensor α} (h : Twin t t') (h' : Twin u u') : t.append u = t'.append u' := by
  unfold Tensor.append
  rw [h.shape, h'.shape]
  simp only [fromMerge_twins (.cons h (.cons h' .nil))]

theorem validateConcat_twins (h : Twins ts us) (axis : Nat) :
    Tensor.validateConcat ts axis = Tensor.validateConcat us axis := by
  unfold Tensor.validateConcat
  rcases idx_twins h 0 with ⟨h1, h2⟩ | ⟨t, u, h1, h2, htu⟩
  · rw [h1, h2]
    rfl
  · rw [h1, h2]
    show forL _ _ _ = forL _ _ _
    rw [htu.shape]
    exact forL_twins h fun t u s htu => by rw [htu.shape]

theorem concatAxis_twins (h : Twins ts us) (axis : Nat) : Tensor.concatAxis axis ts = Tensor.concatAxis axis us := by
  unfold Tensor.concatAxis
  rcases idx_twins h 0 with ⟨h1, h2⟩ | ⟨t, u, h1, h2, htu⟩
  · rw [h1, h2]
    rfl
  · rw [h1, h2, validateConcat_twins h, sizes_twins h]
    simp only [ok_then, htu.shape]
    repeat refine bind_congr fun _ => ?_
    split <;> (repeat refine bind_congr fun _ => ?_) <;> refine congrArg _ (funext fun o => ?_) <;>
      rw [forL_twins h fun t u s htu => by rw [htu.shape, htu.asSlice]]

theorem concatenateAxis_twins (h : Twins ts us) (axis : Axis) :
    Tensor.concatenateAxis axis ts = Tensor.concatenateAxis axis us := by
  unfold Tensor.concatenateAxis
  simp only [concatAxis_twins h]
  cases h with
  | nil => rfl
  | cons htu _ => simp only [htu.shape]

theorem stackCheck_twins (h : Twins ts us) : Tensor.stackCheck ts = Tensor.stackCheck us := by
  unfold Tensor.stackCheck
  exact forL_twins h fun t u s htu => by rw [htu.shape]

theorem stackVec_twins (h : Twins ts us) (axis : Axis) : Tensor.stackVec axis ts = Tensor.stackVec axis us := by
  unfold Tensor.stackVec
  rw [stackCheck_twins h]
  congr 1; funext _
  rcases idx_twins h 0 with ⟨h1, h2⟩ | ⟨t, u, h1, h2, htu⟩
  · rw [h1, h2]
    rfl
  · rw [h1, h2, h.length_eq, sizes_twins h]
    simp only [ok_then, htu.shape]
    repeat refine bind_congr fun _ => ?_
    refine congrArg _ (funext fun o => congrArg _ (funext fun j => funext fun o => ?_))
    rcases idx_twins h j with ⟨h1, h2⟩ | ⟨t, u, h1, h2, htu⟩
    · rw [h1, h2]
    · rw [h1, h2]
      show (ensure _ >>= fun _ => _) = (ensure _ >>= fun _ => _)
      rw [htu.size, htu.asSlice]

theorem hstack_twins (h : Twins ts us) : Tensor.hstack ts = Tensor.hstack us := by
  unfold Tensor.hstack
  simp only [concatenateAxis_twins h]
  rcases idx_twins h 0 with ⟨h1, h2⟩ | ⟨t, u, h1, h2, htu⟩
  · rw [h1, h2]
  · rw [h1, h2]
    show (if _ then _ else _) = (if _ then _ else _)
    rw [htu.shape]

/-- Reshaping the operands one by one. -/
theorem collect_twins (h : Twins ts us) {f g : Tensor α → Res (Tensor α)}
    (hf : ∀ t u, Twin t u → Alike (f t) (g u) showT) {acc acc' : List (Tensor α)} (hacc : Twins acc acc') :
    (∃ e, forL ts acc (fun t acc => do let y ← f t; return acc ++ [y]) = .error e ∧
        forL us acc' (fun t acc => do let y ← g t; return acc ++ [y]) = .error e) ∨
      ∃ r r', forL ts acc (fun t acc => do let y ← f t; return acc ++ [y]) = .ok r ∧
        forL us acc' (fun t acc => do let y ← g t; return acc ++ [y]) = .ok r' ∧ Twins r r' := by
  induction h generalizing acc acc' with
  | nil => exact .inr ⟨acc, acc', rfl, rfl, hacc⟩
  | @cons t u ts us htu _ ih =>
    rcases hf t u htu with ⟨e, h1, h2⟩ | ⟨r, r', h1, h2, hr⟩
    · refine .inl ⟨e, ?_, ?_⟩
      · show (f t >>= _) >>= _ = _
        rw [h1]; rfl
      · show (g u >>= _) >>= _ = _
        rw [h2]; rfl
    · have hrr : Twin r r' := by
        cases hr with
        | cons h _ => cases h with | tensor h => exact h
      have e1 : forL (t :: ts) acc (fun t acc => do let y ← f t; return acc ++ [y]) =
          forL ts (acc ++ [r]) (fun t acc => do let y ← f t; return acc ++ [y]) := by
        show (f t >>= _) >>= _ = _
        rw [h1]; rfl
      have e2 : forL (u :: us) acc' (fun t acc => do let y ← g t; return acc ++ [y]) =
          forL us (acc' ++ [r']) (fun t acc => do let y ← g t; return acc ++ [y]) := by
        show (g u >>= _) >>= _ = _
        rw [h2]; rfl
      rw [e1, e2]
      exact ih (List.rel_append hacc (.cons hrr .nil))

theorem vstack_twins (h : Twins ts us) : Tensor.vstack ts = Tensor.vstack us := by
  unfold Tensor.vstack
  have hf : ∀ t u : Tensor α, Twin t u →
      Alike (t.shape.insert 0 1 >>= fun s => t.reshape s) (u.shape.insert 0 1 >>= fun s => u.reshape s) showT := by
    intro t u htu
    rw [htu.shape]
    exact .bind_same fun s _ => reshape_twin htu s
  have hc := collect_twins h hf (acc := []) (acc' := []) .nil
  simp only [bind_assoc] at hc
  rcases hc with ⟨e, h1, h2⟩ | ⟨r, r', h1, h2, hr⟩
  · rw [h1, h2]
  · rw [h1, h2]
    exact concatenateAxis_twins hr _

theorem dstackArg_twin {t u : Tensor α} (h : Twin t u) : Alike (Tensor.dstackArg t) (Tensor.dstackArg u) showT := by
  unfold Tensor.dstackArg
  rw [h.shape, h.size]
  split
  · exact .error
  · exact .bind_same fun s _ => reshape_twin h s
  · exact .bind_same fun _ _ => .bind_same fun _ _ => .bind_same fun s _ => reshape_twin h s
  · exact .ok (showT_twin h)

theorem dstack_twins (h : Twins ts us) : Tensor.dstack ts = Tensor.dstack us := by
  unfold Tensor.dstack
  rcases idx_twins h 0 with ⟨h1, h2⟩ | ⟨t, u, h1, h2, htu⟩
  · rw [h1, h2]
    rfl
  · rw [h1, h2]
    show (Tensor.dstackArgs _ _ >>= _) = (Tensor.dstackArgs _ _ >>= _)
    rw [htu.shape]
    unfold Tensor.dstackArgs
    have hf : ∀ t' u' : Tensor α, Twin t' u' →
        Alike (ensure (u.shape = t'.shape) >>= fun _ => Tensor.dstackArg t')
          (ensure (u.shape = u'.shape) >>= fun _ => Tensor.dstackArg u') showT := by
      intro t' u' htu
      rw [htu.shape]
      exact .bind_same fun s _ => dstackArg_twin htu
    have hc := collect_twins h hf (acc := []) (acc' := []) .nil
    simp only [bind_assoc] at hc
    rcases hc with ⟨e, h1, h2⟩ | ⟨r, r', h1, h2, hr⟩
    · rw [h1, h2]
    · rw [h1, h2]
      exact concatenateAxis_twins hr _

theorem buildMeshgridAxis_twin {t u : Tensor α} (h : Twin t u) (s : Shape) (k : Nat) :
    Init.buildMeshgridAxis t s k = Init.buildMeshgridAxis u s k := by
  simp only [Init.buildMeshgridAxis, h.shape, h.size, h.asSlice]

theorem buildMeshgrid_twins (h : Twins ts us) (o : Init.Order) :
    Init.buildMeshgrid ts o = Init.buildMeshgrid us o := by
  unfold Init.buildMeshgrid
  have h' : Twins (if o = .XY then ts.reverse else ts) (if o = .XY then us.reverse else us) := by
    split
    · exact h.reverse
    · exact h
  simp only [sizes_twins h']
  congr 1; funext _
  rw [forL_twins h'.reverse fun t u s htu => by rw [buildMeshgridAxis_twin htu, htu.size]]

end lists

end Essay
