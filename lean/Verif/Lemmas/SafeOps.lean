import Verif.Lemmas.Safe

/-! # Absence of undefined behaviour, function by function (no claims here) -/

namespace Essay

open Shape

/-- Splits a goal `NoUB x` along the structure of `x`. -/
macro "noub" : tactic => `(tactic| repeat' (first
  | with_reducible exact noUB_ok _
  | with_reducible exact noUB_panic
  | with_reducible exact noUB_ensure _
  | with_reducible exact noUB_usub _ _
  | with_reducible exact noUB_udiv _ _
  | with_reducible exact noUB_umod _ _
  | with_reducible exact noUB_mulU32 _ _
  | with_reducible exact noUB_iadd _ _
  | with_reducible exact noUB_imod _ _
  | with_reducible exact noUB_idx _ _
  | with_reducible exact noUB_setIdx _ _ _
  | with_reducible exact noUB_panicked
  | with_reducible exact noUB_size _
  | with_reducible exact noUB_dim _ _
  | with_reducible exact noUB_ofVec _
  | with_reducible exact noUB_ofSlice _
  | with_reducible exact noUB_new _
  | with_reducible exact noUB_rows _
  | with_reducible exact noUB_cols _
  | with_reducible exact noUB_sublen _ _ _
  | with_reducible exact noUB_rsublen _ _ _
  | with_reducible assumption
  | exact noUB_ok _
  | refine noUB_bind ?_ (fun _ _ => ?_)
  | refine forR_noUB' (fun _ _ => ?_)
  | refine forL_noUB (fun _ _ _ => ?_)
  | split))

theorem noUB_asVec (s : Shape) : NoUB s.asVec := by unfold asVec; noub
theorem noUB_rreplace (s : Shape) (i v : Nat) : NoUB (s.rreplace i v) := by unfold rreplace; noub
theorem noUB_replace (s : Shape) (i v : Nat) : NoUB (s.replace i v) := by
  unfold replace
  exact noUB_bind (noUB_ensure _) fun _ _ => noUB_bind (noUB_usub _ _) fun _ _ =>
    noUB_bind (noUB_usub _ _) fun _ _ => noUB_rreplace _ _ _
theorem noUB_withCols (s : Shape) (v : Nat) : NoUB (s.withCols v) := by unfold withCols; noub
theorem noUB_withRows (s : Shape) (v : Nat) : NoUB (s.withRows v) := by unfold withRows; noub
theorem noUB_push (s : Shape) (v : Nat) : NoUB (s.push v) := by unfold push; noub
theorem noUB_append (s : Shape) (l : List Nat) : NoUB (s.append l) := by unfold Shape.append; noub
theorem noUB_pop (s : Shape) : NoUB s.pop := by unfold pop; noub
theorem noUB_rremove (s : Shape) (a : Nat) : NoUB (s.rremove a) := by unfold rremove; noub
theorem noUB_remove (s : Shape) (a : Nat) : NoUB (s.remove a) := by unfold remove; noub
theorem noUB_reduceShape (s : Shape) : NoUB s.reduce := by unfold reduce; noub
theorem noUB_rinsert (s : Shape) (a n : Nat) : NoUB (s.rinsert a n) := by unfold rinsert; noub
theorem noUB_insert (s : Shape) (a n : Nat) : NoUB (s.insert a n) := by unfold Shape.insert; noub
theorem noUB_rdim (s : Shape) (i : Nat) : NoUB (s.rdim i) := by unfold rdim; noub
theorem noUB_idim (s : Shape) (i : Int) : NoUB (s.idim i) := by unfold idim; noub
theorem noUB_len (s : Shape) : NoUB s.len := by unfold len; noub
theorem noUB_checkBroadcast (s u : Shape) : NoUB (s.checkBroadcast u) := by unfold checkBroadcast rdim; noub
theorem noUB_broadcast (s u : Shape) : NoUB (s.broadcast u) := by
  unfold broadcast
  exact noUB_bind (noUB_checkBroadcast s u) fun _ _ => by noub
theorem noUB_broadcastTo (s u : Shape) : NoUB (s.broadcastTo u) := by
  unfold broadcastTo
  exact noUB_bind (noUB_checkBroadcast s u) fun _ _ => by noub
theorem noUB_batchLen (s : Shape) (n : Nat) : NoUB (s.batchLen n) := by unfold batchLen; noub
theorem noUB_squeezeLoop (s : Shape) (k : Nat → Nat → Bool) : NoUB (s.squeezeLoop k) := by unfold squeezeLoop; noub
theorem noUB_squeeze (s : Shape) (a : Option Int) : NoUB (s.squeeze a) := by
  unfold squeeze; noub
theorem noUB_expandDims (s : Shape) (a : Int) : NoUB (s.expandDims a) := by
  unfold expandDims
  refine noUB_bind (noUB_asVec s) fun _ _ => ?_
  noub
theorem noUB_ofUsize (n : Nat) : NoUB (ofUsize n) := by unfold ofUsize; noub
theorem noUB_vector (n : Nat) : NoUB (Shape.vector n) := by unfold Shape.vector; noub
theorem noUB_axisFromRank (a : Axis) (n : Nat) : NoUB (a.axisFromRank n) := by unfold Axis.axisFromRank; noub
theorem noUB_axisReduce (a : Axis) (s : Shape) : NoUB (a.reduce s) := by
  unfold Axis.reduce; noub
theorem noUB_axisReduceRow (a : Axis) (s : Shape) (c : Nat) : NoUB (a.reduceRow s c) := by
  unfold Axis.reduceRow; noub

theorem noUB_nextIndexFrom (s : Shape) (i : Nat) (l : List Nat) : NoUB (s.nextIndexFrom i l) := by
  induction l generalizing i with
  | nil => exact noUB_ok _
  | cons x xs ih =>
    have := ih (i + 1)
    unfold nextIndexFrom
    noub
theorem noUB_nextIndex (s : Shape) (l : List Nat) : NoUB (s.nextIndex l) := noUB_nextIndexFrom s 0 l

/-! ### reading tensors -/

section
variable {α β σ : Type}

theorem noUB_rawSlice {xs : List α} {o n : Nat} (h : o + n ≤ xs.length) : NoUB (rawSlice xs o n) := by
  rw [rawSlice_ok h]; exact noUB_ok _

theorem noUB_rawRead {xs : List α} {i : Nat} (h : i < xs.length) : NoUB (rawRead xs i) := by
  rw [rawRead_ok (List.getElem?_eq_getElem h)]; exact noUB_ok _

theorem noUB_asSlice {t : Tensor α} (h : t.LWF) : NoUB t.asSlice := noUB_rawSlice h.bound

theorem noUB_asWrapSlice {t : Tensor α} (h : t.LWF) (o : Nat) : NoUB (t.asWrapSlice o) := by
  have hb := h.bound
  have key : ∀ c, NoUB (usub t.size c >>= fun l => rawSlice t.data (t.offset + c) l) := fun c => by
    refine noUB_bind (noUB_usub _ _) fun l hl => ?_
    obtain ⟨h1, rfl⟩ := usub_eq_ok.1 hl
    exact noUB_rawSlice (by omega)
  unfold Tensor.asWrapSlice
  split
  · exact noUB_bind (noUB_ok _) fun c _ => key c
  · exact noUB_bind (noUB_umod _ _) fun c _ => key c

theorem noUB_asWrapSliceN {t : Tensor α} (h : t.LWF) (o n : Nat) : NoUB (t.asWrapSliceN o n) := by
  have hb := h.bound
  have key : ∀ c, NoUB (ensure (t.offset + c + n ≤ t.size) >>= fun _ => rawSlice t.data (t.offset + (t.offset + c)) n) :=
    fun c => by
      refine noUB_bind (noUB_ensure _) fun _ hc => ?_
      have := ensure_eq_ok.1 hc
      exact noUB_rawSlice (by omega)
  unfold Tensor.asWrapSliceN
  simp only [wrap_checked]
  split
  · exact noUB_bind (noUB_ok _) fun c _ => key c
  · exact noUB_bind (noUB_umod _ _) fun c _ => key c

theorem noUB_get {t : Tensor α} (h : t.LWF) (h0 : t.offset = 0) (i : Nat) : NoUB (t.get i) := by
  have hb := h.bound
  unfold Tensor.get
  split
  · exact noUB_bind (noUB_rawRead (by omega)) fun _ _ => noUB_ok _
  · exact noUB_ok _

theorem noUB_index1 {t : Tensor α} (h : t.LWF) (i : Nat) : NoUB (t.index1 i) := by
  have hb := h.bound
  unfold Tensor.index1
  refine noUB_bind (noUB_ensure _) fun _ hc => ?_
  have := ensure_eq_ok.1 hc
  exact noUB_rawRead (by omega)

theorem noUB_index3 {t : Tensor α} (h : t.LWF) (i j k : Nat) : NoUB (t.index3 i j k) := by
  have := noUB_index1 h
  unfold Tensor.index3 rdim
  repeat' with_reducible refine noUB_bind (by noub) fun _ _ => ?_
  exact this _

theorem noUB_index4 {t : Tensor α} (h : t.LWF) (i j k l : Nat) : NoUB (t.index4 i j k l) := by
  have := noUB_index1 h
  unfold Tensor.index4 rdim
  repeat' with_reducible refine noUB_bind (by noub) fun _ _ => ?_
  exact this _

theorem noUB_index5 {t : Tensor α} (h : t.LWF) (i j k l m : Nat) : NoUB (t.index5 i j k l m) := by
  have := noUB_index1 h
  unfold Tensor.index5 rdim
  repeat' with_reducible refine noUB_bind (by noub) fun _ _ => ?_
  exact this _

theorem noUB_iterRow {t : Tensor α} (h : t.LWF) : NoUB t.iterRow := by
  unfold Tensor.iterRow Tensor.chunksExact
  refine noUB_bind (noUB_cols _) fun _ _ => noUB_bind (noUB_asSlice h) fun _ _ => ?_
  noub

theorem noUB_eq [BEq α] {t u : Tensor α} (h : t.LWF) (hu : u.LWF) : NoUB (t.eq u) := by
  unfold Tensor.eq
  split
  · exact noUB_bind (noUB_asSlice h) fun _ _ => noUB_bind (noUB_asSlice hu) fun _ _ => noUB_ok _
  · exact noUB_ok _

/-! ### views -/

theorem noUB_reshape (t : Tensor α) (s : Shape) : NoUB (t.reshape s) := by unfold Tensor.reshape; noub

theorem noUB_subsliceFlat (t : Tensor α) (o n : Nat) (s : Shape) : NoUB (t.subsliceFlat o n s) := by
  unfold Tensor.subsliceFlat; noub

theorem noUB_expandDims_tensor (t : Tensor α) (a : Axis) : NoUB (Tensor.expandDims t a) := by
  unfold Tensor.expandDims
  exact noUB_bind (noUB_expandDims _ _) fun _ _ => noUB_reshape _ _

theorem noUB_flatten (t : Tensor α) : NoUB t.flatten := by
  unfold Tensor.flatten
  exact noUB_bind (noUB_ofSlice _) fun _ _ => noUB_reshape _ _

theorem noUB_squeeze_tensor (t : Tensor α) : NoUB (Tensor.squeeze t) := by
  unfold Tensor.squeeze
  exact noUB_bind (noUB_squeeze _ _) fun _ _ => noUB_reshape _ _

theorem noUB_squeezeAxis (t : Tensor α) (a : Axis) : NoUB (Tensor.squeezeAxis t a) := by
  unfold Tensor.squeezeAxis
  exact noUB_bind (noUB_squeeze _ _) fun _ _ => noUB_reshape _ _

/-! ### construction -/

theorem noUB_fromSlice (xs : List α) : NoUB (Tensor.fromSlice xs) := by
  unfold Tensor.fromSlice
  refine noUB_bind (noUB_ofUsize _) fun s _ => ?_
  refine unsafeInit_safe _ cover1 fun b hb => ?_
  refine forR_has hb fun i b V _ hi hb => ?_
  exact SafeR.bind' (noUB_idx _ _) fun v _ => write_safe hb hi v

theorem noUB_concatSlices {ts : List (Tensor α)} (h : ∀ t ∈ ts, t.LWF) : NoUB (Tensor.concatSlices ts) := by
  unfold Tensor.concatSlices
  exact forL_noUB fun t ht _ => noUB_bind (noUB_asSlice (h t ht)) fun _ _ => noUB_ok _

theorem noUB_fromMerge {ts : List (Tensor α)} (h : ∀ t ∈ ts, t.LWF) (s : Shape) : NoUB (Tensor.fromMerge ts s) := by
  unfold Tensor.fromMerge
  exact noUB_bind (noUB_size _) fun _ _ => noUB_bind (noUB_ensure _) fun _ _ =>
    noUB_bind (noUB_concatSlices h) fun _ _ => noUB_new _

theorem noUB_append_tensor {t u : Tensor α} (h : t.LWF) (hu : u.LWF) : NoUB (Tensor.append t u) := by
  have := noUB_fromMerge (ts := [t, u]) (by simpa using ⟨h, hu⟩)
  unfold Tensor.append
  refine noUB_bind (noUB_sublen _ _ _) fun _ _ => ?_
  refine noUB_bind (noUB_sublen _ _ _) fun _ _ => ?_
  refine noUB_bind (noUB_ensure _) fun _ _ => ?_
  refine noUB_bind (noUB_asVec _) fun _ _ => ?_
  refine noUB_bind (noUB_dim _ _) fun _ _ => ?_
  refine noUB_bind (noUB_dim _ _) fun _ _ => ?_
  refine noUB_bind (noUB_setIdx _ _ _) fun _ _ => ?_
  exact noUB_bind (noUB_ofVec _) fun _ _ => this _

theorem noUB_joinVec (xs : List (List α)) : NoUB (Tensor.joinVec xs) := by
  unfold Tensor.joinVec; exact noUB_bind (noUB_ofUsize _) fun _ _ => noUB_new _

theorem noUB_ofOption (x : Option α) : NoUB (Tensor.ofOption x) := by
  unfold Tensor.ofOption Tensor.fromVec; noub
theorem noUB_ofVec1 (xs : List α) : NoUB (Tensor.ofVec1 xs) := by
  unfold Tensor.ofVec1; exact noUB_bind (noUB_ofUsize _) fun _ _ => noUB_new _
theorem noUB_ofVecRows {N : Nat} (xs : List (Vector α N)) : NoUB (Tensor.ofVecRows xs) := by
  unfold Tensor.ofVecRows Tensor.fromBoxedRows; noub
theorem noUB_ofRows {N : Nat} (xs : List (Vector α N)) : NoUB (Tensor.ofRows xs) := by
  unfold Tensor.ofRows Tensor.fromVec; noub
theorem noUB_ofVec2 (xs : List (List α)) : NoUB (Tensor.ofVec2 xs) := by
  unfold Tensor.ofVec2 Tensor.fromVec; noub
theorem noUB_ofVec2Rows {N : Nat} (xs : List (List (Vector α N))) : NoUB (Tensor.ofVec2Rows xs) := by
  unfold Tensor.ofVec2Rows Tensor.fromVec; noub
theorem noUB_ofVec3 (xs : List (List (List α))) : NoUB (Tensor.ofVec3 xs) := by
  unfold Tensor.ofVec3 Tensor.fromVec; noub
theorem noUB_ofVec4 (xs : List (List (List (List α)))) : NoUB (Tensor.ofVec4 xs) := by
  unfold Tensor.ofVec4 Tensor.fromVec; noub
theorem noUB_ofVec5 (xs : List (List (List (List (List α))))) : NoUB (Tensor.ofVec5 xs) := by
  unfold Tensor.ofVec5 Tensor.fromVec; noub
theorem noUB_ofArr2 {M N : Nat} (xs : Vector (Vector α N) M) : NoUB (Tensor.ofArr2 xs) := by
  unfold Tensor.ofArr2 Tensor.fromVec; noub
theorem noUB_ofArr3 {L M N : Nat} (xs : Vector (Vector (Vector α N) M) L) : NoUB (Tensor.ofArr3 xs) := by
  unfold Tensor.ofArr3 Tensor.fromVec; noub
theorem noUB_ofArr4 {K L M N : Nat} (xs : Vector (Vector (Vector (Vector α N) M) L) K) : NoUB (Tensor.ofArr4 xs) := by
  unfold Tensor.ofArr4 Tensor.fromVec; noub

theorem noUB_ofTensors {ts : List (Tensor α)} (h : ∀ t ∈ ts, t.LWF) : NoUB (Tensor.ofTensors ts) := by
  have := noUB_concatSlices h
  unfold Tensor.ofTensors
  refine noUB_bind (noUB_ensure _) fun _ _ => ?_
  refine noUB_bind (noUB_idx _ _) fun _ _ => ?_
  refine noUB_bind (by noub) fun _ _ => ?_
  exact noUB_bind this fun _ _ => noUB_bind (noUB_push _ _) fun _ _ => noUB_new _

end

end Essay
