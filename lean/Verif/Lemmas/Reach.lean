import Verif.Spec.Reach
import Verif.Lemmas.Exec
import Verif.Lemmas.Loose
import Verif.Props.Shape
import Verif.Props.Matvec

/-! # Helper lemmas on histories of calls (no claims here) -/

namespace Essay

open Shape

/-- All rules. -/
def Rules.all : Rules := ⟨True, True, True, True, True, True, True⟩

/-- Every returned value satisfies `P`. -/
def Post {α : Type} (x : Res α) (P : α → Prop) : Prop := ∀ a, x = Except.ok a → P a

/-- Every returned value satisfies `P`, from every closure state. -/
def PostE {σ α : Type} (x : Exec σ α) (P : α → Prop) : Prop := ∀ s r, x.run s = Except.ok r → P r.1

section
variable {σ α β γ : Type}

theorem Post.bind {x : Res α} {f : α → Res β} {Q : α → Prop} {P : β → Prop} (hx : Post x Q)
    (hf : ∀ a, Q a → Post (f a) P) : Post (x >>= f) P := by
  intro b hb
  obtain ⟨a, ha, hb⟩ := bind_eq_ok.1 hb
  exact hf a (hx a ha) b hb

theorem Post.bind' {x : Res α} {f : α → Res β} {P : β → Prop} (hf : ∀ a, x = Except.ok a → Post (f a) P) :
    Post (x >>= f) P := by
  intro b hb
  obtain ⟨a, ha, hb⟩ := bind_eq_ok.1 hb
  exact hf a ha b hb

theorem post_ok {a : α} {P : α → Prop} (h : P a) : Post (Except.ok a : Res α) P := by
  intro b hb; cases hb; exact h

theorem post_pure {a : α} {P : α → Prop} (h : P a) : Post (pure a : Res α) P := post_ok h

theorem post_error {e : Err} {P : α → Prop} : Post (Except.error e : Res α) P := by
  intro b hb; cases hb

theorem Post.mono {x : Res α} {P Q : α → Prop} (h : Post x P) (hPQ : ∀ a, P a → Q a) : Post x Q :=
  fun a ha => hPQ a (h a ha)

theorem post_true {x : Res α} : Post x fun _ => True := fun _ _ => trivial

theorem post_ite {c : Prop} [Decidable c] {x y : Res α} {P : α → Prop} (hx : c → Post x P) (hy : ¬ c → Post y P) :
    Post (if c then x else y) P := by
  split
  · exact hx ‹_›
  · exact hy ‹_›

theorem foldlM_post {xs : List γ} {s : β} {body : β → γ → Res β} {P : β → Prop} (hs : P s)
    (h : ∀ x ∈ xs, ∀ s, P s → Post (body s x) P) : Post (xs.foldlM body s) P := by
  induction xs generalizing s with
  | nil => exact post_pure hs
  | cons x xs ih =>
    rw [List.foldlM_cons]
    exact (h x List.mem_cons_self s hs).bind fun s' hs' => ih hs' fun y hy => h y (List.mem_cons_of_mem _ hy)

theorem forR_post {lo hi : Nat} {s : β} {body : Nat → β → Res β} {P : β → Prop} (hs : P s)
    (h : ∀ i s, P s → Post (body i s) P) : Post (forR lo hi s body) P :=
  foldlM_post hs fun i _ s hs => h i s hs

theorem forL_post {xs : List γ} {s : β} {body : γ → β → Res β} {P : β → Prop} (hs : P s)
    (h : ∀ x ∈ xs, ∀ s, P s → Post (body x s) P) : Post (forL xs s body) P :=
  foldlM_post hs h

theorem PostE.bind {x : Exec σ α} {f : α → Exec σ β} {P : β → Prop} (hf : ∀ a, PostE (f a) P) :
    PostE (x >>= f) P := by
  intro s r hr
  rw [StateT.run_bind] at hr
  obtain ⟨a, _, hb⟩ := bind_eq_ok.1 hr
  exact hf a.1 a.2 r hb

theorem PostE.lift_bind {x : Res α} {f : α → Exec σ β} {Q : α → Prop} {P : β → Prop} (hx : Post x Q)
    (hf : ∀ a, Q a → PostE (f a) P) : PostE ((liftM x : Exec σ α) >>= f) P := by
  intro s r hr
  cases x with
  | ok a => exact hf a (hx a rfl) s r hr
  | error e => cases hr

theorem postE_lift {x : Res α} {P : α → Prop} (hx : Post x P) : PostE (liftM x : Exec σ α) P := by
  intro s r hr
  cases x with
  | ok a => cases hr; exact hx a rfl
  | error e => cases hr

theorem PostE.runPure {x : Exec Unit α} {P : α → Prop} (h : PostE x P) : Post (Tensor.runPure x) P := by
  unfold Tensor.runPure
  exact Post.bind' fun r hr => post_pure (h () r hr)

end

/-! ### shapes -/

/-- Six entries below 2^32. -/
def DimsOk (dims : List Nat) : Prop := dims.length = 6 ∧ ∀ d ∈ dims, d < 4294967296

/-- What every shape satisfies; when the rules are kept, the first slot of a shape of rank 0 is 0. -/
def ShapeOk (R : Rules) (s : Shape) : Prop :=
  DimsOk s.dims ∧ (R.exactFlat → R.scalarCols → s.rank = 0 → s.dims[0]? = some 0)

variable {R : Rules}

theorem shapeOk_of_wf {s : Shape} (h : s.WF) : ShapeOk R s := ⟨⟨h.len, h.lt⟩, fun _ _ => h.loose.zero⟩

theorem shapeOk_of_pos {s : Shape} (h : DimsOk s.dims) (h0 : s.rank ≠ 0) : ShapeOk R s := ⟨h, fun _ _ h' => absurd h' h0⟩

theorem dimsOk_setIdx {dims : List Nat} (h : DimsOk dims) {i v : Nat} (hv : v < 4294967296) :
    Post (setIdx dims i v) DimsOk := by
  intro d hd
  obtain ⟨_, rfl⟩ := setIdx_eq_ok.1 hd
  refine ⟨by simpa using h.1, fun e he => ?_⟩
  rcases List.mem_or_eq_of_mem_set he with he | rfl
  · exact h.2 e he
  · exact hv

theorem dimsOk_idx {dims : List Nat} (h : DimsOk dims) {i : Nat} : Post (idx dims i) fun d => d < 4294967296 := by
  intro d hd
  exact h.2 d (List.mem_of_getElem? (idx_eq_ok.1 hd))

theorem setIdx_len {dims : List Nat} {i v : Nat} : Post (setIdx dims i v) fun _ => i < dims.length := by
  intro d hd
  exact (setIdx_eq_ok.1 hd).1

theorem dimsOk_zero : DimsOk zeroDims := ⟨rfl, by decide⟩

theorem rreplace_good {s : Shape} (h : ShapeOk R s) {i v : Nat} : Post (s.rreplace i v) (ShapeOk R) := by
  unfold rreplace
  refine Post.bind' fun _ he => (dimsOk_setIdx h.1 (asU32_lt v)).bind fun d hd => post_pure (shapeOk_of_pos hd ?_)
  have := ensure_eq_ok.1 he
  simp only; omega

theorem replace_good {s : Shape} (h : ShapeOk R s) {i v : Nat} : Post (s.replace i v) (ShapeOk R) := by
  unfold replace
  exact post_true.bind fun _ _ => post_true.bind fun _ _ => post_true.bind fun _ _ => rreplace_good h

theorem withCols_good {s : Shape} (h : ShapeOk R s) {v : Nat} (h0 : R.exactFlat → R.scalarCols → s.rank ≠ 0) :
    Post (s.withCols v) (ShapeOk R) := by
  unfold withCols
  exact (dimsOk_setIdx h.1 (asU32_lt v)).bind fun d hd => post_pure ⟨hd, fun he hc h' => absurd h' (h0 he hc)⟩

theorem withRows_good {s : Shape} (h : ShapeOk R s) {v : Nat} : Post (s.withRows v) (ShapeOk R) := by
  unfold withRows
  refine Post.bind' fun _ he => (dimsOk_setIdx h.1 (asU32_lt v)).bind fun d hd => post_pure (shapeOk_of_pos hd ?_)
  have := ensure_eq_ok.1 he
  simp only; omega

theorem push_good {s : Shape} (h : ShapeOk R s) {v : Nat} : Post (s.push v) (ShapeOk R) := by
  unfold push
  exact (dimsOk_setIdx h.1 (asU32_lt v)).bind fun d hd => post_pure (shapeOk_of_pos hd (by simp))

theorem appendShape_good {s : Shape} (h : ShapeOk R s) {l : List Nat} : Post (Shape.append s l) (ShapeOk R) := by
  unfold Shape.append
  refine Post.bind (Q := DimsOk) ?_ ?_
  · exact forR_post h.1 fun i d hd => post_true.bind fun v _ => dimsOk_setIdx hd (asU32_lt v)
  · intro d hd
    exact post_pure (shapeOk_of_pos hd (by simp only [hd.1]; omega))

theorem setIdx_zero {dims : List Nat} {r : Nat} (hr : r = 0) : Post (setIdx dims r 0) fun d => d[0]? = some 0 := by
  intro d hd
  obtain ⟨h1, rfl⟩ := setIdx_eq_ok.1 hd
  subst hr
  simp [h1]

theorem pop_good {s : Shape} (h : ShapeOk R s) : Post s.pop (ShapeOk R) := by
  unfold pop
  refine Post.bind' fun j hj => Post.bind' fun d hd => post_pure ⟨dimsOk_setIdx h.1 (by decide) d hd, fun _ _ h0 => ?_⟩
  have := usub_eq_ok.1 hj
  simp only at h0
  exact setIdx_zero (by omega) d hd

theorem rremove_good {s : Shape} (h : ShapeOk R s) {a : Nat} : Post (s.rremove a) (ShapeOk R) := by
  unfold rremove
  refine post_true.bind fun _ _ => post_true.bind fun r _ => ?_
  refine Post.bind (Q := DimsOk) (forR_post h.1 fun i d hd => (dimsOk_idx hd).bind fun v hv => dimsOk_setIdx hd hv) ?_
  exact fun d hd => Post.bind' fun d' hd' => post_pure ⟨dimsOk_setIdx hd (by decide) d' hd', fun _ _ h0 => setIdx_zero h0 d' hd'⟩

theorem remove_good {s : Shape} (h : ShapeOk R s) {a : Nat} : Post (s.remove a) (ShapeOk R) := by
  unfold remove
  exact post_true.bind fun _ _ => post_true.bind fun _ _ => post_true.bind fun _ _ => rremove_good h

theorem reduceShape_good {s : Shape} (h : ShapeOk R s) (h0 : R.scalarCols → s.rank ≠ 0) : Post s.reduce (ShapeOk R) := by
  unfold reduce
  exact post_ite (fun _ => rremove_good h) fun _ => withCols_good h fun _ hc => h0 hc

theorem rinsert_good {s : Shape} (h : ShapeOk R s) {a n : Nat} : Post (s.rinsert a n) (ShapeOk R) := by
  unfold rinsert
  refine post_true.bind fun _ _ => ?_
  refine Post.bind (Q := DimsOk) (forR_post h.1 fun i d hd => (dimsOk_idx hd).bind fun v hv => dimsOk_setIdx hd hv) ?_
  exact fun d hd => (dimsOk_setIdx hd (asU32_lt n)).bind fun d hd => post_pure (shapeOk_of_pos hd (by simp))

theorem insert_good {s : Shape} (h : ShapeOk R s) {a n : Nat} : Post (s.insert a n) (ShapeOk R) := by
  unfold Shape.insert
  exact post_true.bind fun b _ => rinsert_good h

theorem broadcastTo_good {s u : Shape} (h : ShapeOk R s) (hu : ShapeOk R u) : Post (s.broadcastTo u) (ShapeOk R) := by
  unfold broadcastTo
  exact post_true.bind fun _ _ => post_ite (fun _ => post_pure hu) fun _ => post_pure h

theorem squeezeLoop_good {s : Shape} (h : ShapeOk R s) {keep : Nat → Nat → Bool} :
    Post (s.squeezeLoop keep) (ShapeOk R) := by
  unfold squeezeLoop
  refine Post.bind (Q := fun d => d = [1, 0, 0, 0, 0, 0]) (fun d hd => by cases hd; rfl) fun d hd => ?_
  subst hd
  refine Post.bind (Q := fun st => DimsOk st.2 ∧ st.1 ≤ 6 ∧ ∀ i, max st.1 1 ≤ i → i < 6 → st.2[i]? = some 0)
    (forR_post ⟨⟨rfl, by decide⟩, by decide, ?_⟩ fun i st hst => ?_) fun st hst => post_pure (shapeOk_of_wf
      ⟨hst.1.1, by simp only; omega, fun i hi h6 => hst.2.2 i hi h6, hst.1.2⟩)
  · intro i hi h6
    match i, hi, h6 with
    | 1, _, _ | 2, _, _ | 3, _, _ | 4, _, _ | 5, _, _ => rfl
  · refine (dimsOk_idx h.1).bind fun v hv => ?_
    refine post_ite (fun _ => Post.bind' fun d hd => post_pure ⟨dimsOk_setIdx hst.1 hv d hd, ?_, ?_⟩) fun _ => post_pure hst
    · have := setIdx_len _ hd
      have := hst.1.1
      simp only; omega
    · intro j hj h6
      simp only at hj
      obtain ⟨_, rfl⟩ := setIdx_eq_ok.1 hd
      simp only
      rw [List.getElem?_set_ne (by omega)]
      exact hst.2.2 j (by omega) h6

theorem squeeze_good {s : Shape} (h : ShapeOk R s) {a : Option Int} : Post (s.squeeze a) (ShapeOk R) := by
  unfold squeeze
  cases a with
  | none => exact squeezeLoop_good h
  | some a =>
    exact post_true.bind fun _ _ => post_true.bind fun _ _ => post_true.bind fun _ _ => squeezeLoop_good h

theorem ofVec_good {l : List Nat} : Post (ofVec l) (ShapeOk R) := fun _ h => shapeOk_of_wf (ofVec_wf h)
theorem ofSlice_good {l : List Nat} : Post (ofSlice l) (ShapeOk R) := fun _ h => shapeOk_of_wf (ofSlice_wf h)
theorem ofUsize_good {n : Nat} : Post (ofUsize n) (ShapeOk R) := by
  rw [ofUsize_eq]; exact post_ok (shapeOk_of_wf (wf_ofDims (adm_singleton n)))
theorem scalar_good : ShapeOk R scalar := shapeOk_of_wf wf_scalar
theorem expandDims_good {s : Shape} {a : Int} : Post (s.expandDims a) (ShapeOk R) :=
  fun _ h => shapeOk_of_wf (wf_expandDims h)

theorem axisReduce_good {s : Shape} {axis : Axis} : Post (axis.reduce s) fun r => ShapeOk R r.1 := by
  unfold Axis.reduce
  cases axis with
  | none => exact post_true.bind fun _ _ => post_pure scalar_good
  | some a =>
    refine post_true.bind fun _ _ => post_ite (fun _ => post_true.bind fun _ _ => post_pure scalar_good) fun _ => ?_
    refine post_true.bind fun p _ => post_true.bind fun q _ => ?_
    exact ofVec_good.bind fun o ho => post_true.bind fun _ _ => post_pure ho

theorem axisReduceRow_good {s : Shape} {axis : Axis} {c : Nat} : Post (axis.reduceRow s c) fun r => ShapeOk R r.1 := by
  unfold Axis.reduceRow
  cases axis with
  | none =>
    exact ofSlice_good.bind fun o ho => post_true.bind fun _ _ => post_true.bind fun _ _ => post_true.bind fun _ _ =>
      post_pure ho
  | some a =>
    refine post_true.bind fun _ _ => post_ite
      (fun _ => ofSlice_good.bind fun o ho => post_true.bind fun _ _ => post_pure ho) fun _ => ?_
    refine post_true.bind fun _ _ => post_true.bind fun p _ => post_true.bind fun _ _ => post_true.bind fun q _ => ?_
    exact ofVec_good.bind fun o ho => post_true.bind fun _ _ => post_pure ho

/-! ### tensors -/

/-- What every tensor satisfies. -/
structure Good (R : Rules) {α : Type} (t : Tensor α) : Prop where
  shape : ShapeOk R t.shape
  bound : t.offset + t.size ≤ t.data.length
  size : R.exactFlat → t.shape.size = Except.ok t.size

theorem Good.wf {α : Type} {t : Tensor α} (h : Good R t) (he : R.exactFlat) (hc : R.scalarCols) : t.LWF := by
  refine ⟨⟨h.shape.1.1, ?_, h.shape.1.2, h.shape.2 he hc⟩, h.size he, h.bound⟩
  have h1 := h.size he
  unfold Shape.size productTo at h1
  have h2 := (ensure_bind_eq_ok.1 h1).1
  have h3 := h.shape.1.1
  omega

section
variable {σ α β T U V W S S1 F : Type}

theorem new_good {xs : List α} {s : Shape} (h : ShapeOk R s) : Post (Tensor.new xs s) (Good R) := by
  intro t ht
  obtain ⟨h1, rfl⟩ := new_eq_ok ht
  exact ⟨h, by simp, fun _ => h1⟩

theorem fromVec_good {xs : List α} {s : Shape} (h : ShapeOk R s) : Post (Tensor.fromVec xs s) (Good R) := new_good h

theorem finish_good {b : Buf α} {s : Shape} (h : ShapeOk R s) : Post (Tensor.finish b s) (Good R) := by
  unfold Tensor.finish
  split
  · exact new_good h
  · exact post_error

theorem unsafeInit_good {L : Nat} {s : Shape} {f : Buf α → Res (Buf α)} (h : ShapeOk R s) :
    Post (Tensor.unsafeInit L s f) (Good R) := by
  unfold Tensor.unsafeInit
  exact post_true.bind fun _ _ => finish_good h

theorem unsafeInitM_good {L : Nat} {s : Shape} {f : Buf α → Exec σ (Buf α)} (h : ShapeOk R s) :
    PostE (Tensor.unsafeInitM L s f) (Good R) := by
  unfold Tensor.unsafeInitM
  exact PostE.bind fun _ => postE_lift (finish_good h)

theorem reshape_good {t : Tensor α} {s : Shape} (ht : Good R t) (h : ShapeOk R s) : Post (t.reshape s) (Good R) := by
  unfold Tensor.reshape
  refine Post.bind' fun n hn => Post.bind' fun _ he => post_pure ?_
  exact ⟨h, ht.bound, fun _ => by rw [hn, ensure_eq_ok.1 he]⟩

theorem subsliceFlat_good {t : Tensor α} {o n : Nat} {s : Shape} (ht : Good R t) (h : ShapeOk R s)
    (hn : R.exactFlat → s.size = Except.ok n) : Post (t.subsliceFlat o n s) (Good R) := by
  unfold Tensor.subsliceFlat
  simp only [wrap_checked]
  refine post_true.bind fun _ _ => Post.bind' fun _ h1 => post_true.bind fun _ _ => post_true.bind fun _ _ => post_pure ?_
  have := ensure_eq_ok.1 h1
  exact ⟨h, by have := ht.bound; simp only; omega, hn⟩

theorem forR_push_lt {lo hi : Nat} {acc : List Nat} {s : Shape} (hs : ShapeOk R s) (ha : ∀ d ∈ acc, d < 4294967296) :
    Post (forR lo hi acc fun i vec => (do let d ← s.dim i; return vec ++ [d] : Res (List Nat)))
      fun l => ∀ d ∈ l, d < 4294967296 := by
  refine forR_post ha fun i l hl => ?_
  refine Post.bind (Q := fun d => d < 4294967296) ?_ fun d hd => post_pure fun e he => ?_
  · unfold dim
    exact post_true.bind fun _ _ => post_true.bind fun _ _ => dimsOk_idx hs.1
  · rcases List.mem_append.1 he with he | he
    · exact hl e he
    · rw [List.mem_singleton.1 he]; exact hd

theorem asVec_lt {s : Shape} (hs : ShapeOk R s) : Post s.asVec fun l => ∀ d ∈ l, d < 4294967296 :=
  forR_push_lt hs (by simp)

/-- A shape built from a vector has positive dimensions, so `subslice` is exact. -/
theorem subslice_good {t : Tensor α} {o n : Nat} (ht : Good R t) : Post (t.subslice o n) (Good R) := by
  unfold Tensor.subslice
  simp only [wrap_checked]
  refine Post.bind (Q := fun d => d < 4294967296) ?_ fun d0 h0 => ?_
  · unfold dim
    exact post_true.bind fun _ _ => post_true.bind fun _ _ => dimsOk_idx ht.shape.1
  refine Post.bind' fun _ h1 => (asVec_lt ht.shape).bind fun vec hv => post_true.bind fun _ _ => ?_
  have h1 := ensure_eq_ok.1 h1
  refine Post.bind' fun l hl => Post.bind' fun s hs => ?_
  intro u hu
  refine subsliceFlat_good ht (ofVec_good s hs) (fun _ => ?_) u hu
  unfold Tensor.subsliceFlat at hu
  simp only [wrap_checked] at hu
  obtain ⟨_, _, hu⟩ := bind_eq_ok.1 hu
  obtain ⟨_, _, hu⟩ := bind_eq_ok.1 hu
  obtain ⟨m, hm, hu⟩ := bind_eq_ok.1 hu
  rw [ensure_bind_eq_ok] at hu
  rcases hu.1 with h2 | ⟨h2, _⟩
  · rw [hm, h2]
  · exfalso
    rcases ofVec_cases l with ⟨h6, hp, he⟩ | he <;> rw [he] at hs <;> cases hs
    have := ((size_ofDims_iff (adm_map_asU32 h6)).1 hm).2
    rw [h2] at this
    have h3 := List.prod_eq_zero_iff.1 this.symm
    obtain ⟨d, hd, hd0⟩ := List.mem_map.1 h3
    have hlt : d < 4294967296 := by
      obtain ⟨_, rfl⟩ := setIdx_eq_ok.1 hl
      rcases List.mem_or_eq_of_mem_set hd with hd | rfl
      · exact hv d hd
      · omega
    rw [asU32_of_lt hlt] at hd0
    have := hp d hd
    omega

theorem fromScalar_good {x : α} : Post (Tensor.fromScalar x) (Good R) := new_good scalar_good

theorem ofScalar_good {x : α} : Post (Tensor.ofScalar x) (Good R) := new_good scalar_good

theorem ofVec1_good {xs : List α} : Post (Tensor.ofVec1 xs) (Good R) := by
  unfold Tensor.ofVec1
  exact ofUsize_good.bind fun s hs => new_good hs

theorem ofOption_good {x : Option α} : Post (Tensor.ofOption x) (Good R) := by
  unfold Tensor.ofOption
  cases x with
  | none => exact ofSlice_good.bind fun s hs => new_good hs
  | some x => exact new_good scalar_good

theorem fromBoxedRows_good {N : Nat} {xs : List (Vector α N)} {s : Shape} (h : ShapeOk R s) :
    Post (Tensor.fromBoxedRows xs s) (Good R) := by
  unfold Tensor.fromBoxedRows
  refine Post.bind' fun n hn => Post.bind' fun _ he => post_pure ⟨h, ?_, fun _ => by rw [hn, ensure_eq_ok.1 he]⟩
  simp only [Nat.zero_add]
  apply Nat.le_of_eq
  clear he hn
  induction xs with
  | nil => simp
  | cons x xs ih =>
    rw [List.map_cons, List.flatten_cons, List.length_append, List.length_cons, Nat.succ_mul, Vector.length_toList]
    omega

theorem fromMerge_good {ts : List (Tensor α)} {s : Shape} (h : ShapeOk R s) : Post (Tensor.fromMerge ts s) (Good R) := by
  unfold Tensor.fromMerge
  exact post_true.bind fun _ _ => post_true.bind fun _ _ => post_true.bind fun _ _ => new_good h

theorem append_good {t u : Tensor α} : Post (Tensor.append t u) (Good R) := by
  unfold Tensor.append
  exact post_true.bind fun _ _ => post_true.bind fun _ _ => post_true.bind fun _ _ => post_true.bind fun _ _ =>
    post_true.bind fun _ _ => post_true.bind fun _ _ => post_true.bind fun _ _ => ofVec_good.bind fun s hs =>
      fromMerge_good hs

theorem ofTensors_good {ts : List (Tensor α)} (h : ∀ u ∈ ts, Good R u) : Post (Tensor.ofTensors ts) (Good R) := by
  unfold Tensor.ofTensors
  refine post_true.bind fun _ _ => Post.bind' fun v hv => post_true.bind fun _ _ => post_true.bind fun _ _ => ?_
  exact (push_good (h v (List.mem_of_getElem? (idx_eq_ok.1 hv))).shape).bind fun s hs => new_good hs

theorem expandDims_tensor_good {t : Tensor α} {a} (h : Good R t) : Post (Tensor.expandDims t a) (Good R) := by
  unfold Tensor.expandDims
  exact expandDims_good.bind fun s hs => reshape_good h hs

theorem flatten_good {t : Tensor α} (h : Good R t) : Post (Tensor.flatten t) (Good R) := by
  unfold Tensor.flatten
  exact ofSlice_good.bind fun s hs => reshape_good h hs

theorem squeeze_tensor_good {t : Tensor α} (h : Good R t) : Post (Tensor.squeeze t) (Good R) := by
  unfold Tensor.squeeze
  exact (squeeze_good h.shape).bind fun s hs => reshape_good h hs

theorem squeezeAxis_good {t : Tensor α} {a} (h : Good R t) : Post (Tensor.squeezeAxis t a) (Good R) := by
  unfold Tensor.squeezeAxis
  exact (squeeze_good h.shape).bind fun s hs => reshape_good h hs

theorem fromSlice_good {xs : List α} : Post (Tensor.fromSlice xs) (Good R) := by
  unfold Tensor.fromSlice
  exact ofUsize_good.bind fun s hs => unsafeInit_good hs

theorem joinVec_good {xs : List (List α)} : Post (Tensor.joinVec xs) (Good R) := by
  unfold Tensor.joinVec
  exact ofUsize_good.bind fun s hs => new_good hs

/-! ### closures -/

theorem init_good {s : Shape} (h : ShapeOk R s) {f : Exec σ V} : PostE (Tensor.init s f) (Good R) := by
  unfold Tensor.init
  exact PostE.bind fun _ => unsafeInitM_good h

theorem initRindexed_good {s : Shape} (h : ShapeOk R s) {f : List Nat → Exec σ V} :
    PostE (Tensor.initRindexed s f) (Good R) := by
  unfold Tensor.initRindexed
  exact PostE.bind fun _ => unsafeInitM_good h

theorem map_good {a : Tensor U} (h : Good R a) {f : U → Exec σ V} : PostE (a.map f) (Good R) := by
  unfold Tensor.map Tensor.mapShape
  exact unsafeInitM_good h.shape

theorem mapRow_good {a : Tensor U} (h : Good R a) {N : Nat} {f : List U → Exec σ (Vector V N)} :
    PostE (a.mapRow N f) (Good R) := by
  by_cases h0 : a.shape.rank = 0 ∧ R.exactFlat ∧ R.scalarCols
  · obtain ⟨h0, he, hc⟩ := h0
    have hwf := h.wf he hc
    unfold Tensor.mapRow
    rw [if_neg (by omega)]
    refine PostE.lift_bind post_true fun s _ => ?_
    unfold Tensor.mapRowShape
    refine PostE.lift_bind (Q := fun n => n = 0) ?_ fun n hn => ?_
    · intro n hn
      unfold cols at hn
      have h1 := hwf.shape.zero h0
      rw [idx_eq_ok.1 hn] at h1
      exact Option.some.inj h1
    · subst hn
      exact PostE.lift_bind (Q := fun _ => False) (fun _ hx => by simp [udiv] at hx) fun _ hx => hx.elim
  · unfold Tensor.mapRow
    have key : ∀ s, ShapeOk R s → PostE (Tensor.mapRowShape s a N f) (Good R) := by
      intro s hs
      unfold Tensor.mapRowShape
      exact PostE.bind fun _ => PostE.bind fun _ => unsafeInitM_good hs
    split
    · exact PostE.lift_bind (rremove_good h.shape) key
    · exact PostE.lift_bind (withCols_good h.shape fun he hc h00 => h0 ⟨h00, he, hc⟩) key

theorem mapExpand_good {a : Tensor U} (h : Good R a) {N : Nat} {f : U → Exec σ (Vector V N)} :
    PostE (a.mapExpand N f) (Good R) := by
  unfold Tensor.mapExpand
  exact PostE.lift_bind (rinsert_good h.shape) fun s hs => unsafeInitM_good hs

theorem map2_good {a : Tensor T} {b : Tensor U} (ha : Good R a) (hb : Good R b) {f : T → U → Exec σ V} :
    PostE (a.map2 b f) (Good R) := by
  unfold Tensor.map2
  refine PostE.lift_bind (broadcastTo_good ha.shape hb.shape) fun s hs => ?_
  unfold Tensor.map2Shape
  exact PostE.bind fun _ => PostE.bind fun _ => unsafeInitM_good hs

theorem map3_good {a : Tensor T} {b : Tensor U} {c : Tensor V} (ha : Good R a) (hb : Good R b) (hc : Good R c)
    {f : T → U → V → Exec σ W} : PostE (a.map3 b c f) (Good R) := by
  unfold Tensor.map3
  refine PostE.lift_bind (broadcastTo_good ha.shape hb.shape) fun s hs => ?_
  refine PostE.lift_bind (broadcastTo_good hs hc.shape) fun s hs => ?_
  unfold Tensor.map3Shape
  exact PostE.bind fun _ => PostE.bind fun _ => unsafeInitM_good hs

theorem fold_good {a : Tensor U} {i : S} {f : S → U → Exec σ S} {g : S → V} : PostE (a.fold i f g) (Good R) := by
  unfold Tensor.fold
  exact PostE.bind fun _ => PostE.bind fun _ => postE_lift fromScalar_good

theorem foldAxis_good {a : Tensor U} {axis : Axis} {i : S} {f : S → U → Exec σ S} {g : S → V} :
    PostE (a.foldAxis axis i f g) (Good R) := by
  unfold Tensor.foldAxis
  exact PostE.lift_bind axisReduce_good fun r hr => PostE.bind fun _ => unsafeInitM_good hr

theorem foldRow_good {a : Tensor U} {axis : Axis} {N : Nat} {i : S} {f : S → List U → Exec σ S} {g : S → Vector V N} :
    PostE (a.foldRow axis N i f g) (Good R) := by
  unfold Tensor.foldRow
  exact PostE.lift_bind axisReduceRow_good fun r hr => PostE.bind fun _ => PostE.bind fun _ => unsafeInitM_good hr

theorem reduce_good {a : Tensor U} {f : U → U → Exec σ U} : PostE (a.reduce f) (Good R) := by
  unfold Tensor.reduce
  exact PostE.bind fun _ => PostE.bind fun _ => PostE.bind fun _ => postE_lift fromScalar_good

theorem reduceAxis_good {a : Tensor U} {axis : Axis} {f : U → U → Exec σ U} : PostE (a.reduceAxis axis f) (Good R) := by
  unfold Tensor.reduceAxis
  exact PostE.lift_bind axisReduce_good fun r hr => PostE.bind fun _ => unsafeInitM_good hr

theorem normalize_good {a : Tensor T} (ha : Good R a) {axis : Axis} {i : S} {f : S → T → Exec σ S} {c : S → Exec σ S1}
    {g : S1 → T → Exec σ V} : PostE (a.normalize axis i f c g) (Good R) := by
  unfold Tensor.normalize
  exact PostE.bind fun _ => PostE.bind fun _ => unsafeInitM_good ha.shape

/-! ### array operations -/

theorem transpose_good {t : Tensor α} (h : Good R t) : Post (Tensor.transpose t) (Good R) := by
  unfold Tensor.transpose
  refine post_true.bind fun _ _ => post_true.bind fun _ _ => post_true.bind fun _ _ => post_true.bind fun _ _ => ?_
  split
  · exact (rinsert_good h.shape).bind fun s hs => unsafeInit_good hs
  · by_cases h0 : t.shape.rank = 0
    · refine Post.bind (Q := fun s => s.rank = 0) ?_ fun s hs => ?_
      · unfold withCols
        exact post_true.bind fun _ _ => post_pure h0
      · refine Post.bind (Q := fun _ => False) ?_ fun _ h => h.elim
        unfold withRows
        rw [ensure_false (by omega)]
        exact post_error
    · exact (withCols_good h.shape fun _ _ => h0).bind fun s hs => (withRows_good hs).bind fun s hs => unsafeInit_good hs

theorem splitOuter_good {t : Tensor α} (h : Good R t) {cuts : List Nat} :
    ∀ prev, Post (Tensor.splitOuter t cuts prev) fun us => ∀ u ∈ us, Good R u := by
  induction cuts with
  | nil => intro prev; exact post_pure (by simp)
  | cons i cuts ih =>
    intro prev
    unfold Tensor.splitOuter
    refine post_ite (fun _ => ?_) fun _ => ih i
    refine post_true.bind fun n _ => (subslice_good h).bind fun u hu => (ih i).bind fun us hus => post_pure ?_
    intro v hv
    rcases List.mem_cons.1 hv with rfl | hv
    · exact hu
    · exact hus v hv

theorem splitInner_good {t : Tensor α} {a b c d : Nat} {x : List α} {cuts : List Nat} :
    ∀ prev, Post (Tensor.splitInner t a b c d x cuts prev) fun us => ∀ u ∈ us, Good R u := by
  induction cuts with
  | nil => intro prev; exact post_pure (by simp)
  | cons i cuts ih =>
    intro prev
    unfold Tensor.splitInner
    refine post_ite (fun _ => ih prev) fun _ => ?_
    refine Post.bind (Q := Good R) ?_ fun u hu => (ih i).bind fun us hus => post_pure ?_
    · unfold Tensor.splitPiece
      exact post_true.bind fun _ _ => post_true.bind fun _ _ => post_true.bind fun _ _ => ofVec_good.bind fun s hs =>
        unsafeInit_good hs
    · intro v hv
      rcases List.mem_cons.1 hv with rfl | hv
      · exact hu
      · exact hus v hv

theorem splitAxis_good {t : Tensor α} (h : Good R t) {axis : Axis} {sec : Tensor.Sections} :
    Post (Tensor.splitAxis t axis sec) fun us => ∀ u ∈ us, Good R u := by
  unfold Tensor.splitAxis
  refine post_true.bind fun _ _ => post_true.bind fun _ _ => post_true.bind fun _ _ =>
    post_ite (fun _ => splitOuter_good h 0) fun _ => ?_
  unfold Tensor.splitByAxis
  refine post_true.bind fun _ _ => ?_
  split <;> exact post_true.bind fun _ _ => post_true.bind fun _ _ => post_true.bind fun _ _ => splitInner_good 0

theorem unstack_good {t : Tensor α} (h : Good R t) {axis : Axis} :
    Post (Tensor.unstack t axis) fun us => ∀ u ∈ us, Good R u := by
  unfold Tensor.unstack
  exact post_true.bind fun _ _ => post_ite (fun _ => splitOuter_good h 0) fun _ => splitAxis_good h

theorem concatAxis_good {ts : List (Tensor α)} (h : ∀ u ∈ ts, Good R u) {axis : Nat} :
    Post (Tensor.concatAxis axis ts) (Good R) := by
  unfold Tensor.concatAxis
  refine Post.bind' fun v hv => post_true.bind fun _ _ => ?_
  refine (remove_good (h v (List.mem_of_getElem? (idx_eq_ok.1 hv))).shape).bind fun s hs => post_true.bind fun _ _ => ?_
  split <;> exact post_true.bind fun _ _ => (insert_good hs).bind fun s hs => unsafeInit_good hs

theorem concatenateAxis_good {ts : List (Tensor α)} (h : ∀ u ∈ ts, Good R u) {axis : Axis} :
    Post (Tensor.concatenateAxis axis ts) (Good R) := by
  unfold Tensor.concatenateAxis
  split <;> exact post_true.bind fun _ _ => concatAxis_good h

theorem stackVec_good {ts : List (Tensor α)} (h : ∀ u ∈ ts, Good R u) {axis : Axis} :
    Post (Tensor.stackVec axis ts) (Good R) := by
  unfold Tensor.stackVec
  refine post_true.bind fun _ _ => Post.bind' fun v hv => post_true.bind fun _ _ => post_true.bind fun _ _ =>
    post_true.bind fun _ _ => post_true.bind fun _ _ => ?_
  exact (insert_good (h v (List.mem_of_getElem? (idx_eq_ok.1 hv))).shape).bind fun s hs => unsafeInit_good hs

theorem hstack_good {ts : List (Tensor α)} (h : ∀ u ∈ ts, Good R u) : Post (Tensor.hstack ts) (Good R) := by
  unfold Tensor.hstack
  exact post_true.bind fun _ _ => post_ite (fun _ => concatenateAxis_good h) fun _ => concatenateAxis_good h

theorem dstackArgs_good {ts : List (Tensor α)} (h : ∀ u ∈ ts, Good R u) {s : Shape} :
    Post (Tensor.dstackArgs s ts) fun us => ∀ u ∈ us, Good R u := by
  unfold Tensor.dstackArgs
  refine forL_post (by simp) fun x hx acc hacc => post_true.bind fun _ _ => ?_
  refine Post.bind (Q := Good R) ?_ fun u hu => post_pure fun v hv => ?_
  · unfold Tensor.dstackArg
    split
    · exact post_error
    · exact ofSlice_good.bind fun s hs => reshape_good (h x hx) hs
    · exact post_true.bind fun _ _ => post_true.bind fun _ _ => ofSlice_good.bind fun s hs => reshape_good (h x hx) hs
    · exact post_pure (h x hx)
  · rcases List.mem_append.1 hv with hv | hv
    · exact hacc v hv
    · rw [List.mem_singleton.1 hv]; exact hu

theorem dstack_good {ts : List (Tensor α)} (h : ∀ u ∈ ts, Good R u) : Post (Tensor.dstack ts) (Good R) := by
  unfold Tensor.dstack
  exact post_true.bind fun _ _ => (dstackArgs_good h).bind fun us hus => concatenateAxis_good hus

theorem vstack_good {ts : List (Tensor α)} (h : ∀ u ∈ ts, Good R u) : Post (Tensor.vstack ts) (Good R) := by
  unfold Tensor.vstack
  refine Post.bind (Q := fun us => ∀ u ∈ us, Good R u) ?_ fun us hus => concatenateAxis_good hus
  refine forL_post (by simp) fun x hx acc hacc => ?_
  refine (insert_good (h x hx).shape).bind fun s hs => (reshape_good (h x hx) hs).bind fun u hu => post_pure fun v hv => ?_
  rcases List.mem_append.1 hv with hv | hv
  · exact hacc v hv
  · rw [List.mem_singleton.1 hv]; exact hu

theorem tile_good {t : Tensor α} {m : Tensor Nat} : Post (Tensor.tile t m) (Good R) := by
  unfold Tensor.tile
  exact post_true.bind fun _ _ => post_true.bind fun _ _ => post_true.bind fun _ _ => post_true.bind fun _ _ =>
    post_true.bind fun _ _ => post_true.bind fun _ _ => ofVec_good.bind fun s hs => unsafeInit_good hs

/-! ### initialisers -/

theorem linspace_good {fo : FOps F} {a b : Tensor F} (h : Good R a) {n : Nat} : Post (Init.linspace fo a b n) (Good R) := by
  unfold Init.linspace
  exact post_true.bind fun _ _ => (insert_good h.shape).bind fun s hs => unsafeInit_good hs

theorem logspaceOpt_good {fo : FOps F} {a b : Tensor F} (h : Good R a) {n : Nat} {o : Option F} :
    Post (Init.logspaceOpt fo a b n o) (Good R) := by
  unfold Init.logspaceOpt
  exact post_true.bind fun _ _ => (insert_good h.shape).bind fun s hs => unsafeInit_good hs

theorem geomspace_good {fo : FOps F} {a b : Tensor F} (h : Good R a) {n : Nat} :
    Post (Init.geomspace fo a b n) (Good R) := by
  unfold Init.geomspace
  refine post_true.bind fun _ _ => ?_
  split
  · exact ofSlice_good.bind fun s hs => unsafeInit_good hs
  · exact (insert_good h.shape).bind fun s hs => unsafeInit_good hs

theorem arange_good {fo : FOps F} {fuel : Nat} {a b c : F} {x : Res (Tensor F)}
    (h : Init.arange fo fuel a b c = some x) : Post x (Good R) := by
  unfold Init.arange at h
  split at h
  · cases h; exact post_error
  split at h
  · obtain ⟨l, _, rfl⟩ := Option.map_eq_some_iff.1 h; exact ofVec1_good
  split at h
  · obtain ⟨l, _, rfl⟩ := Option.map_eq_some_iff.1 h; exact ofVec1_good
  · cases h; exact post_error

theorem oneHot_good {fo : FOps F} {l : List Nat} {n : Nat} : Post (Init.oneHot fo l n) (Good R) := by
  unfold Init.oneHot
  exact post_true.bind fun _ _ => ofVec1_good

theorem eye_good [Zero α] [One α] {n : Nat} : Post (Init.eye n : Res (Tensor α)) (Good R) := by
  unfold Init.eye
  exact post_ite (fun _ => ofScalar_good) fun _ => ofSlice_good.bind fun s hs => (initRindexed_good hs).runPure

theorem tri_good [Zero α] [One α] {n : Nat} : Post (Init.tri n : Res (Tensor α)) (Good R) := by
  unfold Init.tri
  exact ofSlice_good.bind fun s hs => (initRindexed_good hs).runPure

theorem diagflat_good [Zero α] {t : Tensor α} : Post (Init.diagflat t) (Good R) := by
  unfold Init.diagflat
  exact post_true.bind fun _ _ => ofSlice_good.bind fun s hs => (initRindexed_good hs).runPure

theorem triFill_good [Zero α] {t : Tensor α} (h : Good R t) {keep} : Post (Init.triFill keep t) (Good R) := by
  unfold Init.triFill
  exact post_true.bind fun _ _ => post_true.bind fun _ _ => unsafeInit_good h.shape

theorem buildMeshgrid_good {ts : List (Tensor α)} {o : Init.Order} :
    Post (Init.buildMeshgrid ts o) fun us => ∀ u ∈ us, Good R u := by
  unfold Init.buildMeshgrid
  refine Post.bind (Q := ShapeOk R) ofVec_good fun s hs => ?_
  refine Post.bind (Q := fun st => ∀ u ∈ st.1, Good R u) ?_ fun st hst => post_pure ?_
  · refine forL_post (by simp) fun x _ st hst => ?_
    refine Post.bind (Q := Good R) ?_ fun u hu => post_pure fun v hv => ?_
    · unfold Init.buildMeshgridAxis
      exact post_true.bind fun _ _ => post_true.bind fun _ _ => post_true.bind fun _ _ => post_true.bind fun _ _ =>
        post_true.bind fun _ _ => post_true.bind fun _ _ => post_true.bind fun _ _ => post_true.bind fun _ _ =>
          post_true.bind fun _ _ => unsafeInit_good hs
    · rcases List.mem_append.1 hv with hv | hv
      · exact hst v hv
      · rw [List.mem_singleton.1 hv]; exact hu
  · split
    · intro u hu; exact hst u (List.mem_reverse.1 hu)
    · exact hst

theorem mgrid_good {fo : FOps F} {M N : Nat} : Post (Init.mgrid fo M N) fun us => ∀ u ∈ us, Good R u := by
  unfold Init.mgrid
  exact post_true.bind fun _ _ => post_true.bind fun _ _ => post_true.bind fun _ _ => post_true.bind fun _ _ =>
    post_true.bind fun _ _ => buildMeshgrid_good

/-! ### linear algebra -/

theorem matmul_good {bl : Linalg.Blas F} {a b : Tensor F} (hb : Good R b) {tr : Linalg.Transpose} :
    Post (Linalg.matmulT bl a b tr) (Good R) := by
  unfold Linalg.matmulT
  refine post_true.bind fun _ _ => post_true.bind fun _ _ => post_true.bind fun _ _ => post_true.bind fun _ _ =>
    post_true.bind fun _ _ => post_true.bind fun _ _ => post_true.bind fun _ _ => post_true.bind fun _ _ => ?_
  by_cases h0 : b.shape.rank = 0
  · refine Post.bind (Q := fun s => s.rank = 0) ?_ fun s hs => ?_
    · unfold withCols
      exact post_true.bind fun _ _ => post_pure h0
    · refine Post.bind (Q := fun _ => False) ?_ fun _ h => h.elim
      unfold withRows
      rw [ensure_false (by omega)]
      exact post_error
  · exact (withCols_good hb.shape fun _ _ => h0).bind fun s hs => (withRows_good hs).bind fun s hs => unsafeInit_good hs

theorem matvec_good {bl : Linalg.Blas F} {a x : Tensor F} (ha : Good R a) (hx : Good R x) {tr : Linalg.Transpose} :
    Post (Linalg.matvecT bl a x tr) (Good R) := by
  by_cases h0 : x.shape.rank = 0 ∧ R.exactFlat ∧ R.scalarCols
  · obtain ⟨h0, he, hc⟩ := h0
    have h1 := (hx.wf he hc).canon_rep
    rw [show x.shape.toDims = [] by rw [← List.length_eq_zero_iff, ← (hx.wf he hc).shape.rank_eq, h0]] at h1
    have h2 := matvecT_canon (bl := bl) (ha.wf he hc) (hx.wf he hc) tr
    rw [matvec_scalar_panic bl tr (ha.wf he hc).canon_rep h1] at h2
    generalize Linalg.matvecT bl a x tr = y at h2
    cases h2
    exact post_error
  · unfold Linalg.matvecT
    refine post_true.bind fun _ _ => post_true.bind fun _ _ => post_true.bind fun _ _ => post_true.bind fun _ _ =>
      post_true.bind fun _ _ => post_true.bind fun _ _ => post_true.bind fun _ _ => ?_
    exact (withCols_good hx.shape fun he hc h00 => h0 ⟨h00, he, hc⟩).bind fun s hs => unsafeInit_good hs

/-! ### statistics, input, signals, random numbers -/

theorem histogram_good {fs : FStat F} {a : Tensor F} {n : Nat} :
    Post (Stats.histogram fs a n) fun r => Good R r.1 ∧ Good R r.2 := by
  unfold Stats.histogram
  refine post_true.bind fun _ _ => post_true.bind fun _ _ => post_true.bind fun _ _ => post_true.bind fun _ _ =>
    post_true.bind fun _ _ => post_true.bind fun _ _ => ?_
  refine Post.bind (Q := Good R) fromScalar_good fun s hs => post_true.bind fun _ _ => ?_
  refine (linspace_good hs).bind fun b hb => post_true.bind fun _ _ => post_true.bind fun _ _ => ?_
  exact Post.bind (Q := Good R) ofVec1_good fun v hv => post_pure ⟨hv, hb⟩

theorem histogram2d_good {fs : FStat F} {a : Tensor F} {n : Nat} :
    Post (Stats.histogram2d fs a n) fun r => Good R r.1 ∧ Good R r.2.1 ∧ Good R r.2.2 := by
  unfold Stats.histogram2d Stats.hist2dRest
  refine post_true.bind fun _ _ => post_true.bind fun _ _ => post_true.bind fun _ _ => post_true.bind fun _ _ =>
    post_true.bind fun _ _ => post_true.bind fun _ _ => post_true.bind fun _ _ => post_true.bind fun _ _ =>
    post_true.bind fun _ _ => post_true.bind fun _ _ => ?_
  refine Post.bind (Q := Good R) fromScalar_good fun s hs => post_true.bind fun _ _ => ?_
  refine (linspace_good hs).bind fun b hb => ?_
  refine Post.bind (Q := Good R) fromScalar_good fun s hs => post_true.bind fun _ _ => ?_
  refine (linspace_good hs).bind fun c hc => post_true.bind fun _ _ => post_true.bind fun _ _ => ?_
  refine Post.bind (Q := Good R) ofVec1_good fun v hv => Post.bind (Q := ShapeOk R) ofSlice_good fun s hs => ?_
  exact (reshape_good hv hs).bind fun v hv => post_pure ⟨hv, hb, hc⟩

theorem decodeWav_good {fo : FOps F} {ofInt : Int → F} {c : Tensor (BitVec 8)} :
    Post (Io.decodeWav fo ofInt c) fun r => Good R r.1 ∧ Good R r.2 := by
  unfold Io.decodeWav
  refine post_true.bind fun _ _ => post_true.bind fun _ _ => post_true.bind fun _ _ => ?_
  refine Post.bind (Q := ShapeOk R) ofSlice_good fun s hs => ?_
  exact (fromVec_good hs).bind fun a ha => Post.bind (Q := Good R) ofScalar_good fun b hb => post_pure ⟨ha, hb⟩

theorem readFile_good {fs : String → Except Unit Io.OpenFile} {name : Tensor String} :
    Post (Io.readFile fs name) fun r => ∀ t, r = Except.ok t → Good R t := by
  unfold Io.readFile
  refine post_true.bind fun _ _ => ?_
  split
  · exact post_pure (by simp)
  split
  · exact post_pure (by simp)
  dsimp only
  split
  · exact post_pure (by simp)
  · refine Post.bind (Q := Good R) ofVec1_good fun t ht => post_pure fun u hu => ?_
    cases hu; exact ht

theorem rfftNorm_good {fo : FFft F} {a : Tensor F} (h : Good R a) {l : Option Nat} :
    Post (Signal.rfftNorm fo a l) (Good R) := by
  unfold Signal.rfftNorm
  refine post_true.bind fun _ _ => ?_
  by_cases h0 : a.shape.rank = 0
  · refine Post.bind (Q := fun _ => False) ?_ fun _ h => h.elim
    unfold len dim
    rw [h0]
    exact Post.bind (Q := fun _ => False) (by intro x hx; simp [usub] at hx) fun _ h => h.elim
  · exact post_true.bind fun _ _ => post_true.bind fun _ _ => post_true.bind fun _ _ =>
      (withCols_good h.shape fun _ _ => h0).bind fun s hs => unsafeInit_good hs

theorem post_panicked {P : α → Prop} : Post (panicked : Res α) P := post_error

theorem frame_good {a : Tensor α} {l s : Nat} : Post (Signal.frame a l s) (Good R) := by
  unfold Signal.frame
  exact post_true.bind fun _ _ => post_true.bind fun _ _ => post_true.bind fun _ _ => post_true.bind fun _ _ =>
    post_true.bind fun _ _ => post_panicked

theorem sliceUsize_good {a : Tensor α} {i : Nat} : Post (Signal.sliceUsize i a) (Good R) := by
  unfold Signal.sliceUsize
  exact post_true.bind fun _ _ => post_true.bind fun _ _ => post_true.bind fun _ _ => post_panicked

theorem slicePair_good {a : Tensor α} {i j : Nat} : Post (Signal.slicePair i j a) (Good R) := by
  unfold Signal.slicePair
  exact post_true.bind fun _ _ => post_true.bind fun _ _ => post_true.bind fun _ _ => post_true.bind fun _ _ =>
    post_true.bind fun _ _ => post_panicked

theorem postE_run {x : Exec σ α} {P : α → Prop} (h : PostE x P) (s : σ) : Post (x.run s) fun r => P r.1 :=
  fun r hr => h s r hr

theorem randomNormal_good {fr : FRand F} {s : Shape} (h : ShapeOk R s) {opt tid p} :
    Post (Random.randomNormal fr s opt tid p) fun r => Good R r.1 := by
  unfold Random.randomNormal
  exact (postE_run (init_good h) _).bind fun r hr => post_pure hr

theorem randomUniform_good {fr : FRand F} {s : Shape} (h : ShapeOk R s) {opt tid p} :
    Post (Random.randomUniform fr s opt tid p) fun r => Good R r.1 := by
  unfold Random.randomUniform
  exact (postE_run (init_good h) _).bind fun r hr => post_pure hr

end

/-! ### histories -/

/-- What every object a program holds satisfies. -/
def Obj.Good (R : Rules) : Obj → Prop
  | .shape s => ShapeOk R s
  | .tensor t => Essay.Good R t

theorem post_shape {x : Res Shape} (h : Post x (ShapeOk R)) :
    Post x fun s => ∀ o ∈ [Obj.shape s], o.Good R := by
  intro s hs o ho
  rw [List.mem_singleton.1 ho]
  exact h s hs

theorem post_tensor {α : Type} {x : Res (Tensor α)} (h : Post x (Good R)) :
    Post x fun t => ∀ o ∈ [Obj.tensor t], o.Good R := by
  intro t ht o ho
  rw [List.mem_singleton.1 ho]
  exact h t ht

theorem post_run {σ α : Type} {x : Exec σ (Tensor α)} (h : PostE x (Good R)) {s : σ} :
    Post (x.run s) fun r => ∀ o ∈ [Obj.tensor r.1], o.Good R := by
  intro r hr o ho
  rw [List.mem_singleton.1 ho]
  exact h s r hr

theorem post_list {α : Type} {x : Res (List (Tensor α))} (h : Post x fun us => ∀ u ∈ us, Good R u) :
    Post x fun us => ∀ o ∈ us.map Obj.tensor, o.Good R := by
  intro us hus o ho
  obtain ⟨u, hu, rfl⟩ := List.mem_map.1 ho
  exact h us hus u hu

theorem post_nil {α : Type} {x : Res α} : Post x fun _ => ∀ o ∈ ([] : List Obj), o.Good R := by
  intro _ _ o ho
  cases ho

theorem call_good (hF : R.fields) {K : Obj → Prop} (hK : ∀ o, K o → o.Good R) {α : Type} {x : Res α} {outs : α → List Obj}
    (h : Call R K x outs) : Post x fun r => ∀ o ∈ outs r, o.Good R := by
  have hs : ∀ {s}, K (.shape s) → ShapeOk R s := fun h => hK _ h
  have ht : ∀ {α : Type} {t : Tensor α}, K (.tensor t) → Good R t := fun h => hK _ h
  have hl : ∀ {α : Type} {ts : List (Tensor α)}, (∀ u ∈ ts, K (.tensor u)) → ∀ u ∈ ts, Good R u :=
    fun h u hu => hK _ (h u hu)
  cases h with
  | scalar => exact post_shape (post_ok scalar_good)
  | vector => exact post_shape fun s h => shapeOk_of_wf (wf_vector h)
  | ofUsize => exact post_shape ofUsize_good
  | ofSlice => exact post_shape ofSlice_good
  | ofVec => exact post_shape ofVec_good
  | shapeOf h => exact post_shape (post_ok (ht h).shape)
  | replace h => exact post_shape (replace_good (hs h))
  | rreplace h => exact post_shape (rreplace_good (hs h))
  | withDim h => exact post_shape (replace_good (hs h))
  | withCols h h0 => exact post_shape (withCols_good (hs h) fun _ hc => h0 hc)
  | withRows h => exact post_shape (withRows_good (hs h))
  | push h => exact post_shape (push_good (hs h))
  | appendShape h => exact post_shape (appendShape_good (hs h))
  | expandDimsShape h => exact post_shape expandDims_good
  | squeezeShape h => exact post_shape (squeeze_good (hs h))
  | pop h => exact post_shape (pop_good (hs h))
  | remove h => exact post_shape (remove_good (hs h))
  | rremove h => exact post_shape (rremove_good (hs h))
  | reduceShape h h0 => exact post_shape (reduceShape_good (hs h) fun hc => h0 hc)
  | insert h => exact post_shape (insert_good (hs h))
  | rinsert h => exact post_shape (rinsert_good (hs h))
  | broadcastTo h h' => exact post_shape (broadcastTo_good (hs h) (hs h'))
  | axisReduce h =>
    intro r hr o ho
    rw [List.mem_singleton.1 ho]
    exact axisReduce_good r hr
  | axisReduceRow h =>
    intro r hr o ho
    rw [List.mem_singleton.1 ho]
    exact axisReduceRow_good r hr
  | sizeOf => exact post_nil
  | dim => exact post_nil
  | rdim => exact post_nil
  | idim => exact post_nil
  | len => exact post_nil
  | cols => exact post_nil
  | rows => exact post_nil
  | batchLen => exact post_nil
  | asVec => exact post_nil
  | sublen => exact post_nil
  | rsublen => exact post_nil
  | broadcast => exact post_nil
  | checkBroadcast => exact post_nil
  | broadcastMin => exact post_nil
  | axisFromRank => exact post_nil
  | fromVec h => exact post_tensor (fromVec_good (hs h))
  | fromScalar => exact post_tensor fromScalar_good
  | ofScalar => exact post_tensor ofScalar_good
  | ofOption => exact post_tensor ofOption_good
  | ofVec1 => exact post_tensor ofVec1_good
  | ofVecRows =>
    unfold Tensor.ofVecRows
    exact post_tensor (ofSlice_good.bind fun s hs => fromBoxedRows_good hs)
  | ofRows =>
    unfold Tensor.ofRows
    exact post_tensor (ofSlice_good.bind fun s hs => new_good hs)
  | ofVec2 =>
    unfold Tensor.ofVec2
    exact post_tensor (post_true.bind fun _ _ => post_true.bind fun _ _ => ofSlice_good.bind fun s hs => new_good hs)
  | ofVec2Rows =>
    unfold Tensor.ofVec2Rows
    exact post_tensor (post_true.bind fun _ _ => post_true.bind fun _ _ => ofSlice_good.bind fun s hs => new_good hs)
  | ofVec3 =>
    unfold Tensor.ofVec3
    exact post_tensor (post_true.bind fun _ _ => post_true.bind fun _ _ => post_true.bind fun _ _ =>
      ofSlice_good.bind fun s hs => new_good hs)
  | ofVec4 =>
    unfold Tensor.ofVec4
    exact post_tensor (post_true.bind fun _ _ => post_true.bind fun _ _ => post_true.bind fun _ _ =>
      post_true.bind fun _ _ => ofSlice_good.bind fun s hs => new_good hs)
  | ofVec5 =>
    unfold Tensor.ofVec5
    exact post_tensor (post_true.bind fun _ _ => post_true.bind fun _ _ => post_true.bind fun _ _ =>
      post_true.bind fun _ _ => post_true.bind fun _ _ => ofSlice_good.bind fun s hs => new_good hs)
  | ofArr2 =>
    unfold Tensor.ofArr2
    exact post_tensor (ofSlice_good.bind fun s hs => new_good hs)
  | ofArr3 =>
    unfold Tensor.ofArr3
    exact post_tensor (ofSlice_good.bind fun s hs => new_good hs)
  | ofArr4 =>
    unfold Tensor.ofArr4
    exact post_tensor (ofSlice_good.bind fun s hs => new_good hs)
  | fromSlice => exact post_tensor fromSlice_good
  | joinVec => exact post_tensor joinVec_good
  | ofTensors h => exact post_tensor (ofTensors_good (hl h))
  | fromMerge _ h => exact post_tensor (fromMerge_good (hs h))
  | append => exact post_tensor append_good
  | reshape h h' => exact post_tensor (reshape_good (ht h) (hs h'))
  | expandDims h => exact post_tensor (expandDims_tensor_good (ht h))
  | flatten h => exact post_tensor (flatten_good (ht h))
  | squeeze h => exact post_tensor (squeeze_tensor_good (ht h))
  | squeezeAxis h => exact post_tensor (squeezeAxis_good (ht h))
  | subslice h => exact post_tensor (subslice_good (ht h))
  | subsliceFlat h h' h'' => exact post_tensor (subsliceFlat_good (ht h) (hs h') h'')
  | setShape _ _ h => exact (h hF).elim
  | setOffset _ h => exact (h hF).elim
  | setSize _ h => exact (h hF).elim
  | asSlice => exact post_nil
  | get => exact post_nil
  | asWrapSlice => exact post_nil
  | asWrapSliceN => exact post_nil
  | iterRow => exact post_nil
  | index1 => exact post_nil
  | index2 => exact post_nil
  | index3 => exact post_nil
  | index4 => exact post_nil
  | index5 => exact post_nil
  | debug => exact post_nil
  | eq => exact post_nil
  | partialCmp => exact post_nil
  | init h => exact post_run (init_good (hs h))
  | initRindexed h => exact post_run (initRindexed_good (hs h))
  | map h => exact post_run (map_good (ht h))
  | mapRow h => exact post_run (mapRow_good (ht h))
  | mapExpand h => exact post_run (mapExpand_good (ht h))
  | map2 h h' => exact post_run (map2_good (ht h) (ht h'))
  | map2Row => exact post_run (postE_lift post_panicked)
  | map2Expand => exact post_run (postE_lift post_panicked)
  | map3 h h' h'' => exact post_run (map3_good (ht h) (ht h') (ht h''))
  | fold => exact post_run fold_good
  | foldAxis => exact post_run foldAxis_good
  | foldRow => exact post_run foldRow_good
  | reduce => exact post_run reduce_good
  | reduceAxis => exact post_run reduceAxis_good
  | normalize h => exact post_run (normalize_good (ht h))
  | binary h h' => exact post_tensor (map2_good (ht h) (ht h')).runPure
  | binaryScalar h => exact post_tensor (map_good (ht h)).runPure
  | scalarBinary h => exact post_tensor (map_good (ht h)).runPure
  | unary h => exact post_tensor (map_good (ht h)).runPure
  | square h => exact post_tensor (map_good (ht h)).runPure
  | min h h' => exact post_tensor (map2_good (ht h) (ht h')).runPure
  | max h h' => exact post_tensor (map2_good (ht h) (ht h')).runPure
  | absSub h h' => exact post_tensor (map2_good (ht h) (ht h')).runPure
  | fill h => exact post_tensor (init_good (hs h)).runPure
  | zeros h => exact post_tensor (init_good (hs h)).runPure
  | ones h => exact post_tensor (init_good (hs h)).runPure
  | initDefault h => exact post_tensor (init_good (hs h)).runPure
  | transpose h => exact post_tensor (transpose_good (ht h))
  | split h => exact post_list (splitAxis_good (ht h))
  | splitAxis h => exact post_list (splitAxis_good (ht h))
  | vsplit h => exact post_list (splitAxis_good (ht h))
  | hsplit h => exact post_list (splitAxis_good (ht h))
  | dsplit h => exact post_list (splitAxis_good (ht h))
  | unstack h => exact post_list (unstack_good (ht h))
  | concatenate h => exact post_tensor (concatAxis_good (hl h))
  | concatenateAxis h => exact post_tensor (concatenateAxis_good (hl h))
  | stackVec h => exact post_tensor (stackVec_good (hl h))
  | stack h => exact post_tensor (stackVec_good (hl h))
  | hstack h => exact post_tensor (hstack_good (hl h))
  | dstack h => exact post_tensor (dstack_good (hl h))
  | vstack h => exact post_tensor (vstack_good (hl h))
  | tile => exact post_tensor tile_good
  | arange h => exact post_tensor (arange_good h)
  | linspace h => exact post_tensor (linspace_good (ht h))
  | logspaceOpt h => exact post_tensor (logspaceOpt_good (ht h))
  | logspace h => exact post_tensor (logspaceOpt_good (ht h))
  | geomspace h => exact post_tensor (geomspace_good (ht h))
  | oneHot => exact post_tensor oneHot_good
  | eye => exact post_tensor eye_good
  | identity => exact post_tensor eye_good
  | tri => exact post_tensor tri_good
  | diagflat => exact post_tensor diagflat_good
  | tril h => exact post_tensor (triFill_good (ht h))
  | triu h => exact post_tensor (triFill_good (ht h))
  | meshgrid => exact post_list buildMeshgrid_good
  | meshgridIJ => exact post_list buildMeshgrid_good
  | mgrid => exact post_list mgrid_good
  | randomNormal h =>
    intro r hr o ho
    rw [List.mem_singleton.1 ho]
    exact randomNormal_good (hs h) r hr
  | randomUniform h =>
    intro r hr o ho
    rw [List.mem_singleton.1 ho]
    exact randomUniform_good (hs h) r hr
  | matmul _ h => exact post_tensor (matmul_good (ht h))
  | matvec h h' => exact post_tensor (matvec_good (ht h) (ht h'))
  | reduceHypot => exact post_tensor fold_good.runPure
  | reduceMin => exact post_tensor reduce_good.runPure
  | reduceMax => exact post_tensor reduce_good.runPure
  | reduceMean => exact post_tensor fold_good.runPure
  | reduceStd => exact post_tensor fold_good.runPure
  | reduceVariance => exact post_tensor fold_good.runPure
  | reduceMinAxis => exact post_tensor reduceAxis_good.runPure
  | reduceMaxAxis => exact post_tensor reduceAxis_good.runPure
  | reduceMeanAxis => exact post_tensor foldAxis_good.runPure
  | reduceStdAxis => exact post_tensor foldAxis_good.runPure
  | reduceVarianceAxis => exact post_tensor foldAxis_good.runPure
  | reduceOp => exact post_tensor reduce_good.runPure
  | reduceOpAxis => exact post_tensor reduceAxis_good.runPure
  | normalizeUnit h => exact post_tensor (normalize_good (ht h)).runPure
  | histogram =>
    intro r hr o ho
    obtain ⟨h1, h2⟩ := histogram_good r hr
    simp only [List.mem_cons, List.not_mem_nil, or_false] at ho
    rcases ho with rfl | rfl
    · exact h1
    · exact h2
  | histogram2d =>
    intro r hr o ho
    obtain ⟨h1, h2, h3⟩ := histogram2d_good r hr
    simp only [List.mem_cons, List.not_mem_nil, or_false] at ho
    rcases ho with rfl | rfl | rfl
    · exact h1
    · exact h2
    · exact h3
  | decodeWav =>
    intro r hr o ho
    obtain ⟨h1, h2⟩ := decodeWav_good r hr
    simp only [List.mem_cons, List.not_mem_nil, or_false] at ho
    rcases ho with rfl | rfl
    · exact h1
    · exact h2
  | readFile =>
    intro r hr o ho
    have h1 := readFile_good (R := R) r hr
    cases r with
    | ok t =>
      rw [List.mem_singleton.1 ho]
      exact h1 t rfl
    | error e => cases ho
  | rfftNorm h => exact post_tensor (rfftNorm_good (ht h))
  | frame => exact post_tensor frame_good
  | sliceUsize => exact post_tensor sliceUsize_good
  | slicePair => exact post_tensor slicePair_good

theorem after_good (hF : R.fields) : ∀ n o, After R n o → o.Good R
  | 0, _, h => h.elim
  | n + 1, o, h => by
    rcases h with h | ⟨α, x, outs, r, hc, hx, ho⟩
    · exact after_good hF n o h
    · exact call_good hF (after_good hF n) hc r hx o ho

end Essay
