import Verif.Lemmas.SafeOps
import Verif.Lemmas.SafeMap
import Verif.Lemmas.SafeArray
import Verif.Props.Matvec
import Verif.Props.Linalg
import Verif.Props.Stats
import Verif.Props.Signal

/-! # Helper lemmas on undefined behaviour: operators, initialisers, statistics, input, printing (no claims here) -/

namespace Essay

open Shape

section
variable {T U V α F : Type}

theorem closure_lift {σ : Type} {x : Res α} (h : NoUB x) (st : σ) : NoUB ((liftM x : Exec σ α).run st) :=
  (safeE_lift (safeR_true h) st).1

theorem closure_pure {σ : Type} {x : α} (st : σ) : NoUB ((pure x : Exec σ α).run st) := noUB_ok _

/-! ### operators -/

theorem noUB_opTT {f : T → U → Res V} (hf : ∀ x y, NoUB (f x y)) {a : Tensor T} {b : Tensor U} (ha : a.LWF) (hb : b.LWF) :
    NoUB (Tensor.opTT f a b) := (map2_safe ha hb fun x y st => closure_lift (hf x y) st).runPure.1

theorem noUB_opTS {f : T → U → Res V} (hf : ∀ x y, NoUB (f x y)) {a : Tensor T} (ha : a.LWF) (y : U) :
    NoUB (Tensor.opTS f a y) := (map_safe ha fun x st => closure_lift (hf x y) st).runPure.1

theorem noUB_opST {f : T → U → Res V} (hf : ∀ x y, NoUB (f x y)) {b : Tensor U} (hb : b.LWF) (x : T) :
    NoUB (Tensor.opST f x b) := (map_safe hb fun y st => closure_lift (hf x y) st).runPure.1

theorem noUB_unary {f : T → Res V} (hf : ∀ x, NoUB (f x)) {a : Tensor T} (ha : a.LWF) : NoUB (Tensor.unary f a) :=
  (map_safe ha fun x st => closure_lift (hf x) st).runPure.1

theorem noUB_partialCmp {cmp : α → α → Option Ordering} {t u : Tensor α} (ht : t.LWF) (hu : u.LWF) :
    NoUB (Tensor.partialCmp cmp t u) := by
  unfold Tensor.partialCmp
  exact noUB_bind (noUB_asSlice ht) fun _ _ => noUB_bind (noUB_asSlice hu) fun _ _ => noUB_ok _

theorem noUB_fill (s : Shape) (v : V) : NoUB (Tensor.fill s v) := (init_safe s fun st => closure_pure st).runPure.1

/-! ### initialisers -/

theorem noUB_arange {fo : FOps F} {fuel : Nat} {a b c : F} {x : Res (Tensor F)} (h : Init.arange fo fuel a b c = some x) :
    NoUB x := by
  unfold Init.arange at h
  split at h
  · cases h; exact noUB_panic
  · split at h
    · obtain ⟨l, _, rfl⟩ := Option.map_eq_some_iff.1 h
      exact noUB_ofVec1 _
    · split at h
      · obtain ⟨l, _, rfl⟩ := Option.map_eq_some_iff.1 h
        exact noUB_ofVec1 _
      · cases h; exact noUB_panic

theorem noUB_space {fo : FOps F} {pre post : F → F} {a b : Tensor F} (ha : a.LWF) (hb : b.LWF) (batch len : Nat) (s : Shape) :
    NoUB (Tensor.unsafeInit (batch * len) s fun o => Init.spaceFill fo pre post a b batch len o) := by
  refine unsafeInit_safe (fun p => False ∨ ∃ n, 0 ≤ n ∧ n < batch ∧ ∃ k, 0 ≤ k ∧ k < len ∧ p = k * batch + n) ?_
    fun o ho => ?_
  · intro p hp
    rw [Nat.mul_comm] at hp
    obtain ⟨k, n, h1, h2, rfl⟩ := exists_mul_add hp
    exact Or.inr ⟨n, by omega, h2, k, by omega, h1, rfl⟩
  · unfold Init.spaceFill
    refine forR_has ho fun n o V _ hn ho => ?_
    refine SafeR.bind' (noUB_index1 ha _) fun s _ => SafeR.bind' (noUB_index1 hb _) fun e _ => ?_
    refine SafeR.bind' (noUB_ensure _) fun _ _ => ?_
    refine forR_has ho fun k o V _ hk ho => write_safe ho ?_ _
    rw [Nat.mul_comm batch]
    exact lt_of_lt_mul hk hn

theorem noUB_linspace {fo : FOps F} {a b : Tensor F} (ha : a.LWF) (hb : b.LWF) (n : Nat) : NoUB (Init.linspace fo a b n) := by
  unfold Init.linspace
  exact noUB_bind (noUB_ensure _) fun _ _ => noUB_bind (noUB_insert _ _ _) fun _ _ => noUB_space ha hb _ _ _

theorem noUB_logspaceOpt {fo : FOps F} {a b : Tensor F} (ha : a.LWF) (hb : b.LWF) (n : Nat) (o : Option F) :
    NoUB (Init.logspaceOpt fo a b n o) := by
  unfold Init.logspaceOpt
  exact noUB_bind (noUB_ensure _) fun _ _ => noUB_bind (noUB_insert _ _ _) fun _ _ => noUB_space ha hb _ _ _

theorem noUB_geomspace {fo : FOps F} {a b : Tensor F} (ha : a.LWF) (hb : b.LWF) (n : Nat) : NoUB (Init.geomspace fo a b n) := by
  unfold Init.geomspace
  refine noUB_bind (noUB_ensure _) fun _ _ => ?_
  dsimp only
  split
  · exact noUB_bind (noUB_ofSlice _) fun _ _ => noUB_space ha hb _ _ _
  · exact noUB_bind (noUB_insert _ _ _) fun _ _ => noUB_space ha hb _ _ _

theorem noUB_oneHot {fo : FOps F} (l : List Nat) (n : Nat) : NoUB (Init.oneHot fo l n) := by
  unfold Init.oneHot
  exact noUB_bind (forL_noUB fun _ _ _ => noUB_setIdx _ _ _) fun _ _ => noUB_ofVec1 _

theorem noUB_eye [Zero α] [One α] (n : Nat) : NoUB (Init.eye n : Res (Tensor α)) := by
  unfold Init.eye
  split
  · exact noUB_new _
  · refine noUB_bind (noUB_ofSlice _) fun s _ => (initRindexed_safe s fun i st => closure_lift ?_ st).runPure.1
    exact noUB_bind (noUB_idx _ _) fun _ _ => noUB_bind (noUB_idx _ _) fun _ _ => noUB_ok _

theorem noUB_tri [Zero α] [One α] (n : Nat) : NoUB (Init.tri n : Res (Tensor α)) := by
  unfold Init.tri
  refine noUB_bind (noUB_ofSlice _) fun s _ => (initRindexed_safe s fun i st => closure_lift ?_ st).runPure.1
  exact noUB_bind (noUB_idx _ _) fun _ _ => noUB_bind (noUB_idx _ _) fun _ _ => noUB_ok _

theorem noUB_diagflat [Zero α] {t : Tensor α} (h : t.LWF) : NoUB (Init.diagflat t) := by
  unfold Init.diagflat
  refine noUB_bind (noUB_ensure _) fun _ _ => ?_
  refine noUB_bind (noUB_ofSlice _) fun s _ => (initRindexed_safe s fun i st => closure_lift ?_ st).runPure.1
  refine noUB_bind (noUB_idx _ _) fun _ _ => noUB_bind (noUB_idx _ _) fun _ _ => ?_
  split
  · exact noUB_index1 h _
  · exact noUB_ok _

theorem noUB_triFill [Zero α] {t : Tensor α} (h : t.LWF) (keep : Nat → Nat → Bool) : NoUB (Init.triFill keep t) := by
  unfold Init.triFill
  refine noUB_bind (noUB_ensure _) fun _ _ => noUB_bind (noUB_size _) fun size hs => ?_
  refine unsafeInit_safe (fun p => p < size) (fun _ h => h) fun o ho => ?_
  refine SafeR.bind' (noUB_asSlice h) fun x _ => SafeR.bind' (noUB_rows _) fun r hr => ?_
  refine SafeR.bind' (noUB_cols _) fun c hc => SafeR.bind' (noUB_udiv _ _) fun n hn => ?_
  obtain ⟨hpos, rfl⟩ := udiv_eq_ok.1 hn
  have hsz : size = size / (r * c) * (r * c) := by
    rw [h.shape.cols_eq] at hc
    rw [h.shape.rows_eq] at hr
    cases hc; cases hr
    rw [h.shape.size_prod hs]
    rcases Nat.eq_zero_or_pos t.shape.toDims.prod with h0 | h0
    · rw [h0]; simp
    · have h1 := Nat.pos_of_ne_zero hpos
      have h2 := Nat.pos_of_mul_pos_left h1
      have h3 := Nat.pos_of_mul_pos_right h1
      have h4 := cols_rows_dvd _ h0
      rw [Nat.max_eq_left (by omega), Nat.max_eq_left (by omega), Nat.mul_comm] at h4
      exact (Nat.div_mul_cancel h4).symm
  generalize size / (r * c) = n at hsz
  have key := forR_has (lo := 0) (hi := n) (W := fun k p => ∃ j, 0 ≤ j ∧ j < r ∧ ∃ i, 0 ≤ i ∧ i < c ∧
      p = k * r * c + j * c + i) (body := fun k o =>
      forR 0 r o fun j o =>
        forR 0 c o fun i o => do
          let index := k * r * c + j * c + i
          let v ← if keep i j then idx x index else pure 0
          o.write index v) ho ?_
  · refine key.mono fun b hb => hb.mono fun p hp => Or.inr ?_
    rw [hsz] at hp
    obtain ⟨k, q, h1, h2, rfl⟩ := exists_mul_add hp
    obtain ⟨j, i, h3, h4, rfl⟩ := exists_mul_add h2
    exact ⟨k, by omega, h1, j, by omega, h3, i, by omega, h4, by rw [Nat.mul_assoc]; omega⟩
  · intro k o V _ hk ho
    refine forR_has ho fun j o V _ hj ho => forR_has ho fun i o V _ hi ho => ?_
    have hlt : k * r * c + j * c + i < size := by
      have := lt_of_lt_mul hk (lt_of_lt_mul hj hi)
      rw [Nat.mul_assoc]
      omega
    dsimp only
    split
    · exact SafeR.bind' (noUB_idx _ _) fun v _ => write_safe ho hlt v
    · exact SafeR.bind' (noUB_ok _) fun v _ => write_safe ho hlt v

theorem noUB_buildMeshgrid {ts : List (Tensor α)} (h : ∀ t ∈ ts, t.LWF) (o : Init.Order) : NoUB (Init.buildMeshgrid ts o) := by
  unfold Init.buildMeshgrid
  refine noUB_bind (noUB_ofVec _) fun s _ => noUB_bind ?_ fun _ _ => by split <;> exact noUB_ok _
  refine (forL_safeR (fun _ => True) trivial fun x hx st _ => ?_).1
  have hx' : x ∈ ts := by
    split at hx <;> simpa using hx
  have e : Init.buildMeshgridAxis x s st.2 = Init.buildMeshgridAxis x.canon s st.2 := by
    unfold Init.buildMeshgridAxis
    simp only [Tensor.canon, (h x hx').shape.rank_canon, Tensor.asSlice]
  rw [e]
  exact SafeR.bind' (buildMeshgridAxis_safe (h x hx').canon_rep _ _).1 fun _ _ => safeR_pure trivial

/-! ### random numbers -/

theorem noUB_randomNormal {fr : FRand F} (s : Shape) (opt tid p) : NoUB (Random.randomNormal fr s opt tid p) := by
  unfold Random.randomNormal
  exact noUB_bind (init_safe s (fun st => noUB_ok _) _).1 fun _ _ => noUB_ok _

theorem noUB_randomUniform {fr : FRand F} (s : Shape) (opt tid p) : NoUB (Random.randomUniform fr s opt tid p) := by
  unfold Random.randomUniform
  exact noUB_bind (init_safe s (fun st => noUB_ok _) _).1 fun _ _ => noUB_ok _

/-! ### statistics -/

theorem wf_of_post {x : Res (Tensor α)} (h : Post x (Good Rules.all)) {t : Tensor α} (ht : x = .ok t) : t.LWF :=
  (h t ht).wf trivial trivial

theorem noUB_histogram {fs : FStat F} {a : Tensor F} (h : a.LWF) (n : Nat) : NoUB (Stats.histogram fs a n) := by
  unfold Stats.histogram
  refine noUB_bind (noUB_ensure _) fun _ _ => noUB_bind (noUB_ensure _) fun _ _ => ?_
  refine noUB_bind (reduce_safe h fun _ _ st => closure_pure st).runPure.1 fun mn hmn => ?_
  refine noUB_bind (noUB_index1 (wf_of_post reduce_good.runPure hmn) _) fun _ _ => ?_
  refine noUB_bind (reduce_safe h fun _ _ st => closure_pure st).runPure.1 fun mx hmx => ?_
  refine noUB_bind (noUB_index1 (wf_of_post reduce_good.runPure hmx) _) fun _ _ => ?_
  refine noUB_bind (noUB_new _) fun st hst => noUB_bind (noUB_new _) fun en hen => ?_
  refine noUB_bind (noUB_linspace (wf_of_post fromScalar_good hst) (wf_of_post fromScalar_good hen) _) fun _ _ => ?_
  refine noUB_bind (noUB_asSlice h) fun _ _ => noUB_bind (forL_noUB fun _ _ _ => ?_) fun _ _ =>
    noUB_bind (noUB_ofVec1 _) fun _ _ => noUB_ok _
  unfold Stats.histStep
  dsimp only
  split <;> exact noUB_bind (by simp) fun _ _ => noUB_bind (noUB_idx _ _) fun _ _ => noUB_setIdx _ _ _

theorem noUB_histogram2d {fs : FStat F} {a : Tensor F} (h : a.LWF) (n : Nat) : NoUB (Stats.histogram2d fs a n) := by
  unfold Stats.histogram2d Stats.hist2dRest
  refine noUB_bind (noUB_ensure _) fun _ _ => noUB_bind (noUB_ensure _) fun _ _ => ?_
  refine noUB_bind (noUB_cols _) fun _ _ => noUB_bind (noUB_ensure _) fun _ _ => ?_
  refine noUB_bind (reduce_safe h fun _ _ st => closure_pure st).runPure.1 fun mn hmn => ?_
  refine noUB_bind (reduce_safe h fun _ _ st => closure_pure st).runPure.1 fun mx hmx => ?_
  have h1 := wf_of_post reduce_good.runPure hmn
  have h2 := wf_of_post reduce_good.runPure hmx
  refine noUB_bind (noUB_index1 h1 _) fun _ _ => noUB_bind (noUB_index1 h1 _) fun _ _ => ?_
  refine noUB_bind (noUB_index1 h2 _) fun _ _ => noUB_bind (noUB_index1 h2 _) fun _ _ => ?_
  dsimp only
  refine noUB_bind (noUB_new _) fun st hst => noUB_bind (noUB_new _) fun en hen => ?_
  refine noUB_bind (noUB_linspace (wf_of_post fromScalar_good hst) (wf_of_post fromScalar_good hen) _) fun _ _ => ?_
  refine noUB_bind (noUB_new _) fun st hst => noUB_bind (noUB_new _) fun en hen => ?_
  refine noUB_bind (noUB_linspace (wf_of_post fromScalar_good hst) (wf_of_post fromScalar_good hen) _) fun _ _ => ?_
  refine noUB_bind (noUB_iterRow h) fun _ _ => noUB_bind (forL_noUB fun _ _ _ => ?_) fun _ _ =>
    noUB_bind (noUB_ofVec1 _) fun _ _ => noUB_bind (noUB_ofSlice _) fun _ _ => noUB_bind (noUB_reshape _ _) fun _ _ => noUB_ok _
  unfold Stats.hist2dStep
  exact noUB_bind (noUB_idx _ _) fun _ _ => noUB_bind (noUB_idx _ _) fun _ _ => noUB_bind (noUB_usub _ _) fun _ _ =>
    noUB_bind (noUB_idx _ _) fun _ _ => noUB_setIdx _ _ _

/-! ### signal -/

theorem noUB_rfftNorm {fo : FFft F} (hfft : ∀ l, (fo.fft l).length = l.length) {a : Tensor F} (h : a.LWF) (fl : Option Nat) :
    NoUB (Signal.rfftNorm fo a fl) := by
  refine RelR.noUB (P := fun _ _ => True) (y := Signal.rfftNorm fo a.canon fl) ?_ (C55_safe hfft h.canon_wf _)
  unfold Signal.rfftNorm Shape.len
  simp only [Tensor.canon, h.shape.cols_canon, h.shape.dim_canon, Tensor.asWrapSlice]
  refine .same fun _ => .same fun _ => .same fun _ => .same fun _ => ?_
  exact (h.shape.sim.withCols _).bind fun s s' hs => unsafeInit_sim hs

/-! ### input -/

theorem noUB_decodeWav {fo : FOps F} {ofInt : Int → F} {c : Tensor (BitVec 8)} (h : c.LWF) :
    NoUB (Io.decodeWav fo ofInt c) := by
  unfold Io.decodeWav
  refine noUB_bind (noUB_asSlice h) fun _ _ => noUB_bind (parse_noUB _ _ _) fun _ _ => ?_
  exact noUB_bind (noUB_udiv _ _) fun _ _ => noUB_bind (noUB_ofSlice _) fun _ _ => noUB_bind (noUB_new _) fun _ _ =>
    noUB_bind (noUB_new _) fun _ _ => noUB_ok _

theorem noUB_readFile {fs : String → Except Unit Io.OpenFile} {name : Tensor String} (h : name.LWF) :
    NoUB (Io.readFile fs name) := by
  unfold Io.readFile
  refine noUB_bind (noUB_index1 h _) fun _ _ => ?_
  split
  · exact noUB_ok _
  · split
    · exact noUB_ok _
    · dsimp only
      split
      · exact noUB_ok _
      · exact noUB_bind (noUB_ofVec1 _) fun _ _ => noUB_ok _

/-! ### printing -/

theorem noUB_fmtRec {fmt : α → String} {t : Tensor α} (h : t.LWF) (h0 : t.offset = 0) (n : Nat) :
    ∀ o, NoUB (Fmt.fmtRec fmt t n o) := by
  induction n using Nat.strongRecOn with
  | _ n ih =>
    intro o
    match n, ih with
    | 0, _ =>
      unfold Fmt.fmtRec
      refine noUB_bind (noUB_get h h0 _) fun r _ => ?_
      split <;> exact noUB_ok _
    | 1, ih =>
      unfold Fmt.fmtRec
      refine noUB_bind (noUB_cols _) fun _ _ => noUB_bind (forR_noUB' fun _ _ => ?_) fun _ _ => noUB_ok _
      exact noUB_bind (ih 0 (by omega) _) fun _ _ => noUB_ok _
    | 2, ih =>
      unfold Fmt.fmtRec
      refine noUB_bind (noUB_cols _) fun _ _ => noUB_bind (noUB_rows _) fun _ _ =>
        noUB_bind (forR_noUB' fun _ _ => ?_) fun _ _ => noUB_ok _
      exact noUB_bind (ih 1 (by omega) _) fun _ _ => noUB_ok _
    | n + 3, ih =>
      unfold Fmt.fmtRec
      refine noUB_bind (noUB_rsublen _ _ _) fun _ _ => noUB_bind (noUB_rdim _ _) fun _ _ =>
        noUB_bind (forR_noUB' fun _ _ => ?_) fun _ _ => noUB_ok _
      exact noUB_bind (ih (n + 2) (by omega) _) fun _ _ => noUB_ok _

theorem noUB_debug {fmt : α → String} {name : String} {t : Tensor α} (h : t.LWF) (h0 : t.offset = 0) :
    NoUB (Fmt.debug fmt name t) := by
  unfold Fmt.debug
  exact noUB_bind (noUB_fmtRec h h0 _ _) fun _ _ => noUB_bind (noUB_asVec _) fun _ _ => noUB_ok _

theorem noUB_ensureShown {t : Tensor α} (h : t.LWF) {c : Prop} [Decidable c] (h0 : t.offset = 0 ∨ c) :
    NoUB (Fmt.ensureShown t c) := by
  unfold Fmt.ensureShown
  split
  · exact noUB_ok _
  · rename_i hc
    exact noUB_bind (noUB_debug h (h0.resolve_right hc)) fun _ _ => noUB_panicked

theorem noUB_index2 {t : Tensor α} (h : t.LWF) {i j : Nat} (h0 : t.offset = 0 ∨
    ∃ r c, t.shape.rdim 1 = .ok r ∧ t.shape.rdim 0 = .ok c ∧ i < r ∧ j < c) : NoUB (t.index2 i j) := by
  unfold Tensor.index2
  refine noUB_bind (noUB_ensure _) fun _ _ => noUB_bind (noUB_rdim _ _) fun d1 h1 => ?_
  refine noUB_bind (noUB_ensureShown h (h0.imp id ?_)) fun _ _ => noUB_bind (noUB_rdim _ _) fun d0 h2 =>
    noUB_bind (noUB_ensureShown h (h0.imp id ?_)) fun _ _ => noUB_bind (noUB_ensure _) fun _ _ => noUB_index1 h _
  · rintro ⟨r, c, e1, _, hi, _⟩
    rw [e1] at h1; cases h1; exact hi
  · rintro ⟨r, c, _, e2, _, hj⟩
    rw [e2] at h2; cases h2; exact hj

end

end Essay
