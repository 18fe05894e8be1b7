import Mathlib.Data.List.Perm.Subperm
import Mathlib.Data.List.Nodup
import Mathlib.Tactic.Ring
import Mathlib.Tactic.Choose
import Verif.Lemmas.Array
import Verif.Lemmas.Tile
import Verif.Lemmas.Init
import Verif.Lemmas.Map
import Verif.Model.Clones
import Verif.Spec.Clones

/-! # Helper lemmas for element clones (no claims here) -/

namespace Essay

open Shape

variable {α σ : Type}

namespace Clones

/-- Reading a source, cloning it, writing the clone. -/
def put {m : Type → Type} [Monad m] [MonadLiftT (Except Err) m] (clone : α → m α) (o : Buf α) (p : Nat × Res α) :
    m (Buf α) := do
  let v ← p.2
  let v ← clone v
  o.write p.1 v

/-- A buffer after the given writes. -/
def sets (o : Buf α) (qs : List (Nat × α)) : Buf α := qs.foldl (fun o q => o.set q.1 (some q.2)) o

theorem sets_length (o : Buf α) (qs : List (Nat × α)) : (sets o qs).length = o.length := by
  unfold sets
  induction qs generalizing o with
  | nil => rfl
  | cons q qs ih => rw [List.foldl_cons, ih, List.length_set]

theorem sets_other : ∀ (qs : List (Nat × α)) (o : Buf α) {i : Nat}, i ∉ qs.map Prod.fst → (sets o qs)[i]? = o[i]?
  | [], _, _, _ => rfl
  | q :: qs, o, i, h => by
    simp only [List.map_cons, List.mem_cons, not_or] at h
    show (sets (o.set q.1 (some q.2)) qs)[i]? = _
    rw [sets_other qs _ h.2, List.getElem?_set_ne (fun e => h.1 e.symm)]

theorem sets_get : ∀ (qs : List (Nat × α)) (o : Buf α), (qs.map Prod.fst).Nodup → (∀ q ∈ qs, q.1 < o.length) →
    ∀ q ∈ qs, (sets o qs)[q.1]? = some (some q.2)
  | q :: qs, o, hn, hb, p, hp => by
    simp only [List.map_cons, List.nodup_cons] at hn
    show (sets (o.set q.1 (some q.2)) qs)[p.1]? = _
    rcases List.mem_cons.1 hp with rfl | hp
    · rw [sets_other qs _ hn.1, List.getElem?_set_self (hb _ (by simp))]
    · exact sets_get qs _ hn.2 (fun r hr => by rw [List.length_set]; exact hb r (List.mem_cons_of_mem _ hr)) p hp

/-- If the pure writes succeed, every source could be read and every slot is inside. -/
theorem puts_ok : ∀ (ps : List (Nat × Res α)) (o b : Buf α), ps.foldlM (put (m := Except Err) pure) o = Except.ok b →
    ∃ qs : List (Nat × α), ps = qs.map (fun q => (q.1, Except.ok q.2)) ∧ (∀ q ∈ qs, q.1 < o.length) ∧ b = sets o qs
  | [], o, b, h => ⟨[], rfl, by simp, (Except.ok.inj h).symm⟩
  | p :: ps, o, b, h => by
    rw [List.foldlM_cons] at h
    obtain ⟨o', h1, h2⟩ := bind_eq_ok.1 h
    unfold put at h1
    obtain ⟨v, hv, h1⟩ := bind_eq_ok.1 h1
    rw [pure_bind] at h1
    have hv : p.2 = Except.ok v := hv
    have h1 : o.write p.1 v = Except.ok o' := h1
    unfold Buf.write at h1
    split at h1
    · rename_i hlt
      obtain rfl := (Except.ok.inj h1)
      obtain ⟨qs, e, hb, e'⟩ := puts_ok ps _ b h2
      refine ⟨(p.1, v) :: qs, by rw [List.map_cons, ← e, ← hv], ?_, e'⟩
      intro q hq
      rcases List.mem_cons.1 hq with rfl | hq
      · exact hlt
      · have := hb q hq; rwa [List.length_set] at this
    · cases h1

/-- The writes with clones: all the clones are made, in the order of the writes. -/
theorem puts_clone (clone : α → Exec σ α) : ∀ (qs : List (Nat × α)) (o : Buf α), (∀ q ∈ qs, q.1 < o.length) →
    (qs.map (fun q => (q.1, Except.ok q.2))).foldlM (put clone) o =
      ((qs.mapM fun q => clone q.2) >>= fun vs => pure (sets o ((qs.map Prod.fst).zip vs)))
  | [], o, _ => by
    rw [List.map_nil, List.foldlM_nil, List.mapM_nil, pure_bind]; rfl
  | q :: qs, o, h => by
    rw [List.map_cons, List.foldlM_cons, List.mapM_cons]
    have hq := h q (by simp)
    have ih := fun v : α => puts_clone clone qs (o.set q.1 (some v)) fun r hr => by
      rw [List.length_set]; exact h r (List.mem_cons_of_mem _ hr)
    have hput : put clone o (q.1, Except.ok q.2) = clone q.2 >>= fun v => pure (o.set q.1 (some v)) := by
      unfold put
      rw [lift_ok, pure_bind]
      refine bind_congr fun v => ?_
      have e : o.write q.1 v = Except.ok (o.set q.1 (some v)) := if_pos hq
      rw [e, lift_ok]
    rw [hput, bind_assoc, bind_assoc]
    refine bind_congr fun v => ?_
    rw [pure_bind, ih v, bind_assoc]
    refine bind_congr fun vs => ?_
    rw [pure_bind]
    rfl

theorem complete_iff {b : Buf α} {l : List α} : b.complete = some l ↔ b = l.map some := by
  constructor
  · intro h
    unfold Buf.complete at h
    induction b generalizing l with
    | nil => simp at h; subst h; rfl
    | cons x b ih =>
      rw [List.mapM_cons] at h
      cases x with
      | none => simp at h
      | some x =>
        cases e : List.mapM id b with
        | none => rw [e] at h; simp at h
        | some l' =>
          rw [e] at h
          simp at h
          subst h
          rw [List.map_cons, ← ih e]
  · rintro rfl; exact Buf.complete_map_some l

theorem zipIdx_mem {ys : List α} {p : Nat × α} : p ∈ ys.zipIdx.map Prod.swap ↔ ys[p.1]? = some p.2 := by
  constructor
  · intro h
    obtain ⟨q, hq, rfl⟩ := List.mem_map.1 h
    have := List.mem_zipIdx_iff_getElem?.1 hq
    exact this
  · intro h
    exact List.mem_map.2 ⟨(p.2, p.1), List.mem_zipIdx_iff_getElem?.2 h, rfl⟩

theorem zipIdx_fst (ys : List α) : (ys.zipIdx.map Prod.swap).map Prod.fst = List.range ys.length := by
  rw [List.map_map]
  have : (Prod.fst ∘ Prod.swap : α × Nat → Nat) = Prod.snd := rfl
  rw [this, List.zipIdx_map_snd, ← List.range_eq_range']

/-- An initialiser that makes at most as many copies as there are slots, and succeeds with a clone that does nothing,
copies each element once. -/
theorem copiesOnce_init {n : Nat} {shape : Shape} {ps : List (Nat × Res α)} 
    (hl : (∀ p ∈ ps, p.1 < n ∧ ∃ v, p.2 = Except.ok v) → ps.length ≤ n) {t : Tensor α}
    {ds : List Nat} {ys : List α} (ht : Tensor.unsafeInit n shape (fun o => ps.foldlM (put (m := Except Err) pure) o) = Except.ok t)
    (hr : Rep t ds ys) (clone : α → Exec σ α) :
    CopiesOnce clone (unsafeInit n shape fun o => ps.foldlM (put clone) o) ds ys := by
  unfold Tensor.unsafeInit at ht
  obtain ⟨b, hb, ht⟩ := bind_eq_ok.1 ht
  obtain ⟨qs, rfl, hin, rfl⟩ := puts_ok ps _ _ hb
  unfold Tensor.finish at ht
  cases hc : (sets (Buf.uninit n) qs).complete with
  | none => rw [hc] at ht; cases ht
  | some data =>
    rw [hc] at ht
    have ht : Tensor.new data shape = Except.ok t := ht
    have hc := complete_iff.1 hc
    obtain ⟨hs, rfl⟩ := new_eq_ok ht
    have hdata : data = ys := by
      have := hr.elems
      unfold Tensor.asSlice rawSlice at this
      simp at this
      exact this
    subst hdata
    have hlen : data.length = n := by
      have := congrArg List.length hc
      rw [sets_length] at this
      simpa [Buf.uninit] using this.symm
    have hul : (Buf.uninit n : Buf α).length = n := by simp [Buf.uninit]
    rw [hul] at hin
    replace hl := hl fun p hp => by
      obtain ⟨q, hq, rfl⟩ := List.mem_map.1 hp
      exact ⟨hin q hq, q.2, rfl⟩
    rw [List.length_map] at hl
    have hsub : List.range n ⊆ qs.map Prod.fst := by
      intro i hi
      rw [List.mem_range] at hi
      by_contra hne
      have := sets_other qs (Buf.uninit n) hne
      rw [hc] at this
      simp [Buf.uninit, hi, hlen] at this
    have hperm : (List.range n).Perm (qs.map Prod.fst) :=
      (List.subperm_of_subset List.nodup_range hsub).perm_of_length_le (by simpa using hl)
    have hnd : (qs.map Prod.fst).Nodup := hperm.nodup_iff.1 List.nodup_range
    have hval : ∀ q ∈ qs, data[q.1]? = some q.2 := by
      intro q hq
      have := sets_get qs (Buf.uninit n) hnd (by rwa [hul]) q hq
      rw [hc] at this
      simpa using this
    refine ⟨qs, ?_, fun s => ?_⟩
    · refine List.Subperm.perm_of_length_le (List.subperm_of_subset (List.Nodup.of_map _ hnd) fun q hq =>
        zipIdx_mem.2 (hval q hq)) ?_
      have := hperm.length_eq
      simp at this
      simp [hlen, this]
    · have hrun : (unsafeInit n shape fun o => (qs.map (fun q => (q.1, Except.ok q.2))).foldlM (put clone) o : Exec σ (Tensor α)) =
          (qs.mapM fun q => clone q.2) >>= fun vs =>
            liftM (Tensor.finish (sets (Buf.uninit n) ((qs.map Prod.fst).zip vs)) shape) := by
        unfold unsafeInit
        beta_reduce
        rw [puts_clone clone qs _ (by rwa [hul]), bind_assoc]
        refine bind_congr fun vs => ?_
        rw [pure_bind]
      have hlenvs : ∀ {l : List (Nat × α)} {s s' : σ} {vs : List α},
          (l.mapM fun q => clone q.2).run s = Except.ok (vs, s') → vs.length = l.length := by
        intro l
        induction l with
        | nil =>
          intro s s' vs h
          rw [List.mapM_nil] at h
          have := Except.ok.inj h
          rw [Prod.mk.injEq] at this
          rw [← this.1]; rfl
        | cons q l ih =>
          intro s s' vs h
          rw [List.mapM_cons, StateT.run_bind] at h
          obtain ⟨⟨v, s1⟩, _, h⟩ := bind_eq_ok.1 h
          rw [StateT.run_bind] at h
          obtain ⟨⟨vs', s2⟩, h1, h⟩ := bind_eq_ok.1 h
          have := Except.ok.inj h
          simp only [Prod.mk.injEq] at this
          rw [← this.1, List.length_cons, List.length_cons, ih h1]
      rw [hrun, StateT.run_bind]
      cases hm : (qs.mapM fun q => clone q.2).run s with
      | error e => rfl
      | ok r =>
        obtain ⟨vs, s'⟩ := r
        have hvl := hlenvs hm
        have hz : ((qs.map Prod.fst).zip vs).map Prod.fst = qs.map Prod.fst :=
          List.map_fst_zip (by simp [hvl])
        have hin' : ∀ q ∈ (qs.map Prod.fst).zip vs, q.1 < (Buf.uninit n : Buf α).length := by
          intro q hq
          have hm : q.1 ∈ qs.map Prod.fst := by rw [← hz]; exact List.mem_map_of_mem hq
          obtain ⟨r, hr, e⟩ := List.mem_map.1 hm
          rw [hul, ← e]; exact hin r hr
        have hget := sets_get ((qs.map Prod.fst).zip vs) (Buf.uninit n) (by rw [hz]; exact hnd) hin'
        have hall : ∃ zs : List α, sets (Buf.uninit n) ((qs.map Prod.fst).zip vs) = zs.map some := by
          have : ∀ b : Buf α, (∀ i, i < b.length → ∃ v, b[i]? = some (some v)) → ∃ zs : List α, b = zs.map some := by
            intro b
            induction b with
            | nil => intro _; exact ⟨[], rfl⟩
            | cons x b ih =>
              intro h
              obtain ⟨v, hv⟩ := h 0 (by simp)
              obtain ⟨zs, rfl⟩ := ih fun i hi => by simpa using h (i + 1) (by simpa using hi)
              refine ⟨v :: zs, ?_⟩
              simp at hv
              rw [hv]; rfl
          refine this _ fun i hi => ?_
          rw [sets_length, hul] at hi
          have hi' : i ∈ ((qs.map Prod.fst).zip vs).map Prod.fst := by
            rw [hz]; exact hsub (List.mem_range.2 hi)
          obtain ⟨q, hq, rfl⟩ := List.mem_map.1 hi'
          exact ⟨q.2, hget q hq⟩
        obtain ⟨zs, hzs⟩ := hall
        have hzl : zs.length = n := by
          have := congrArg List.length hzs
          rw [sets_length, hul, List.length_map] at this
          exact this.symm
        have hnew : Tensor.new zs shape =
            Except.ok { shape, offset := 0, size := zs.length, data := zs } := by
          unfold Tensor.new
          rw [hs, ok_bind, ensure_true (by omega)]; rfl
        refine ⟨⟨shape, 0, zs.length, zs⟩, zs, ?_, ?_, by omega, fun q hq => ?_⟩
        · show (StateT.run (liftM (Tensor.finish (sets (Buf.uninit n) ((qs.map Prod.fst).zip vs)) shape) : Exec σ (Tensor α)) s') = _
          unfold Tensor.finish
          rw [hzs, Buf.complete_map_some]
          simp only
          rw [hnew]; rfl
        · refine ⟨⟨hr.wf.shape, by rw [hs, hzl, hlen], by simp⟩, hr.dims, ?_⟩
          unfold Tensor.asSlice rawSlice
          simp
        · have := hget q hq
          rw [hzs] at this
          simpa using this

/-! ## Bodies that are lists of copies -/

section bodies

variable {m : Type → Type} [Monad m] [LawfulMonad m] [MonadLiftT (Except Err) m] [LawfulMonadLiftT (Except Err) m]

theorem lift_ok' {β : Type} (b : β) : (liftM (Except.ok b : Res β) : m β) = pure b :=
  liftM_pure (m := Except Err) (n := m) b

theorem lift_bind {β γ : Type} {x : Res β} {b : β} (h : x = Except.ok b) (f : β → m γ) :
    ((liftM x : m β) >>= f) = f b := by rw [h, lift_ok', pure_bind]

/-- A loop of single copies. -/
theorem forR_put (clone : α → m α) (lo hi : Nat) (f : Nat → Nat × Res α) (o : Buf α) :
    forR lo hi o (fun i o => put clone o (f i)) = ((List.range' lo (hi - lo)).map f).foldlM (put clone) o := by
  unfold forR
  rw [List.foldlM_map]

/-- A loop of lists of copies. -/
theorem forR_puts (clone : α → m α) (lo hi : Nat) (f : Nat → List (Nat × Res α)) (o : Buf α) :
    forR lo hi o (fun i o => (f i).foldlM (put clone) o) =
      ((List.range' lo (hi - lo)).flatMap f).foldlM (put clone) o := by
  unfold forR
  generalize List.range' lo (hi - lo) = l
  induction l generalizing o with
  | nil => rfl
  | cons a l ih =>
    rw [List.foldlM_cons, List.flatMap_cons, List.foldlM_append]
    exact bind_congr fun o => ih o

end bodies

/-- A function that is an initialiser with a list of copies, whatever the clone. -/
def IsPuts (F : ∀ (m : Type → Type) [Monad m] [MonadLiftT (Except Err) m], (α → m α) → m (Tensor α)) : Prop :=
  ∃ n shape, ∃ ps : List (Nat × Res α), ((∀ p ∈ ps, p.1 < n ∧ ∃ v, p.2 = Except.ok v) → ps.length ≤ n) ∧
    ∀ (m : Type → Type) [Monad m] [LawfulMonad m] [MonadLiftT (Except Err) m] [LawfulMonadLiftT (Except Err) m]
      (clone : α → m α), F m clone = unsafeInit n shape fun o => ps.foldlM (put clone) o

theorem IsPuts.copiesOnce {F : ∀ (m : Type → Type) [Monad m] [MonadLiftT (Except Err) m], (α → m α) → m (Tensor α)}
    (h : IsPuts F) {t : Tensor α} {ds : List Nat} {ys : List α} (ht : F (Except Err) pure = Except.ok t) (hr : Rep t ds ys)
    (clone : α → Exec σ α) : CopiesOnce clone (F (Exec σ) clone) ds ys := by
  obtain ⟨n, shape, ps, hl, e⟩ := h
  rw [e] at ht ⊢
  exact copiesOnce_init hl ht hr clone

theorem length_flatMap_const {β γ : Type} {l : List β} {f : β → List γ} {k : Nat} (h : ∀ x ∈ l, (f x).length = k) :
    (l.flatMap f).length = l.length * k := by
  induction l with
  | nil => simp
  | cons a l ih =>
    rw [List.flatMap_cons, List.length_append, h a (by simp), ih fun x hx => h x (List.mem_cons_of_mem _ hx),
      List.length_cons, Nat.succ_mul, Nat.add_comm]

/-! ## With a clone that does nothing -/

theorem ite_bind_res {β γ : Type} {c : Prop} [Decidable c] (x y : Res β) (f : β → Res γ) :
    ((if c then x else y) >>= f) = if c then x >>= f else y >>= f := by split <;> rfl

theorem fromSlice_agrees (d : List α) : fromSlice (m := Except Err) pure d = Tensor.fromSlice d := rfl

theorem transpose_agrees (t : Tensor α) : transpose (m := Except Err) pure t = t.transpose := by
  unfold transpose Tensor.transpose
  refine bind_congr fun c => bind_congr fun r => bind_congr fun size => bind_congr fun batch => ?_
  refine (ite_bind_res _ _ _).trans ?_
  split
  · rfl
  · exact bind_assoc _ _ _

theorem splitPiece_agrees (t : Tensor α) (axis nOuter nInner axisLen : Nat) (x : List α) (prev cut : Nat) :
    splitPiece (m := Except Err) pure t axis nOuter nInner axisLen x prev cut =
      t.splitPiece axis nOuter nInner axisLen x prev cut := rfl

theorem buildMeshgridAxis_agrees (x : Tensor α) (s : Shape) (k : Nat) :
    buildMeshgridAxis (m := Except Err) pure x s k = Init.buildMeshgridAxis x s k := rfl

theorem concatAxis_agrees (axis : Nat) (ts : List (Tensor α)) :
    concatAxis (m := Except Err) pure axis ts = Tensor.concatAxis axis ts := by
  unfold concatAxis Tensor.concatAxis
  refine bind_congr fun a0 => bind_congr fun axisLen => bind_congr fun shapeInner => bind_congr fun nOuter => ?_
  exact ite_bind_res _ _ _

theorem stackVec_agrees (axis : Axis) (ts : List (Tensor α)) :
    stackVec (m := Except Err) pure axis ts = Tensor.stackVec axis ts := rfl

theorem tileRec_agrees (x : List α) (a b : List Nat) (j : Nat) : ∀ (o l : Nat) (st : Buf α × Nat),
    tileRec (m := Except Err) pure x a b j o l st = Tensor.tileRec x a b j o l st := by
  induction j with
  | zero =>
    intro o l st
    unfold tileRec Tensor.tileRec
    exact ite_bind_res _ _ _
  | succ j ih =>
    intro o l st
    unfold tileRec Tensor.tileRec
    simp only [ih]
    exact ite_bind_res _ _ _

theorem tile_agrees (t : Tensor α) (ms : Tensor Nat) : tile (m := Except Err) pure t ms = t.tile ms := by
  unfold tile Tensor.tile
  simp only [tileRec_agrees]
  rfl

theorem mapM_pure_res (xs : List α) : xs.mapM (m := Except Err) pure = Except.ok xs := by
  induction xs with
  | nil => rfl
  | cons x xs ih => rw [List.mapM_cons, ih]; rfl

theorem concatSlices_agrees (ts : List (Tensor α)) : concatSlices (m := Except Err) pure ts = Tensor.concatSlices ts := by
  unfold concatSlices Tensor.concatSlices
  simp only [mapM_pure_res]
  rfl

theorem fromMerge_agrees (ts : List (Tensor α)) (s : Shape) :
    fromMerge (m := Except Err) pure ts s = Tensor.fromMerge ts s := by
  unfold fromMerge Tensor.fromMerge
  rw [concatSlices_agrees]
  rfl

theorem append_agrees (t u : Tensor α) : append (m := Except Err) pure t u = t.append u := by
  unfold append Tensor.append
  simp only [fromMerge_agrees]
  rfl

theorem joinVec_agrees (v : List (List α)) : joinVec (m := Except Err) pure v = Tensor.joinVec v := by
  unfold joinVec Tensor.joinVec
  rw [mapM_pure_res]
  rfl

theorem ofVec1_agrees (v : List α) : ofVec1 (m := Except Err) pure v = Tensor.ofVec1 v := by
  unfold ofVec1 Tensor.ofVec1
  rw [mapM_pure_res]
  rfl

theorem ofRows_agrees {N : Nat} (v : List (Vector α N)) : ofRows (m := Except Err) pure v = Tensor.ofRows v := by
  unfold ofRows Tensor.ofRows
  rw [mapM_pure_res]
  rfl

theorem ofVec2_agrees (v : List (List α)) : ofVec2 (m := Except Err) pure v = Tensor.ofVec2 v := by
  unfold ofVec2 Tensor.ofVec2
  simp only [mapM_pure_res]
  rfl

theorem ofTensors_agrees (v : List (Tensor α)) : ofTensors (m := Except Err) pure v = Tensor.ofTensors v := by
  unfold ofTensors Tensor.ofTensors
  rw [concatSlices_agrees]
  rfl

/-! ## Each function is a list of copies -/

theorem lift_eq_ok {β γ : Type} {x : Res β} {f : β → Except Err γ} {c : γ} :
    ((liftM x : Except Err β) >>= f) = Except.ok c ↔ ∃ b, x = Except.ok b ∧ f b = Except.ok c := bind_eq_ok

theorem fromSlice_isPuts (data : List α) {u : Tensor α} (h : fromSlice (m := Except Err) pure data = Except.ok u) :
    IsPuts fun m => fun [Monad m] [MonadLiftT (Except Err) m] clone => fromSlice (m := m) clone data := by
  obtain ⟨shape, hs, _⟩ := lift_eq_ok.1 h
  have hs : ofUsize data.length = Except.ok shape := hs
  refine ⟨data.length, shape, (List.range' 0 (data.length - 0)).map fun i => (i, idx data i), fun _ => by simp, ?_⟩
  intro m _ _ _ _ clone
  unfold fromSlice
  beta_reduce
  rw [lift_bind hs]
  congr 1
  funext o
  exact forR_put clone 0 data.length (fun i => (i, idx data i)) o

theorem fill_isPuts (shape : Shape) (value : α) {n : Nat} (hn : shape.size = Except.ok n) :
    IsPuts fun m => fun [Monad m] [MonadLiftT (Except Err) m] clone => fill (m := m) clone shape value := by
  refine ⟨n, shape, (List.range' 0 (n - 0)).map fun i => (i, Except.ok value), fun _ => by simp, ?_⟩
  intro m _ _ _ _ clone
  unfold fill
  beta_reduce
  rw [lift_bind hn]
  congr 1
  funext o
  rw [← forR_put]
  refine forR_congr fun i o _ _ => ?_
  unfold put
  rw [lift_ok', pure_bind]

theorem transpose_isPuts {t : Tensor α} {ds : List Nat} {xs : List α} (ht : Rep t ds xs) {u : Tensor α}
    (h : transpose (m := Except Err) pure t = Except.ok u) :
    IsPuts fun m => fun [Monad m] [MonadLiftT (Except Err) m] clone => transpose (m := m) clone t := by
  obtain ⟨c, hc, h⟩ := lift_eq_ok.1 h
  obtain ⟨r, hr, h⟩ := lift_eq_ok.1 h
  obtain ⟨size, hsz, h⟩ := lift_eq_ok.1 h
  obtain ⟨batch, hb, h⟩ := lift_eq_ok.1 h
  obtain ⟨shape, hsh, h⟩ := lift_eq_ok.1 h
  obtain ⟨_, rfl⟩ := udiv_eq_ok.1 hb
  refine ⟨size, shape, (List.range' 0 (size / (max c 1 * max r 1) - 0)).flatMap fun n =>
    (List.range' 0 (max r 1 - 0)).flatMap fun j => (List.range' 0 (max c 1 - 0)).map fun i =>
        (n * (max c 1 * max r 1) + i * max r 1 + j, idx xs (n * (max c 1 * max r 1) + j * max c 1 + i)),
    fun _ => ?_, fun m _ _ _ _ clone => ?_⟩
  · rw [length_flatMap_const (k := max r 1 * max c 1)]
    · rw [List.length_range', Nat.sub_zero, Nat.mul_comm (max r 1)]
      exact Nat.div_mul_le_self _ _
    · intro n _
      rw [length_flatMap_const (k := max c 1)]
      · simp
      · simp
  · unfold transpose
    beta_reduce
    rw [lift_bind hc, lift_bind hr, lift_bind hsz]
    dsimp only
    rw [lift_bind hb, lift_bind hsh]
    congr 1
    funext o
    rw [lift_bind ht.elems, ← forR_puts]
    refine forR_congr fun n o _ _ => ?_
    rw [← forR_puts]
    refine forR_congr fun j o _ _ => ?_
    rw [← forR_put]
    rfl

theorem splitPiece_isPuts {t : Tensor α} {axis nOuter nInner axisLen : Nat} {x : List α} {prev cut : Nat} {u : Tensor α}
    (h : splitPiece (m := Except Err) pure t axis nOuter nInner axisLen x prev cut = Except.ok u) :
    IsPuts fun m => fun [Monad m] [MonadLiftT (Except Err) m] clone =>
      splitPiece (m := m) clone t axis nOuter nInner axisLen x prev cut := by
  obtain ⟨pre, h1, h⟩ := lift_eq_ok.1 h
  obtain ⟨n, h2, h⟩ := lift_eq_ok.1 h
  obtain ⟨vec, h3, h⟩ := lift_eq_ok.1 h
  obtain ⟨shape, h4, h⟩ := lift_eq_ok.1 h
  obtain ⟨_, rfl⟩ := usub_eq_ok.1 h2
  refine ⟨nOuter * nInner * (cut - prev), shape, (List.range' 0 (nOuter - 0)).flatMap fun j =>
    (List.range' prev (cut - prev)).flatMap fun k => (List.range' 0 (nInner - 0)).map fun i =>
      (j * nInner * (cut - prev) + (k - prev) * nInner + i, idx x (j * axisLen * nInner + k * nInner + i)),
    fun _ => ?_, fun m _ _ _ _ clone => ?_⟩
  · rw [length_flatMap_const (k := (cut - prev) * nInner)]
    · rw [List.length_range', Nat.sub_zero, Nat.mul_assoc, Nat.mul_comm (cut - prev)]
    · intro n _
      rw [length_flatMap_const (k := nInner)]
      · simp
      · simp
  · unfold splitPiece
    beta_reduce
    rw [lift_bind h1, lift_bind h2, lift_bind h3, lift_bind h4]
    congr 1
    funext o
    rw [← forR_puts]
    refine forR_congr fun n o _ _ => ?_
    rw [← forR_puts]
    refine forR_congr fun j o _ _ => ?_
    rw [← forR_put]
    rfl

theorem buildMeshgridAxis_isPuts {x : Tensor α} {ds : List Nat} {xs : List α} (hx : Rep x ds xs) {shape : Shape} {kS : Nat}
    {u : Tensor α} (h : buildMeshgridAxis (m := Except Err) pure x shape kS = Except.ok u) :
    IsPuts fun m => fun [Monad m] [MonadLiftT (Except Err) m] clone => buildMeshgridAxis (m := m) clone x shape kS := by
  obtain ⟨_, h0, h⟩ := lift_eq_ok.1 h
  obtain ⟨size, h1, h⟩ := lift_eq_ok.1 h
  obtain ⟨r1, h2, h⟩ := lift_eq_ok.1 h
  obtain ⟨_, h3, h⟩ := lift_eq_ok.1 h
  obtain ⟨r2, h4, h⟩ := lift_eq_ok.1 h
  obtain ⟨_, h5, h⟩ := lift_eq_ok.1 h
  obtain ⟨n, h6, h⟩ := lift_eq_ok.1 h
  obtain ⟨r3, h7, h⟩ := lift_eq_ok.1 h
  obtain ⟨_, h8, h⟩ := lift_eq_ok.1 h
  obtain ⟨b, h, _⟩ := bind_eq_ok.1 h
  obtain ⟨_, _, h⟩ := lift_eq_ok.1 h
  obtain ⟨jN, h9, h⟩ := lift_eq_ok.1 h
  obtain ⟨jS, h10, h⟩ := lift_eq_ok.1 h
  refine ⟨size, shape, (List.range' 0 (x.size - 0)).flatMap fun k => (List.range' 0 (jN - 0)).flatMap fun j =>
      (List.range' 0 (kS - 0)).map fun i => (k * kS + j * jS + i, idx xs k), fun _ => ?_, fun m _ _ _ _ clone => ?_⟩
  · obtain ⟨_, rfl⟩ := udiv_eq_ok.1 h6
    obtain ⟨_, rfl⟩ := udiv_eq_ok.1 h9
    rw [length_flatMap_const (k := size / x.size / kS * kS)]
    · rw [List.length_range', Nat.sub_zero]
      calc x.size * (size / x.size / kS * kS) ≤ x.size * (size / x.size) := Nat.mul_le_mul_left _ (Nat.div_mul_le_self _ _)
        _ ≤ size := Nat.mul_div_le _ _
    · intro n _
      rw [length_flatMap_const (k := kS)]
      · simp
      · simp
  · unfold buildMeshgridAxis
    beta_reduce
    rw [lift_bind h0, lift_bind h1, lift_bind h2, lift_bind h3, lift_bind h4, lift_bind h5, lift_bind h6, lift_bind h7,
      lift_bind h8]
    congr 1
    funext o
    rw [lift_bind hx.elems]
    dsimp only
    rw [lift_bind h9, lift_bind h10, ← forR_puts]
    refine forR_congr fun n o _ _ => ?_
    rw [← forR_puts]
    refine forR_congr fun j o _ _ => ?_
    rw [← forR_put]
    rfl

theorem asSlice_length {t : Tensor α} {xs : List α} (h : t.asSlice = Except.ok xs) : xs.length = t.size := by
  unfold Tensor.asSlice rawSlice at h
  split at h
  · obtain rfl := Except.ok.inj h
    simp; omega
  · cases h

/-- The copies of one argument of `concat`. -/
def catBlock (nOuter nInner jStride off d : Nat) (x : List α) : List (Nat × Res α) :=
  (List.range' 0 (nOuter - 0)).flatMap fun j => (List.range' 0 (d - 0)).flatMap fun k =>
    (List.range' 0 (nInner - 0)).map fun i => (j * jStride + off + k * nInner + i, idx x (j * d * nInner + k * nInner + i))

/-- The copies of `concat`. -/
def catPuts (nOuter nInner jStride : Nat) : List (Nat × List α) → Nat → List (Nat × Res α)
  | [], _ => []
  | p :: ps, off => catBlock nOuter nInner jStride off p.1 p.2 ++ catPuts nOuter nInner jStride ps (off + p.1 * nInner)

theorem catBlock_length {nOuter nInner jStride off d : Nat} {x : List α}
    (h : ∀ p ∈ catBlock nOuter nInner jStride off d x, ∃ v, p.2 = Except.ok v) :
    (catBlock nOuter nInner jStride off d x).length ≤ x.length := by
  have hl : (catBlock nOuter nInner jStride off d x).length = nOuter * (d * nInner) := by
    unfold catBlock
    rw [length_flatMap_const (k := d * nInner)]
    · simp
    · intro n _
      rw [length_flatMap_const (k := nInner)]
      · simp
      · simp
  rw [hl]
  rcases Nat.eq_zero_or_pos nOuter with rfl | h1
  · simp
  rcases Nat.eq_zero_or_pos d with rfl | h2
  · simp
  rcases Nat.eq_zero_or_pos nInner with rfl | h3
  · simp
  obtain ⟨a, rfl⟩ : ∃ a, nOuter = a + 1 := ⟨nOuter - 1, by omega⟩
  obtain ⟨b, rfl⟩ : ∃ b, d = b + 1 := ⟨d - 1, by omega⟩
  obtain ⟨c, rfl⟩ : ∃ c, nInner = c + 1 := ⟨nInner - 1, by omega⟩
  obtain ⟨v, hv⟩ := h (a * jStride + off + b * (c + 1) + c, idx x (a * (b + 1) * (c + 1) + b * (c + 1) + c)) (by
    unfold catBlock
    refine List.mem_flatMap.2 ⟨a, by simp, List.mem_flatMap.2 ⟨b, by simp, List.mem_map.2 ⟨c, by simp, rfl⟩⟩⟩)
  have hlt : a * (b + 1) * (c + 1) + b * (c + 1) + c < x.length := by
    by_contra hge
    rw [idx_ge (by omega)] at hv
    cases hv
  have e : (a + 1) * ((b + 1) * (c + 1)) = a * (b + 1) * (c + 1) + b * (c + 1) + c + 1 := by ring
  omega

theorem catPuts_length {nOuter nInner jStride : Nat} : ∀ {ps : List (Nat × List α)} {off : Nat},
    (∀ p ∈ catPuts nOuter nInner jStride ps off, ∃ v, p.2 = Except.ok v) →
    (catPuts nOuter nInner jStride ps off).length ≤ (ps.map fun p => p.2.length).sum
  | [], _, _ => by simp [catPuts]
  | p :: ps, off, h => by
    unfold catPuts at h ⊢
    have h1 := catBlock_length fun q hq => h q (List.mem_append_left _ hq)
    have h2 := catPuts_length fun q hq => h q (List.mem_append_right _ hq)
    rw [List.length_append, List.map_cons, List.sum_cons]
    omega

theorem concat_loop_puts {axis : Nat} {args : List (Tensor α)} (nOuter nInner axisLen : Nat)
    (hall : ∀ t ∈ args, ∃ d xs, t.shape.dim axis = Except.ok d ∧ t.asSlice = Except.ok xs) :
    ∃ ps : List (Nat × List α), (ps.map fun p => p.2.length).sum = (args.map (·.size)).sum ∧
    ∀ (m : Type → Type) [Monad m] [LawfulMonad m] [MonadLiftT (Except Err) m] [LawfulMonadLiftT (Except Err) m]
      (clone : α → m α) (off : Nat) (o : Buf α),
      (forL args (off, o) fun tensor st => do
        let nAxis ← tensor.shape.dim axis
        let x ← tensor.asSlice
        let o ← forR 0 nOuter st.2 fun j o =>
          forR 0 nAxis o fun k o =>
            forR 0 nInner o fun i o => do
              let v ← idx x (j * nAxis * nInner + k * nInner + i)
              let v ← clone v
              o.write (j * (nInner * axisLen) + st.1 + k * nInner + i) v
        return (st.1 + nAxis * nInner, o)) =
      ((catPuts nOuter nInner (nInner * axisLen) ps off).foldlM (put clone) o >>= fun o =>
        pure (off + (ps.map fun p => p.1 * nInner).sum, o)) := by
  induction args with
  | nil =>
    refine ⟨[], rfl, fun m _ _ _ _ clone off o => ?_⟩
    unfold forL catPuts
    rw [List.foldlM_nil, List.foldlM_nil, pure_bind]
    rfl
  | cons t args ih =>
    obtain ⟨ps, e, ih⟩ := ih fun t ht => hall t (List.mem_cons_of_mem _ ht)
    obtain ⟨d, xs, hd, hx⟩ := hall t (by simp)
    refine ⟨(d, xs) :: ps, ?_, fun m _ _ _ _ clone off o => ?_⟩
    · rw [List.map_cons, List.sum_cons, List.map_cons, List.sum_cons, e, asSlice_length hx]
    · unfold forL at ih ⊢
      rw [List.foldlM_cons]
      beta_reduce
      rw [lift_bind hd, lift_bind hx]
      have hb : (forR 0 nOuter o fun j o =>
          forR 0 d o fun k o =>
            forR 0 nInner o fun i o => do
              let v ← idx xs (j * d * nInner + k * nInner + i)
              let v ← clone v
              o.write (j * (nInner * axisLen) + off + k * nInner + i) v) =
          (catBlock nOuter nInner (nInner * axisLen) off d xs).foldlM (put clone) o := by
        unfold catBlock
        rw [← forR_puts]
        refine forR_congr fun n o _ _ => ?_
        rw [← forR_puts]
        refine forR_congr fun j o _ _ => ?_
        rw [← forR_put]
        rfl
      dsimp only at hb ⊢
      rw [hb, bind_assoc]
      unfold catPuts
      rw [List.foldlM_append, bind_assoc]
      refine bind_congr fun o => ?_
      rw [pure_bind, ih]
      refine bind_congr fun o => ?_
      rw [List.map_cons, List.sum_cons, Nat.add_assoc]

theorem concatAxis_isPuts {axis : Nat} {args : List (Tensor α)} {u : Tensor α}
    (h : concatAxis (m := Except Err) pure axis args = Except.ok u) :
    IsPuts fun m => fun [Monad m] [MonadLiftT (Except Err) m] clone => concatAxis (m := m) clone axis args := by
  obtain ⟨a0, h1, h⟩ := lift_eq_ok.1 h
  obtain ⟨axisLen, h2, h⟩ := lift_eq_ok.1 h
  obtain ⟨shapeInner, h3, h⟩ := lift_eq_ok.1 h
  obtain ⟨nOuter, h4, h⟩ := lift_eq_ok.1 h
  obtain ⟨nInner, h5, h⟩ := lift_eq_ok.1 h
  obtain ⟨shape, h6, h⟩ := lift_eq_ok.1 h
  obtain ⟨b, h, _⟩ := bind_eq_ok.1 h
  obtain ⟨st, h, _⟩ := bind_eq_ok.1 h
  have hall : ∀ t ∈ args, ∃ d xs, t.shape.dim axis = Except.ok d ∧ t.asSlice = Except.ok xs := by
    intro t ht
    obtain ⟨a, b, e⟩ := forL_ok_all h t ht
    obtain ⟨d, hd, e⟩ := lift_eq_ok.1 e
    obtain ⟨xs, hx, e⟩ := lift_eq_ok.1 e
    exact ⟨d, xs, hd, hx⟩
  obtain ⟨ps, e, hps⟩ := concat_loop_puts nOuter nInner axisLen hall
  refine ⟨(args.map (·.size)).sum, shape, catPuts nOuter nInner (nInner * axisLen) ps 0, fun hok => ?_,
    fun m _ _ _ _ clone => ?_⟩
  · rw [← e]
    exact catPuts_length fun p hp => (hok p hp).2
  · unfold concatAxis
    beta_reduce
    rw [lift_bind h1, lift_bind h2, lift_bind h3]
    dsimp only
    rw [lift_bind h4, lift_bind h5, lift_bind h6]
    congr 1
    funext o
    rw [hps, bind_assoc]
    simp only [pure_bind, bind_pure]

theorem sum_sizes {xs : List (Tensor α)} {n : Nat} (h : ∀ t ∈ xs, t.size = n) :
    (xs.map (·.size)).sum = xs.length * n := by
  induction xs with
  | nil => simp
  | cons t xs ih =>
    rw [List.map_cons, List.sum_cons, ih fun t ht => h t (List.mem_cons_of_mem _ ht), h t (by simp),
      List.length_cons, Nat.succ_mul, Nat.add_comm]

theorem stackVec_isPuts {axis : Axis} {xs : List (Tensor α)} {u : Tensor α}
    (h : stackVec (m := Except Err) pure axis xs = Except.ok u) :
    IsPuts fun m => fun [Monad m] [MonadLiftT (Except Err) m] clone => stackVec (m := m) clone axis xs := by
  obtain ⟨_, h1, h⟩ := lift_eq_ok.1 h
  obtain ⟨x0, h2, h⟩ := lift_eq_ok.1 h
  obtain ⟨a, h3, h⟩ := lift_eq_ok.1 h
  obtain ⟨xLen, h4, h⟩ := lift_eq_ok.1 h
  obtain ⟨nInner, h5, h⟩ := lift_eq_ok.1 h
  obtain ⟨nOuter, h6, h⟩ := lift_eq_ok.1 h
  obtain ⟨oShape, h7, h⟩ := lift_eq_ok.1 h
  obtain ⟨b, h, _⟩ := bind_eq_ok.1 h
  obtain ⟨_, rfl⟩ := udiv_eq_ok.1 h6
  have hall : ∀ j, j < xs.length → ∃ t ys, idx xs j = Except.ok t ∧ xLen = t.size ∧ t.asSlice = Except.ok ys := by
    intro j hj
    obtain ⟨a, b, e⟩ := forR_ok_all h j (Nat.zero_le _) hj
    obtain ⟨t, ht, e⟩ := lift_eq_ok.1 e
    obtain ⟨_, hs, e⟩ := lift_eq_ok.1 e
    obtain ⟨ys, hy, e⟩ := lift_eq_ok.1 e
    exact ⟨t, ys, ht, ensure_eq_ok.1 hs, hy⟩
  let f : Nat → List α := fun j => match xs[j]? with
    | some t => t.asSlice.toOption.getD []
    | none => []
  refine ⟨(xs.map (·.size)).sum, oShape, (List.range' 0 (xs.length - 0)).flatMap fun j =>
    (List.range' 0 (xLen / nInner - 0)).flatMap fun k => (List.range' 0 (nInner - 0)).map fun i =>
      ((k * xs.length + j) * nInner + i, idx (f j) (k * nInner + i)), fun _ => ?_, fun m _ _ _ _ clone => ?_⟩
  · have hs : (xs.map (·.size)).sum = xs.length * xLen := sum_sizes fun t ht => by
      obtain ⟨j, hj⟩ := List.mem_iff_getElem?.1 ht
      have hlt : j < xs.length := by
        by_contra hge
        rw [List.getElem?_eq_none (by omega)] at hj
        cases hj
      obtain ⟨t', ys, e1, e2, _⟩ := hall j hlt
      rw [idx_ok hj] at e1
      rw [Except.ok.inj e1, e2]
    rw [hs, length_flatMap_const (k := xLen / nInner * nInner)]
    · rw [List.length_range', Nat.sub_zero]
      exact Nat.mul_le_mul_left _ (Nat.div_mul_le_self _ _)
    · intro n _
      rw [length_flatMap_const (k := nInner)]
      · simp
      · simp
  · unfold stackVec
    beta_reduce
    rw [lift_bind h1, lift_bind h2]
    dsimp only
    rw [lift_bind h3, lift_bind h4, lift_bind h5, lift_bind h6, lift_bind h7]
    congr 1
    funext o
    rw [← forR_puts]
    refine forR_congr fun j o _ hj => ?_
    obtain ⟨t, ys, e1, e2, e3⟩ := hall j hj
    have hf : f j = ys := by
      show (match xs[j]? with | some t => t.asSlice.toOption.getD [] | none => []) = ys
      rw [idx_eq_ok.1 e1]
      show t.asSlice.toOption.getD [] = ys
      rw [e3]
      rfl
    rw [lift_bind e1, lift_bind (ensure_true e2), lift_bind e3, hf, ← forR_puts]
    refine forR_congr fun n o _ _ => ?_
    rw [← forR_put]
    rfl

/-- Copies to consecutive slots. -/
def seqPuts (srcs : List (Res α)) (off : Nat) : List (Nat × Res α) := (srcs.zipIdx off).map Prod.swap

theorem seqPuts_append (a b : List (Res α)) (off : Nat) :
    seqPuts (a ++ b) off = seqPuts a off ++ seqPuts b (off + a.length) := by
  unfold seqPuts
  rw [List.zipIdx_append, List.map_append, Nat.add_comm]

/-- A body with a running write offset that copies the sources one after the other. -/
def IsSeq (F : ∀ (m : Type → Type) [Monad m] [MonadLiftT (Except Err) m], (α → m α) → Buf α × Nat → m (Buf α × Nat))
    (srcs : List (Res α)) : Prop :=
  ∀ (m : Type → Type) [Monad m] [LawfulMonad m] [MonadLiftT (Except Err) m] [LawfulMonadLiftT (Except Err) m]
    (clone : α → m α) (st : Buf α × Nat),
    F m clone st = ((seqPuts srcs st.2).foldlM (put clone) st.1 >>= fun o => pure (o, st.2 + srcs.length))

theorem isSeq_forR {n : Nat}
    {F : Nat → ∀ (m : Type → Type) [Monad m] [MonadLiftT (Except Err) m], (α → m α) → Buf α × Nat → m (Buf α × Nat)}
    {srcs : Nat → List (Res α)} (h : ∀ i, IsSeq (F i) (srcs i)) :
    IsSeq (fun m => fun [Monad m] [MonadLiftT (Except Err) m] clone st => forR 0 n st fun i st => F i m clone st)
      ((List.range' 0 (n - 0)).flatMap srcs) := by
  intro m _ _ _ _ clone st
  unfold forR
  beta_reduce
  generalize List.range' 0 (n - 0) = l
  induction l generalizing st with
  | nil =>
    rw [List.foldlM_nil]
    show _ = pure st.1 >>= _
    rw [pure_bind]
    rfl
  | cons i l ih =>
    rw [List.foldlM_cons, h i m clone st, bind_assoc, List.flatMap_cons, seqPuts_append, List.foldlM_append, bind_assoc]
    refine bind_congr fun o => ?_
    rw [pure_bind, ih]
    refine bind_congr fun o => ?_
    rw [List.length_append, Nat.add_assoc]

theorem tileRec_isSeq (x : List α) (a b : List Nat) : ∀ (j xOff xLen : Nat), ∃ srcs : List (Res α),
    IsSeq (fun m => fun [Monad m] [MonadLiftT (Except Err) m] clone st => tileRec (m := m) clone x a b j xOff xLen st) srcs
  | 0, xOff, xLen => by
    have hrep : ∃ r, (if 0 < b.length then idx b 0 else pure 1 : Res Nat) = Except.ok r := by
      split
      · rename_i h; exact ⟨_, idx_lt h⟩
      · exact ⟨1, rfl⟩
    obtain ⟨r, hr⟩ := hrep
    have hall := isSeq_forR (n := r) (F := fun _ m => fun [Monad m] [MonadLiftT (Except Err) m] clone st => do
        let o ← forR 0 xLen st.1 fun i o => do
          let v ← idx x (xOff + i)
          let v ← clone v
          o.write (st.2 + i) v
        return (o, st.2 + xLen)) (srcs := fun _ => (List.range' 0 (xLen - 0)).map fun i => idx x (xOff + i)) (by
      intro _ m _ _ _ _ clone st
      have e : seqPuts ((List.range' 0 (xLen - 0)).map fun i => idx x (xOff + i)) st.2 =
          (List.range' 0 (xLen - 0)).map fun i => (st.2 + i, idx x (xOff + i)) := by
        unfold seqPuts
        apply List.ext_getElem
        · simp
        · intro i h1 h2
          simp
      rw [e, ← forR_put, List.length_map, List.length_range', Nat.sub_zero]
      rfl)
    refine ⟨_, fun m _ _ _ _ clone st => (Eq.trans ?_ (hall m clone st))⟩
    beta_reduce
    rw [tileRec, lift_bind hr]
  | j + 1, xOff, xLen => by
    have hrep : ∃ r, (if j + 1 < b.length then idx b (j + 1) else pure 1 : Res Nat) = Except.ok r := by
      split
      · rename_i h; exact ⟨_, idx_lt h⟩
      · exact ⟨1, rfl⟩
    obtain ⟨r, hr⟩ := hrep
    by_cases hj : j + 1 < a.length
    · have hs := fun i => tileRec_isSeq x a b j (xOff + i * (a.take (j + 1)).foldl (· * ·) 1) ((a.take (j + 1)).foldl (· * ·) 1)
      choose srcs hsrcs using hs
      have hall := isSeq_forR (n := r) (fun _ => isSeq_forR (n := a[j + 1]) hsrcs)
      refine ⟨_, fun m _ _ _ _ clone st => (Eq.trans ?_ (hall m clone st))⟩
      beta_reduce
      rw [tileRec, lift_bind hr]
      refine forR_congr fun i st _ _ => ?_
      rw [if_pos hj, lift_bind (idx_lt hj)]
    · obtain ⟨srcs, hsrcs⟩ := tileRec_isSeq x a b j xOff xLen
      have hall := isSeq_forR (n := r) (fun _ => hsrcs)
      refine ⟨_, fun m _ _ _ _ clone st => (Eq.trans ?_ (hall m clone st))⟩
      beta_reduce
      rw [tileRec, lift_bind hr]
      refine forR_congr fun i st _ _ => ?_
      rw [if_neg hj]

theorem tile_isPuts {t : Tensor α} {multiples : Tensor Nat} {u : Tensor α}
    (h : tile (m := Except Err) pure t multiples = Except.ok u) :
    IsPuts fun m => fun [Monad m] [MonadLiftT (Except Err) m] clone => tile (m := m) clone t multiples := by
  obtain ⟨vec, h1, h⟩ := lift_eq_ok.1 h
  obtain ⟨ms, h2, h⟩ := lift_eq_ok.1 h
  obtain ⟨nInner, h3, h⟩ := lift_eq_ok.1 h
  obtain ⟨slice, h4, h⟩ := lift_eq_ok.1 h
  obtain ⟨mLen, h5, h⟩ := lift_eq_ok.1 h
  obtain ⟨oShapeR, h6, h⟩ := lift_eq_ok.1 h
  obtain ⟨oShape, h7, h⟩ := lift_eq_ok.1 h
  obtain ⟨b, h, _⟩ := bind_eq_ok.1 h
  obtain ⟨j, h8, h⟩ := lift_eq_ok.1 h
  obtain ⟨srcs, hs⟩ := tileRec_isSeq slice vec.reverse ms.reverse j 0 slice.length
  refine ⟨ms.foldl (· * ·) 1 * nInner, oShape, seqPuts srcs 0, fun hok => ?_, fun m _ _ _ _ clone => ?_⟩
  · have hl : (seqPuts srcs 0).length = srcs.length := by simp [seqPuts]
    rw [hl]
    rcases Nat.eq_zero_or_pos srcs.length with h0 | h0
    · omega
    · have hm : (srcs.length - 1, srcs[srcs.length - 1]'(by omega)) ∈ seqPuts srcs 0 := by
        unfold seqPuts
        refine List.mem_map.2 ⟨(srcs[srcs.length - 1]'(by omega), srcs.length - 1), ?_, rfl⟩
        rw [List.mem_zipIdx_iff_getElem?]
        exact List.getElem?_eq_getElem _
      have := (hok _ hm).1
      simp only at this
      omega
  · unfold tile
    beta_reduce
    rw [lift_bind h1]
    dsimp only
    rw [lift_bind h2, lift_bind h3, lift_bind h4, lift_bind h5, lift_bind h6, lift_bind h7]
    congr 1
    funext o
    have := hs m clone (o, 0)
    dsimp only at this
    rw [lift_bind h8, this, bind_assoc]
    simp only [pure_bind, bind_pure]

/-! ## Functions that collect clones into a vector -/

theorem forL_step {β γ : Type} {m : Type → Type} [Monad m] (x : β) (xs : List β) (s : γ) (body : β → γ → m γ) :
    forL (x :: xs) s body = body x s >>= fun s => forL xs s body := rfl

theorem rows_pure {v : List (List α)} {n : Nat} (hall : ∀ v1 ∈ v, n = v1.length) : ∀ acc,
    (forL v acc fun v1 data => do
      ensure (n = v1.length)
      return data ++ v1) = Except.ok (acc ++ v.flatten) := by
  induction v with
  | nil => intro acc; simp [forL]
  | cons v1 v ih =>
    intro acc
    rw [forL_step, ensure_true (hall v1 (by simp)), ok_bind, pure_eq_ok, ok_bind,
      ih fun w hw => hall w (List.mem_cons_of_mem _ hw), List.flatten_cons, List.append_assoc]

theorem rows_mapM {v : List (List α)} {n : Nat} (hall : ∀ v1 ∈ v, n = v1.length) (clone : α → Exec σ α) : ∀ acc,
    (forL v acc fun v1 data => do
      (liftM (ensure (n = v1.length)) : Exec σ Unit)
      let ys ← v1.mapM clone
      return data ++ ys) = (do let vs ← v.flatten.mapM clone; return acc ++ vs) := by
  induction v with
  | nil =>
    intro acc
    rw [List.flatten_nil, List.mapM_nil, pure_bind, List.append_nil]
    rfl
  | cons v1 v ih =>
    intro acc
    rw [forL_step, ensure_true (hall v1 (by simp)), lift_ok, pure_bind, List.flatten_cons, List.mapM_append]
    simp only [bind_assoc, pure_bind, ih fun w hw => hall w (List.mem_cons_of_mem _ hw), List.append_assoc]

theorem checks_loop {ts : List (Tensor α)} {n : Nat} {sh : Shape} (hall : ∀ v ∈ ts, n = v.size ∧ sh = v.shape) :
    (forL ts () fun value _ => do
      (liftM (ensure (n = value.size)) : Exec σ Unit)
      (liftM (ensure (sh = value.shape)) : Exec σ Unit)) = pure () := by
  induction ts with
  | nil => rfl
  | cons v ts ih =>
    have := hall v (by simp)
    rw [forL_step, ensure_true this.1, ensure_true this.2, lift_ok, pure_bind, pure_bind]
    exact ih fun w hw => hall w (List.mem_cons_of_mem _ hw)


theorem mapM_length {clone : α → Exec σ α} : ∀ {l : List α} {s s' : σ} {vs : List α},
    (l.mapM clone).run s = Except.ok (vs, s') → vs.length = l.length := by
  intro l
  induction l with
  | nil =>
    intro s s' vs h
    rw [List.mapM_nil] at h
    have := Except.ok.inj h
    rw [Prod.mk.injEq] at this
    rw [← this.1]
  | cons q l ih =>
    intro s s' vs h
    rw [List.mapM_cons, StateT.run_bind] at h
    obtain ⟨⟨v, s1⟩, _, h⟩ := bind_eq_ok.1 h
    rw [StateT.run_bind] at h
    obtain ⟨⟨vs', s2⟩, h1, h⟩ := bind_eq_ok.1 h
    have := Except.ok.inj h
    simp only [Prod.mk.injEq] at this
    rw [← this.1, List.length_cons, List.length_cons, ih h1]

theorem copiesOnce_vec {ys : List α} {shape : Shape} {t : Tensor α} {ds : List Nat} {ys' : List α}
    (ht : Tensor.fromVec ys shape = Except.ok t) (hr : Rep t ds ys') (clone : α → Exec σ α) {x : Exec σ (Tensor α)}
    {g : List α → Exec σ (Tensor α)} (hx : x = ys.mapM clone >>= g)
    (hg : ∀ vs, vs.length = ys.length → g vs = liftM (Tensor.fromVec vs shape)) : CopiesOnce clone x ds ys' := by
  obtain ⟨hs, rfl⟩ := new_eq_ok ht
  have hdata : ys = ys' := by
    have := hr.elems
    unfold Tensor.asSlice rawSlice at this
    simp at this
    exact this
  subst hdata
  refine ⟨ys.zipIdx.map Prod.swap, List.Perm.refl _, fun s => ?_⟩
  have hm : ((ys.zipIdx.map Prod.swap).mapM fun p => clone p.2) = ys.mapM clone := by
    have e : (ys.zipIdx.map Prod.swap).map Prod.snd = ys := by
      rw [List.map_map]
      exact List.zipIdx_map_fst 0 ys
    conv_rhs => rw [← e, List.mapM_map]
    rfl
  rw [hm, hx, StateT.run_bind]
  cases h : (ys.mapM clone).run s with
  | error e => rfl
  | ok r =>
    obtain ⟨vs, s'⟩ := r
    have hl := mapM_length h
    have hnew : Tensor.fromVec vs shape = Except.ok { shape, offset := 0, size := vs.length, data := vs } := by
      unfold Tensor.fromVec Tensor.new
      rw [hs, ok_bind, ensure_true (by omega)]; rfl
    refine ⟨⟨shape, 0, vs.length, vs⟩, vs, ?_, ?_, hl, fun q hq => ?_⟩
    · show (g vs).run s' = _
      rw [hg vs hl, hnew]
      rfl
    · refine ⟨⟨hr.wf.shape, by rw [hs, hl], by simp⟩, hr.dims, ?_⟩
      unfold Tensor.asSlice rawSlice
      simp
    · rw [zipIdx_fst] at hq
      obtain ⟨i, hi⟩ := List.mem_iff_getElem?.1 hq
      rw [List.getElem?_zip_eq_some] at hi
      rw [List.getElem?_range (by
        by_contra hge
        rw [List.getElem?_eq_none (by simpa using hge)] at hi
        cases hi.1)] at hi
      rw [← Option.some.inj hi.1]
      exact hi.2

theorem concatSlices_mapM {ts : List (Tensor α)} {rs : List (List Nat × List α)} (h : RepAll ts rs) (clone : α → Exec σ α) :
    concatSlices clone ts = (rs.flatMap Prod.snd).mapM clone := by
  have : ∀ acc, (forL ts acc fun t acc => do
      let xs ← (liftM t.asSlice : Exec σ (List α))
      let ys ← xs.mapM clone
      return acc ++ ys) = (do let vs ← (rs.flatMap Prod.snd).mapM clone; return acc ++ vs) := by
    induction h with
    | nil =>
      intro acc
      rw [List.flatMap_nil, List.mapM_nil, pure_bind, List.append_nil]
      rfl
    | cons h _ ih =>
      intro acc
      rw [forL_step, h.elems, lift_ok, pure_bind, List.flatMap_cons, List.mapM_append]
      simp only [bind_assoc, pure_bind, ih, List.append_assoc]
  have := this []
  unfold concatSlices
  rw [this]
  simp

theorem concatSlices_pure {ts : List (Tensor α)} {rs : List (List Nat × List α)} (h : RepAll ts rs) :
    Tensor.concatSlices ts = Except.ok (rs.flatMap Prod.snd) := by
  have : ∀ acc, (forL ts acc fun t acc => do
      let xs ← t.asSlice
      return acc ++ xs) = Except.ok (acc ++ rs.flatMap Prod.snd) := by
    induction h with
    | nil => intro acc; simp [forL]
    | cons h _ ih =>
      intro acc
      rw [forL_step, h.elems, ok_bind, pure_eq_ok, ok_bind, ih, List.flatMap_cons, List.append_assoc]
  exact this []

theorem fromMerge_copies {ts : List (Tensor α)} {rs : List (List Nat × List α)} (h : RepAll ts rs) {shape : Shape}
    {t : Tensor α} {ds : List Nat} {ys : List α} (ht : Tensor.fromMerge ts shape = Except.ok t) (hr : Rep t ds ys)
    (clone : α → Exec σ α) : CopiesOnce clone (fromMerge clone ts shape) ds ys := by
  unfold Tensor.fromMerge at ht
  obtain ⟨n, h1, ht⟩ := bind_eq_ok.1 ht
  obtain ⟨_, h2, ht⟩ := bind_eq_ok.1 ht
  rw [concatSlices_pure h, ok_bind] at ht
  refine copiesOnce_vec ht hr clone (g := fun vs => liftM (Tensor.fromVec vs shape)) ?_ fun _ _ => rfl
  unfold fromMerge
  dsimp only
  rw [h1, lift_ok, pure_bind, h2, lift_ok, pure_bind, concatSlices_mapM h]

theorem append_copies {t u : Tensor α} {dt du : List Nat} {xt xu : List α} (h1 : Rep t dt xt) (h2 : Rep u du xu)
    {o : Tensor α} {ds : List Nat} {ys : List α} (ho : t.append u = Except.ok o) (hr : Rep o ds ys)
    (clone : α → Exec σ α) : CopiesOnce clone (append clone t u) ds ys := by
  unfold Tensor.append at ho
  obtain ⟨a, e1, ho⟩ := bind_eq_ok.1 ho
  obtain ⟨b, e2, ho⟩ := bind_eq_ok.1 ho
  obtain ⟨_, e3, ho⟩ := bind_eq_ok.1 ho
  obtain ⟨vec, e4, ho⟩ := bind_eq_ok.1 ho
  obtain ⟨d, e5, ho⟩ := bind_eq_ok.1 ho
  obtain ⟨e, e6, ho⟩ := bind_eq_ok.1 ho
  obtain ⟨vec', e7, ho⟩ := bind_eq_ok.1 ho
  obtain ⟨shape, e8, ho⟩ := bind_eq_ok.1 ho
  have := fromMerge_copies (.cons h1 (.cons h2 .nil)) ho hr clone
  unfold append
  rw [e1, lift_ok, pure_bind, e2, lift_ok, pure_bind, e3, lift_ok, pure_bind, e4, lift_ok, pure_bind, e5, lift_ok, pure_bind,
    e6, lift_ok, pure_bind, e7, lift_ok, pure_bind, e8, lift_ok, pure_bind]
  exact this

theorem joinVec_copies {v : List (List α)} {o : Tensor α} {ds : List Nat} {ys : List α}
    (ho : Tensor.joinVec v = Except.ok o) (hr : Rep o ds ys) (clone : α → Exec σ α) :
    CopiesOnce clone (joinVec clone v) ds ys := by
  unfold Tensor.joinVec at ho
  obtain ⟨shape, e1, ho⟩ := bind_eq_ok.1 ho
  refine copiesOnce_vec ho hr clone rfl fun vs hl => ?_
  beta_reduce
  rw [hl, e1, lift_ok, pure_bind]

theorem ofVec1_copies {v : List α} {o : Tensor α} {ds : List Nat} {ys : List α}
    (ho : Tensor.ofVec1 v = Except.ok o) (hr : Rep o ds ys) (clone : α → Exec σ α) :
    CopiesOnce clone (ofVec1 clone v) ds ys := by
  unfold Tensor.ofVec1 at ho
  obtain ⟨shape, e1, ho⟩ := bind_eq_ok.1 ho
  refine copiesOnce_vec ho hr clone rfl fun vs hl => ?_
  beta_reduce
  rw [hl, e1, lift_ok, pure_bind]

theorem ofRows_copies {N : Nat} {v : List (Vector α N)} {o : Tensor α} {ds : List Nat} {ys : List α}
    (ho : Tensor.ofRows v = Except.ok o) (hr : Rep o ds ys) (clone : α → Exec σ α) :
    CopiesOnce clone (ofRows clone v) ds ys := by
  unfold Tensor.ofRows at ho
  obtain ⟨shape, e1, ho⟩ := bind_eq_ok.1 ho
  refine copiesOnce_vec ho hr clone rfl fun vs hl => ?_
  beta_reduce
  rw [e1, lift_ok, pure_bind]

theorem ofVec2_copies {v : List (List α)} {o : Tensor α} {ds : List Nat} {ys : List α}
    (ho : Tensor.ofVec2 v = Except.ok o) (hr : Rep o ds ys) (clone : α → Exec σ α) :
    CopiesOnce clone (ofVec2 clone v) ds ys := by
  unfold Tensor.ofVec2 at ho
  obtain ⟨r0, e1, ho⟩ := bind_eq_ok.1 ho
  obtain ⟨data, e2, ho⟩ := bind_eq_ok.1 ho
  obtain ⟨shape, e3, ho⟩ := bind_eq_ok.1 ho
  have hall : ∀ v1 ∈ v, r0.length = v1.length := fun v1 hv => by
    obtain ⟨a, b, e⟩ := forL_ok_all e2 v1 hv
    exact (ensure_bind_eq_ok.1 e).1
  have hd : data = v.flatten := by
    have := rows_pure hall []
    rw [e2] at this
    exact Except.ok.inj this
  subst hd
  refine copiesOnce_vec ho hr clone (g := fun vs => liftM (Tensor.fromVec vs shape)) ?_ fun _ _ => rfl
  unfold ofVec2
  rw [e1, lift_ok, pure_bind]
  dsimp only
  rw [rows_mapM hall, e3]
  simp

theorem ofTensors_copies {ts : List (Tensor α)} {rs : List (List Nat × List α)} (h : RepAll ts rs)
    {t : Tensor α} {ds : List Nat} {ys : List α} (ht : Tensor.ofTensors ts = Except.ok t) (hr : Rep t ds ys)
    (clone : α → Exec σ α) : CopiesOnce clone (ofTensors clone ts) ds ys := by
  unfold Tensor.ofTensors at ht
  obtain ⟨_, e1, ht⟩ := bind_eq_ok.1 ht
  obtain ⟨v0, e2, ht⟩ := bind_eq_ok.1 ht
  obtain ⟨_, e3, ht⟩ := bind_eq_ok.1 ht
  rw [concatSlices_pure h, ok_bind] at ht
  obtain ⟨shape, e4, ht⟩ := bind_eq_ok.1 ht
  refine copiesOnce_vec ht hr clone (g := fun vs => liftM (Tensor.fromVec vs shape)) ?_ fun _ _ => rfl
  unfold ofTensors
  dsimp only
  rw [e1, lift_ok, pure_bind, e2, lift_ok, pure_bind]
  have hall : ∀ v ∈ ts, v0.size = v.size ∧ v0.shape = v.shape := fun v hv => by
    obtain ⟨a, b, e⟩ := forL_ok_all e3 v hv
    have := ensure_bind_eq_ok.1 e
    exact ⟨this.1, ensure_eq_ok.1 this.2⟩
  rw [checks_loop hall, pure_bind, concatSlices_mapM h, e4]
  simp

/-! ## Several results -/

theorem splitInner_agrees (t : Tensor α) (axis nOuter nInner axisLen : Nat) (x : List α) (cuts : List Nat) : ∀ prev,
    splitInner (m := Except Err) pure t axis nOuter nInner axisLen x cuts prev =
      t.splitInner axis nOuter nInner axisLen x cuts prev := by
  induction cuts with
  | nil => intro prev; rfl
  | cons c cuts ih =>
    intro prev
    unfold splitInner Tensor.splitInner
    simp only [ih]
    rfl

theorem splitAxis_agrees (t : Tensor α) (axis : Axis) (s : Tensor.Sections) :
    splitAxis (m := Except Err) pure t axis s = t.splitAxis axis s := by
  unfold splitAxis Tensor.splitAxis
  refine bind_congr fun a => bind_congr fun len => bind_congr fun cuts => ?_
  split
  · rfl
  · unfold Tensor.splitByAxis
    simp only [splitInner_agrees]
    refine bind_congr fun nOuter => ?_
    exact ite_bind_res _ _ _

theorem splitInner_copies {t : Tensor α} {axis nOuter nInner axisLen : Nat} {x : List α} (clone : α → Exec σ α) :
    ∀ {cuts : List Nat} {prev : Nat} {us : List (Tensor α)} {rs : List (List Nat × List α)},
      t.splitInner axis nOuter nInner axisLen x cuts prev = Except.ok us → RepAll us rs →
      CopiesEach clone (splitInner clone t axis nOuter nInner axisLen x cuts prev) rs
  | [], _, us, rs, h, hr => by
    obtain rfl := Except.ok.inj h
    cases hr
    exact .nil
  | cut :: cuts, prev, us, rs, h, hr => by
    unfold Tensor.splitInner at h
    unfold splitInner
    split at h
    · rename_i e
      rw [if_pos e]
      exact splitInner_copies clone h hr
    · rename_i e
      rw [if_neg e]
      obtain ⟨p, h1, h⟩ := bind_eq_ok.1 h
      obtain ⟨rest, h2, h⟩ := bind_eq_ok.1 h
      obtain rfl := Except.ok.inj h
      cases hr with
      | cons hp hrest =>
        rw [← splitPiece_agrees] at h1
        exact .cons ((splitPiece_isPuts h1).copiesOnce h1 hp clone) (splitInner_copies clone h2 hrest)

theorem splitAxis_copies {t : Tensor α} {axis : Axis} {s : Tensor.Sections} {us : List (Tensor α)}
    {rs : List (List Nat × List α)} (h : t.splitAxis axis s = Except.ok us) (hr : RepAll us rs)
    (ha : axis.axisFromRank t.shape.rank ≠ Except.ok 0) (clone : α → Exec σ α) :
    CopiesEach clone (splitAxis clone t axis s) rs := by
  unfold Tensor.splitAxis at h
  obtain ⟨a, e1, h⟩ := bind_eq_ok.1 h
  obtain ⟨len, e2, h⟩ := bind_eq_ok.1 h
  obtain ⟨cuts, e3, h⟩ := bind_eq_ok.1 h
  have ha : a ≠ 0 := by rintro rfl; exact ha e1
  rw [if_neg ha] at h
  unfold Tensor.splitByAxis at h
  obtain ⟨nOuter, e4, h⟩ := bind_eq_ok.1 h
  have hb : ∃ nInner, (if a < t.shape.rank then t.shape.sublen (a + 1) t.shape.rank else pure 1 : Res Nat) =
      Except.ok nInner ∧ (do
        let axisLen ← t.shape.dim a
        let x ← t.asSlice
        t.splitInner a nOuter nInner axisLen x cuts 0) = Except.ok us := by
    split at h
    · rename_i hlt
      obtain ⟨nInner, e5, h⟩ := bind_eq_ok.1 h
      exact ⟨nInner, by rw [if_pos hlt, e5], h⟩
    · rename_i hlt
      exact ⟨1, by rw [if_neg hlt]; rfl, h⟩
  obtain ⟨nInner, e5, h⟩ := hb
  obtain ⟨axisLen, e6, h⟩ := bind_eq_ok.1 h
  obtain ⟨x, e7, h⟩ := bind_eq_ok.1 h
  unfold splitAxis
  rw [e1, lift_ok, pure_bind, e2, lift_ok, pure_bind, e3, lift_ok, pure_bind, if_neg ha, e4, lift_ok, pure_bind, e5, lift_ok,
    pure_bind, pure_bind, e7, lift_ok, pure_bind]
  rw [e2] at e6
  obtain rfl := Except.ok.inj e6
  exact splitInner_copies clone h hr

theorem splitAxis_views {t : Tensor α} {axis : Axis} {s : Tensor.Sections}
    (ha : axis.axisFromRank t.shape.rank = Except.ok 0) (clone : α → Exec σ α) :
    splitAxis clone t axis s = liftM (t.splitAxis axis s) := by
  unfold splitAxis Tensor.splitAxis
  rw [ha, lift_ok, pure_bind, ok_bind]
  cases t.shape.dim 0 with
  | error e => rfl
  | ok len =>
    rw [lift_ok, pure_bind, ok_bind]
    cases Tensor.sectionCuts len s with
    | error e => rfl
    | ok cuts => rfl

theorem CopiesEach.congr {clone : α → Exec σ α} {x y : Exec σ (List (Tensor α))} {rs : List (List Nat × List α)}
    (h : CopiesEach clone x rs) (e : y = x) : CopiesEach clone y rs := e ▸ h

theorem repAll_append {ts us : List (Tensor α)} {ps qs : List (List Nat × List α)} (h : RepAll ts ps) (h' : RepAll us qs) :
    RepAll (ts ++ us) (ps ++ qs) := by
  induction h with
  | nil => exact h'
  | cons h _ ih => exact .cons h ih

theorem repAll_reverse {ts : List (Tensor α)} {ps : List (List Nat × List α)} (h : RepAll ts ps) :
    RepAll ts.reverse ps.reverse := by
  induction h with
  | nil => exact .nil
  | cons h _ ih =>
    rw [List.reverse_cons, List.reverse_cons]
    exact repAll_append ih (.cons h .nil)

theorem mesh_loop {axes : List (Tensor α)} (hw : ∀ t ∈ axes, ∃ ds xs, Rep t ds xs) {shape : Shape} (clone : α → Exec σ α) :
    ∀ {acc : List (Tensor α)} {k : Nat} {st : List (Tensor α) × Nat},
      (forL axes (acc, k) fun x st => do
        let t ← Init.buildMeshgridAxis x shape st.2
        return (st.1 ++ [t], st.2 * x.size)) = Except.ok st →
      ∃ us, st.1 = acc ++ us ∧ ∀ rs, RepAll us rs → ∃ y, CopiesEach clone y rs ∧
        ∀ acc', (forL axes (acc', k) fun x st => do
          let t ← buildMeshgridAxis clone x shape st.2
          return (st.1 ++ [t], st.2 * x.size)) = (do let ts ← y; return (acc' ++ ts, st.2)) := by
  induction axes with
  | nil =>
    intro acc k st h
    obtain rfl := Except.ok.inj h
    refine ⟨[], by simp, fun rs hr => ?_⟩
    cases hr
    refine ⟨_, .nil, fun acc' => ?_⟩
    rw [pure_bind, List.append_nil]
    rfl
  | cons a axes ih =>
    intro acc k st h
    unfold forL at h
    rw [List.foldlM_cons] at h
    obtain ⟨st1, h1, h⟩ := bind_eq_ok.1 h
    obtain ⟨t, ht, h1⟩ := bind_eq_ok.1 h1
    obtain rfl := Except.ok.inj h1
    obtain ⟨us, e, ih⟩ := ih (fun t ht => hw t (List.mem_cons_of_mem _ ht)) h
    refine ⟨t :: us, by rw [e]; simp, fun rs hr => ?_⟩
    cases hr with
    | cons hp hrest =>
      obtain ⟨y, hy, ih⟩ := ih _ hrest
      obtain ⟨ds, xs, ha⟩ := hw a (by simp)
      rw [← buildMeshgridAxis_agrees] at ht
      refine ⟨_, .cons ((buildMeshgridAxis_isPuts ha ht).copiesOnce ht hp clone) hy, fun acc' => ?_⟩
      unfold forL at ih ⊢
      rw [List.foldlM_cons]
      simp only [bind_assoc, pure_bind, ih, List.append_assoc, List.singleton_append]

theorem buildMeshgrid_agrees (axes : List (Tensor α)) (order : Init.Order) :
    buildMeshgrid (m := Except Err) pure axes order = Init.buildMeshgrid axes order := rfl

theorem buildMeshgrid_copies {axes : List (Tensor α)} {ps : List (List Nat × List α)} (hw : RepAll axes ps)
    {order : Init.Order} {us : List (Tensor α)} {rs : List (List Nat × List α)}
    (h : Init.buildMeshgrid axes order = Except.ok us) (hr : RepAll us rs) (clone : α → Exec σ α) :
    match order with
    | .XY => CopiesEach clone (buildMeshgrid clone axes .XY) rs
    | .IJ => ∃ x, CopiesEach clone x rs.reverse ∧ buildMeshgrid clone axes .IJ = List.reverse <$> x := by
  have hw' : ∀ t ∈ axes, ∃ ds xs, Rep t ds xs := by
    clear h hr
    induction hw with
    | nil => simp
    | cons h _ ih =>
      intro t ht
      rcases List.mem_cons.1 ht with rfl | ht
      · exact ⟨_, _, h⟩
      · exact ih t ht
  unfold Init.buildMeshgrid at h
  obtain ⟨shape, e1, h⟩ := bind_eq_ok.1 h
  obtain ⟨st, e2, h⟩ := bind_eq_ok.1 h
  obtain ⟨us', e3, hc⟩ := mesh_loop (σ := σ) (fun t ht => hw' t (by
    rw [List.mem_reverse] at ht
    split at ht
    · exact List.mem_reverse.1 ht
    · exact ht)) clone e2
  rw [List.nil_append] at e3
  cases order with
  | XY =>
    have h : (if Init.Order.XY = Init.Order.IJ then st.1.reverse else st.1) = us := Except.ok.inj h
    rw [if_neg (by decide), e3] at h
    subst h
    obtain ⟨y, hy, hc⟩ := hc _ hr
    refine CopiesEach.congr hy ?_
    unfold buildMeshgrid
    dsimp only
    rw [e1, lift_ok, pure_bind, hc]
    simp
  | IJ =>
    have h : (if Init.Order.IJ = Init.Order.IJ then st.1.reverse else st.1) = us := Except.ok.inj h
    rw [if_pos rfl, e3] at h
    subst h
    have hr' : RepAll us' rs.reverse := by
      have := repAll_reverse hr
      rwa [List.reverse_reverse] at this
    obtain ⟨y, hy, hc⟩ := hc _ hr'
    refine ⟨y, hy, ?_⟩
    unfold buildMeshgrid
    dsimp only
    rw [e1, lift_ok, pure_bind, hc, map_eq_pure_bind]
    simp

theorem lift_puts : ∀ (ps : List (Nat × Res α)) (o : Buf α),
    ps.foldlM (put (m := Exec σ) pure) o = (liftM (ps.foldlM (put (m := Except Err) pure) o) : Exec σ (Buf α))
  | [], o => rfl
  | p :: ps, o => by
    rw [List.foldlM_cons, List.foldlM_cons]
    have e : put (m := Exec σ) pure o p = liftM (put (m := Except Err) pure o p) := by
      unfold put
      cases p.2 <;> rfl
    rw [e]
    cases put (m := Except Err) pure o p with
    | error e => rfl
    | ok o' =>
      rw [lift_ok, pure_bind, lift_puts ps o']
      rfl

theorem fill_agrees (s : Shape) (v : α) : fill (m := Except Err) pure s v = Tensor.fill s v := by
  have e : Tensor.fill s v = Tensor.runPure (fill (m := Exec Unit) pure s v) := rfl
  rw [e]
  cases hs : s.size with
  | error er =>
    unfold fill
    rw [hs]
    rfl
  | ok n =>
    obtain ⟨n', shape, ps, _, h⟩ := fill_isPuts s v hs
    have h1 := h (Except Err) pure
    have h2 := h (Exec Unit) pure
    beta_reduce at h1 h2
    rw [h1, h2]
    unfold unsafeInit
    beta_reduce
    rw [lift_puts]
    cases ps.foldlM (put (m := Except Err) pure) (Buf.uninit n') with
    | error er => rfl
    | ok b =>
      rw [lift_ok, pure_bind, ok_bind]
      cases Tensor.finish b shape <;> rfl

end Clones

end Essay
