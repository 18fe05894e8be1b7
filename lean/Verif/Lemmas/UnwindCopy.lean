import Verif.Lemmas.Unwind

/-! # Helper lemmas for copies and panics (no claims here) -/

namespace Essay

open Shape

variable {α β γ σ : Type}

namespace Clones

theorem puts_clone_all {m : Type → Type} [Monad m] [LawfulMonad m] [MonadLiftT (Except Err) m]
    [LawfulMonadLiftT (Except Err) m] (clone : α → m α) : ∀ (qs : List (Nat × α)) (o : Buf α), (∀ q ∈ qs, q.1 < o.length) →
    (qs.map (fun q => (q.1, Except.ok q.2))).foldlM (put clone) o =
      ((qs.mapM fun q => clone q.2) >>= fun vs => pure (sets o ((qs.map Prod.fst).zip vs)))
  | [], o, _ => by
    rw [List.map_nil, List.foldlM_nil, List.mapM_nil, pure_bind]; rfl
  | q :: qs, o, h => by
    rw [List.map_cons, List.foldlM_cons, List.mapM_cons]
    have hq := h q (by simp)
    have ih := fun v : α => puts_clone_all clone qs (o.set q.1 (some v)) fun r hr => by
      rw [List.length_set]; exact h r (List.mem_cons_of_mem _ hr)
    have hput : put clone o (q.1, Except.ok q.2) = clone q.2 >>= fun v => pure (o.set q.1 (some v)) := by
      unfold put
      rw [lift_ok', pure_bind]
      refine bind_congr fun v => ?_
      have e : o.write q.1 v = Except.ok (o.set q.1 (some v)) := if_pos hq
      rw [e, lift_ok']
    rw [hput, bind_assoc, bind_assoc]
    refine bind_congr fun v => ?_
    rw [pure_bind, ih v, bind_assoc]
    refine bind_congr fun vs => ?_
    rw [pure_bind]
    rfl

/-- The list of writes of an initialiser that succeeds: each slot once, and any values fill the block. -/
theorem puts_core {n : Nat} {shape : Shape} {ps : List (Nat × Res α)}
    (hl : (∀ p ∈ ps, p.1 < n ∧ ∃ v, p.2 = Except.ok v) → ps.length ≤ n) {t : Tensor α} {ds : List Nat} {ys : List α}
    (ht : Tensor.unsafeInit n shape (fun o => ps.foldlM (put (m := Except Err) pure) o) = Except.ok t) (hr : Rep t ds ys) :
    ∃ qs : List (Nat × α), ps = qs.map (fun q => (q.1, Except.ok q.2)) ∧ (∀ q ∈ qs, q.1 < n) ∧
      qs.Perm (ys.zipIdx.map Prod.swap) ∧ ∀ vs : List α, vs.length = qs.length → ∃ t' zs,
        Tensor.finish (sets (Buf.uninit n) ((qs.map Prod.fst).zip vs)) shape = Except.ok t' ∧ Rep t' ds zs ∧
          t'.data = zs ∧ zs.length = ys.length ∧ ∀ p ∈ (qs.map Prod.fst).zip vs, zs[p.1]? = some p.2 := by
  unfold Tensor.unsafeInit at ht
  obtain ⟨b, hb, ht⟩ := bind_eq_ok.1 ht
  obtain ⟨qs, rfl, hin, rfl⟩ := puts_ok ps _ _ hb
  unfold Tensor.finish at ht
  cases hc : (sets (Buf.uninit n) qs).complete with
  | none => rw [hc] at ht; cases ht
  | some data =>
    rw [hc] at ht
    have ht : Tensor.new data shape = Except.ok t := ht
    have hc := complete_iff.1 hc
    obtain ⟨hs, rfl⟩ := new_eq_ok ht
    have hdata : data = ys := by
      have := hr.elems
      unfold Tensor.asSlice rawSlice at this
      simp at this
      exact this
    subst hdata
    have hlen : data.length = n := by
      have := congrArg List.length hc
      rw [sets_length] at this
      simpa [Buf.uninit] using this.symm
    have hul : (Buf.uninit n : Buf α).length = n := by simp [Buf.uninit]
    rw [hul] at hin
    replace hl := hl fun p hp => by
      obtain ⟨q, hq, rfl⟩ := List.mem_map.1 hp
      exact ⟨hin q hq, q.2, rfl⟩
    rw [List.length_map] at hl
    have hsub : List.range n ⊆ qs.map Prod.fst := by
      intro i hi
      rw [List.mem_range] at hi
      by_contra hne
      have := sets_other qs (Buf.uninit n) hne
      rw [hc] at this
      simp [Buf.uninit, hi, hlen] at this
    have hperm : (List.range n).Perm (qs.map Prod.fst) :=
      (List.subperm_of_subset List.nodup_range hsub).perm_of_length_le (by simpa using hl)
    have hnd : (qs.map Prod.fst).Nodup := hperm.nodup_iff.1 List.nodup_range
    have hval : ∀ q ∈ qs, data[q.1]? = some q.2 := by
      intro q hq
      have := sets_get qs (Buf.uninit n) hnd (by rwa [hul]) q hq
      rw [hc] at this
      simpa using this
    refine ⟨qs, rfl, hin, ?_, fun vs hvl => ?_⟩
    · refine List.Subperm.perm_of_length_le (List.subperm_of_subset (List.Nodup.of_map _ hnd) fun q hq =>
        zipIdx_mem.2 (hval q hq)) ?_
      have := hperm.length_eq
      simp at this
      simp [hlen, this]
    · have hz : ((qs.map Prod.fst).zip vs).map Prod.fst = qs.map Prod.fst := List.map_fst_zip (by simp [hvl])
      have hin' : ∀ q ∈ (qs.map Prod.fst).zip vs, q.1 < (Buf.uninit n : Buf α).length := by
        intro q hq
        have hm : q.1 ∈ qs.map Prod.fst := by rw [← hz]; exact List.mem_map_of_mem hq
        obtain ⟨r, hr, e⟩ := List.mem_map.1 hm
        rw [hul, ← e]; exact hin r hr
      have hget := sets_get ((qs.map Prod.fst).zip vs) (Buf.uninit n) (by rw [hz]; exact hnd) hin'
      have hall : ∃ zs : List α, sets (Buf.uninit n) ((qs.map Prod.fst).zip vs) = zs.map some := by
        have : ∀ b : Buf α, (∀ i, i < b.length → ∃ v, b[i]? = some (some v)) → ∃ zs : List α, b = zs.map some := by
          intro b
          induction b with
          | nil => intro _; exact ⟨[], rfl⟩
          | cons x b ih =>
            intro h
            obtain ⟨v, hv⟩ := h 0 (by simp)
            obtain ⟨zs, rfl⟩ := ih fun i hi => by simpa using h (i + 1) (by simpa using hi)
            refine ⟨v :: zs, ?_⟩
            simp at hv
            rw [hv]; rfl
        refine this _ fun i hi => ?_
        rw [sets_length, hul] at hi
        have hi' : i ∈ ((qs.map Prod.fst).zip vs).map Prod.fst := by
          rw [hz]; exact hsub (List.mem_range.2 hi)
        obtain ⟨q, hq, rfl⟩ := List.mem_map.1 hi'
        exact ⟨q.2, hget q hq⟩
      obtain ⟨zs, hzs⟩ := hall
      have hzl : zs.length = n := by
        have := congrArg List.length hzs
        rw [sets_length, hul, List.length_map] at this
        exact this.symm
      have hnew : Tensor.new zs shape = Except.ok { shape, offset := 0, size := zs.length, data := zs } := by
        unfold Tensor.new
        rw [hs, ok_bind, ensure_true (by omega)]; rfl
      refine ⟨⟨shape, 0, zs.length, zs⟩, zs, ?_, ?_, rfl, by omega, fun q hq => ?_⟩
      · unfold Tensor.finish
        rw [hzs, Buf.complete_map_some]
        exact hnew
      · refine ⟨⟨hr.wf.shape, by rw [hs, hzl, hlen], by simp⟩, hr.dims, ?_⟩
        unfold Tensor.asSlice rawSlice
        simp
      · have := hget q hq
        rw [hzs] at this
        simpa using this

end Clones

/-- The clones of a list, one after the other, in the ledger. -/
theorem go_mapM_track (c : α → σ → Except Err α × σ) : ∀ (ys : List α) (l : Ledger α σ),
    (ys.mapM (Own.track c) : Own α σ (List α)).go l = match copyRun c ys l.env with
      | (vs, e, some er) => (.error er, ⟨l.made ++ vs, l.dropped, e⟩)
      | (vs, e, none) => (.ok vs, ⟨l.made ++ vs, l.dropped, e⟩)
  | [], l => by
    rw [List.mapM_nil]
    show (Except.ok [], l) = (Except.ok [], _)
    simp
  | y :: ys, l => by
    rw [List.mapM_cons, Own.go_bind]
    unfold Own.track
    rw [Own.go_of]
    unfold copyRun
    rcases c y l.env with ⟨er | v, e⟩
    · simp
    · dsimp only
      rw [Own.go_bind]
      have := go_mapM_track c ys ⟨l.made ++ [v], l.dropped, e⟩
      unfold Own.track at this
      rw [this]
      rcases copyRun c ys e with ⟨vs, e', _ | er⟩
      · simp [Own.go_pure]
      · simp

theorem copyRun_length {c : α → σ → Except Err α × σ} : ∀ {ys : List α} {e e' : σ} {vs : List α},
    copyRun c ys e = (vs, e', none) → vs.length = ys.length
  | [], e, e', vs, h => by
    simp only [copyRun, Prod.mk.injEq] at h
    rw [← h.1]
  | y :: ys, e, e', vs, h => by
    unfold copyRun at h
    rcases hc : c y e with ⟨er | v, e1⟩
    · rw [hc] at h; simp at h
    · rw [hc] at h
      dsimp only at h
      rcases hr : copyRun c ys e1 with ⟨vs', e2, o⟩
      rw [hr] at h
      simp only [Prod.mk.injEq] at h
      obtain ⟨rfl, rfl, rfl⟩ := h
      rw [List.length_cons, List.length_cons, copyRun_length hr]

theorem Clones.IsPuts.copiesIn
    {F : ∀ (m : Type → Type) [Monad m] [MonadLiftT (Except Err) m], (α → m α) → m (Tensor α)} (h : Clones.IsPuts F)
    {t : Tensor α} {ds : List Nat} {ys : List α} (ht : F (Except Err) pure = Except.ok t) (hr : Rep t ds ys)
    (c : α → σ → Except Err α × σ) : CopiesIn c (F (Own α σ) (Own.track c)) ds ys fun _ => [] := by
  obtain ⟨n, shape, ps, hl, e⟩ := h
  rw [e] at ht ⊢
  obtain ⟨qs, rfl, hin, hp, hfin⟩ := Clones.puts_core hl ht hr
  refine ⟨qs, hp, fun l => ?_⟩
  unfold Clones.unsafeInit
  dsimp only
  rw [Clones.puts_clone_all _ qs _ (by simpa [Buf.uninit] using hin), bind_assoc]
  simp only [pure_bind]
  rw [show (qs.mapM fun q => (Own.track c q.2 : Own α σ α)) = (qs.map Prod.snd).mapM (Own.track c) by
    rw [List.mapM_map]; rfl, Own.go_bind, go_mapM_track]
  rcases hc : copyRun c (qs.map Prod.snd) l.env with ⟨vs, e', _ | (_ | _)⟩
  · dsimp only
    have hv := copyRun_length hc
    rw [List.length_map] at hv
    obtain ⟨t', zs, hf, hrep, hd, hlen, hget⟩ := hfin vs hv
    have hq := hp.length_eq
    simp at hq
    refine ⟨t', zs, ?_, hrep, hd, hlen, by omega, hget⟩
    rw [hf]
    rfl
  · dsimp only
    rw [List.append_nil]
  · rfl

/-! ## Vectors -/

namespace Settled

open Unwind

variable {k : Nat} {clone : α → Own α σ α}

theorem heldLift {own : List α} {toks : β → List α} {post : β → Prop} (r : Res β)
    (h : ∀ b, r = .ok b → (toks b).Perm own ∧ post b) :
    Settled k own (Unwinds.holding own (liftM r : Own α σ β) : Own α σ β) toks post := by
  refine ((lift (post := fun b => (toks b).Perm own ∧ post b) (toks := fun _ => []) (k := k) (σ := σ) r
    fun b hb => ⟨rfl, h b hb⟩).held own).imp (by simp) fun b hb => ⟨hb.2, by simpa using hb.1⟩

theorem fromVec (data : List α) (shape : Shape) :
    Settled k data (Unwind.fromVec data shape : Own α σ (Tensor α)) Tensor.data := by
  refine heldLift _ fun t ht => ⟨?_, trivial⟩
  rw [(new_eq_ok ht).2]

theorem fromVecInto (data : List α) (shape : Res Shape) :
    Settled k data (Unwind.fromVecInto data shape : Own α σ (Tensor α)) Tensor.data :=
  (heldLift (toks := fun _ => data) (post := fun _ => True) shape fun _ _ => ⟨List.Perm.refl _, trivial⟩).bind
    fun s _ => fromVec data s

theorem collect (hc : ∀ x, Settled 0 [] (clone x) fun v => [v]) : ∀ xs acc : List α,
    Settled k acc (Unwind.collect clone acc xs) fun vs => vs
  | [], acc => ret (List.Perm.refl _) trivial
  | x :: xs, acc => by
    unfold Unwind.collect
    refine Settled.bind ((((hc x).mono (Nat.zero_le k)).held acc).imp (toks' := fun v => acc ++ [v]) (post' := fun _ => True)
      (by simp) fun _ _ => ⟨trivial, List.Perm.refl _⟩) fun v _ => collect hc xs _

theorem concatSlices (hc : ∀ x, Settled 0 [] (clone x) fun v => [v]) (ts : List (Tensor α)) :
    Settled k [] (Unwind.concatSlices clone ts) fun vs => vs := by
  refine loopL (toks := fun vs => vs) (post := fun _ => True) trivial fun t acc _ _ => ?_
  exact (heldLift (toks := fun _ => acc) (post := fun _ => True) t.asSlice fun _ _ => ⟨List.Perm.refl _, trivial⟩).bind
    fun xs _ => collect hc xs acc

/-- A computation that owns nothing comes first. -/
theorem first {r : Res β} {f : β → Own α σ γ} {toks : γ → List α} {post : γ → Prop}
    (h : ∀ b, r = .ok b → Settled k [] (f b) toks post) : Settled k [] ((liftM r : Own α σ β) >>= f) toks post :=
  (lift (toks := fun _ => []) (post := fun b => r = .ok b) r fun _ hb => ⟨rfl, hb⟩).bind h

/-! ## Blocks -/

/-- No slot from `i` on has a value. -/
def FreeFrom (n i : Nat) (b : Buf α) : Prop := b.length = n ∧ ∀ j, i ≤ j → ∀ w, b[j]? ≠ some (some w)

theorem vals_le {n i : Nat} {b : Buf α} (h : FreeFrom n i b) : (b.filterMap id).length ≤ n := by
  rw [← h.1]; exact List.length_filterMap_le _ _

theorem freeFrom_uninit (n : Nat) : FreeFrom n 0 (Buf.uninit n : Buf α) := by
  refine ⟨by simp [Buf.uninit], fun j _ w h => ?_⟩
  unfold Buf.uninit at h
  obtain ⟨_, h⟩ := List.getElem?_eq_some_iff.1 h
  simp at h

theorem vals_set {b : Buf α} {i : Nat} {v : α} (hi : i < b.length) (h : ∀ w, b[i]? ≠ some (some w)) :
    ((b.set i (some v)).filterMap id).Perm (v :: b.filterMap id) := by
  induction b generalizing i with
  | nil => simp at hi
  | cons x b ih =>
    cases i with
    | zero =>
      cases x with
      | none => simp
      | some w => exact absurd rfl (h w)
    | succ i =>
      have := ih (i := i) (by simpa using hi) (by simpa using h)
      rw [List.set_cons_succ]
      cases x with
      | none => simpa using this
      | some w =>
        show (w :: (b.set i (some v)).filterMap id).Perm (v :: w :: b.filterMap id)
        exact (this.cons w).trans (List.Perm.swap _ _ _)

theorem write {n i : Nat} {b : Buf α} (hb : FreeFrom n i b) (v : α) :
    Settled k (b.filterMap id ++ [v]) (liftM (b.write i v) : Own α σ (Buf α)) (fun b => b.filterMap id) (FreeFrom n (i + 1)) := by
  unfold Buf.write
  split
  · rename_i hi
    refine ret ?_ ?_
    · exact (vals_set hi (hb.2 i (Nat.le_refl _))).trans (List.perm_append_comm (l₁ := [v]))
    · refine ⟨by rw [List.length_set]; exact hb.1, fun j hj w => ?_⟩
      rw [List.getElem?_set_ne (by omega)]
      exact hb.2 j (by omega) w
  · intro l; trivial

/-- A step that makes a value and writes it into the next slot. -/
theorem fill {n i : Nat} {b : Buf α} (hb : FreeFrom n i b) {x : Own α σ α} (hx : Settled 0 [] x fun v => [v]) :
    Settled n (b.filterMap id) (x >>= fun v => (liftM (b.write i v) : Own α σ (Buf α))) (fun b => b.filterMap id)
      (FreeFrom n (i + 1)) := by
  refine Settled.bind (((hx.loose (b.filterMap id)).mono (k' := n) (by have := vals_le hb; omega)).imp
    (toks' := fun v => b.filterMap id ++ [v]) (post' := fun _ => True) (by simp) fun _ _ => ⟨trivial, List.Perm.refl _⟩)
    fun v _ => write hb v

/-- A computation that makes nothing, with values in a block. -/
theorem pass {n : Nat} {own : List α} (ho : own.length ≤ n) {r : Res β} {f : β → Own α σ γ} {toks : γ → List α}
    {post : γ → Prop} (h : ∀ b, r = .ok b → Settled n own (f b) toks post) :
    Settled n own ((liftM r : Own α σ β) >>= f) toks post :=
  ((((lift (toks := fun _ => []) (post := fun b => r = .ok b) (k := 0) (σ := σ) r fun _ hb => ⟨rfl, hb⟩).loose own).mono
    (k' := n) (by omega)).imp (own' := own) (toks' := fun _ => own) (by simp) fun b hb => ⟨hb, by simp⟩).bind h

theorem unsafeInit {n : Nat} {shape : Shape} {body : Buf α → Own α σ (Buf α)}
    (h : Settled n [] (body (Buf.uninit n)) fun b => b.filterMap id) :
    Settled n [] (Unwind.unsafeInit n shape body) Tensor.data := by
  refine h.bind fun b _ => heldLift _ fun t ht => ⟨?_, trivial⟩
  unfold Tensor.finish at ht
  cases hc : b.complete with
  | none => rw [hc] at ht; cases ht
  | some data =>
    rw [hc] at ht
    rw [(new_eq_ok ht).2, Clones.complete_iff.1 hc]
    simp

theorem vals_uninit (n : Nat) : (Buf.uninit n : Buf α).filterMap id = [] := by
  unfold Buf.uninit
  induction n with
  | zero => rfl
  | succ n ih => rw [List.replicate_succ, List.filterMap_cons_none rfl, ih]

/-- One loop that fills the block from the start. -/
theorem blockLoop {n m : Nat} {body : Nat → Buf α → Own α σ (Buf α)}
    (h : ∀ i b, i < m → FreeFrom n i b → Settled n (b.filterMap id) (body i b) (fun b => b.filterMap id) (FreeFrom n (i + 1))) :
    Settled n [] (forR 0 m (Buf.uninit n) body) fun b => b.filterMap id := by
  refine (loop (toks := fun b : Buf α => b.filterMap id) (FreeFrom n) (Nat.zero_le m) (freeFrom_uninit n)
    fun i b _ hi hb => h i b hi hb).imp (by rw [vals_uninit]) fun _ _ => ⟨trivial, List.Perm.refl _⟩

/-- Two loops that fill the block from the start. -/
theorem blockLoop2 {n m p : Nat} {body : Nat → Nat → Buf α → Own α σ (Buf α)}
    (h : ∀ j i b, i < p → FreeFrom n (j * p + i) b →
      Settled n (b.filterMap id) (body j i b) (fun b => b.filterMap id) (FreeFrom n (j * p + i + 1))) :
    Settled n [] (forR 0 m (Buf.uninit n) fun j b => forR 0 p b fun i b => body j i b) fun b => b.filterMap id := by
  refine (loop (toks := fun b : Buf α => b.filterMap id) (fun j => FreeFrom n (j * p)) (Nat.zero_le m)
    (by rw [Nat.zero_mul]; exact freeFrom_uninit n) fun j b _ _ hb => ?_).imp (by rw [vals_uninit])
    fun _ _ => ⟨trivial, List.Perm.refl _⟩
  refine (loop (toks := fun b : Buf α => b.filterMap id) (fun i => FreeFrom n (j * p + i)) (Nat.zero_le p) hb
    fun i b _ hi hb => h j i b hi hb).imp (List.Perm.refl _) fun _ hb => ⟨by rw [Nat.succ_mul]; exact hb, List.Perm.refl _⟩

/-- A row written into the next slots. -/
theorem writeRow_cases {n base : Nat} {b : Buf α} (hb : FreeFrom n base b) (row : List α) :
    (∃ b', Tensor.writeRow b base row = .ok b' ∧ FreeFrom n (base + row.length) b' ∧
      (b'.filterMap id).Perm (b.filterMap id ++ row)) ∨ Tensor.writeRow b base row = .error .ub := by
  unfold Tensor.writeRow
  suffices h : ∀ k, k ≤ row.length → (∃ b', (forR 0 k b fun j o => do
        let v ← idx row j
        o.write (base + j) v) = .ok b' ∧ FreeFrom n (base + k) b' ∧ (b'.filterMap id).Perm (b.filterMap id ++ row.take k)) ∨
      (forR 0 k b fun j o => do
        let v ← idx row j
        o.write (base + j) v) = .error .ub by
    have := h row.length (Nat.le_refl _)
    rwa [List.take_length] at this
  intro k
  induction k with
  | zero =>
    intro _
    left
    refine ⟨b, ?_, hb, by simp⟩
    rw [forR_stop (Nat.le_refl _)]; rfl
  | succ k ih =>
    intro hk
    rw [forR_snoc (Nat.zero_le k)]
    rcases ih (by omega) with ⟨b', e, hf, hp⟩ | e
    · rw [e, ok_bind]
      have hi : idx row k = .ok (row[k]'(by omega)) := by unfold idx; rw [List.getElem?_eq_getElem (by omega)]
      rw [hi, ok_bind]
      unfold Buf.write
      split
      · rename_i hlt
        left
        refine ⟨_, rfl, ⟨by rw [List.length_set]; exact hf.1, fun j hj w => ?_⟩, ?_⟩
        · rw [List.getElem?_set_ne (by omega)]
          exact hf.2 j (by omega) w
        · refine (vals_set hlt (hf.2 _ (Nat.le_refl _))).trans ?_
          rw [List.take_succ_eq_append_getElem (by omega), ← List.append_assoc]
          exact (hp.cons _).trans (List.perm_append_comm (l₁ := [_]))
      · right; rfl
    · right
      rw [e]; rfl

/-- A step that makes an array and writes it into the next slots. -/
theorem fillRow {n i N : Nat} {b : Buf α} (hb : FreeFrom n (i * N) b) {x : Own α σ (Vector α N)}
    (hx : Settled 0 [] x fun v => v.toList) :
    Settled n (b.filterMap id) (x >>= fun v => (liftM (Tensor.writeRow b (i * N) v.toList) : Own α σ (Buf α)))
      (fun b => b.filterMap id) (FreeFrom n ((i + 1) * N)) := by
  refine Settled.bind (((hx.loose (b.filterMap id)).mono (k' := n) (by have := vals_le hb; omega)).imp
    (toks' := fun v => b.filterMap id ++ v.toList) (post' := fun _ => True) (by simp) fun _ _ => ⟨trivial, List.Perm.refl _⟩)
    fun v _ => ?_
  rcases writeRow_cases hb v.toList with ⟨b', e, hf, hp⟩ | e
  · rw [e]
    refine ret hp ?_
    rw [Vector.length_toList] at hf
    rw [Nat.succ_mul]
    exact hf
  · rw [e]
    intro l
    trivial

end Settled

/-! ## Copies -/

theorem go_collect (c : α → σ → Except Err α × σ) : ∀ (ys acc : List α) (l : Ledger α σ),
    (Unwind.collect (Own.track c) acc ys : Own α σ (List α)).go l = match copyRun c ys l.env with
      | (vs, e, some .panic) => (.error .panic, ⟨l.made ++ vs, l.dropped ++ (acc ++ vs), e⟩)
      | (vs, e, some .ub) => (.error .ub, ⟨l.made ++ vs, l.dropped, e⟩)
      | (vs, e, none) => (.ok (acc ++ vs), ⟨l.made ++ vs, l.dropped, e⟩)
  | [], acc, l => by
    unfold Unwind.collect copyRun
    simp
  | y :: ys, acc, l => by
    unfold Unwind.collect
    rw [Own.go_bind, Own.go_holding]
    have ht : (Own.track c y : Own α σ α).go l = match c y l.env with
      | (.ok v, e) => (.ok v, { l with made := l.made ++ [v], env := e })
      | (.error er, e) => (.error er, { l with env := e }) := rfl
    rw [ht]
    unfold copyRun
    rcases c y l.env with ⟨(_ | _) | v, e⟩
    · simp
    · simp
    · dsimp only
      rw [go_collect c ys]
      rcases copyRun c ys e with ⟨vs, e', _ | (_ | _)⟩ <;> simp

/-- A vector of copies that becomes a tensor. -/
theorem copiesIn_collect {c : α → σ → Except Err α × σ} {x : Own α σ (Tensor α)} {ys : List α} {s : Shape} {ds : List Nat}
    {u : Tensor α} {f : List α → Own α σ (Tensor α)} (hx : x = Unwind.collect (Own.track c) [] ys >>= f)
    (hf : ∀ vs, vs.length = ys.length → f vs = Unwind.fromVec vs s) (h : Tensor.fromVec ys s = .ok u) (hu : Rep u ds ys) :
    CopiesIn c x ds ys id := by
  subst hx
  refine ⟨ys.zipIdx.map Prod.swap, List.Perm.refl _, fun l => ?_⟩
  have e : (ys.zipIdx.map Prod.swap).map Prod.snd = ys := by
    rw [List.map_map]; exact List.zipIdx_map_fst 0 ys
  have e2 : (ys.zipIdx.map Prod.swap).map Prod.fst = List.range ys.length := by
    rw [List.map_map]
    have := List.zipIdx_map_snd 0 ys
    rw [List.range_eq_range']
    exact this
  rw [e, e2, Own.go_bind, go_collect]
  rcases hc : copyRun c ys l.env with ⟨vs, e', _ | (_ | _)⟩
  · dsimp only
    have hv := copyRun_length hc
    obtain ⟨hs, rfl⟩ := new_eq_ok h
    have hnew : Tensor.fromVec vs s = .ok { shape := s, offset := 0, size := vs.length, data := vs } := by
      unfold Tensor.fromVec Tensor.new
      rw [hs, ok_bind, ensure_true (by omega)]; rfl
    refine ⟨⟨s, 0, vs.length, vs⟩, vs, ?_, ?_, rfl, hv, hv, fun p hp => ?_⟩
    · rw [List.nil_append, hf vs hv]
      unfold Unwind.fromVec
      rw [Own.go_holding, hnew]
      rfl
    · refine ⟨⟨hu.wf.shape, by rw [hs, hv], by simp⟩, hu.dims, ?_⟩
      unfold Tensor.asSlice rawSlice
      simp
    · obtain ⟨i, hi⟩ := List.getElem?_of_mem hp
      rw [List.getElem?_zip_eq_some] at hi
      obtain ⟨h1, h2⟩ := hi
      obtain ⟨hlt, h1⟩ := List.getElem?_eq_some_iff.1 h1
      rw [List.getElem_range] at h1
      rw [← h1]
      exact h2
  · dsimp only
    simp
  · rfl

/-- What `CopiesIn` means for the values made. -/
theorem CopiesIn.settled {c : α → σ → Except Err α × σ} {x : Own α σ (Tensor α)} {ds : List Nat} {ys : List α}
    (h : CopiesIn c x ds ys fun _ => []) : Settled ys.length [] x Tensor.data := by
  obtain ⟨ps, hp, h⟩ := h
  intro l
  have h := h l
  have hlen : ps.length = ys.length := by have := hp.length_eq; simpa using this
  rcases hc : copyRun c (ps.map Prod.snd) l.env with ⟨vs, e', _ | (_ | _)⟩
  · rw [hc] at h
    obtain ⟨t, zs, hx, _, hd, hz, hv, hget⟩ := h
    rw [hx]
    refine ⟨trivial, vs, [], rfl, by simp, ?_⟩
    rw [List.append_nil, List.nil_append, hd]
    have hfst : ((ps.map Prod.fst).zip vs).map Prod.fst = ps.map Prod.fst := List.map_fst_zip (by simp; omega)
    have hsnd : ((ps.map Prod.fst).zip vs).map Prod.snd = vs := List.map_snd_zip (by simp; omega)
    have hnd : (ps.map Prod.fst).Nodup := by
      rw [(hp.map Prod.fst).nodup_iff, List.map_map]
      have := List.zipIdx_map_snd 0 ys
      show (ys.zipIdx.map Prod.snd).Nodup
      rw [this]
      exact List.nodup_range'
    have hperm : ((ps.map Prod.fst).zip vs).Perm (zs.zipIdx.map Prod.swap) := by
      refine List.Subperm.perm_of_length_le (List.subperm_of_subset (List.Nodup.of_map Prod.fst (by rw [hfst]; exact hnd))
        fun q hq => Clones.zipIdx_mem.2 (hget q hq)) ?_
      simp
      omega
    have := hperm.map Prod.snd
    rw [hsnd, List.map_map] at this
    have e : zs.zipIdx.map (Prod.snd ∘ Prod.swap) = zs := List.zipIdx_map_fst 0 zs
    rw [e] at this
    exact this.symm
  · rw [hc] at h
    dsimp only at h
    rw [h]
    refine ⟨vs, [], vs, rfl, rfl, by simp, ?_⟩
    have : ∀ (ys : List α) (e : σ), (copyRun c ys e).1.length ≤ ys.length := by
      intro ys
      induction ys with
      | nil => intro e; exact Nat.le_refl _
      | cons y ys ih =>
        intro e
        unfold copyRun
        rcases c y e with ⟨_ | v, e1⟩
        · exact Nat.zero_le _
        · exact Nat.succ_le_succ (ih e1)
    have := this (ps.map Prod.snd) l.env
    rw [hc] at this
    simpa [hlen] using this
  · rw [hc] at h
    dsimp only at h
    rcases hx : x.go l with ⟨(_ | _) | _, l'⟩
    · rw [hx] at h; cases h
    · trivial
    · rw [hx] at h; cases h

end Essay
