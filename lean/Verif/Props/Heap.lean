import Verif.Lemmas.Heap

/-!
# C56 Buffers are freed exactly once, after the last handle
-/

namespace Essay

open Heap

variable {α : Type}

/-- C56: no history of creating, cloning, viewing, reshaping and dropping tensors, in any interleaving of threads and with
any panicking calls, reaches undefined behaviour: no double free, no use or drop of a freed or uninitialised element.
Missing for the full property (here and below): tensors of length 0 made by `unsafe_init`, see `C56_zero_length_violates`. -/
theorem C56_no_ub_partial {ops : List (Op α)} (hc : ∀ op ∈ ops, op.Contract) : ∃ w, run ops = .ok w := by
  obtain ⟨w, e, _⟩ := run_ok hc
  exact ⟨w, e⟩

/-- C56: after every history, each element of each block was dropped at most once and each block freed at most once. -/
theorem C56_at_most_once_partial {ops : List (Op α)} (hc : ∀ op ∈ ops, op.Contract) {w : World α} (h : run ops = .ok w)
    (b i : Nat) : w.dropCount b i ≤ 1 ∧ w.freeCount b ≤ 1 := by
  have hi := run_inv hc h
  constructor
  · unfold World.dropCount; rw [hi.drops]; split <;> omega
  · unfold World.freeCount; rw [hi.frees]; split <;> omega

/-- C56: while a handle is live, its buffer is not freed, no element of it was dropped, and reading through the handle
gives its elements. -/
theorem C56_live_partial {ops : List (Op α)} (hc : ∀ op ∈ ops, op.Contract) {w : World α} (h : run ops = .ok w) {x : Handle}
    (hx : x ∈ w.handles) :
    w.freeCount (w.mem.arc x.arc).inner.data = 0 ∧ (∀ i, w.dropCount (w.mem.arc x.arc).inner.data i = 0) ∧
      ∃ xs, asSlice x w.mem = .ok xs ∧ xs.length = x.size := by
  have hi := run_inv hc h
  have hf := (hi.alive _ (hi.arcs x hx) (Or.inl (strong_pos hi hx))).1
  refine ⟨?_, fun i => ?_, (asSlice_value hi hx).2⟩
  · unfold World.freeCount; rw [hi.frees, if_neg (by simp [hf])]
  · unfold World.dropCount; rw [hi.drops, if_neg (by simp [hf])]

/-- C56: once no handle uses a buffer any more and the destructor of the last one has run, the buffer has been freed
exactly once and each of its elements was dropped exactly once. -/
theorem C56_once_partial {ops : List (Op α)} (hc : ∀ op ∈ ops, op.Contract) {w : World α} (h : run ops = .ok w) {a : Nat}
    (ha : a < w.mem.nArcs) (hu : w.users a = 0) (hp : a ∉ w.pending) :
    w.freeCount (w.mem.arc a).inner.data = 1 ∧
      ∀ i, w.dropCount (w.mem.arc a).inner.data i = if i < (w.mem.arc a).inner.len then 1 else 0 := by
  have hi := run_inv hc h
  have hf := hi.dead a ha (by rw [hi.count a ha, hu]) hp
  obtain ⟨hb, hl⟩ := hi.data a ha
  constructor
  · unfold World.freeCount; rw [hi.frees, if_pos ⟨hb, hf⟩]
  · intro i
    unfold World.dropCount
    rw [hi.drops, hl]
    by_cases h1 : i < (w.mem.arc a).inner.len
    · rw [if_pos ⟨hb, hf, h1⟩, if_pos h1]
    · rw [if_neg (fun h => h1 h.2.2), if_neg h1]

/-- C56, the moment: dropping a handle schedules the destructor of its buffer exactly when it was the only handle left; a
scheduled destructor is scheduled once. -/
theorem C56_last_partial {ops : List (Op α)} (hc : ∀ op ∈ ops, op.Contract) {w : World α} (h : run ops = .ok w) {i : Nat}
    {x : Handle} (hx : w.handles[i]? = some x) :
    ∃ w', step w (.drop i) = .ok w' ∧ w'.handles = w.handles.eraseIdx i ∧ w'.users x.arc + 1 = w.users x.arc ∧
      (x.arc ∈ w'.pending ↔ w'.users x.arc = 0) ∧ w'.pending.Nodup := by
  have hi := run_inv hc h
  obtain ⟨w', e, hi', _, hh⟩ := drop_step hi i
  have hm : x ∈ w.handles := List.mem_of_getElem? hx
  have hcnt : w'.users x.arc + 1 = w.users x.arc := by
    have := countP_eraseIdx (p := fun h => h.arc == x.arc) hx
    unfold World.users
    rw [hh]; simpa using this
  have ha' : x.arc < w'.mem.nArcs ∧ (w'.mem.arc x.arc).strong + 1 = (w.mem.arc x.arc).strong := by
    obtain ⟨w2, e2, _, _, _, _, h5⟩ := inv_release hi hx
    have : step w (.drop i) = .ok w2 := by simp [step, hx, e2]
    rw [this] at e; cases e
    have ha := hi.arcs x hm
    refine ⟨by omega, ?_⟩
    rw [hi'.count _ (by omega), hi.count _ ha, hcnt]
  refine ⟨w', e, hh, hcnt, ⟨fun hp => ?_, fun h0 => ?_⟩, hi'.pnodup⟩
  · rw [← hi'.count _ ha'.1]; exact (hi'.pend _ hp).2
  · apply Classical.byContradiction
    intro hp
    have h1 := hi'.dead _ ha'.1 (by rw [hi'.count _ ha'.1, h0]) hp
    have h2 := (hi.alive _ (hi.arcs x hm) (Or.inl (strong_pos hi hm))).1
    obtain ⟨w2, e2, _, h3, _, h4, _⟩ := inv_release hi hx
    have : step w (.drop i) = .ok w2 := by simp [step, hx, e2]
    rw [this] at e; cases e
    rw [h3, h4, h2] at h1; cases h1

/-- C56: a value never changes under a live handle: whatever operation any thread performs, every handle that survives it
denotes the same tensor as before. -/
theorem C56_values_kept_partial {ops : List (Op α)} (hc : ∀ op ∈ ops, op.Contract) {w : World α} (h : run ops = .ok w)
    {op : Op α} (ho : op.Contract) {x : Handle} (hx : x ∈ w.handles) :
    ∃ w', step w op = .ok w' ∧ (x ∈ w'.handles →
      value w'.mem x = value w.mem x ∧ asSlice x w'.mem = asSlice x w.mem) := by
  have hi := run_inv hc h
  obtain ⟨w', e, hi', hf⟩ := step_ok hi ho
  refine ⟨w', e, fun hx' => ?_⟩
  have ha := hi.arcs x hx
  have hin := (hf.inner _ ha).2
  have hb := hf.live _ ha (by rw [← hi'.count _ (hi'.arcs x hx')]; exact strong_pos hi' hx')
  have hv : value w'.mem x = value w.mem x := by unfold value; rw [hin, hb]
  exact ⟨hv, by rw [(asSlice_value hi' hx').1, (asSlice_value hi hx).1, hv]⟩

/-- C56: the memory model computes the tensors of the value model. Each operation adds the handle whose value is the result
of the corresponding function of the value model, or none when that function panics. -/
theorem C56_refines_partial {ops : List (Op α)} (hc : ∀ op ∈ ops, op.Contract) {w : World α} (h : run ops = .ok w) :
    (∀ xs shape, ∃ w', step w (.fromBox xs shape) = .ok w' ∧
      match Tensor.fromVec xs shape with
      | .ok t => ∃ x, w'.handles = w.handles ++ [x] ∧ value w'.mem x = t
      | .error _ => w'.handles = w.handles) ∧
    (∀ len shape writes, (Op.init len shape writes false).Contract →
      ∃ w', step w (.init len shape writes false) = .ok w' ∧
      match Tensor.unsafeInit len shape (fun b => writes.foldlM (fun b p => b.write p.1 p.2) b) with
      | .ok t => ∃ x, w'.handles = w.handles ++ [x] ∧ value w'.mem x = t
      | .error _ => w'.handles = w.handles) ∧
    (∀ i x, w.handles[i]? = some x → ∃ w', step w (.clone i) = .ok w' ∧ w'.handles = w.handles ++ [x]) ∧
    (∀ i x o l s, w.handles[i]? = some x → ∃ w', step w (.view i o l s) = .ok w' ∧
      match (value w.mem x).subsliceFlat o l s with
      | .ok t => ∃ y, w'.handles = w.handles ++ [y] ∧ value w'.mem y = t
      | .error _ => w'.handles = w.handles) ∧
    (∀ i x s, w.handles[i]? = some x → ∃ w', step w (.reshape i s) = .ok w' ∧
      match (value w.mem x).reshape s with
      | .ok t => ∃ y, w'.handles = w.handles.set i y ∧ value w'.mem y = t
      | .error _ => w'.handles = w.handles.eraseIdx i) ∧
    (∀ x ∈ w.handles, asSlice x w.mem = (value w.mem x).asSlice) := by
  have hi := run_inv hc h
  refine ⟨fun xs shape => ?_, fun len shape writes hw => ?_, fun i x hx => ?_, fun i x o l s hx => ?_,
    fun i x s hx => ?_, fun x hx => (asSlice_value hi hx).1⟩
  · obtain ⟨w', e, _, _, r⟩ := fromBox_step hi xs shape; exact ⟨w', e, r⟩
  · obtain ⟨w', e, _, _, _, r⟩ := init_step hi len shape writes false hw; exact ⟨w', e, r rfl⟩
  · obtain ⟨w', e, _, _, r⟩ := clone_step hi i; exact ⟨w', e, by rw [r, hx]; rfl⟩
  · obtain ⟨w', e, _, _, r⟩ := view_step hi i o l s; exact ⟨w', e, r x hx⟩
  · obtain ⟨w', e, _, _, r⟩ := reshape_step hi i s; exact ⟨w', e, r x hx⟩

/-- C56: a constructor that panics because the shape does not fit frees its buffer and drops its elements once. -/
theorem C56_rejected_partial {ops : List (Op α)} (hc : ∀ op ∈ ops, op.Contract) {w : World α} (h : run ops = .ok w)
    {xs : List α} {shape : Shape} (hs : shape.size ≠ .ok xs.length) :
    ∃ w', step w (.fromBox xs shape) = .ok w' ∧ w'.handles = w.handles ∧ w'.freeCount w.mem.nBlocks = 1 ∧
      ∀ i, i < xs.length → w'.dropCount w.mem.nBlocks i = 1 := by
  have hi := run_inv hc h
  obtain ⟨hi1, hu, hbl⟩ := inv_alloc hi (xs.map Cell.live)
  have hk := (inv_new hi1 (d := ⟨(alloc (xs.map Cell.live) w.mem).1, xs.length⟩) hu
    (by simp only [hbl]) (by simp only [hbl]; simp) (by simp only [hbl]; simp [Cell.isLive]) shape).2 hs
  obtain ⟨m, e, hi2, -⟩ := hk
  have hdrop : dropData ⟨(alloc (xs.map Cell.live) w.mem).1, xs.length⟩ (alloc (xs.map Cell.live) w.mem).2 = .ok m := by
    obtain ⟨m2, e2, _⟩ := inv_dropData hi1 (d := ⟨(alloc (xs.map Cell.live) w.mem).1, xs.length⟩) hu
      (by simp only [hbl]) (by simp only [hbl]; simp) (by simp only [hbl]; simp [Cell.isLive])
    have hub := Shape.noUB_size shape
    simp only at e e2
    unfold tensorNew at e
    cases hsz : shape.size with
    | ok n =>
      have hne : n ≠ xs.length := fun hn => hs (by rw [hsz, hn])
      simp [hsz, hne, e2] at e; rw [e2, e]
    | error er =>
      cases er with
      | panic => simp [hsz, e2] at e; rw [e2, e]
      | ub => exact absurd hsz hub
  have hfr : w.mem.nBlocks < m.nBlocks ∧ m.block w.mem.nBlocks = ⟨List.replicate xs.length .gone, true⟩ := by
    rw [dropData_ok hu.1 (by simp only [hbl]) (by simp only [hbl]; simp) (by simp only [hbl]; simp [Cell.isLive])] at hdrop
    cases hdrop
    exact ⟨Nat.lt_succ_self _, by simp [alloc]⟩
  refine ⟨w.add (none, m), ?_, by simp [World.add], ?_, fun i hilt => ?_⟩
  · show (fromBoxedSlice xs shape w.mem >>= fun r => pure (w.add r)) = _
    unfold fromBoxedSlice
    simp only at e
    simp only [e, ok_bind]; rfl
  · have := hi2.frees w.mem.nBlocks
    simp only [hfr.2] at this
    unfold World.freeCount
    simp only [World.add]
    rw [this]; simp [hfr.1]
  · have := hi2.drops w.mem.nBlocks i
    simp only [hfr.2] at this
    unfold World.dropCount
    simp only [World.add]
    rw [this]; simp [hfr.1, hilt]

/-- C56, what the code does not do: when the closure of an initialiser panics, the buffer it was filling is never freed and
the elements already written are never dropped, whatever happens afterwards (a leak, not undefined behaviour). -/
theorem C56_panicking_init_leaks {ops more : List (Op α)} (hc : ∀ op ∈ ops, op.Contract) (hm : ∀ op ∈ more, op.Contract)
    {w : World α} (h : run ops = .ok w) {len : Nat} (h0 : 0 < len) {shape : Shape} {writes : List (Nat × α)}
    (hw : ∀ p ∈ writes, p.1 < len) :
    ∃ w', run (ops ++ .init len shape writes true :: more) = .ok w' ∧ w.mem.nBlocks < w'.mem.nBlocks ∧
      w'.freeCount w.mem.nBlocks = 0 ∧ ∀ i, w'.dropCount w.mem.nBlocks i = 0 := by
  have hi := run_inv hc h
  obtain ⟨w1, e1, h1, _, hp, _⟩ := init_step hi len shape writes true ⟨h0, hw, fun hf => by cases hf⟩
  obtain ⟨_, hun, hf, _⟩ := hp rfl
  obtain ⟨w2, e2, h2, _, hk⟩ := runFrom_ok h1 hm
  obtain ⟨k1, k2⟩ := hk _ hun
  refine ⟨w2, ?_, k1.1, ?_, fun i => ?_⟩
  · unfold run at h ⊢
    rw [List.foldlM_append, h, ok_bind, List.foldlM_cons, e1, ok_bind, e2]
  · unfold World.freeCount; rw [h2.frees, if_neg (by rw [k2, hf]; simp)]
  · unfold World.dropCount; rw [h2.drops, if_neg (by rw [k2, hf]; simp)]

/-- C56 fails for tensors without elements made by an initialiser (`map`, `zeros`, `concatenate`, ... with an empty result):
whatever happened before, and although the closure does nothing wrong, `unsafe_init` asks the allocator for 0 bytes, which
is undefined (and the block it may get is never freed, since a box of length 0 owns no memory). -/
theorem C56_zero_length_violates {ops : List (Op α)} (hc : ∀ op ∈ ops, op.Contract) (shape : Shape) (panics : Bool) :
    run (ops ++ [.init 0 shape [] panics]) = .error .ub := by
  obtain ⟨w, e⟩ := C56_no_ub_partial hc
  unfold run at e ⊢
  rw [List.foldlM_append, e, ok_bind]
  rfl

theorem writes_outside {m : Mem α} {b len : Nat} (hl : (m.block b).cells.length = len) {writes : List (Nat × α)}
    (hw : ∃ p ∈ writes, len ≤ p.1) : writes.foldlM (fun m p => write b p.1 p.2 m) m = .error .ub := by
  induction writes generalizing m with
  | nil => obtain ⟨p, hp, _⟩ := hw; cases hp
  | cons q ws ih =>
    rw [List.foldlM_cons]
    by_cases hc : b < m.nBlocks ∧ (m.block b).freed = false ∧ q.1 < (m.block b).cells.length
    · have e : write b q.1 q.2 m = .ok { m with block := put m.block b ⟨(m.block b).cells.set q.1 (.live q.2), false⟩ } := by
        unfold write; rw [if_pos hc]
      rw [e, ok_bind]
      refine ih (by simpa using hl) ?_
      obtain ⟨p, hp, hlt⟩ := hw
      rcases List.mem_cons.1 hp with rfl | hp
      · omega
      · exact ⟨p, hp, hlt⟩
    · have e : write b q.1 q.2 m = .error .ub := by
        unfold write; rw [if_neg hc]
      rw [e, error_bind]

/-- C56, the contract of closures is needed: an initialiser whose closure writes outside the buffer is undefined, whatever
happened before. -/
theorem C56_outside_write {ops : List (Op α)} (hc : ∀ op ∈ ops, op.Contract) (len : Nat) (shape : Shape)
    {writes : List (Nat × α)} (hw : ∃ p ∈ writes, len ≤ p.1) (panics : Bool) :
    run (ops ++ [.init len shape writes panics]) = .error .ub := by
  obtain ⟨w, e⟩ := C56_no_ub_partial hc
  unfold run at e ⊢
  rw [List.foldlM_append, e, ok_bind, List.foldlM_cons]
  have : unsafeInit len shape writes panics w.mem = .error .ub := by
    unfold unsafeInit
    split
    · rfl
    · dsimp only
      rw [writes_outside (len := len) (by simp [alloc]) hw, error_bind]
  show ((unsafeInit len shape writes panics w.mem >>= fun r => pure (w.add r)) >>= _) = _
  rw [this, error_bind, error_bind]

theorem foldl_set_other {writes : List (Nat × α)} {cs : List (Cell α)} {i : Nat} (h : ∀ p ∈ writes, p.1 ≠ i) :
    (writes.foldl (fun cs p => cs.set p.1 (.live p.2)) cs)[i]? = cs[i]? := by
  induction writes generalizing cs with
  | nil => rfl
  | cons p ws ih =>
    rw [List.foldl_cons, ih fun q hq => h q (by simp [hq]), List.getElem?_set_ne (h p (by simp))]

theorem mapM_read_ub {l : List (Cell α)} (h : .uninit ∈ l) : l.mapM Cell.read = .error .ub := by
  induction l with
  | nil => cases h
  | cons c cs ih =>
    rw [List.mapM_cons]
    cases c with
    | live a =>
      have : Cell.uninit ∈ cs := by simpa using h
      rw [ih this]; rfl
    | uninit => rfl
    | gone => rfl

/-- C56, the contract of closures is needed: when the closure of an initialiser leaves out an element, the tensor can be
made, but reading it is undefined, and so is destroying it after its last handle is dropped; and when the shape does not
fit, the initialiser itself is undefined, as it drops the buffer. -/
theorem C56_missing_write {ops : List (Op α)} (hc : ∀ op ∈ ops, op.Contract) {len : Nat} {shape : Shape}
    {writes : List (Nat × α)} (hw : ∀ p ∈ writes, p.1 < len) {i : Nat} (hi : i < len) (hm : ∀ p ∈ writes, p.1 ≠ i) :
    (shape.size ≠ .ok len → run (ops ++ [.init len shape writes false]) = .error .ub) ∧
    (shape.size = .ok len → ∃ w w' x, run ops = .ok w ∧ run (ops ++ [.init len shape writes false]) = .ok w' ∧
      w'.handles = w.handles ++ [x] ∧ asSlice x w'.mem = .error .ub ∧
      run (ops ++ [.init len shape writes false, .drop w.handles.length, .destroy w.pending.length]) = .error .ub) := by
  obtain ⟨w, e, h, -⟩ := runFrom_ok (inv_empty (α := α)) hc
  obtain ⟨hinv, hu, hbl⟩ := inv_alloc h (List.replicate len (Cell.uninit : Cell α))
  obtain ⟨m, em, h1, h2, h3, h4, h5, h6, h7, h8, h9⟩ := inv_writes hinv hu (by simp only [hbl]) (len := len)
    (by simp only [hbl]; simp) writes hw
  simp only at h1 h5 h6 h7 h8 h9 em
  rw [hbl] at h9
  have hun : Cell.uninit ∈ (m.block w.mem.nBlocks).cells := by
    have : (m.block w.mem.nBlocks).cells[i]? = some .uninit := by
      have h9' : (m.block w.mem.nBlocks).cells = _ := h9
      rw [h9', foldl_set_other hm]
      simp [hi]
    exact List.mem_of_getElem? this
  have hdrop : ∀ m' : Mem α, m'.block = m.block → dropData ⟨w.mem.nBlocks, len⟩ m' = .error .ub := by
    intro m' hb
    unfold dropData
    rw [if_neg]
    rintro ⟨-, -, -, hl⟩
    rw [hb] at hl
    have := List.all_eq_true.1 hl _ hun
    cases this
  have hinit : unsafeInit len shape writes false w.mem = tensorNew ⟨w.mem.nBlocks, len⟩ shape m := by
    unfold unsafeInit
    rw [if_neg (by omega)]
    simp only [em, ok_bind]
    rfl
  have hstep : step w (.init len shape writes false) = tensorNew ⟨w.mem.nBlocks, len⟩ shape m >>= fun r => pure (w.add r) := by
    show (unsafeInit len shape writes false w.mem >>= fun r => pure (w.add r)) = _
    rw [hinit]
  have hrun : run ops = .ok w := e
  constructor
  · intro hs
    unfold run
    rw [List.foldlM_append, e, ok_bind, List.foldlM_cons, hstep]
    have : tensorNew ⟨w.mem.nBlocks, len⟩ shape m = .error .ub := by
      unfold tensorNew
      split
      · next n hn =>
        rw [if_neg (by rintro rfl; exact hs hn), hdrop m rfl]
        rfl
      · rw [hdrop m rfl]; rfl
      · rfl
    rw [this]; rfl
  · intro hs
    have hnew : tensorNew ⟨w.mem.nBlocks, len⟩ shape m =
        .ok (some ⟨shape, 0, len, m.nArcs⟩, { m with nArcs := m.nArcs + 1, arc := put m.arc m.nArcs ⟨1, ⟨w.mem.nBlocks, len⟩⟩ }) := by
      unfold tensorNew
      rw [hs]
      simp [arcNew]
    rw [hnew, ok_bind] at hstep
    refine ⟨w, w.add (some ⟨shape, 0, len, m.nArcs⟩,
      { m with nArcs := m.nArcs + 1, arc := put m.arc m.nArcs ⟨1, ⟨w.mem.nBlocks, len⟩⟩ }), ⟨shape, 0, len, m.nArcs⟩, hrun, ?_, ?_, ?_, ?_⟩
    · unfold run
      rw [List.foldlM_append, e, ok_bind, List.foldlM_cons, hstep]
      rfl
    · rfl
    · unfold asSlice World.add
      simp only [put_same]
      split
      · have h4' : (m.block w.mem.nBlocks).cells.length = len := h4
        rw [List.drop_zero, List.take_of_length_le (by omega)]
        exact mapM_read_ub hun
      · rfl
    · unfold run
      rw [List.foldlM_append, e, ok_bind, List.foldlM_cons, hstep]
      simp only [pure_bind, List.foldlM_cons, List.foldlM_nil]
      simp only [step, World.add, Option.toList, List.getElem?_concat_length, World.release, arcRelease, put_same]
      simp [hdrop, put]

/-! A concrete history: a buffer of 6 elements, a view, a clone, a failed reshape of the clone, drops in another order. -/

def exHistory : List (Op Nat) :=
  [.fromBox [1, 2, 3, 4, 5, 6] (Shape.ofDims [2, 3]), .view 0 3 3 (Shape.ofDims [3]), .clone 1,
    .init 2 (Shape.ofDims [2]) [(1, 8), (0, 7)] false, .reshape 2 (Shape.ofDims [7]), .drop 0]

theorem exHistory_contract : ∀ op ∈ exHistory, op.Contract := by
  simp only [exHistory, List.mem_cons, List.not_mem_nil, or_false]
  rintro op (rfl | rfl | rfl | rfl | rfl | rfl) <;> simp only [Op.Contract]
  refine ⟨by simp, by simp, fun _ i hi => ?_⟩
  match i, hi with
  | 0, _ => exact ⟨(0, 7), by simp, rfl⟩
  | 1, _ => exact ⟨(1, 8), by simp, rfl⟩

/-- After it the view and the new tensor are live, and nothing was dropped; dropping the view frees the six elements. -/
example : ∃ w, run exHistory = .ok w ∧ w.handles.map (·.size) = [3, 2] ∧ w.pending = [] ∧ w.mem.drops = [] ∧
    (∃ x, w.handles[0]? = some x ∧ asSlice x w.mem = .ok [4, 5, 6]) := ⟨_, rfl, rfl, rfl, rfl, _, rfl, rfl⟩

example : ∃ w, run (exHistory ++ [.drop 0, .drop 0, .destroy 1, .destroy 0]) = .ok w ∧ w.handles = [] ∧ w.pending = [] ∧
    w.mem.drops = [(1, 0), (1, 1), (0, 0), (0, 1), (0, 2), (0, 3), (0, 4), (0, 5)] ∧ w.mem.frees = [1, 0] :=
  ⟨_, rfl, rfl, rfl, rfl, rfl⟩

example : ∃ w, run exHistory = .ok w := C56_no_ub_partial exHistory_contract

example : ∃ w, run exHistory = .ok w ∧ w.dropCount 0 2 ≤ 1 ∧ w.freeCount 0 ≤ 1 := by
  obtain ⟨w, h⟩ := C56_no_ub_partial exHistory_contract
  exact ⟨w, h, C56_at_most_once_partial exHistory_contract h 0 2⟩

example : ∃ w x, run exHistory = .ok w ∧ w.handles[1]? = some x ∧ w.freeCount (w.mem.arc x.arc).inner.data = 0 ∧
    (∀ i, w.dropCount (w.mem.arc x.arc).inner.data i = 0) ∧ ∃ xs, asSlice x w.mem = .ok xs ∧ xs.length = x.size :=
  ⟨_, _, rfl, rfl, C56_live_partial exHistory_contract rfl (by simp [List.mem_iff_getElem?]; exact ⟨1, rfl⟩)⟩

/-- After the last tensor of both buffers is dropped and both are destroyed, buffer 0 is freed once and each of its six
elements dropped once. -/
example : ∃ w, run (exHistory ++ [.drop 0, .drop 0, .destroy 1, .destroy 0]) = .ok w ∧ w.freeCount 0 = 1 ∧
    ∀ i, w.dropCount 0 i = if i < 6 then 1 else 0 :=
  ⟨_, rfl, C56_once_partial (ops := exHistory ++ [.drop 0, .drop 0, .destroy 1, .destroy 0]) (a := 0) (by
    intro op h
    rcases List.mem_append.1 h with h | h
    · exact exHistory_contract op h
    · simp only [List.mem_cons, List.not_mem_nil] at h
      rcases h with rfl | rfl | rfl | rfl | h <;> trivial) rfl (by decide) rfl (by decide)⟩

example : ∃ w x w', run exHistory = .ok w ∧ w.handles[1]? = some x ∧ step w (.drop 1) = .ok w' ∧
    w'.handles = w.handles.eraseIdx 1 ∧ w'.users x.arc + 1 = w.users x.arc ∧
    (x.arc ∈ w'.pending ↔ w'.users x.arc = 0) ∧ w'.pending.Nodup := by
  obtain ⟨w, h⟩ := C56_no_ub_partial exHistory_contract
  have hw := h
  simp only [show run exHistory = .ok _ from rfl, Except.ok.injEq] at hw
  obtain ⟨w', h'⟩ := C56_last_partial exHistory_contract h (i := 1) (by subst hw; rfl)
  exact ⟨w, _, w', h, by subst hw; rfl, h'⟩

example : ∃ w x w', run exHistory = .ok w ∧ w.handles[0]? = some x ∧ step w (.drop 1) = .ok w' ∧
    (x ∈ w'.handles → value w'.mem x = value w.mem x ∧ asSlice x w'.mem = asSlice x w.mem) := by
  obtain ⟨w', h'⟩ := C56_values_kept_partial exHistory_contract rfl (op := .drop 1) trivial
    (List.mem_iff_getElem?.2 ⟨0, rfl⟩)
  exact ⟨_, _, w', rfl, rfl, h'⟩

example : ∃ w, run exHistory = .ok w ∧ ∀ x ∈ w.handles, asSlice x w.mem = (value w.mem x).asSlice := by
  obtain ⟨w, h⟩ := C56_no_ub_partial exHistory_contract
  exact ⟨w, h, (C56_refines_partial exHistory_contract h).2.2.2.2.2⟩

/-- Two elements with the shape `[3]`: rejected, the block (number 2) is freed and both elements dropped. -/
example : ∃ w w', run exHistory = .ok w ∧ step w (.fromBox [1, 2] (Shape.ofDims [3])) = .ok w' ∧ w'.handles = w.handles ∧
    w'.freeCount 2 = 1 ∧ ∀ i, i < 2 → w'.dropCount 2 i = 1 := by
  obtain ⟨w', h'⟩ := C56_rejected_partial exHistory_contract rfl (xs := [1, 2]) (shape := Shape.ofDims [3]) (by decide)
  exact ⟨_, w', rfl, h'⟩

example : ∃ w w', run exHistory = .ok w ∧
    run (exHistory ++ .init 2 (Shape.ofDims [2]) [(0, 7)] true :: [.drop 0]) = .ok w' ∧ w.mem.nBlocks < w'.mem.nBlocks ∧
    w'.freeCount w.mem.nBlocks = 0 ∧ ∀ i, w'.dropCount w.mem.nBlocks i = 0 := by
  obtain ⟨w, h⟩ := C56_no_ub_partial exHistory_contract
  obtain ⟨w', h'⟩ := C56_panicking_init_leaks (more := [.drop 0]) exHistory_contract (by simp [Op.Contract]) h
    (len := 2) (by simp) (shape := Shape.ofDims [2]) (writes := [(0, 7)]) (by simp)
  exact ⟨w, w', h, h'⟩

example : run (exHistory ++ [.init 0 (Shape.ofDims [0]) [] false]) = .error .ub :=
  C56_zero_length_violates exHistory_contract _ _

/-- Writing element 2 of a buffer of two elements. -/
example : run (exHistory ++ [.init 2 (Shape.ofDims [2]) [(0, 7), (2, 8)] false]) = .error .ub :=
  C56_outside_write exHistory_contract 2 _ ⟨(2, 8), by simp, by simp⟩ false

/-- Writing only element 0 of a buffer of two elements. -/
example : ∃ w, run exHistory = .ok w ∧
    run (exHistory ++ [.init 2 (Shape.ofDims [2]) [(0, 7)] false, .drop w.handles.length, .destroy w.pending.length]) =
      .error .ub := by
  obtain ⟨w, w', x, h1, h2, h3, h4, h5⟩ := (C56_missing_write exHistory_contract (len := 2) (shape := Shape.ofDims [2])
    (writes := [(0, 7)]) (by simp) (i := 1) (by simp) (by simp)).2 (by decide)
  exact ⟨w, h1, h5⟩

end Essay
