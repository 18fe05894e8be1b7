import Verif.Model.Alloc
import Verif.Lemmas.Shape
import Verif.Lemmas.Safe

/-!
# C91: memory is given back as it was taken

Every history of making and dropping buffers, for every element type: which layouts are asked for and given back
(`Alloc.State.live` holds the blocks of the allocator), and when the behaviour is undefined.
-/

namespace Essay

namespace Alloc

/-- The bytes of `n` elements can be laid out: their size, rounded up to the alignment, is at most `isize::MAX`. -/
def Ty.CanHold (t : Ty) (n : Nat) : Prop := t.size * n + (t.align - 1) < 2 ^ 63

/-- What the allocator keeps for a buffer in use: nothing if it has no bytes. -/
def kept (t : Ty) (d : Data) : List Layout := if t.size * d.len = 0 then [] else [⟨t.size * d.len, t.align⟩]

/-- What an operation loses for good: the block of an initialiser whose closure panics. -/
def lost (t : Ty) : Op → List Layout
  | .init len _ true _ => if t.size * len + (t.align - 1) < 2 ^ 63 then [⟨t.size * len, t.align⟩] else []
  | _ => []

/-- The operations the code has no defined behaviour for: an initialiser for which the allocator is asked for no bytes, or
has no memory. -/
def Bad (t : Ty) : Op → Prop
  | .init len _ _ granted => t.CanHold len ∧ (t.size * len = 0 ∨ granted = false)
  | _ => False

/-- The block of a buffer. -/
def block (t : Ty) (d : Data) : List (Nat × Layout) :=
  match d.addr with
  | some a => if t.size * d.len = 0 then [] else [(a, ⟨t.size * d.len, t.align⟩)]
  | none => []

/-- A buffer that can be dropped. -/
def Valid (t : Ty) (d : Data) : Prop := t.CanHold d.len ∧ (t.size * d.len ≠ 0 → d.addr.isSome)

/-- The invariant: the live blocks are those of the buffers in use, and lost ones. -/
structure Inv (t : Ty) (lk : List Layout) (s : State) : Prop where
  valid : ∀ d ∈ s.held, Valid t d
  live : ∃ ps : List (Nat × Layout), ps.map (·.2) = lk ∧ s.live.Perm (s.held.flatMap (block t) ++ ps)

theorem layoutArray_some {t : Ty} {n : Nat} (h : t.CanHold n) : layoutArray t n = some ⟨t.size * n, t.align⟩ := by
  unfold layoutArray; exact if_pos h

theorem layoutArray_none {t : Ty} {n : Nat} (h : ¬ t.CanHold n) : layoutArray t n = none := by
  unfold layoutArray; exact if_neg h

theorem drop_ok {t : Ty} {d : Data} {s : State} {R : List (Nat × Layout)} (hv : Valid t d)
    (hl : s.live.Perm (block t d ++ R)) :
    ∃ s', dropData t d s = .ok s' ∧ s'.live.Perm R ∧ s'.held = s.held := by
  unfold dropData dropBox
  rw [layoutArray_some hv.1]
  dsimp only
  by_cases h0 : t.size * d.len = 0
  · rw [if_pos h0]
    refine ⟨s, rfl, ?_, rfl⟩
    unfold block at hl
    cases h : d.addr <;> simpa [h, h0] using hl
  · rw [if_neg h0]
    obtain ⟨a, ha⟩ := Option.isSome_iff_exists.1 (hv.2 h0)
    unfold block at hl
    rw [ha] at hl ⊢
    dsimp only at hl ⊢
    rw [if_neg h0] at hl
    have hm : (a, (⟨t.size * d.len, t.align⟩ : Layout)) ∈ s.live := hl.mem_iff.2 (by simp)
    unfold dealloc
    rw [if_pos hm]
    refine ⟨_, rfl, ?_, rfl⟩
    have := hl.erase (a, (⟨t.size * d.len, t.align⟩ : Layout))
    simpa using this

theorem inv_drop {t : Ty} {lk : List Layout} {s : State} (h : Inv t lk s) {d : Data} {s' : State} (hv : Valid t d)
    (hl : s'.live.Perm (block t d ++ s.live)) (hh : s'.held = s.held) :
    ∃ w, dropData t d s' = .ok w ∧ Inv t lk w := by
  obtain ⟨w, e, e2, e3⟩ := drop_ok hv hl
  refine ⟨w, e, by rw [e3, hh]; exact h.valid, ?_⟩
  obtain ⟨ps, hp, hq⟩ := h.live
  exact ⟨ps, hp, by rw [e3, hh]; exact e2.trans hq⟩

theorem inv_new {t : Ty} {lk : List Layout} {s : State} (h : Inv t lk s) {d : Data} {s' : State} (shape : Shape)
    (hv : Valid t d) (hl : s'.live.Perm (block t d ++ s.live)) (hh : s'.held = s.held) :
    ∃ w, tensorNew t d shape s' = .ok w ∧ Inv t lk w := by
  unfold tensorNew
  cases hs : shape.size with
  | error _ => exact inv_drop h hv hl hh
  | ok n =>
    dsimp only
    by_cases hn : n = d.len
    · rw [if_pos hn]
      refine ⟨_, rfl, ?_, ?_⟩
      · intro e he
        rcases List.mem_append.1 he with he | he
        · exact h.valid e (hh ▸ he)
        · rw [List.mem_singleton.1 he]; exact hv
      · obtain ⟨ps, hp, hq⟩ := h.live
        refine ⟨ps, hp, ?_⟩
        dsimp only
        rw [hh, List.flatMap_append, List.append_assoc]
        refine hl.trans ((List.Perm.append_left _ hq).trans ?_)
        rw [← List.append_assoc, ← List.append_assoc]
        refine List.Perm.append_right _ ?_
        simpa using List.perm_append_comm
    · rw [if_neg hn]; exact inv_drop h hv hl hh

/-- A box that was just made: the program stops, panics, or has the box. -/
theorem newBox_cases (t : Ty) (n : Nat) (granted : Bool) (s : State) :
    newBox t n granted s = .error .abort ∨ newBox t n granted s = .ok (none, s) ∨
      ∃ addr s', newBox t n granted s = .ok (some addr, s') ∧ Valid t ⟨addr, n⟩ ∧
        s'.live.Perm (block t ⟨addr, n⟩ ++ s.live) ∧ s'.held = s.held := by
  unfold newBox
  by_cases hc : t.CanHold n
  · rw [layoutArray_some hc]
    dsimp only
    by_cases h0 : t.size * n = 0
    · rw [if_pos h0]
      exact .inr (.inr ⟨none, s, rfl, ⟨hc, fun h => absurd h0 h⟩, by simp [block], rfl⟩)
    · rw [if_neg h0]
      unfold alloc
      dsimp only
      rw [if_neg h0]
      cases granted with
      | false => exact .inl rfl
      | true =>
        refine .inr (.inr ⟨some s.next, _, rfl, ⟨hc, fun _ => rfl⟩, ?_, rfl⟩)
        unfold block
        dsimp only
        rw [if_neg h0]
        exact .refl _
  · rw [layoutArray_none hc]
    exact .inr (.inl rfl)

theorem array_canHold {t : Ty} {N n : Nat} (h : (t.array N).CanHold n) : t.CanHold (n * N) := by
  unfold Ty.CanHold Ty.array at *
  rw [Nat.mul_comm n N, ← Nat.mul_assoc]; exact h

theorem array_valid {t : Ty} {N n : Nat} {addr : Option Nat} (h : Valid (t.array N) ⟨addr, n⟩) : Valid t ⟨addr, n * N⟩ := by
  refine ⟨array_canHold h.1, fun h0 => h.2 ?_⟩
  unfold Ty.array
  dsimp only at h0 ⊢
  rw [Nat.mul_assoc, Nat.mul_comm N n]; exact h0

theorem array_block (t : Ty) (N n : Nat) (addr : Option Nat) : block (t.array N) ⟨addr, n⟩ = block t ⟨addr, n * N⟩ := by
  unfold block Ty.array
  dsimp only
  rw [Nat.mul_assoc, Nat.mul_comm N n]

theorem inv_step {t : Ty} {lk : List Layout} {s : State} (h : Inv t lk s) (op : Op) :
    (Bad t op ∧ step t s op = .error .ub) ∨
      ¬ Bad t op ∧ (step t s op = .error .abort ∨ ∃ w, step t s op = .ok w ∧ Inv t (lost t op ++ lk) w) := by
  cases op with
  | box n shape granted =>
    refine .inr ⟨fun h => h, ?_⟩
    unfold step fromBoxedSlice
    dsimp only
    rcases newBox_cases t n granted s with e | e | ⟨addr, s', e, hv, hl, hh⟩
    · rw [e]; exact .inl rfl
    · rw [e]; exact .inr ⟨s, rfl, h⟩
    · rw [e]; exact .inr (inv_new h shape hv hl hh)
  | rows N n shape granted =>
    refine .inr ⟨fun h => h, ?_⟩
    unfold step fromBoxedRows
    dsimp only
    rcases newBox_cases (t.array N) n granted s with e | e | ⟨addr, s', e, hv, hl, hh⟩
    · rw [e]; exact .inl rfl
    · rw [e]; exact .inr ⟨s, rfl, h⟩
    · rw [e]
      refine .inr ?_
      have hl' := hl
      rw [array_block] at hl'
      show ∃ w, (if n * N < 2 ^ 64 then tensorNew t ⟨addr, n * N⟩ shape s' else dropBox (t.array N) addr n s') = .ok w ∧ _
      by_cases hn : n * N < 2 ^ 64
      · rw [if_pos hn]; exact inv_new h shape (array_valid hv) hl' hh
      · rw [if_neg hn]
        obtain ⟨w, e, e2, e3⟩ := drop_ok (t := t.array N) (d := ⟨addr, n⟩) hv hl
        refine ⟨w, e, by rw [e3, hh]; exact h.valid, ?_⟩
        obtain ⟨ps, hp, hq⟩ := h.live
        exact ⟨ps, hp, by rw [e3, hh]; exact e2.trans hq⟩
  | init len shape panics granted =>
    unfold step unsafeInit
    dsimp only
    by_cases hc : t.CanHold len
    · rw [layoutArray_some hc]
      dsimp only
      unfold alloc
      dsimp only
      by_cases h0 : t.size * len = 0
      · rw [if_pos h0]; exact .inl ⟨⟨hc, .inl h0⟩, rfl⟩
      · rw [if_neg h0]
        cases granted with
        | false => exact .inl ⟨⟨hc, .inr rfl⟩, rfl⟩
        | true =>
          refine .inr ⟨fun hb => hb.2.elim h0 (by simp), .inr ?_⟩
          have hl : ((s.next, (⟨t.size * len, t.align⟩ : Layout)) :: s.live).Perm
              (block t ⟨some s.next, len⟩ ++ s.live) := by
            unfold block
            dsimp only
            rw [if_neg h0]
            exact .refl _
          cases panics with
          | true =>
            refine ⟨_, rfl, h.valid, ?_⟩
            obtain ⟨ps, hp, hq⟩ := h.live
            refine ⟨(s.next, ⟨t.size * len, t.align⟩) :: ps, ?_, ?_⟩
            · show _ = (if t.size * len + (t.align - 1) < 2 ^ 63 then _ else _) ++ lk
              rw [if_pos (show t.size * len + (t.align - 1) < 2 ^ 63 from hc), List.map_cons, hp]; rfl
            · exact (List.Perm.cons _ hq).trans List.perm_middle.symm
          | false => exact inv_new h shape (d := ⟨some s.next, len⟩) ⟨hc, fun _ => rfl⟩ hl rfl
    · rw [layoutArray_none hc]
      refine .inr ⟨fun hb => hc hb.1, .inr ⟨s, rfl, ?_⟩⟩
      cases panics with
      | false => exact h
      | true =>
        show Inv t ((if t.size * len + (t.align - 1) < 2 ^ 63 then _ else _) ++ lk) s
        rw [if_neg (show ¬ t.size * len + (t.align - 1) < 2 ^ 63 from hc)]; exact h
  | dropped i =>
    refine .inr ⟨fun h => h, .inr ?_⟩
    unfold step
    dsimp only
    cases hi : s.held[i]? with
    | none => exact ⟨s, rfl, h⟩
    | some d =>
      dsimp only
      obtain ⟨hlt, hd⟩ := List.getElem?_eq_some_iff.1 hi
      obtain ⟨ps, hp, hq⟩ := h.live
      have hperm : s.held.Perm (d :: s.held.eraseIdx i) := by
        rw [← hd]; exact (List.getElem_cons_eraseIdx_perm hlt).symm
      have hv : Valid t d := h.valid d (hperm.mem_iff.2 (by simp))
      obtain ⟨w, e, e2, e3⟩ := drop_ok (s := { s with held := s.held.eraseIdx i }) (R := (s.held.eraseIdx i).flatMap (block t) ++ ps) hv
        (by
          refine hq.trans ?_
          rw [← List.append_assoc]
          refine List.Perm.append_right _ ?_
          have := hperm.flatMap_right (block t)
          simpa using this)
      refine ⟨w, e, ?_, ps, hp, ?_⟩
      · rw [e3]
        intro x hx
        exact h.valid x (List.mem_of_mem_eraseIdx hx)
      · rw [e3]; exact e2

/-- The whole program: it ends well, or at its first bad operation, or is stopped before. -/
theorem inv_run {t : Ty} (ops : List Op) {lk : List Layout} {s : State} (h : Inv t lk s) :
    (∃ w, ops.foldlM (step t) s = .ok w ∧ Inv t (ops.reverse.flatMap (lost t) ++ lk) w ∧ ∀ op ∈ ops, ¬ Bad t op) ∨
      ops.foldlM (step t) s = .error .abort ∨
      ops.foldlM (step t) s = .error .ub ∧ ∃ pre op post w, ops = pre ++ op :: post ∧ pre.foldlM (step t) s = .ok w ∧
        Bad t op := by
  induction ops generalizing s lk with
  | nil => exact .inl ⟨s, rfl, h, by simp⟩
  | cons op ops ih =>
    rw [List.foldlM_cons]
    rcases inv_step h op with ⟨hb, e⟩ | ⟨hb, e | ⟨w, e, hw⟩⟩
    · rw [e]; exact .inr (.inr ⟨rfl, [], op, ops, s, rfl, rfl, hb⟩)
    · rw [e]; exact .inr (.inl rfl)
    · rw [e]
      rcases ih hw with ⟨v, e2, hv, hn⟩ | e2 | ⟨e2, pre, o, post, v, hs, e3, ho⟩
      · refine .inl ⟨v, e2, ?_, ?_⟩
        · simpa using hv
        · intro x hx
          rcases List.mem_cons.1 hx with rfl | hx
          · exact hb
          · exact hn x hx
      · exact .inr (.inl e2)
      · refine .inr (.inr ⟨e2, op :: pre, o, post, v, by rw [hs]; rfl, ?_, ho⟩)
        rw [List.foldlM_cons, e]; exact e3

theorem inv_start (t : Ty) : Inv t [] .start := ⟨(fun _ h => nomatch h), [], rfl, .refl _⟩

theorem block_kept {t : Ty} {ds : List Data} (h : ∀ d ∈ ds, Valid t d) :
    (ds.flatMap (block t)).map (·.2) = ds.flatMap (kept t) := by
  induction ds with
  | nil => rfl
  | cons d ds ih =>
    rw [List.flatMap_cons, List.flatMap_cons, List.map_append, ih fun x hx => h x (List.mem_cons_of_mem _ hx)]
    congr 1
    have hv := h d List.mem_cons_self
    unfold block kept
    by_cases h0 : t.size * d.len = 0
    · cases d.addr <;> simp [h0]
    · obtain ⟨a, ha⟩ := Option.isSome_iff_exists.1 (hv.2 h0)
      simp [ha, h0]

/-- C91 (the parts that hold): if every initialiser asks for some bytes and gets them, no program of tensors made from
boxes, from boxes of rows and by initialisers, and dropped in any order, has undefined behaviour: what is given back to the
allocator is a live block, with the very layout it was allocated with (`dealloc` is undefined otherwise). The element type
may have any size and alignment, arrays may be of any length, shapes may be wrong, and vectors may run out of memory
(which stops the program). -/
theorem C91_layouts_partial (t : Ty) {ops : List Op}
    (h : ∀ len shape panics granted, Op.init len shape panics granted ∈ ops → 0 < t.size * len ∧ granted = true) :
    run t ops ≠ .error .ub := by
  intro e
  rcases inv_run ops (inv_start t) with ⟨w, e2, _⟩ | e2 | ⟨_, pre, op, post, w, hs, _, hb⟩
  · unfold run at e; rw [e2] at e; cases e
  · unfold run at e; rw [e2] at e; cases e
  · cases op with
    | init len shape panics granted =>
      have := h len shape panics granted (by rw [hs]; simp)
      rcases hb.2 with h0 | h0
      · omega
      · rw [this.2] at h0; cases h0
    | _ => exact hb

/-- C91, exactly when a program is undefined: when it comes to an initialiser whose buffer can be laid out, but has no
bytes, or the allocator has no memory for it. -/
theorem C91_ub_iff (t : Ty) (ops : List Op) :
    run t ops = .error .ub ↔ ∃ pre len shape panics granted post w, ops = pre ++ .init len shape panics granted :: post ∧
      run t pre = .ok w ∧ t.size * len + (t.align - 1) < 2 ^ 63 ∧ (t.size * len = 0 ∨ granted = false) := by
  constructor
  · intro e
    unfold run at e
    rcases inv_run ops (inv_start t) with ⟨w, e2, _⟩ | e2 | ⟨_, pre, op, post, w, hs, e3, hb⟩
    · rw [e2] at e; cases e
    · rw [e2] at e; cases e
    · cases op with
      | init len shape panics granted => exact ⟨pre, len, shape, panics, granted, post, w, hs, e3, hb⟩
      | _ => exact hb.elim
  · rintro ⟨pre, len, shape, panics, granted, post, w, rfl, e, hb⟩
    unfold run at e ⊢
    rw [List.foldlM_append, e]
    show (Op.init len shape panics granted :: post).foldlM (step t) w = _
    rw [List.foldlM_cons]
    rcases inv_run pre (inv_start t) with ⟨v, e2, hv, _⟩ | e2 | ⟨e2, _⟩
    · rw [e] at e2
      cases e2
      rcases inv_step hv (.init len shape panics granted) with ⟨_, e3⟩ | ⟨hn, _⟩
      · rw [e3]; rfl
      · exact absurd hb hn
    · rw [e] at e2; cases e2
    · rw [e] at e2; cases e2

/-- C91: nothing else stays allocated. When a program ends, the allocator's blocks are those of the buffers in use, one for
each that has bytes, with the size of its elements and their alignment; and the blocks of initialisers whose closures
panicked, which are lost. -/
theorem C91_blocks {t : Ty} {ops : List Op} {s : State} (h : run t ops = .ok s) :
    (s.live.map (·.2)).Perm (s.held.flatMap (kept t) ++ ops.flatMap (lost t)) := by
  unfold run at h
  rcases inv_run ops (inv_start t) with ⟨w, e, hw, _⟩ | e | ⟨e, _⟩
  · rw [h] at e
    cases e
    obtain ⟨ps, hp, hq⟩ := hw.live
    have := hq.map (·.2)
    rw [List.map_append, block_kept hw.valid, hp, List.append_nil] at this
    refine this.trans (List.Perm.append_left _ ?_)
    exact (List.reverse_perm ops).flatMap_right _
  · rw [h] at e; cases e
  · rw [h] at e; cases e

/-- C91: if no closure panicked and every buffer was dropped, all memory was given back. -/
theorem C91_all_freed {t : Ty} {ops : List Op} {s : State} (h : run t ops = .ok s) (hs : s.held = [])
    (hp : ∀ len shape granted, Op.init len shape true granted ∉ ops) : s.live = [] := by
  have := C91_blocks h
  have hl : ops.flatMap (lost t) = [] := by
    rw [List.flatMap_eq_nil_iff]
    intro op hop
    cases op with
    | init len shape panics granted =>
      cases panics with
      | true => exact absurd hop (hp len shape granted)
      | false => rfl
    | _ => rfl
  rw [hs, hl] at this
  simpa using this

/-- C91, a buffer that is too large: an initialiser for more than `isize::MAX` bytes panics before anything is allocated,
wherever it occurs. -/
theorem C91_too_large (t : Ty) {pre : List Op} {w : State} (h : run t pre = .ok w) {len : Nat}
    (hl : 2 ^ 63 ≤ t.size * len) (shape : Shape) (panics granted : Bool) :
    run t (pre ++ [.init len shape panics granted]) = .ok w := by
  unfold run at h ⊢
  rw [List.foldlM_append, h]
  show (step t w _ >>= fun s => pure s) = _
  unfold step unsafeInit
  dsimp only
  rw [layoutArray_none (by unfold Ty.CanHold; omega)]
  rfl

/-- C91 fails when memory runs out: after any program that ended well, an initialiser (so almost every operation on tensors)
that gets no memory is undefined, for every element type and every length that can be laid out. Vectors and boxes stop the
program instead. -/
theorem C91_out_of_memory_violates (t : Ty) {pre : List Op} {w : State} (h : run t pre = .ok w) {len : Nat}
    (hl : t.size * len + (t.align - 1) < 2 ^ 63) (shape : Shape) (panics : Bool) :
    run t (pre ++ [.init len shape panics false]) = .error .ub :=
  (C91_ub_iff t _).2 ⟨pre, len, shape, panics, false, [], w, rfl, h, hl, .inr rfl⟩

/-- C91 fails for element types without bytes, such as `()`: every initialiser is undefined, also for lengths above 0. -/
theorem C91_zero_sized_violates {t : Ty} (ht : t.size = 0) (ha : t.align ≤ 2 ^ 29) {pre : List Op} {w : State}
    (h : run t pre = .ok w) (len : Nat) (shape : Shape) (panics granted : Bool) :
    run t (pre ++ [.init len shape panics granted]) = .error .ub :=
  (C91_ub_iff t _).2 ⟨pre, len, shape, panics, granted, [], w, rfl, h, by rw [ht]; omega, .inl (by rw [ht]; simp)⟩

/-- C91: tensors made from vectors of any type never are: without initialisers no program is undefined, whatever the
allocator does. -/
theorem C91_boxes (t : Ty) {ops : List Op} (h : ∀ len shape panics granted, Op.init len shape panics granted ∉ ops) :
    run t ops ≠ .error .ub :=
  C91_layouts_partial t fun len shape panics granted hm => absurd hm (h len shape panics granted)

/-- `f32`. -/
def f32Ty : Ty := ⟨4, 4⟩

/-- Six numbers from a vector, three rows of two, an initialiser of four, an empty vector; the rows and the first are
dropped. -/
def exOps : List Op :=
  [.box 6 (Shape.ofDims [2, 3]) true, .rows 2 3 (Shape.ofDims [3, 2]) true, .init 4 (Shape.ofDims [4]) false true,
   .box 0 (Shape.ofDims [0]) true, .dropped 1, .dropped 0]

example : run f32Ty exOps = .ok ⟨[(2, ⟨16, 4⟩)], 3, [⟨some 2, 4⟩, ⟨none, 0⟩]⟩ := rfl

example : run f32Ty exOps ≠ .error .ub := C91_layouts_partial f32Ty fun len shape panics granted h => by
  simp only [exOps, List.mem_cons, reduceCtorEq, Op.init.injEq, List.not_mem_nil, or_false, false_or] at h
  obtain ⟨rfl, _, _, rfl⟩ := h
  exact ⟨by decide, rfl⟩

example : run f32Ty (exOps ++ [.dropped 1, .dropped 0]) = .ok ⟨[], 3, []⟩ := rfl

example : (⟨[], 3, []⟩ : State).live = [] :=
  C91_all_freed (t := f32Ty) (ops := exOps ++ [.dropped 1, .dropped 0]) rfl rfl fun len shape granted h => by
    simp [exOps] at h

example : ([(2, ⟨16, 4⟩)].map (·.2) : List Layout).Perm ([⟨some 2, 4⟩, ⟨none, 0⟩].flatMap (kept f32Ty) ++ exOps.flatMap (lost f32Ty)) :=
  C91_blocks (t := f32Ty) (ops := exOps) (s := ⟨[(2, ⟨16, 4⟩)], 3, [⟨some 2, 4⟩, ⟨none, 0⟩]⟩) rfl

/-- A closure that panics loses its block. -/
example : run f32Ty [.init 5 (Shape.ofDims [5]) true true] = .ok ⟨[(0, ⟨20, 4⟩)], 1, []⟩ := rfl

/-- A shape that does not fit: the block is given back. -/
example : run f32Ty [.rows 2 3 (Shape.ofDims [5]) true] = .ok ⟨[], 1, []⟩ := rfl

example : run f32Ty (exOps ++ [.init 7 (Shape.ofDims [7]) false false]) = .error .ub :=
  C91_out_of_memory_violates f32Ty (pre := exOps) rfl (by decide) _ _

example : run ⟨0, 1⟩ [.init 7 (Shape.ofDims [7]) false true] = .error .ub :=
  C91_zero_sized_violates (t := ⟨0, 1⟩) (pre := []) rfl (by decide) rfl 7 _ _ _

example : run f32Ty (exOps ++ [.init (2 ^ 61) (Shape.ofDims [7]) false true]) = .ok ⟨[(2, ⟨16, 4⟩)], 3, [⟨some 2, 4⟩, ⟨none, 0⟩]⟩ :=
  C91_too_large f32Ty (pre := exOps) rfl (by decide) _ _ _

example : run f32Ty [.box 6 (Shape.ofDims [2, 3]) false] ≠ .error .ub :=
  C91_boxes f32Ty fun len shape panics granted h => by simp at h

example : run f32Ty [.init 0 (Shape.ofDims [0]) false true] = .error .ub :=
  (C91_ub_iff f32Ty _).2 ⟨[], 0, _, _, _, [], _, rfl, rfl, by decide, .inl rfl⟩

end Alloc

end Essay
