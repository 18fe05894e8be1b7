import Verif.Model.Sharing

/-!
# Properties of tensors shared between threads: C90

Histories are those of any program with any number of threads that the compiler accepts (`Reach`, Model/Sharing).
-/

namespace Essay

namespace Sharing

variable {t : Traits}

theorem tensor_send : (tensor t).send ↔ t.send ∧ t.sync := by
  simp [tensor, Traits.struct, shape, Traits.plain, Traits.arc, tensorData]

theorem tensor_sync : (tensor t).sync ↔ t.send ∧ t.sync := by
  simp [tensor, Traits.struct, shape, Traits.plain, Traits.arc, tensorData]

/-- What every reachable world satisfies: things outside the thread that made the buffer have types that may be sent. -/
structure Inv (t : Traits) (w : World) : Prop where
  held_lt : ∀ j x, (j, x) ∈ w.held → x.buffer < w.next
  read_lt : ∀ b j, .read b j ∈ w.log → b < w.next
  dropped_lt : ∀ b j, .dropped b j ∈ w.log → b < w.next
  made_lt : ∀ b j, .made b j ∈ w.log → b < w.next
  held : ∀ c j x, .made x.buffer c ∈ w.log → (j, x) ∈ w.held → j ≠ c → (x.traits t).send
  read : ∀ b c j, .made b c ∈ w.log → .read b j ∈ w.log → j ≠ c → t.sync
  dropped : ∀ b c j, .made b c ∈ w.log → .dropped b j ∈ w.log → j ≠ c → t.send

/-- A step that only changes what is held, where each new thing may be sent or is in the thread it belongs to. -/
theorem Inv.hold {w : World} (h : Inv t w) {held' : List (Nat × Thing)}
    (hh : ∀ j x, (j, x) ∈ held' → (j, x) ∈ w.held ∨
      x.buffer < w.next ∧ ∀ c, .made x.buffer c ∈ w.log → j ≠ c → (x.traits t).send) :
    Inv t { w with held := held' } where
  held_lt j x hx := (hh j x hx).elim (h.held_lt j x) (·.1)
  read_lt := h.read_lt
  dropped_lt := h.dropped_lt
  made_lt := h.made_lt
  held c j x hc hx hj := (hh j x hx).elim (fun hx => h.held c j x hc hx hj) fun hx => hx.2 c hc hj
  read := h.read
  dropped := h.dropped

theorem mem_snoc {held : List (Nat × Thing)} {p : Nat × Thing} {q : Nat × Thing} (h : q ∈ held ++ [p]) :
    q ∈ held ∨ q = p := by
  rcases List.mem_append.1 h with h | h
  · exact .inl h
  · exact .inr (List.mem_singleton.1 h)

theorem Inv.step {w w' : World} (h : Inv t w) (hs : Step t w w') : Inv t w' := by
  cases hs with
  | make tid =>
    constructor
    · intro j x hx
      rcases mem_snoc hx with hx | hx
      · exact Nat.lt_succ_of_lt (h.held_lt j x hx)
      · cases hx; exact Nat.lt_succ_self _
    · intro b j hb
      exact Nat.lt_succ_of_lt (h.read_lt b j (by simpa using hb))
    · intro b j hb
      exact Nat.lt_succ_of_lt (h.dropped_lt b j (by simpa using hb))
    · intro b j hb
      rcases List.mem_append.1 hb with hb | hb
      · exact Nat.lt_succ_of_lt (h.made_lt b j hb)
      · rw [List.mem_singleton] at hb; cases hb; exact Nat.lt_succ_self _
    · intro c j x hc hx hj
      rcases mem_snoc hx with hx | hx
      · rcases List.mem_append.1 hc with hc | hc
        · exact h.held c j x hc hx hj
        · have h1 := h.held_lt j x hx
          rw [List.mem_singleton] at hc
          simp only [Event.made.injEq] at hc
          omega
      · cases hx
        rcases List.mem_append.1 hc with hc | hc
        · exact absurd (h.made_lt _ _ hc) (Nat.lt_irrefl _)
        · rw [List.mem_singleton] at hc
          simp only [Event.made.injEq] at hc
          exact absurd hc.2.symm hj
    · intro b c j hc hb hj
      have hb : .read b j ∈ w.log := by simpa using hb
      rcases List.mem_append.1 hc with hc | hc
      · exact h.read b c j hc hb hj
      · have h1 := h.read_lt b j hb
        rw [List.mem_singleton] at hc
        simp only [Event.made.injEq] at hc
        omega
    · intro b c j hc hb hj
      have hb : .dropped b j ∈ w.log := by simpa using hb
      rcases List.mem_append.1 hc with hc | hc
      · exact h.dropped b c j hc hb hj
      · have h1 := h.dropped_lt b j hb
        rw [List.mem_singleton] at hc
        simp only [Event.made.injEq] at hc
        omega
  | @clone tid b hm =>
    refine h.hold fun j x hx => (mem_snoc hx).imp id fun hx => ?_
    cases hx
    rcases hm with hm | hm
    · exact ⟨h.held_lt _ _ hm, fun c hc hj => h.held c _ _ hc hm hj⟩
    · exact ⟨h.held_lt _ (.tensorRef b) hm, fun c hc hj =>
        tensor_send.2 (tensor_sync.1 (h.held c _ (.tensorRef b) hc hm hj))⟩
  | @borrow tid b hm =>
    refine h.hold fun j x hx => (mem_snoc hx).imp id fun hx => ?_
    cases hx
    exact ⟨h.held_lt _ (.tensor b) hm, fun c hc hj => tensor_sync.2 (tensor_send.1 (h.held c _ (.tensor b) hc hm hj))⟩
  | @elems tid b hm =>
    refine h.hold fun j x hx => (mem_snoc hx).imp id fun hx => ?_
    cases hx
    rcases hm with hm | hm
    · exact ⟨h.held_lt _ (.tensor b) hm, fun c hc hj => (tensor_send.1 (h.held c _ (.tensor b) hc hm hj)).2⟩
    · exact ⟨h.held_lt _ (.tensorRef b) hm, fun c hc hj => (tensor_sync.1 (h.held c _ (.tensorRef b) hc hm hj)).2⟩
  | copy hm _ =>
    refine h.hold fun j x hx => (mem_snoc hx).imp id fun hx => ?_
    cases hx
    exact ⟨h.held_lt _ _ hm, fun c hc hj => h.held c _ _ hc hm hj⟩
  | move hm hs to =>
    refine h.hold fun j x hx => (mem_snoc hx).imp List.mem_of_mem_erase fun hx => ?_
    cases hx
    exact ⟨h.held_lt _ _ hm, fun c hc hj => hs⟩
  | @read tid b hm =>
    constructor
    · exact h.held_lt
    · intro b' j hb
      rcases List.mem_append.1 hb with hb | hb
      · exact h.read_lt _ _ hb
      · rw [List.mem_singleton] at hb; cases hb; exact h.held_lt _ (.elems b) hm
    · intro b' j hb; exact h.dropped_lt _ j (by simpa using hb)
    · intro b' j hb; exact h.made_lt _ j (by simpa using hb)
    · intro c j x hc; exact h.held c j x (by simpa using hc)
    · intro b' c j hc hb hj
      have hc : .made b' c ∈ w.log := by simpa using hc
      rcases List.mem_append.1 hb with hb | hb
      · exact h.read b' c j hc hb hj
      · rw [List.mem_singleton] at hb; cases hb; exact h.held c _ (.elems b) hc hm hj
    · intro b' c j hc hb; exact h.dropped b' c j (by simpa using hc) (by simpa using hb)
  | release hm _ => exact h.hold fun j x hx => .inl (List.mem_of_mem_erase hx)
  | drop hm _ => exact h.hold fun j x hx => .inl (List.mem_of_mem_erase hx)
  | @dropLast tid b hm _ =>
    constructor
    · intro j x hx; exact h.held_lt j x (List.mem_of_mem_erase hx)
    · intro b' j hb; exact h.read_lt _ j (by simpa using hb)
    · intro b' j hb
      rcases List.mem_append.1 hb with hb | hb
      · exact h.dropped_lt _ _ hb
      · rw [List.mem_singleton] at hb; cases hb; exact h.held_lt _ (.tensor b) hm
    · intro b' j hb; exact h.made_lt _ j (by simpa using hb)
    · intro c j x hc hx; exact h.held c j x (by simpa using hc) (List.mem_of_mem_erase hx)
    · intro b' c j hc hb; exact h.read b' c j (by simpa using hc) (by simpa using hb)
    · intro b' c j hc hb hj
      have hc : .made b' c ∈ w.log := by simpa using hc
      rcases List.mem_append.1 hb with hb | hb
      · exact h.dropped b' c j hc hb hj
      · rw [List.mem_singleton] at hb; cases hb
        exact (tensor_send.1 (h.held c _ (.tensor b) hc hm hj)).1

theorem Reach.inv {w : World} (h : Reach t w) : Inv t w := by
  induction h with
  | start => constructor <;> intros <;> simp_all
  | step _ hs ih => exact ih.step hs

/-! ## C90 elements cross threads only if their type allows it -/

/-- In every program the compiler accepts: if elements are read in another thread than the one that made the tensor, their
type is `Sync`; if they are dropped in another thread, their type is `Send`. -/
theorem C90_threads {w : World} (h : Reach t w) {b c j : Nat} (hc : .made b c ∈ w.log) (hj : j ≠ c) :
    (.read b j ∈ w.log → t.sync) ∧ (.dropped b j ∈ w.log → t.send) :=
  ⟨fun hr => h.inv.read b c j hc hr hj, fun hd => h.inv.dropped b c j hc hd hj⟩

/-- If the element type lacks one of `Send` and `Sync`, tensors and references to tensors never leave the thread that made
the buffer. -/
theorem C90_confined (ht : ¬(t.send ∧ t.sync)) {w : World} (h : Reach t w) {b c j : Nat} (hc : .made b c ∈ w.log)
    (hh : (j, .tensor b) ∈ w.held ∨ (j, .tensorRef b) ∈ w.held) : j = c := by
  refine Decidable.byContradiction fun hj => ?_
  rcases hh with hh | hh
  · exact ht (tensor_send.1 (h.inv.held c j (.tensor b) hc hh hj))
  · exact ht (tensor_sync.1 (h.inv.held c j (.tensorRef b) hc hh hj))

/-- If the element type is `Send` and `Sync`, a tensor held by one thread can be moved to any other and read there, and a
reference to it can be given to any other thread while the first keeps the tensor. -/
theorem C90_usable (hs : t.send) (hy : t.sync) {w : World} (h : Reach t w) {tid b : Nat} (hh : (tid, .tensor b) ∈ w.held)
    (to : Nat) :
    (∃ w', Reach t w' ∧ (to, .tensor b) ∈ w'.held ∧ .read b to ∈ w'.log) ∧
    (∃ w', Reach t w' ∧ (tid, .tensor b) ∈ w'.held ∧ (to, .tensorRef b) ∈ w'.held ∧ .read b to ∈ w'.log) := by
  constructor
  · have h1 := h.step (.move w hh (tensor_send.2 ⟨hs, hy⟩) to)
    have h2 := h1.step (.elems _ (tid := to) (b := b) (.inl (by simp)))
    have h3 := h2.step (.read _ (tid := to) (b := b) (by simp))
    exact ⟨_, h3, by simp, by simp⟩
  · have h1 := h.step (.borrow w hh)
    have h2 := h1.step (.move _ (tid := tid) (x := .tensorRef b) (by simp) (tensor_sync.2 ⟨hs, hy⟩) to)
    have h3 := h2.step (.elems _ (tid := to) (b := b) (.inr (by simp)))
    have h4 := h3.step (.read _ (tid := to) (b := b) (by simp))
    refine ⟨_, h4, ?_, by simp, by simp⟩
    have h5 : (tid, Thing.tensor b) ∈ (w.held ++ [(tid, Thing.tensorRef b)]).erase (tid, Thing.tensorRef b) :=
      (List.mem_erase_of_ne (by simp)).2 (by simp [hh])
    simp [h5]

/-- No elements are lost: those of every buffer ever made are still held by some tensor, or have been dropped. -/
theorem C90_kept_or_dropped {w : World} (h : Reach t w) {b c : Nat} (hc : .made b c ∈ w.log) :
    (∃ j, (j, .tensor b) ∈ w.held) ∨ ∃ j, .dropped b j ∈ w.log := by
  induction h with
  | start => simp at hc
  | @step w w' _ hs ih =>
    cases hs with
    | make tid =>
      rcases List.mem_append.1 hc with hc | hc
      · rcases ih hc with ⟨j, hj⟩ | ⟨j, hj⟩
        · exact .inl ⟨j, List.mem_append_left _ hj⟩
        · exact .inr ⟨j, List.mem_append_left _ hj⟩
      · simp only [List.mem_singleton, Event.made.injEq] at hc
        exact .inl ⟨tid, by simp [hc.1]⟩
    | clone h => exact (ih hc).imp (fun ⟨j, hj⟩ => ⟨j, List.mem_append_left _ hj⟩) id
    | borrow h => exact (ih hc).imp (fun ⟨j, hj⟩ => ⟨j, List.mem_append_left _ hj⟩) id
    | elems h => exact (ih hc).imp (fun ⟨j, hj⟩ => ⟨j, List.mem_append_left _ hj⟩) id
    | copy h hx => exact (ih hc).imp (fun ⟨j, hj⟩ => ⟨j, List.mem_append_left _ hj⟩) id
    | @move tid x h hs to =>
      refine (ih hc).imp (fun ⟨j, hj⟩ => ?_) id
      by_cases he : (j, Thing.tensor b) = (tid, x)
      · cases he; exact ⟨to, by simp⟩
      · exact ⟨j, List.mem_append_left _ ((List.mem_erase_of_ne he).2 hj)⟩
    | read h =>
      have hc' : .made b c ∈ w.log := by simpa using hc
      exact (ih hc').imp id fun ⟨j, hj⟩ => ⟨j, List.mem_append_left _ hj⟩
    | @release tid x h hx =>
      exact (ih hc).imp (fun ⟨j, hj⟩ => ⟨j, (List.mem_erase_of_ne fun e => hx b (Prod.mk.inj e).2.symm).2 hj⟩) id
    | @drop tid b' h hl =>
      refine (ih hc).imp (fun ⟨j, hj⟩ => ?_) id
      by_cases he : (j, Thing.tensor b) = (tid, .tensor b')
      · cases he; exact hl
      · exact ⟨j, (List.mem_erase_of_ne he).2 hj⟩
    | @dropLast tid b' h hl =>
      have hc' : .made b c ∈ w.log := by simpa using hc
      rcases ih hc' with ⟨j, hj⟩ | ⟨j, hj⟩
      · by_cases he : (j, Thing.tensor b) = (tid, .tensor b')
        · cases he; exact .inr ⟨tid, by simp⟩
        · exact .inl ⟨j, (List.mem_erase_of_ne he).2 hj⟩
      · exact .inr ⟨j, List.mem_append_left _ hj⟩

/-- From every state of every program the threads can let go of everything they hold, each thing in the thread that holds it,
and then the elements of every buffer ever made have been dropped. -/
theorem C90_all_dropped {w : World} (h : Reach t w) :
    ∃ w', Reach t w' ∧ w'.held = [] ∧ (∃ l, w'.log = w.log ++ l) ∧
      ∀ b c, .made b c ∈ w'.log → ∃ j, .dropped b j ∈ w'.log := by
  suffices H : ∀ n (w : World), Reach t w → w.held.length = n →
      ∃ w', Reach t w' ∧ w'.held = [] ∧ ∃ l, w'.log = w.log ++ l by
    obtain ⟨w', h1, h2, h3⟩ := H _ w h rfl
    refine ⟨w', h1, h2, h3, fun b c hb => ?_⟩
    rcases C90_kept_or_dropped h1 hb with ⟨j, hj⟩ | hd
    · rw [h2] at hj; simp at hj
    · exact hd
  intro n
  induction n with
  | zero => exact fun w h hn => ⟨w, h, List.length_eq_zero_iff.1 hn, [], by simp⟩
  | succ n ih =>
    intro w h hn
    obtain ⟨⟨tid, x⟩, hx⟩ := List.exists_mem_of_length_pos (l := w.held) (by omega)
    have hlen : (w.held.erase (tid, x)).length = n := by rw [List.length_erase_of_mem hx, hn]; rfl
    by_cases hb : ∀ b, x ≠ .tensor b
    · obtain ⟨w', h1, h2, h3⟩ := ih _ (h.step (.release w hx hb)) hlen
      exact ⟨w', h1, h2, h3⟩
    · obtain ⟨b, rfl⟩ : ∃ b, x = .tensor b := by
        refine Classical.byContradiction fun hn => hb fun b e => hn ⟨b, e⟩
      by_cases hl : ∃ j, (j, .tensor b) ∈ w.held.erase (tid, .tensor b)
      · obtain ⟨w', h1, h2, h3⟩ := ih _ (h.step (.drop w hx hl)) hlen
        exact ⟨w', h1, h2, h3⟩
      · obtain ⟨w', h1, h2, l, h3⟩ := ih _ (h.step (.dropLast w hx fun j hj => hl ⟨j, hj⟩)) hlen
        exact ⟨w', h1, h2, _, by rw [h3, List.append_assoc]⟩

/-! ### examples -/

/-- A program with elements of a type like `f32`: thread 0 makes a tensor, clones it, sends the clone to thread 1, drops its
own; thread 1 reads the elements and drops the last handle. -/
theorem exShared : ∃ w, Reach .plain w ∧ w.log = [.made 0 0, .read 0 1, .dropped 0 1] := by
  have h1 := Reach.start.step (.make (t := .plain) _ 0)
  have h2 := h1.step (.clone _ (tid := 0) (b := 0) (.inl (by simp)))
  have h3 := h2.step (.move _ (tid := 0) (x := .tensor 0) (by simp) (tensor_send.2 ⟨trivial, trivial⟩) 1)
  have h4 := h3.step (.elems _ (tid := 1) (b := 0) (.inl (by simp)))
  have h5 := h4.step (.read _ (tid := 1) (b := 0) (by simp))
  have h6 := h5.step (.drop _ (tid := 0) (b := 0) (by simp) ⟨1, by decide⟩)
  have h7 := h6.step (.dropLast _ (tid := 1) (b := 0) (by decide) (by simp))
  exact ⟨_, h7, rfl⟩

example : Traits.plain.sync := by
  obtain ⟨w, h, hl⟩ := exShared
  exact (C90_threads h (b := 0) (c := 0) (j := 1) (by simp [hl]) (by decide)).1 (by simp [hl])

/-- Elements of a type that is `Send` but not `Sync` (like `Cell<f32>`): a tensor is made and cloned in thread 3. -/
example : ∃ w, Reach ⟨True, False⟩ w ∧ .made 0 3 ∈ w.log ∧ w.held = [(3, .tensor 0), (3, .tensor 0)] := by
  have h1 := Reach.start.step (.make (t := ⟨True, False⟩) _ 3)
  have h2 := h1.step (.clone _ (tid := 3) (b := 0) (.inl (by simp)))
  exact ⟨_, h2, by simp, rfl⟩

example : ∃ w, Reach ⟨True, False⟩ w ∧ ∀ j, (j, .tensor 0) ∈ w.held ∨ (j, .tensorRef 0) ∈ w.held → j = 3 := by
  have h1 := Reach.start.step (.make (t := ⟨True, False⟩) _ 3)
  have h2 := h1.step (.clone _ (tid := 3) (b := 0) (.inl (by simp)))
  exact ⟨_, h2, fun j => C90_confined (by simp) h2 (by simp)⟩

example : ∃ w', Reach .plain w' ∧ (7, .tensor 0) ∈ w'.held ∧ .read 0 7 ∈ w'.log := by
  have h1 := Reach.start.step (.make (t := .plain) _ 3)
  exact (C90_usable (by simp [Traits.plain]) (by simp [Traits.plain]) h1 (tid := 3) (b := 0) (by simp) 7).1

/-- Thread 3 makes a tensor, clones it and borrows it; all of it can be let go of. -/
example : ∃ w', Reach ⟨True, False⟩ w' ∧ w'.held = [] ∧ (∃ l, w'.log = [.made 0 3] ++ l) ∧
    ∀ b c, .made b c ∈ w'.log → ∃ j, .dropped b j ∈ w'.log := by
  have h1 := Reach.start.step (.make (t := ⟨True, False⟩) _ 3)
  have h2 := h1.step (.clone _ (tid := 3) (b := 0) (.inl (by simp)))
  have h3 := h2.step (.borrow _ (tid := 3) (b := 0) (by simp))
  exact C90_all_dropped h3

example : ∃ w, Reach .plain w ∧ ((∃ j, (j, .tensor 0) ∈ w.held) ∨ ∃ j, .dropped 0 j ∈ w.log) := by
  obtain ⟨w, h, hl⟩ := exShared
  exact ⟨w, h, C90_kept_or_dropped h (c := 0) (by simp [hl])⟩

end Sharing

end Essay
