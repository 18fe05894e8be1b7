import Verif.Spec.Heap
import Verif.Lemmas.Tensor

/-! # Helper lemmas for ownership (no claims here) -/

namespace Essay

namespace Heap

variable {α : Type}

@[simp] theorem put_same {β : Type} (f : Nat → β) (i : Nat) (v : β) : put f i v i = v := by simp [put]
theorem put_ne {β : Type} (f : Nat → β) {i j : Nat} (v : β) (h : j ≠ i) : put f i v j = f j := by simp [put, h]

/-- The invariant of all histories. -/
structure Inv (w : World α) : Prop where
  count : ∀ a, a < w.mem.nArcs → (w.mem.arc a).strong = w.users a
  arcs : ∀ h ∈ w.handles, h.arc < w.mem.nArcs
  range : ∀ h ∈ w.handles, h.offset + h.size ≤ (w.mem.arc h.arc).inner.len
  pnodup : w.pending.Nodup
  pend : ∀ a ∈ w.pending, a < w.mem.nArcs ∧ (w.mem.arc a).strong = 0
  data : ∀ a, a < w.mem.nArcs → (w.mem.arc a).inner.data < w.mem.nBlocks ∧
    (w.mem.block (w.mem.arc a).inner.data).cells.length = (w.mem.arc a).inner.len
  inj : ∀ a a', a < w.mem.nArcs → a' < w.mem.nArcs → (w.mem.arc a).inner.data = (w.mem.arc a').inner.data → a = a'
  alive : ∀ a, a < w.mem.nArcs → (0 < (w.mem.arc a).strong ∨ a ∈ w.pending) →
    (w.mem.block (w.mem.arc a).inner.data).freed = false ∧
    (w.mem.block (w.mem.arc a).inner.data).cells.all Cell.isLive = true
  dead : ∀ a, a < w.mem.nArcs → (w.mem.arc a).strong = 0 → a ∉ w.pending →
    (w.mem.block (w.mem.arc a).inner.data).freed = true
  drops : ∀ b i, w.mem.drops.count (b, i) =
    if b < w.mem.nBlocks ∧ (w.mem.block b).freed = true ∧ i < (w.mem.block b).cells.length then 1 else 0
  frees : ∀ b, w.mem.frees.count b = if b < w.mem.nBlocks ∧ (w.mem.block b).freed = true then 1 else 0

/-- A block that no arc owns. -/
def Unowned (m : Mem α) (b : Nat) : Prop := b < m.nBlocks ∧ ∀ a, a < m.nArcs → (m.arc a).inner.data ≠ b

theorem inv_empty : Inv (⟨Mem.empty, [], []⟩ : World α) := by
  constructor <;> simp [Mem.empty]

theorem inv_alloc {w : World α} (h : Inv w) (cells : List (Cell α)) :
    Inv { w with mem := (alloc cells w.mem).2 } ∧ Unowned (alloc cells w.mem).2 (alloc cells w.mem).1 ∧
      (alloc cells w.mem).2.block (alloc cells w.mem).1 = ⟨cells, false⟩ := by
  have hd : ∀ a, a < w.mem.nArcs → (w.mem.arc a).inner.data ≠ w.mem.nBlocks := fun a ha => by
    have := (h.data a ha).1; omega
  refine ⟨?_, ⟨by simp [alloc], fun a ha => by simpa [alloc] using hd a ha⟩, by simp [alloc]⟩
  constructor
  · exact h.count
  · exact h.arcs
  · exact h.range
  · exact h.pnodup
  · exact h.pend
  · intro a ha
    simp only [alloc] at ha ⊢
    rw [put_ne _ _ (hd a ha)]
    exact ⟨by have := (h.data a ha).1; omega, (h.data a ha).2⟩
  · exact h.inj
  · intro a ha hs
    simp only [alloc] at ha hs ⊢
    rw [put_ne _ _ (hd a ha)]
    exact h.alive a ha hs
  · intro a ha hs hp
    simp only [alloc] at ha hs hp ⊢
    rw [put_ne _ _ (hd a ha)]
    exact h.dead a ha hs hp
  · intro b i
    simp only [alloc]
    rw [h.drops b i]
    by_cases hb : b = w.mem.nBlocks
    · subst hb; simp
    · have : b < w.mem.nBlocks + 1 ↔ b < w.mem.nBlocks := by omega
      simp only [put_ne _ _ hb, this]
  · intro b
    simp only [alloc]
    rw [h.frees b]
    by_cases hb : b = w.mem.nBlocks
    · subst hb; simp
    · have : b < w.mem.nBlocks + 1 ↔ b < w.mem.nBlocks := by omega
      simp only [put_ne _ _ hb, this]

/-- Changing the slots of an unowned block that is not freed. -/
theorem inv_cells {w : World α} (h : Inv w) {b : Nat} (hu : Unowned w.mem b) (hf : (w.mem.block b).freed = false)
    (cells : List (Cell α)) :
    Inv { w with mem := { w.mem with block := put w.mem.block b ⟨cells, false⟩ } } := by
  constructor
  · exact h.count
  · exact h.arcs
  · exact h.range
  · exact h.pnodup
  · exact h.pend
  · intro a ha
    simp only at ha ⊢
    rw [put_ne _ _ (hu.2 a ha)]; exact h.data a ha
  · exact h.inj
  · intro a ha hs
    simp only at ha hs ⊢
    rw [put_ne _ _ (hu.2 a ha)]; exact h.alive a ha hs
  · intro a ha hs hp
    simp only at ha hs hp ⊢
    rw [put_ne _ _ (hu.2 a ha)]; exact h.dead a ha hs hp
  · intro c i
    simp only
    rw [h.drops c i]
    by_cases hc : c = b
    · subst hc; simp [hf]
    · simp only [put_ne _ _ hc]
  · intro c
    simp only
    rw [h.frees c]
    by_cases hc : c = b
    · subst hc; simp [hf]
    · simp only [put_ne _ _ hc]

theorem count_map_pair (b n c i : Nat) :
    ((List.range n).map fun i => (b, i)).count (c, i) = if c = b ∧ i < n then 1 else 0 := by
  induction n with
  | zero => simp
  | succ n ih =>
    rw [List.range_succ, List.map_append, List.count_append, ih]
    simp only [List.map_cons, List.map_nil, List.count_cons, List.count_nil, Nat.zero_add]
    by_cases hc : c = b
    · subst hc
      by_cases h1 : i < n
      · have : ¬ (c, n) = (c, i) := by intro h; injection h; omega
        simp [h1, show i < n + 1 by omega]; omega
      · by_cases h2 : i = n
        · subst h2; simp
        · simp [h1, show ¬ i < n + 1 by omega]; omega
    · have : ¬ b = c := fun h => hc h.symm
      simp [hc, this]

/-- The effect of dropping the data of a block in use. -/
theorem dropData_ok {d : Data} {m : Mem α} (hb : d.data < m.nBlocks) (hf : (m.block d.data).freed = false)
    (hl : (m.block d.data).cells.length = d.len) (hv : (m.block d.data).cells.all Cell.isLive = true) :
    dropData d m = .ok { m with
      block := put m.block d.data ⟨List.replicate d.len .gone, true⟩
      drops := m.drops ++ (List.range d.len).map fun i => (d.data, i)
      frees := m.frees ++ [d.data] } := by
  unfold dropData
  rw [if_pos ⟨hb, hf, hl, hv⟩]

theorem drops_after {w : World α} (h : Inv w) {d : Data} (hb : d.data < w.mem.nBlocks)
    (hf : (w.mem.block d.data).freed = false) (b i : Nat) :
    (w.mem.drops ++ (List.range d.len).map fun i => (d.data, i)).count (b, i) =
      if b < w.mem.nBlocks ∧ (put w.mem.block d.data ⟨List.replicate d.len .gone, true⟩ b).freed = true ∧
        i < (put w.mem.block d.data ⟨List.replicate d.len .gone, true⟩ b).cells.length then 1 else 0 := by
  rw [List.count_append, h.drops b i, count_map_pair]
  by_cases hc : b = d.data
  · subst hc; simp [hf, hb]
  · rw [put_ne _ _ hc]; simp [hc]

theorem frees_after {w : World α} (h : Inv w) {d : Data} (hb : d.data < w.mem.nBlocks)
    (hf : (w.mem.block d.data).freed = false) (b : Nat) :
    (w.mem.frees ++ [d.data]).count b =
      if b < w.mem.nBlocks ∧ (put w.mem.block d.data ⟨List.replicate d.len .gone, true⟩ b).freed = true then 1 else 0 := by
  rw [List.count_append, h.frees b]
  by_cases hc : b = d.data
  · subst hc; simp [hf, hb]
  · rw [put_ne _ _ hc]
    have : ¬ d.data = b := fun h => hc h.symm
    simp [this]

/-- Dropping the data of an unowned block in use. -/
theorem inv_dropData {w : World α} (h : Inv w) {d : Data} (hu : Unowned w.mem d.data)
    (hf : (w.mem.block d.data).freed = false) (hl : (w.mem.block d.data).cells.length = d.len)
    (hv : (w.mem.block d.data).cells.all Cell.isLive = true) :
    ∃ m, dropData d w.mem = .ok m ∧ Inv { w with mem := m } ∧ m.nArcs = w.mem.nArcs ∧ m.arc = w.mem.arc ∧
      ∀ b, b ≠ d.data → m.block b = w.mem.block b := by
  refine ⟨_, dropData_ok hu.1 hf hl hv, ?_, rfl, rfl, fun b hb => put_ne _ _ hb⟩
  constructor
  · exact h.count
  · exact h.arcs
  · exact h.range
  · exact h.pnodup
  · exact h.pend
  · intro a ha
    simp only at ha ⊢
    rw [put_ne _ _ (hu.2 a ha)]; exact h.data a ha
  · exact h.inj
  · intro a ha hs
    simp only at ha hs ⊢
    rw [put_ne _ _ (hu.2 a ha)]; exact h.alive a ha hs
  · intro a ha hs hp
    simp only at ha hs hp ⊢
    rw [put_ne _ _ (hu.2 a ha)]; exact h.dead a ha hs hp
  · exact drops_after h hu.1 hf
  · exact frees_after h hu.1 hf

theorem users_append (w : World α) (h : Handle) (m : Mem α) (p : List Nat) (a : Nat) :
    World.users ⟨m, w.handles ++ [h], p⟩ a = w.users a + if h.arc = a then 1 else 0 := by
  simp [World.users, List.countP_append, List.countP_cons]

theorem users_zero {w : World α} (h : Inv w) {a : Nat} (ha : w.mem.nArcs ≤ a) : w.users a = 0 := by
  unfold World.users
  rw [List.countP_eq_zero]
  intro x hx
  have := h.arcs x hx
  simp; omega

/-- What `Tensor::new` does. -/
theorem inv_new {w : World α} (h : Inv w) {d : Data} (hu : Unowned w.mem d.data)
    (hf : (w.mem.block d.data).freed = false) (hl : (w.mem.block d.data).cells.length = d.len)
    (hv : (w.mem.block d.data).cells.all Cell.isLive = true) (shape : Shape) :
    (shape.size = .ok d.len → ∃ m, tensorNew d shape w.mem = .ok (some ⟨shape, 0, d.len, w.mem.nArcs⟩, m) ∧
      Inv (w.add (some ⟨shape, 0, d.len, w.mem.nArcs⟩, m)) ∧ m.block = w.mem.block ∧
      (m.arc w.mem.nArcs).inner = d ∧ ∀ a, a < w.mem.nArcs → m.arc a = w.mem.arc a) ∧
    (shape.size ≠ .ok d.len → ∃ m, tensorNew d shape w.mem = .ok (none, m) ∧ Inv { w with mem := m } ∧
      m.nArcs = w.mem.nArcs ∧ m.arc = w.mem.arc ∧ ∀ b, b ≠ d.data → m.block b = w.mem.block b) := by
  constructor
  · intro hs
    refine ⟨(arcNew d w.mem).2, ?_, ?_, rfl, by simp [arcNew], fun a ha => by
      simp only [arcNew]; rw [put_ne _ _ (by omega)]⟩
    · unfold tensorNew
      rw [hs]
      simp [arcNew]
    · have hin : ∀ a, a < w.mem.nArcs → put w.mem.arc w.mem.nArcs ⟨1, d⟩ a = w.mem.arc a := fun a ha =>
        put_ne _ _ (by omega)
      have hpn : w.mem.nArcs ∉ w.pending := fun hp => by have := (h.pend _ hp).1; omega
      constructor
      · intro a ha
        simp only [World.add, arcNew, Option.toList_some] at ha ⊢
        rw [users_append]
        by_cases hn : a = w.mem.nArcs
        · subst hn; rw [users_zero h (by omega)]; simp
        · rw [hin a (by omega), h.count a (by omega), if_neg (fun e => hn e.symm)]; rfl
      · intro x hx
        simp only [World.add, arcNew, Option.toList_some, List.mem_append, List.mem_singleton] at hx ⊢
        rcases hx with hx | rfl
        · have := h.arcs x hx; omega
        · simp
      · intro x hx
        simp only [World.add, arcNew, Option.toList_some, List.mem_append, List.mem_singleton] at hx ⊢
        rcases hx with hx | rfl
        · rw [hin _ (h.arcs x hx)]; exact h.range x hx
        · simp
      · exact h.pnodup
      · intro a ha
        have := h.pend a ha
        simp only [World.add, arcNew]
        rw [hin a this.1]
        exact ⟨by omega, this.2⟩
      · intro a ha
        simp only [World.add, arcNew] at ha ⊢
        by_cases hn : a = w.mem.nArcs
        · subst hn; simp; exact ⟨hu.1, hl⟩
        · rw [hin a (by omega)]; exact h.data a (by omega)
      · intro a a' ha ha'
        simp only [World.add, arcNew] at ha ha' ⊢
        by_cases hn : a = w.mem.nArcs <;> by_cases hn' : a' = w.mem.nArcs
        · subst hn; intro _; omega
        · subst hn; rw [hin a' (by omega)]; simp
          intro e; exact absurd e.symm (hu.2 a' (by omega))
        · subst hn'; rw [hin a (by omega)]; simp
          intro e; exact absurd e (hu.2 a (by omega))
        · rw [hin a (by omega), hin a' (by omega)]; exact h.inj a a' (by omega) (by omega)
      · intro a ha
        simp only [World.add, arcNew] at ha ⊢
        by_cases hn : a = w.mem.nArcs
        · subst hn; simp; exact ⟨hf, by simpa using hv⟩
        · rw [hin a (by omega)]; exact h.alive a (by omega)
      · intro a ha
        simp only [World.add, arcNew] at ha ⊢
        by_cases hn : a = w.mem.nArcs
        · subst hn; simp
        · rw [hin a (by omega)]; exact h.dead a (by omega)
      · exact h.drops
      · exact h.frees
  · intro hs
    obtain ⟨m, e, hi, h1, h2, h3⟩ := inv_dropData h hu hf hl hv
    refine ⟨m, ?_, hi, h1, h2, h3⟩
    unfold tensorNew
    have hub := Shape.noUB_size shape
    cases hsz : shape.size with
    | ok n =>
      have : n ≠ d.len := fun hn => hs (by rw [hsz, hn])
      simp [this, e]
    | error er =>
      cases er with
      | panic => simp [e]
      | ub => exact absurd hsz hub

/-- The writes of a closure keeping to the block. -/
theorem inv_writes {w : World α} (h : Inv w) {b len : Nat} (hu : Unowned w.mem b) (hf : (w.mem.block b).freed = false)
    (hl : (w.mem.block b).cells.length = len) (writes : List (Nat × α)) (hw : ∀ p ∈ writes, p.1 < len) :
    ∃ m, writes.foldlM (fun m p => write b p.1 p.2 m) w.mem = .ok m ∧ Inv { w with mem := m } ∧ Unowned m b ∧
      (m.block b).freed = false ∧ (m.block b).cells.length = len ∧ m.nArcs = w.mem.nArcs ∧ m.arc = w.mem.arc ∧
      m.nBlocks = w.mem.nBlocks ∧ (∀ c, c ≠ b → m.block c = w.mem.block c) ∧
      (m.block b).cells = writes.foldl (fun cs p => cs.set p.1 (.live p.2)) (w.mem.block b).cells := by
  induction writes generalizing w with
  | nil => exact ⟨w.mem, rfl, h, hu, hf, hl, rfl, rfl, rfl, fun _ _ => rfl, rfl⟩
  | cons p ws ih =>
    have hp := hw p (by simp)
    have e : write b p.1 p.2 w.mem =
        .ok { w.mem with block := put w.mem.block b ⟨(w.mem.block b).cells.set p.1 (.live p.2), false⟩ } := by
      unfold write; rw [if_pos ⟨hu.1, hf, by omega⟩]
    rw [List.foldlM_cons, e, ok_bind]
    have hi := inv_cells h hu hf ((w.mem.block b).cells.set p.1 (.live p.2))
    obtain ⟨m, e', h1, h2, h3, h4, h5, h6, h7, h8, h9⟩ := ih hi ⟨hu.1, hu.2⟩ (by simp) (by simpa using hl)
      (fun q hq => hw q (by simp [hq]))
    refine ⟨m, e', h1, h2, h3, h4, h5, h6, h7, fun c hc => ?_, ?_⟩
    · rw [h8 c hc]; exact put_ne _ _ hc
    · rw [h9]; simp

theorem foldl_set_get (writes : List (Nat × α)) (cs : List (Cell α)) {i : Nat} (hi : i < cs.length)
    (h : (∃ p ∈ writes, p.1 = i) ∨ ∃ a, cs[i]? = some (.live a)) :
    ∃ a, (writes.foldl (fun cs p => cs.set p.1 (.live p.2)) cs)[i]? = some (.live a) := by
  induction writes generalizing cs with
  | nil =>
    rcases h with ⟨p, hp, _⟩ | h
    · simp at hp
    · exact h
  | cons p ws ih =>
    rw [List.foldl_cons]
    apply ih _ (by simpa using hi)
    by_cases hpi : p.1 = i
    · right; exact ⟨p.2, by rw [hpi, List.getElem?_set_self hi]⟩
    · rcases h with ⟨q, hq, hqi⟩ | ⟨a, ha⟩
      · left
        rcases List.mem_cons.1 hq with rfl | hq
        · exact absurd hqi hpi
        · exact ⟨q, hq, hqi⟩
      · right; exact ⟨a, by rw [List.getElem?_set_ne hpi, ha]⟩

theorem foldl_set_length (writes : List (Nat × α)) (cs : List (Cell α)) :
    (writes.foldl (fun cs p => cs.set p.1 (.live p.2)) cs).length = cs.length := by
  induction writes generalizing cs with
  | nil => rfl
  | cons p ws ih => rw [List.foldl_cons, ih]; simp

theorem all_live_of_get {cs : List (Cell α)} (h : ∀ i, i < cs.length → ∃ a, cs[i]? = some (.live a)) :
    cs.all Cell.isLive = true := by
  rw [List.all_eq_true]
  intro c hc
  obtain ⟨i, hi, rfl⟩ := List.getElem_of_mem hc
  obtain ⟨a, ha⟩ := h i hi
  rw [List.getElem?_eq_getElem hi] at ha
  injection ha with ha
  rw [ha]; rfl

/-- Adding one user of an arc in use. -/
theorem inv_clone {w : World α} (h : Inv w) {a : Nat} (ha : a < w.mem.nArcs) (hs : 0 < (w.mem.arc a).strong)
    {h' : Handle} (he : h'.arc = a) (hr : h'.offset + h'.size ≤ (w.mem.arc a).inner.len) :
    ∃ m, arcClone a w.mem = .ok m ∧ Inv (w.add (some h', m)) ∧ m.block = w.mem.block ∧
      ∀ c, (m.arc c).inner = (w.mem.arc c).inner := by
  have hin : ∀ c, (put w.mem.arc a ⟨(w.mem.arc a).strong + 1, (w.mem.arc a).inner⟩ c).inner = (w.mem.arc c).inner := by
    intro c
    by_cases hc : c = a
    · subst hc; simp
    · rw [put_ne _ _ hc]
  have hpos : ∀ c, 0 < (put w.mem.arc a ⟨(w.mem.arc a).strong + 1, (w.mem.arc a).inner⟩ c).strong ↔
      0 < (w.mem.arc c).strong := by
    intro c
    by_cases hc : c = a
    · subst hc; simp [hs]
    · rw [put_ne _ _ hc]
  refine ⟨{ w.mem with arc := put w.mem.arc a ⟨(w.mem.arc a).strong + 1, (w.mem.arc a).inner⟩ }, ?_, ?_, rfl, hin⟩
  · unfold arcClone; rw [if_pos ⟨ha, hs⟩]
  · constructor
    · intro c hc
      simp only [World.add, Option.toList_some] at hc ⊢
      rw [users_append, he]
      by_cases hca : c = a
      · subst hca; rw [← h.count c hc]; simp
      · rw [put_ne _ _ hca, h.count c hc, if_neg (fun e => hca e.symm)]; rfl
    · intro x hx
      simp only [World.add, Option.toList_some, List.mem_append, List.mem_singleton] at hx ⊢
      rcases hx with hx | rfl
      · exact h.arcs x hx
      · omega
    · intro x hx
      simp only [World.add, Option.toList_some, List.mem_append, List.mem_singleton] at hx ⊢
      rw [hin]
      rcases hx with hx | rfl
      · exact h.range x hx
      · rw [he]; exact hr
    · exact h.pnodup
    · intro c hc
      have := h.pend c hc
      have hca : c ≠ a := by rintro rfl; omega
      simp only [World.add]
      rw [put_ne _ _ hca]; exact this
    · intro c hc; simp only [World.add] at hc ⊢; rw [hin]; exact h.data c hc
    · intro c c' hc hc'; simp only [World.add] at hc hc' ⊢; rw [hin, hin]; exact h.inj c c' hc hc'
    · intro c hc hcs
      simp only [World.add] at hc hcs ⊢
      rw [hin]; rw [hpos] at hcs; exact h.alive c hc hcs
    · intro c hc hcs
      simp only [World.add] at hc hcs ⊢
      rw [hin]
      refine h.dead c hc ?_
      have := hpos c; omega
    · exact h.drops
    · exact h.frees

theorem countP_eraseIdx {p : Handle → Bool} {l : List Handle} {i : Nat} {h : Handle} (hi : l[i]? = some h) :
    (l.eraseIdx i).countP p + (if p h then 1 else 0) = l.countP p := by
  induction l generalizing i with
  | nil => simp at hi
  | cons x l ih =>
    cases i with
    | zero =>
      simp at hi; subst hi
      simp [List.countP_cons]
    | succ i =>
      simp at hi
      simp only [List.eraseIdx_cons_succ, List.countP_cons]
      have := ih hi; omega

/-- Dropping a handle. -/
theorem inv_release {w : World α} (h : Inv w) {i : Nat} {x : Handle} (hx : w.handles[i]? = some x) :
    ∃ w', w.release i x = .ok w' ∧ Inv w' ∧ w'.mem.block = w.mem.block ∧ w'.handles = w.handles.eraseIdx i ∧
      (∀ c, (w'.mem.arc c).inner = (w.mem.arc c).inner) ∧ w'.mem.nArcs = w.mem.nArcs := by
  have hmem : x ∈ w.handles := List.mem_of_getElem? hx
  have ha := h.arcs x hmem
  have hs : 0 < (w.mem.arc x.arc).strong := by
    rw [h.count x.arc ha]
    unfold World.users
    rw [List.countP_pos_iff]
    exact ⟨x, hmem, by simp⟩
  have hin : ∀ c, (put w.mem.arc x.arc ⟨(w.mem.arc x.arc).strong - 1, (w.mem.arc x.arc).inner⟩ c).inner =
      (w.mem.arc c).inner := by
    intro c
    by_cases hc : c = x.arc
    · subst hc; simp
    · rw [put_ne _ _ hc]
  have hxp : x.arc ∉ w.pending := fun hp => by have := (h.pend _ hp).2; omega
  have hsub : ∀ y ∈ w.handles.eraseIdx i, y ∈ w.handles := fun y hy => List.mem_of_mem_eraseIdx hy
  refine ⟨⟨{ w.mem with arc := put w.mem.arc x.arc ⟨(w.mem.arc x.arc).strong - 1, (w.mem.arc x.arc).inner⟩ },
    w.handles.eraseIdx i, if (w.mem.arc x.arc).strong = 1 then w.pending ++ [x.arc] else w.pending⟩, ?_, ?_,
    rfl, rfl, hin, rfl⟩
  · unfold World.release arcRelease
    rw [if_pos ⟨ha, hs⟩, ok_bind]
    simp [pure, Except.pure]
  · have hpm : ∀ c, c ∈ (if (w.mem.arc x.arc).strong = 1 then w.pending ++ [x.arc] else w.pending) ↔
        c ∈ w.pending ∨ c = x.arc ∧ (w.mem.arc x.arc).strong = 1 := by
      intro c; split <;> simp_all
    constructor
    · intro c hc
      have hcnt := countP_eraseIdx (p := fun h => h.arc == c) hx
      have := h.count c hc
      unfold World.users at this ⊢
      simp only at hc ⊢
      by_cases hcx : c = x.arc
      · subst hcx; simp at hcnt; simp; omega
      · rw [put_ne _ _ hcx]
        have hne : ¬ x.arc = c := fun e => hcx e.symm
        simp [hne] at hcnt
        omega
    · intro y hy; exact h.arcs y (hsub y hy)
    · intro y hy; simp only; rw [hin]; exact h.range y (hsub y hy)
    · simp only
      split
      · rw [List.nodup_append]
        refine ⟨h.pnodup, by simp, ?_⟩
        intro a ha b hb
        rw [List.mem_singleton.1 hb]
        rintro rfl
        exact hxp ha
      · exact h.pnodup
    · intro c hc
      simp only at hc ⊢
      rcases (hpm c).1 hc with hc | ⟨rfl, h1⟩
      · have := h.pend c hc
        have hcx : c ≠ x.arc := by rintro rfl; exact hxp hc
        rw [put_ne _ _ hcx]; exact this
      · simp [ha, h1]
    · intro c hc; simp only at hc ⊢; rw [hin]; exact h.data c hc
    · intro c c' hc hc'; simp only at hc hc' ⊢; rw [hin, hin]; exact h.inj c c' hc hc'
    · intro c hc hcs
      simp only at hc hcs ⊢
      rw [hin]
      rw [hpm] at hcs
      refine h.alive c hc ?_
      by_cases hcx : c = x.arc
      · subst hcx; left; exact hs
      · rw [put_ne _ _ hcx] at hcs
        rcases hcs with hcs | hcs | ⟨e, _⟩
        · exact Or.inl hcs
        · exact Or.inr hcs
        · exact absurd e hcx
    · intro c hc hcs hcp
      simp only at hc hcs hcp ⊢
      rw [hin]
      rw [hpm] at hcp
      by_cases hcx : c = x.arc
      · subst hcx; simp at hcs
        exact absurd (Or.inr ⟨rfl, by omega⟩) hcp
      · rw [put_ne _ _ hcx] at hcs
        exact h.dead c hc hcs (fun hp => hcp (Or.inl hp))
    · exact h.drops
    · exact h.frees

/-- Running the destructor of an arc whose count is zero. -/
theorem inv_destroy {w : World α} (h : Inv w) {j a : Nat} (hj : w.pending[j]? = some a) :
    ∃ m, dropData (w.mem.arc a).inner w.mem = .ok m ∧ Inv { w with mem := m, pending := w.pending.eraseIdx j } ∧
      m.arc = w.mem.arc ∧ ∀ c, c < w.mem.nArcs → c ≠ a → m.block (w.mem.arc c).inner.data = w.mem.block (w.mem.arc c).inner.data := by
  have hap : a ∈ w.pending := List.mem_of_getElem? hj
  obtain ⟨ha, h0⟩ := h.pend a hap
  obtain ⟨hf, hv⟩ := h.alive a ha (Or.inr hap)
  obtain ⟨hb, hl⟩ := h.data a ha
  have hne : ∀ c, c < w.mem.nArcs → c ≠ a → (w.mem.arc c).inner.data ≠ (w.mem.arc a).inner.data :=
    fun c hc hca e => hca (h.inj c a hc ha e)
  have hmem : ∀ c, c ∈ w.pending.eraseIdx j ↔ c ∈ w.pending ∧ c ≠ a := by
    intro c
    rw [List.mem_eraseIdx_iff_getElem?]
    constructor
    · rintro ⟨k, hk, e⟩
      refine ⟨List.mem_of_getElem? e, ?_⟩
      rintro rfl
      exact hk ((List.getElem?_inj (List.getElem?_eq_some_iff.1 e).1 h.pnodup).1 (by rw [e, hj]))
    · rintro ⟨h1, h2⟩
      obtain ⟨k, e⟩ := List.mem_iff_getElem?.1 h1
      refine ⟨k, ?_, e⟩
      rintro rfl
      rw [hj] at e; injection e with e; exact h2 e.symm
  refine ⟨_, dropData_ok hb hf hl hv, ?_, rfl, fun c hc hca => put_ne _ _ (hne c hc hca)⟩
  constructor
  · exact h.count
  · exact h.arcs
  · exact h.range
  · exact h.pnodup.eraseIdx j
  · intro c hc; exact h.pend c ((hmem c).1 hc).1
  · intro c hc
    simp only at hc ⊢
    by_cases hca : c = a
    · subst hca; simp [hb]
    · rw [put_ne _ _ (hne c hc hca)]; exact h.data c hc
  · exact h.inj
  · intro c hc hcs
    simp only at hc hcs ⊢
    rw [hmem] at hcs
    have hca : c ≠ a := by
      rintro rfl
      rcases hcs with hcs | hcs
      · omega
      · exact hcs.2 rfl
    rw [put_ne _ _ (hne c hc hca)]
    exact h.alive c hc (hcs.imp id And.left)
  · intro c hc hcs hcp
    simp only at hc hcs hcp ⊢
    rw [hmem] at hcp
    by_cases hca : c = a
    · subst hca; simp
    · rw [put_ne _ _ (hne c hc hca)]
      exact h.dead c hc hcs (fun hp => hcp ⟨hp, hca⟩)
  · exact drops_after h hb hf
  · exact frees_after h hb hf

end Heap

end Essay

namespace Essay

namespace Heap

variable {α : Type}

/-! ### one step of a history -/

/-- What no step changes. -/
structure Frame (w w' : World α) : Prop where
  inner : ∀ a, a < w.mem.nArcs → a < w'.mem.nArcs ∧ (w'.mem.arc a).inner = (w.mem.arc a).inner
  free : ∀ b, Unowned w.mem b → Unowned w'.mem b ∧ w'.mem.block b = w.mem.block b
  live : ∀ a, a < w.mem.nArcs → 0 < w'.users a →
    w'.mem.block (w.mem.arc a).inner.data = w.mem.block (w.mem.arc a).inner.data

theorem Frame.refl (w : World α) : Frame w w :=
  ⟨fun _ h => ⟨h, rfl⟩, fun _ h => ⟨h, rfl⟩, fun _ _ _ => rfl⟩

/-- The values a block of cells holds. -/
def vals (cs : List (Cell α)) : List α := cs.filterMap fun
  | .live a => some a
  | _ => none

theorem vals_map_live (xs : List α) : vals (xs.map .live) = xs := by
  induction xs with
  | nil => rfl
  | cons x xs ih => simp [vals] at ih ⊢; exact ih

theorem eq_map_live {cs : List (Cell α)} (h : cs.all Cell.isLive = true) : cs = (vals cs).map .live := by
  induction cs with
  | nil => rfl
  | cons c cs ih =>
    simp only [List.all_cons, Bool.and_eq_true] at h
    cases c with
    | live a => simp only [vals, List.filterMap_cons, List.map_cons]; exact congrArg _ (ih h.2)
    | uninit => simp [Cell.isLive] at h
    | gone => simp [Cell.isLive] at h

theorem vals_length {cs : List (Cell α)} (h : cs.all Cell.isLive = true) : (vals cs).length = cs.length := by
  have := congrArg List.length (eq_map_live h)
  rw [List.length_map] at this
  exact this.symm

theorem new_step {w : World α} (h : Inv w) {m : Mem α} {d : Data} (hi : Inv { w with mem := m }) (hu : Unowned m d.data)
    (hf : (m.block d.data).freed = false) (hl : (m.block d.data).cells.length = d.len)
    (hv : (m.block d.data).cells.all Cell.isLive = true) (shape : Shape)
    (hn : m.nArcs = w.mem.nArcs) (ha : m.arc = w.mem.arc) (hb : w.mem.nBlocks ≤ d.data ∧ w.mem.nBlocks ≤ m.nBlocks)
    (hm : ∀ b, b < w.mem.nBlocks → m.block b = w.mem.block b) :
    ∃ r, tensorNew d shape m = .ok r ∧ Inv (w.add r) ∧ Frame w (w.add r) ∧
      (match Tensor.new (vals (m.block d.data).cells) shape with
        | .ok t => ∃ x, (w.add r).handles = w.handles ++ [x] ∧ value (w.add r).mem x = t
        | .error _ => (w.add r).handles = w.handles) := by
  have hvl : (vals (m.block d.data).cells).length = d.len := by
    rw [← hl, vals_length hv]
  obtain ⟨k1, k2⟩ := inv_new hi (d := d) hu hf hl hv shape
  by_cases hs : shape.size = .ok d.len
  · obtain ⟨m', e, hi', hbk, hin, hold⟩ := k1 hs
    simp only at hi' hold hin e hbk
    refine ⟨_, e, hi', ⟨?_, ?_, ?_⟩, ?_⟩
    · intro a hlt
      refine ⟨?_, ?_⟩
      · have := hi'.arcs ⟨shape, 0, d.len, m.nArcs⟩ (by simp [World.add])
        simp only [World.add] at this ⊢
        omega
      · simp only [World.add]; rw [hold a (by omega), ha]
    · intro b hub
      have hmb : m'.nBlocks = m.nBlocks := by
        have := e
        unfold tensorNew at this
        rw [hs] at this
        simp [arcNew] at this
        rw [← this]
      refine ⟨⟨by simp only [World.add]; rw [hmb]; have := hub.1; omega, ?_⟩, by simp only [World.add]; rw [hbk, hm b hub.1]⟩
      intro a hlt
      simp only [World.add] at hlt ⊢
      by_cases han : a < m.nArcs
      · rw [hold a han, ha]; exact hub.2 a (by omega)
      · have hmn : m'.nArcs = m.nArcs + 1 := by
          have := e
          unfold tensorNew at this
          rw [hs] at this
          simp [arcNew] at this
          rw [← this]
        have : a = m.nArcs := by omega
        subst this
        rw [hin]
        have := hub.1; omega
    · intro a hlt _
      simp only [World.add]
      rw [hbk, hm _ (h.data a hlt).1]
    · have hnew : Tensor.new (vals (m.block d.data).cells) shape =
          .ok ⟨shape, 0, d.len, vals (m.block d.data).cells⟩ := by
        unfold Tensor.new
        rw [hs, ok_bind, ensure_true hvl.symm, ok_bind, hvl]; rfl
      rw [hnew]
      refine ⟨⟨shape, 0, d.len, m.nArcs⟩, by simp [World.add], ?_⟩
      simp only [World.add, value, hin, hbk]; rfl
  · obtain ⟨m', e, hi', hn', ha', hbk⟩ := k2 hs
    simp only at hi' e hn' ha' hbk
    have hmb : m'.nBlocks = m.nBlocks := by
      have := hi'
      obtain ⟨m2, e2⟩ : ∃ m2, dropData d m = .ok m2 ∧ m2.nBlocks = m.nBlocks := ⟨_, dropData_ok hu.1 hf hl hv, rfl⟩
      have hub := Shape.noUB_size shape
      unfold tensorNew at e
      cases hsz : shape.size with
      | ok n =>
        have hnd : n ≠ d.len := fun hn => hs (by rw [hsz, hn])
        simp [hsz, hnd, e2.1] at e
        rw [← e, e2.2]
      | error er =>
        cases er with
        | panic => simp [hsz, e2.1] at e; rw [← e, e2.2]
        | ub => exact absurd hsz hub
    refine ⟨_, e, by simpa [World.add] using hi', ⟨?_, ?_, ?_⟩, ?_⟩
    · intro a hlt
      simp only [World.add]
      rw [hn', hn, ha', ha]; exact ⟨hlt, rfl⟩
    · intro b hub
      simp only [World.add]
      have hbd : b ≠ d.data := by have := hub.1; omega
      refine ⟨⟨by rw [hmb]; have := hub.1; omega, ?_⟩, by rw [hbk b hbd, hm b hub.1]⟩
      rw [hn', hn, ha', ha]; exact hub.2
    · intro a hlt _
      simp only [World.add]
      have := (h.data a hlt).1
      rw [hbk _ (by omega), hm _ this]
    · have hnew : Tensor.new (vals (m.block d.data).cells) shape = .error .panic :=
        new_panic (by rw [hvl]; exact hs)
      rw [hnew]; simp [World.add]

theorem fromBox_step {w : World α} (h : Inv w) (xs : List α) (shape : Shape) :
    ∃ w', step w (.fromBox xs shape) = .ok w' ∧ Inv w' ∧ Frame w w' ∧
      (match Tensor.new xs shape with
        | .ok t => ∃ x, w'.handles = w.handles ++ [x] ∧ value w'.mem x = t
        | .error _ => w'.handles = w.handles) := by
  obtain ⟨hi, hu, hbl⟩ := inv_alloc h (xs.map Cell.live)
  obtain ⟨r, e, h1, h2, h3⟩ := new_step h (d := ⟨(alloc (xs.map Cell.live) w.mem).1, xs.length⟩) hi hu
    (by simp only [hbl]) (by simp only [hbl]; simp) (by simp only [hbl]; simp [Cell.isLive]) shape rfl rfl
    ⟨Nat.le_refl _, Nat.le_succ _⟩ (fun b hb => by simp only [alloc]; exact put_ne _ _ (by omega))
  refine ⟨w.add r, ?_, h1, h2, ?_⟩
  · show (fromBoxedSlice xs shape w.mem >>= fun r => pure (w.add r)) = _
    unfold fromBoxedSlice
    simp only [e, ok_bind]; rfl
  · simp only [hbl, vals_map_live] at h3
    exact h3

/-- A slot of a block in the value model, as a cell. -/
def toCell : Option α → Cell α
  | some a => .live a
  | none => .uninit

theorem writes_cells (writes : List (Nat × α)) (b : Buf α) (hw : ∀ p ∈ writes, p.1 < b.length) :
    ∃ b', writes.foldlM (fun (b : Buf α) p => b.write p.1 p.2) b = .ok b' ∧ b'.length = b.length ∧
      writes.foldl (fun cs p => cs.set p.1 (.live p.2)) (b.map toCell) = b'.map toCell := by
  induction writes generalizing b with
  | nil => exact ⟨b, rfl, rfl, rfl⟩
  | cons p ws ih =>
    rw [List.foldlM_cons, Buf.write_ok (hw p (by simp)), ok_bind, List.foldl_cons]
    obtain ⟨b', e, hl, hc⟩ := ih (b.set p.1 (some p.2)) (fun q hq => by
      rw [List.length_set]; exact hw q (by simp [hq]))
    refine ⟨b', e, by rw [hl, List.length_set], ?_⟩
    rw [← hc, List.map_set]; rfl

theorem buf_of_live {b : Buf α} (h : (b.map toCell).all Cell.isLive = true) : b = (vals (b.map toCell)).map some := by
  induction b with
  | nil => rfl
  | cons c cs ih =>
    simp only [List.map_cons, List.all_cons, Bool.and_eq_true] at h
    cases c with
    | some a => simp only [List.map_cons, toCell, vals, List.filterMap_cons]; exact congrArg _ (ih h.2)
    | none => simp [toCell, Cell.isLive] at h

theorem init_step {w : World α} (h : Inv w) (len : Nat) (shape : Shape) (writes : List (Nat × α)) (panics : Bool)
    (hc : (Op.init len shape writes panics).Contract) :
    ∃ w', step w (.init len shape writes panics) = .ok w' ∧ Inv w' ∧ Frame w w' ∧
      (panics = true → w'.handles = w.handles ∧ Unowned w'.mem w.mem.nBlocks ∧
        (w'.mem.block w.mem.nBlocks).freed = false ∧ (w'.mem.block w.mem.nBlocks).cells.length = len) ∧
      (panics = false →
        match Tensor.unsafeInit len shape (fun b => writes.foldlM (fun b p => b.write p.1 p.2) b) with
        | .ok t => ∃ x, w'.handles = w.handles ++ [x] ∧ value w'.mem x = t
        | .error _ => w'.handles = w.handles) := by
  obtain ⟨h0, hw, hall⟩ := hc
  obtain ⟨hi, hu, hbl⟩ := inv_alloc h (List.replicate len (Cell.uninit : Cell α))
  obtain ⟨m, e, h1, h2, h3, h4, h5, h6, h7, h8, h9⟩ := inv_writes hi hu (by simp only [hbl]) (len := len)
    (by simp only [hbl]; simp) writes hw
  simp only at h1 h5 h6 h7 h8 h9 e
  rw [hbl] at h9
  have hold : ∀ b, b < w.mem.nBlocks → m.block b = w.mem.block b := fun b hb => by
    rw [h8 b (by simp only [alloc]; omega)]
    simp only [alloc]; exact put_ne _ _ (by omega)
  obtain ⟨b', eb, hlb, hcb⟩ := writes_cells writes (Buf.uninit len) (fun p hp => by
    simp only [Buf.uninit, List.length_replicate]; exact hw p hp)
  have hcells : (m.block w.mem.nBlocks).cells = b'.map toCell := by
    rw [← hcb]
    have : (Buf.uninit len : Buf α).map toCell = List.replicate len .uninit := by simp [Buf.uninit, toCell]
    rw [this]; exact h9
  cases panics with
  | true =>
    refine ⟨w.add (none, m), ?_, by simpa [World.add] using h1, ?_, fun _ => ?_, fun hp => by cases hp⟩
    · show (unsafeInit len shape writes true w.mem >>= fun r => pure (w.add r)) = _
      unfold unsafeInit
      rw [if_neg (by omega)]
      simp only [e, ok_bind]; rfl
    · refine ⟨fun a ha => ?_, fun b hub => ?_, fun a ha _ => ?_⟩
      · simp only [World.add]; rw [h5, h6]; exact ⟨ha, rfl⟩
      · simp only [World.add]
        refine ⟨⟨by rw [h7]; simp only [alloc]; have := hub.1; omega, ?_⟩, hold b hub.1⟩
        rw [h5, h6]; exact hub.2
      · simp only [World.add]; rw [hold _ (h.data a ha).1]
    · exact ⟨by simp [World.add], h2, h3, h4⟩
  | false =>
    have hlive : (m.block w.mem.nBlocks).cells.all Cell.isLive = true := by
      apply all_live_of_get
      intro i hilt
      have h4' : (m.block w.mem.nBlocks).cells.length = len := h4
      rw [show (m.block w.mem.nBlocks).cells = _ from h9]
      exact foldl_set_get writes _ (by simp; omega) (Or.inl (hall rfl i (by omega)))
    obtain ⟨r, er, k1, k2, k3⟩ := new_step h (m := m) (d := ⟨w.mem.nBlocks, len⟩) h1 h2 h3 h4 hlive shape h5 h6
      ⟨Nat.le_refl _, by rw [h7]; exact Nat.le_succ _⟩ hold
    refine ⟨w.add r, ?_, k1, k2, (fun hp => by cases hp), fun _ => ?_⟩
    · show (unsafeInit len shape writes false w.mem >>= fun r => pure (w.add r)) = _
      unfold unsafeInit
      rw [if_neg (by omega)]
      simp only [e, ok_bind]
      have : tensorNew ⟨(alloc (List.replicate len Cell.uninit) w.mem).1, len⟩ shape m = .ok r := er
      simp [this]
    · have hfin : Tensor.unsafeInit len shape (fun b => writes.foldlM (fun b p => b.write p.1 p.2) b) =
          Tensor.new (vals (m.block w.mem.nBlocks).cells) shape := by
        unfold Tensor.unsafeInit
        dsimp only
        rw [eb, ok_bind]
        unfold Tensor.finish
        rw [hcells] at hlive ⊢
        have hb := buf_of_live hlive
        generalize vals (b'.map toCell) = ys at hb
        rw [hb, Buf.complete_map_some]
      rw [hfin]; exact k3

theorem strong_pos {w : World α} (h : Inv w) {x : Handle} (hx : x ∈ w.handles) : 0 < (w.mem.arc x.arc).strong := by
  rw [h.count _ (h.arcs x hx)]
  unfold World.users
  rw [List.countP_pos_iff]
  exact ⟨x, hx, by simp⟩

theorem add_frame {w : World α} {x : Handle} {m : Mem α} (hn : w.mem.nArcs = m.nArcs) (hk : w.mem.nBlocks = m.nBlocks) (hb : m.block = w.mem.block)
    (hin : ∀ c, (m.arc c).inner = (w.mem.arc c).inner) : Frame w (w.add (some x, m)) := by
  refine ⟨fun a ha => ?_, fun b hub => ?_, fun a _ _ => ?_⟩
  · simp only [World.add]; exact ⟨by omega, hin a⟩
  · simp only [World.add]
    refine ⟨⟨by have := hub.1; omega, fun a ha => ?_⟩, by rw [hb]⟩
    rw [hin]; exact hub.2 a (by omega)
  · simp only [World.add]; rw [hb]

theorem arcClone_counts {a : Nat} {m m' : Mem α} (h : arcClone a m = .ok m') : m.nArcs = m'.nArcs ∧ m.nBlocks = m'.nBlocks := by
  unfold arcClone at h
  split at h
  · cases h; exact ⟨rfl, rfl⟩
  · cases h

theorem clone_step {w : World α} (h : Inv w) (i : Nat) :
    ∃ w', step w (.clone i) = .ok w' ∧ Inv w' ∧ Frame w w' ∧
      w'.handles = w.handles ++ (w.handles[i]?).toList := by
  cases hx : w.handles[i]? with
  | none => exact ⟨w, by simp [step, hx], h, .refl w, by simp⟩
  | some x =>
    have hm : x ∈ w.handles := List.mem_of_getElem? hx
    obtain ⟨m, e, h1, h2, h3⟩ := inv_clone h (h.arcs x hm) (strong_pos h hm) (h' := x) rfl (h.range x hm)
    obtain ⟨c1, c2⟩ := arcClone_counts e
    refine ⟨w.add (some x, m), ?_, h1, add_frame c1 c2 h2 h3, by simp [World.add]⟩
    simp only [step, hx, clone, e, ok_bind]; rfl

theorem view_step {w : World α} (h : Inv w) (i offset len : Nat) (shape : Shape) :
    ∃ w', step w (.view i offset len shape) = .ok w' ∧ Inv w' ∧ Frame w w' ∧
      ∀ x, w.handles[i]? = some x →
        match (value w.mem x).subsliceFlat offset len shape with
        | .ok t => ∃ y, w'.handles = w.handles ++ [y] ∧ value w'.mem y = t
        | .error _ => w'.handles = w.handles := by
  cases hx : w.handles[i]? with
  | none => exact ⟨w, by simp [step, hx], h, .refl w, fun x hx => by cases hx⟩
  | some x =>
    have hm : x ∈ w.handles := List.mem_of_getElem? hx
    have hadd : w.add (none, w.mem) = w := by simp [World.add]
    have hub := Shape.noUB_size shape
    by_cases hc : offset ≤ x.size ∧ offset + len ≤ x.size
    · cases hs : shape.size with
      | error er =>
        cases er with
        | ub => exact absurd hs hub
        | panic =>
          refine ⟨w, ?_, h, .refl w, ?_⟩
          · simp only [step, hx, subsliceFlat, if_pos hc, hs]
            show Except.ok (w.add (none, w.mem)) = _
            rw [hadd]
          · intro y hy; cases hy
            have : (value w.mem x).subsliceFlat offset len shape = .error .panic := by
              unfold Tensor.subsliceFlat
              rw [ensure_true (by exact hc.1), ok_bind, ensure_true (by exact hc.2), ok_bind, hs]; rfl
            rw [this]
      | ok n =>
        by_cases hn : n = len ∨ n = 0 ∧ len = 1
        · have hr : x.offset + offset + len ≤ (w.mem.arc x.arc).inner.len := by
            have := h.range x hm; omega
          obtain ⟨m, e, h1, h2, h3⟩ := inv_clone h (h.arcs x hm) (strong_pos h hm)
            (h' := ⟨shape, x.offset + offset, len, x.arc⟩) rfl hr
          obtain ⟨c1, c2⟩ := arcClone_counts e
          refine ⟨w.add (some ⟨shape, x.offset + offset, len, x.arc⟩, m), ?_, h1, add_frame c1 c2 h2 h3, ?_⟩
          · simp only [step, hx, subsliceFlat, if_pos hc, hs, if_pos hn, e, ok_bind]; rfl
          · intro y hy; cases hy
            have : (value w.mem x).subsliceFlat offset len shape =
                .ok ⟨shape, x.offset + offset, len, (value w.mem x).data⟩ := by
              unfold Tensor.subsliceFlat
              rw [ensure_true (by exact hc.1), ok_bind, ensure_true (by exact hc.2), ok_bind, hs, ok_bind,
                ensure_true hn, ok_bind]; rfl
            rw [this]
            refine ⟨⟨shape, x.offset + offset, len, x.arc⟩, by simp [World.add], ?_⟩
            simp only [World.add, value, h2, h3]
        · refine ⟨w, ?_, h, .refl w, ?_⟩
          · simp only [step, hx, subsliceFlat, if_pos hc, hs, if_neg hn]
            show Except.ok (w.add (none, w.mem)) = _
            rw [hadd]
          · intro y hy; cases hy
            have : (value w.mem x).subsliceFlat offset len shape = .error .panic := by
              unfold Tensor.subsliceFlat
              rw [ensure_true (by exact hc.1), ok_bind, ensure_true (by exact hc.2), ok_bind, hs, ok_bind,
                ensure_false hn]; rfl
            rw [this]
    · refine ⟨w, ?_, h, .refl w, ?_⟩
      · simp only [step, hx, subsliceFlat, if_neg hc]
        show Except.ok (w.add (none, w.mem)) = _
        rw [hadd]
      · intro y hy; cases hy
        have : (value w.mem x).subsliceFlat offset len shape = .error .panic := by
          unfold Tensor.subsliceFlat
          simp only [wrap_checked]
          by_cases h1 : offset ≤ x.size
          · rw [ensure_true (by exact h1), ok_bind, ensure_false (show ¬ offset + len ≤ (value w.mem x).size from fun h2 => hc ⟨h1, h2⟩)]; rfl
          · rw [ensure_false (by exact h1)]; rfl
        rw [this]

theorem release_frame {w w' : World α} (hn : w'.mem.nArcs = w.mem.nArcs) (hk : w'.mem.nBlocks = w.mem.nBlocks)
    (hb : w'.mem.block = w.mem.block) (hin : ∀ c, (w'.mem.arc c).inner = (w.mem.arc c).inner) : Frame w w' := by
  refine ⟨fun a ha => ⟨by omega, hin a⟩, fun b hub => ?_, fun a _ _ => by rw [hb]⟩
  refine ⟨⟨by have := hub.1; omega, fun a ha => ?_⟩, by rw [hb]⟩
  rw [hin]; exact hub.2 a (by omega)

theorem release_blocks {w w' : World α} {i : Nat} {x : Handle} (h : w.release i x = .ok w') :
    w'.mem.nBlocks = w.mem.nBlocks := by
  unfold World.release arcRelease at h
  split at h
  · simp [pure, Except.pure] at h; rw [← h]
  · cases h

theorem drop_step {w : World α} (h : Inv w) (i : Nat) :
    ∃ w', step w (.drop i) = .ok w' ∧ Inv w' ∧ Frame w w' ∧ w'.handles = w.handles.eraseIdx i := by
  cases hx : w.handles[i]? with
  | none => exact ⟨w, by simp [step, hx], h, .refl w, by
      rw [List.eraseIdx_of_length_le (List.getElem?_eq_none_iff.1 hx)]⟩
  | some x =>
    obtain ⟨w', e, h1, h2, h3, h4, h5⟩ := inv_release h hx
    refine ⟨w', by simp [step, hx, e], h1, release_frame h5 (release_blocks e) h2 h4, h3⟩

theorem reshape_step {w : World α} (h : Inv w) (i : Nat) (shape : Shape) :
    ∃ w', step w (.reshape i shape) = .ok w' ∧ Inv w' ∧ Frame w w' ∧
      ∀ x, w.handles[i]? = some x →
        match (value w.mem x).reshape shape with
        | .ok t => ∃ y, w'.handles = w.handles.set i y ∧ value w'.mem y = t
        | .error _ => w'.handles = w.handles.eraseIdx i := by
  cases hx : w.handles[i]? with
  | none => exact ⟨w, by simp [step, hx], h, .refl w, fun x hx => by cases hx⟩
  | some x =>
    have hm : x ∈ w.handles := List.mem_of_getElem? hx
    have hub := Shape.noUB_size shape
    by_cases hs : shape.size = .ok x.size
    · refine ⟨{ w with handles := w.handles.set i { x with shape } }, ?_, ?_, ?_, ?_⟩
      · simp only [step, hx, reshape, hs]; rfl
      · have hus : ∀ a, World.users { w with handles := w.handles.set i { x with shape } } a = w.users a := by
          intro a
          unfold World.users
          have hlt := (List.getElem?_eq_some_iff.1 hx).1
          have hxe := (List.getElem?_eq_some_iff.1 hx).2
          rw [List.countP_set hlt, hxe]
          have : (if x.arc == a then 1 else 0) ≤ w.handles.countP fun h => h.arc == a := by
            split
            · rename_i hxa
              exact List.countP_pos_iff.2 ⟨x, hm, hxa⟩
            · omega
          simp only
          omega
        have hmem : ∀ y ∈ w.handles.set i { x with shape }, y ∈ w.handles ∨ y = { x with shape } := fun y hy =>
          List.mem_or_eq_of_mem_set hy
        constructor
        · intro a ha; rw [hus]; exact h.count a ha
        · intro y hy
          rcases hmem y hy with hy | rfl
          · exact h.arcs y hy
          · exact h.arcs x hm
        · intro y hy
          rcases hmem y hy with hy | rfl
          · exact h.range y hy
          · exact h.range x hm
        · exact h.pnodup
        · exact h.pend
        · exact h.data
        · exact h.inj
        · exact h.alive
        · exact h.dead
        · exact h.drops
        · exact h.frees
      · exact release_frame rfl rfl rfl fun _ => rfl
      · intro y hy; cases hy
        have : (value w.mem x).reshape shape = .ok { value w.mem x with shape } := by
          unfold Tensor.reshape
          rw [hs, ok_bind, ensure_true (by rfl), ok_bind]; rfl
        rw [this]
        exact ⟨{ x with shape }, rfl, rfl⟩
    · obtain ⟨w', e, h1, h2, h3, h4, h5⟩ := inv_release h hx
      refine ⟨w', ?_, h1, release_frame h5 (release_blocks e) h2 h4, ?_⟩
      · cases hsz : shape.size with
        | ok n =>
          have hne : n ≠ x.size := fun hn => hs (by rw [hsz, hn])
          simp only [step, hx, reshape, hsz, if_neg hne]; exact e
        | error er =>
          cases er with
          | panic => simp only [step, hx, reshape, hsz]; exact e
          | ub => exact absurd hsz hub
      · intro y hy; cases hy
        have : (value w.mem x).reshape shape = .error .panic := by
          unfold Tensor.reshape
          cases hsz : shape.size with
          | ok n =>
            have hne : n ≠ x.size := fun hn => hs (by rw [hsz, hn])
            rw [ok_bind, ensure_false (by exact hne)]; rfl
          | error er =>
            cases er with
            | panic => rfl
            | ub => exact absurd hsz hub
        rw [this]; exact h3

theorem destroy_step {w : World α} (h : Inv w) (j : Nat) :
    ∃ w', step w (.destroy j) = .ok w' ∧ Inv w' ∧ Frame w w' ∧ w'.handles = w.handles := by
  cases hx : w.pending[j]? with
  | none => exact ⟨w, by simp [step, hx], h, .refl w, rfl⟩
  | some a =>
    obtain ⟨ha, h0⟩ := h.pend a (List.mem_of_getElem? hx)
    obtain ⟨m, e, h1, h2, h3⟩ := inv_destroy h hx
    have hm : m.nArcs = w.mem.nArcs ∧ m.nBlocks = w.mem.nBlocks ∧
        ∀ b, b ≠ (w.mem.arc a).inner.data → m.block b = w.mem.block b := by
      unfold dropData at e
      split at e
      · cases e; exact ⟨rfl, rfl, fun b hb => put_ne _ _ hb⟩
      · cases e
    refine ⟨_, by simp only [step, hx, e, ok_bind]; rfl, h1, ⟨fun c hc => ?_, fun b hub => ?_, fun c hc hu => ?_⟩, rfl⟩
    · simp only; rw [hm.1, h2]; exact ⟨hc, rfl⟩
    · simp only
      refine ⟨⟨by rw [hm.2.1]; exact hub.1, by rw [hm.1, h2]; exact hub.2⟩, hm.2.2 b fun hb => hub.2 a ha hb.symm⟩
    · simp only
      refine h3 c hc ?_
      rintro rfl
      have hcc := h.count c hc
      have : World.users { w with mem := m, pending := w.pending.eraseIdx j } c = w.users c := rfl
      omega

theorem step_ok {w : World α} (h : Inv w) {op : Op α} (hc : op.Contract) :
    ∃ w', step w op = .ok w' ∧ Inv w' ∧ Frame w w' := by
  cases op with
  | fromBox xs shape => obtain ⟨w', e, h1, h2, _⟩ := fromBox_step h xs shape; exact ⟨w', e, h1, h2⟩
  | init len shape writes panics =>
    obtain ⟨w', e, h1, h2, _⟩ := init_step h len shape writes panics hc; exact ⟨w', e, h1, h2⟩
  | clone i => obtain ⟨w', e, h1, h2, _⟩ := clone_step h i; exact ⟨w', e, h1, h2⟩
  | view i o l s => obtain ⟨w', e, h1, h2, _⟩ := view_step h i o l s; exact ⟨w', e, h1, h2⟩
  | reshape i s => obtain ⟨w', e, h1, h2, _⟩ := reshape_step h i s; exact ⟨w', e, h1, h2⟩
  | drop i => obtain ⟨w', e, h1, h2, _⟩ := drop_step h i; exact ⟨w', e, h1, h2⟩
  | destroy j => obtain ⟨w', e, h1, h2, _⟩ := destroy_step h j; exact ⟨w', e, h1, h2⟩

theorem runFrom_ok {w : World α} (h : Inv w) {ops : List (Op α)} (hc : ∀ op ∈ ops, op.Contract) :
    ∃ w', ops.foldlM step w = .ok w' ∧ Inv w' ∧ w.mem.nBlocks ≤ w'.mem.nBlocks ∧
      ∀ b, Unowned w.mem b → Unowned w'.mem b ∧ w'.mem.block b = w.mem.block b := by
  induction ops generalizing w with
  | nil => exact ⟨w, rfl, h, Nat.le_refl _, fun b hb => ⟨hb, rfl⟩⟩
  | cons op ops ih =>
    obtain ⟨w1, e1, h1, f1⟩ := step_ok h (hc op (by simp))
    obtain ⟨w2, e2, h2, hle, f2⟩ := ih h1 (fun o ho => hc o (by simp [ho]))
    refine ⟨w2, by rw [List.foldlM_cons, e1, ok_bind, e2], h2, ?_, fun b hb => ?_⟩
    · refine Nat.le_trans ?_ hle
      rcases Nat.lt_or_ge w1.mem.nBlocks w.mem.nBlocks with hlt | hge
      · exfalso
        -- the last block of `w` is owned or unowned, and exists in `w1` either way
        by_cases hun : Unowned w.mem (w.mem.nBlocks - 1)
        · have := (f1.free _ hun).1.1; omega
        · have : ∃ a, a < w.mem.nArcs ∧ (w.mem.arc a).inner.data = w.mem.nBlocks - 1 := by
            apply Classical.byContradiction
            intro hno
            exact hun ⟨by omega, fun a ha e => hno ⟨a, ha, e⟩⟩
          obtain ⟨a, ha, e⟩ := this
          obtain ⟨ha', hin⟩ := f1.inner a ha
          have := (h1.data a ha').1
          rw [hin, e] at this
          omega
      · exact hge
    · obtain ⟨g1, g2⟩ := f1.free b hb
      obtain ⟨g3, g4⟩ := f2 b g1
      exact ⟨g3, by rw [g4, g2]⟩

theorem run_ok {ops : List (Op α)} (hc : ∀ op ∈ ops, op.Contract) : ∃ w, run ops = .ok w ∧ Inv w := by
  obtain ⟨w, e, h, _⟩ := runFrom_ok inv_empty hc
  exact ⟨w, e, h⟩

theorem run_inv {ops : List (Op α)} (hc : ∀ op ∈ ops, op.Contract) {w : World α} (h : run ops = .ok w) : Inv w := by
  obtain ⟨w', e, hi⟩ := run_ok hc
  rw [h] at e; cases e; exact hi

theorem mapM_live (xs : List α) : (xs.map Cell.live).mapM Cell.read = .ok xs := by
  induction xs with
  | nil => rfl
  | cons x xs ih =>
    rw [List.map_cons, List.mapM_cons, ih]; rfl

theorem asSlice_value {w : World α} (h : Inv w) {x : Handle} (hx : x ∈ w.handles) :
    asSlice x w.mem = (value w.mem x).asSlice ∧ ∃ xs, asSlice x w.mem = .ok xs ∧ xs.length = x.size := by
  have ha := h.arcs x hx
  obtain ⟨hf, hv⟩ := h.alive _ ha (Or.inl (strong_pos h hx))
  obtain ⟨hb, hl⟩ := h.data _ ha
  have hr := h.range x hx
  have hcs := eq_map_live hv
  have hlen : (vals (w.mem.block (w.mem.arc x.arc).inner.data).cells).length = (w.mem.arc x.arc).inner.len := by
    rw [← hl, vals_length hv]
  have e1 : asSlice x w.mem =
      .ok (((vals (w.mem.block (w.mem.arc x.arc).inner.data).cells).drop x.offset).take x.size) := by
    unfold asSlice
    simp only
    rw [if_pos ⟨ha, hb, hf, by omega⟩]
    conv => lhs; rw [hcs]
    rw [← List.map_drop, ← List.map_take, mapM_live]
  refine ⟨?_, _, e1, by rw [List.length_take, List.length_drop]; omega⟩
  rw [e1]
  unfold Tensor.asSlice
  symm
  apply rawSlice_ok
  show x.offset + x.size ≤ (vals _).length
  omega

end Heap

end Essay
