import Batteries.Data.List.Perm
import Mathlib.Data.List.Nodup
import Verif.Lemmas.Fold

/-! # The lanes of an array are a rearrangement of its elements (no claims here) -/

namespace Essay

variable {α σ : Type}

theorem flatten_get {ls : List (List α)} {N : Nat} (h : ∀ l ∈ ls, l.length = N) (q : Nat) (hq : q < ls.length * N) :
    ls.flatten[q]? = (ls[q / N]?).bind fun l => l[q % N]? := by
  induction ls generalizing q with
  | nil => simp at hq
  | cons l ls ih =>
    have hl := h l List.mem_cons_self
    have hN : 0 < N := pos_right_of_lt_mul hq
    rw [List.flatten_cons]
    by_cases hlt : q < N
    · rw [List.getElem?_append_left (by omega), Nat.div_eq_of_lt hlt, Nat.mod_eq_of_lt hlt]; rfl
    · rw [List.length_cons, Nat.succ_mul] at hq
      rw [List.getElem?_append_right (by omega), hl, ih (fun l' h' => h l' (List.mem_cons_of_mem _ h')) _ (by omega)]
      rw [Nat.mod_eq_sub_mod (a := q) (by omega), Nat.div_eq q N, if_pos ⟨hN, by omega⟩, List.getElem?_cons_succ]

theorem flatten_length_const {ls : List (List α)} {N : Nat} (h : ∀ l ∈ ls, l.length = N) :
    ls.flatten.length = ls.length * N := by
  induction ls with
  | nil => simp
  | cons l ls ih =>
    rw [List.flatten_cons, List.length_append, ih (fun l' h' => h l' (List.mem_cons_of_mem _ h')),
      h l List.mem_cons_self, List.length_cons, Nat.succ_mul]; omega

theorem map_perm_range {n : Nat} (g h : Nat → Nat) (hg : ∀ q, q < n → g q < n) (hh : ∀ q, q < n → h (g q) = q) :
    ((List.range n).map g).Perm (List.range n) := by
  apply List.Subperm.perm_of_length_le
  · apply List.subperm_of_subset
    · apply List.Nodup.map_on _ List.nodup_range
      intro x hx y hy hxy
      rw [List.mem_range] at hx hy
      rw [← hh x hx, ← hh y hy, hxy]
    · intro v hv
      obtain ⟨q, hq, rfl⟩ := List.mem_map.1 hv
      rw [List.mem_range] at hq ⊢
      exact hg q hq
  · simp

theorem LanesAt.lane_length {xs : List α} {batch aLen inner : Nat} {lanes : List (List α)}
    (h : LanesAt xs batch aLen inner lanes) : ∀ l ∈ lanes, l.length = aLen := by
  intro l hl
  obtain ⟨p, hp⟩ := List.getElem?_of_mem hl
  have hplt : p < batch * inner := by rw [← h.1]; exact (List.getElem?_eq_some_iff.1 hp).1
  obtain ⟨lane, h1, h2, _⟩ := h.2 p hplt
  rw [hp] at h1; cases h1; exact h2

theorem LanesAt.perm {xs : List α} {batch aLen inner : Nat} {lanes : List (List α)}
    (h : LanesAt xs batch aLen inner lanes) (hx : xs.length = batch * aLen * inner) : lanes.flatten.Perm xs := by
  let g := fun q => ((q / aLen / inner) * aLen + q % aLen) * inner + q / aLen % inner
  let gi := fun v => ((v / inner / aLen) * inner + v % inner) * aLen + (v / inner) % aLen
  have hlen : lanes.flatten.length = batch * inner * aLen := by rw [flatten_length_const h.lane_length, h.1]
  have hn : batch * inner * aLen = xs.length := by rw [hx]; grind
  have hq0 : ∀ q, q < xs.length → q / aLen < batch * inner ∧ q % aLen < aLen := by
    intro q hq
    rw [← hn] at hq
    exact ⟨div_lt_of_lt_mul' hq, Nat.mod_lt _ (pos_right_of_lt_mul hq)⟩
  have hp : ((List.range xs.length).map g).Perm (List.range xs.length) := by
    apply map_perm_range g gi
    · intro q hq
      rw [hx]
      exact lane_lt (hq0 q hq).1 (hq0 q hq).2
    · intro q hq
      obtain ⟨h1, h2⟩ := hq0 q hq
      have h3 : q / aLen % inner < inner := Nat.mod_lt _ (pos_right_of_lt_mul h1)
      simp only [g, gi]
      rw [mul_add_div' h3, mul_add_mod' h3, mul_add_div' h2, mul_add_mod' h2, div_add_mod', div_add_mod']
  have e1 : lanes.flatten.map some = ((List.range xs.length).map g).map (fun i => xs[i]?) := by
    apply List.ext_getElem?
    intro q
    by_cases hq : q < xs.length
    · obtain ⟨h1, h2⟩ := hq0 q hq
      obtain ⟨lane, h3, h4, h5⟩ := h.2 _ h1
      rw [List.getElem?_map, flatten_get h.lane_length q (by rw [h.1, hn]; exact hq), h3, Option.bind_some, h5 _ h2,
        List.getElem?_map, List.getElem?_map, List.getElem?_range hq]
      have hb : g q < xs.length := by rw [hx]; exact lane_lt h1 h2
      simp only [Option.map_some]
      show Option.map some xs[g q]? = some xs[g q]?
      rw [List.getElem?_eq_getElem hb]; rfl
    · rw [List.getElem?_eq_none (by rw [List.length_map, hlen, hn]; omega),
        List.getElem?_eq_none (by simp; omega)]
  have e2 : xs.map some = (List.range xs.length).map (fun i => xs[i]?) := by
    apply List.ext_getElem?
    intro q
    by_cases hq : q < xs.length
    · simp [hq]
    · rw [List.getElem?_eq_none (by simp; omega), List.getElem?_eq_none (by simp; omega)]
  have := (hp.map (fun i => xs[i]?)).filterMap id
  rw [← e1, ← e2] at this
  have e3 : ∀ l : List α, (l.map some).filterMap id = l := by intro l; simp [List.filterMap_map]
  rwa [e3, e3] at this

/-- Reduction of a non-empty list of non-empty lanes, then of the results. -/
theorem foldl_lanes (op : α → α → α) [Std.Associative op] (a : α) (b : α) (xs : List α) :
    xs.foldl op (op a b) = op a (xs.foldl op b) := by
  induction xs generalizing b with
  | nil => rfl
  | cons x xs ih => rw [List.foldl_cons, List.foldl_cons, ← ih, Std.Associative.assoc (op := op)]

/-- The value `reduce` computes without effects. -/
def red1 (op : α → α → α) : List α → Option α
  | [] => none
  | x :: xs => some (xs.foldl op x)

theorem red1_append (op : α → α → α) [Std.Associative op] {l m : List α} {u v : α} (hl : red1 op l = some u)
    (hm : red1 op m = some v) : red1 op (l ++ m) = some (op u v) := by
  cases l with
  | nil => cases hl
  | cons a l =>
    cases m with
    | nil => cases hm
    | cons b m =>
      simp only [red1, Option.some.injEq] at hl hm ⊢
      simp only [List.cons_append, List.foldl_append, List.foldl_cons]
      rw [hl, foldl_lanes, hm]

theorem red1_flatten (op : α → α → α) [Std.Associative op] {ls : List (List α)} {vs : List α}
    (h : ls.map (red1 op) = vs.map some) : red1 op ls.flatten = red1 op vs := by
  induction ls generalizing vs with
  | nil => cases vs with
    | nil => rfl
    | cons => simp at h
  | cons l ls ih =>
    cases vs with
    | nil => simp at h
    | cons v vs =>
      simp only [List.map_cons, List.cons.injEq] at h
      have h2 := ih h.2
      cases ls with
      | nil =>
        cases vs with
        | nil => simp only [List.flatten_cons, List.flatten_nil, List.append_nil]; exact h.1
        | cons => simp at h
      | cons l' ls =>
        cases vs with
        | nil => simp at h
        | cons v' vs =>
          rw [List.flatten_cons, red1_append op h.1 (v := vs.foldl op v') (by rw [h2]; rfl)]
          simp only [red1, List.foldl_cons]
          rw [foldl_lanes]

theorem red1_perm (op : α → α → α) [Std.Associative op] [Std.Commutative op] {l m : List α} (h : l.Perm m) :
    red1 op l = red1 op m := by
  induction h with
  | nil => rfl
  | cons x h ih =>
    simp only [red1, Option.some.injEq]
    exact h.foldl_eq' (fun a _ b _ c => by
      rw [Std.Associative.assoc (op := op), Std.Commutative.comm (op := op) a b, ← Std.Associative.assoc (op := op)]) x
  | swap x y l =>
    simp only [red1, List.foldl_cons, Option.some.injEq]
    rw [Std.Commutative.comm (op := op)]
  | trans _ _ ih1 ih2 => rw [ih1, ih2]

theorem foldlM_pure {S : Type} (g : S → α → S) (l : List α) (s : S) :
    l.foldlM (fun s x => (pure (g s x) : Exec σ S)) s = pure (l.foldl g s) := by
  induction l generalizing s with
  | nil => rfl
  | cons a l ih => simp [ih]

theorem reduceLane_pure (op : α → α → α) {l : List α} {v : α} (h : red1 op l = some v) :
    reduceLane (fun x y => (pure (op x y) : Exec σ α)) l = pure v := by
  cases l with
  | nil => cases h
  | cons x l =>
    simp only [red1, Option.some.injEq] at h
    rw [reduceLane, foldlM_pure, h]

theorem red1_exists (op : α → α → α) {ls : List (List α)} (h : ∀ l ∈ ls, l ≠ []) :
    ∃ vs : List α, ls.map (red1 op) = vs.map some := by
  induction ls with
  | nil => exact ⟨[], rfl⟩
  | cons l ls ih =>
    obtain ⟨vs, hv⟩ := ih (fun l' h' => h l' (List.mem_cons_of_mem _ h'))
    cases l with
    | nil => exact absurd rfl (h [] List.mem_cons_self)
    | cons x l => exact ⟨l.foldl op x :: vs, by simp [hv, red1]⟩

theorem mapM_reduceLane_pure (op : α → α → α) {ls : List (List α)} {vs : List α}
    (h : ls.map (red1 op) = vs.map some) :
    ls.mapM (reduceLane (fun x y => (pure (op x y) : Exec σ α))) = pure vs := by
  induction ls generalizing vs with
  | nil => cases vs with
    | nil => rfl
    | cons => simp at h
  | cons l ls ih =>
    cases vs with
    | nil => simp at h
    | cons v vs =>
      simp only [List.map_cons, List.cons.injEq] at h
      rw [List.mapM_cons, reduceLane_pure op h.1, pure_bind, ih h.2]
      rfl

end Essay
