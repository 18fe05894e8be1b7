import Verif.Model.Macro
import Verif.Props.From

/-!
# C81 The macro `ten!`
-/

namespace Essay

namespace Macro

variable {α β : Type}

/-- `lit` is a nest of brackets with lengths `ds`, every bracket non-empty. -/
inductive IsNest : List Nat → Tree α → Prop
  | expr (e : α) : IsNest [] (.expr e)
  | group {ds : List Nat} {items : List (Tree α)} : items ≠ [] → (∀ x ∈ items, IsNest ds x) →
      IsNest (items.length :: ds) (.group items)

/-- The expression at a position of a literal: entry `i` of the outer brackets, and so on. -/
def leafAt : Tree α → List Nat → Option α
  | .expr e, [] => some e
  | .group items, i :: is => (items[i]?).bind fun t => leafAt t is
  | _, _ => none

theorem mapM_asGroup (items : List (Tree α)) (xs : List (List (Tree α))) (h : items.mapM Tree.asGroup = some xs) :
    xs.map Tree.group = items := by
  induction items generalizing xs with
  | nil => cases h; rfl
  | cons t items ih =>
    rw [List.mapM_cons] at h
    cases t with
    | expr e => simp [Tree.asGroup] at h
    | group l =>
      simp only [Tree.asGroup, Option.pure_def, Option.bind_eq_bind, Option.bind_some, Option.bind_eq_some_iff,
        Option.some.injEq] at h
      obtain ⟨ys, h1, rfl⟩ := h
      rw [List.map_cons, ih ys h1]

theorem expand_eq (items : List (Tree α)) : expand items = some (.group items) := by
  unfold expand
  cases h1 : arm1 items with
  | some r =>
    rw [Option.some_or]
    unfold arm1 at h1
    simp only [Option.pure_def, Option.bind_eq_bind, Option.bind_eq_some_iff, Option.some.injEq] at h1
    obtain ⟨xs, h, rfl⟩ := h1
    congr 2
    induction items generalizing xs with
    | nil => cases h; rfl
    | cons t items ih =>
      rw [List.mapM_cons] at h
      simp only [Option.pure_def, Option.bind_eq_bind, Option.bind_eq_some_iff, Option.some.injEq] at h
      obtain ⟨ys, ⟨bs, hb, hy⟩, zs, hz, rfl⟩ := h
      rw [List.map_cons, ih zs hz]
      congr 1
      cases t with
      | expr e => cases hb
      | group l =>
        cases hb
        rw [mapM_asGroup _ _ hy]
  | none =>
    rw [Option.none_or]
    cases h2 : arm2 items with
    | some r =>
      rw [Option.some_or]
      unfold arm2 at h2
      simp only [Option.pure_def, Option.bind_eq_bind, Option.bind_eq_some_iff, Option.some.injEq] at h2
      obtain ⟨xs, h, rfl⟩ := h2
      rw [show (xs.map fun ys => Tree.group ys) = xs.map Tree.group from rfl, mapM_asGroup _ _ h]
    | none => rfl

/-- The lengths of a nest. -/
theorem IsNest.dims {ds : List Nat} {t : Tree α} (h : IsNest ds t) {fuel : Nat} (hf : ds.length ≤ fuel) :
    Macro.dims fuel t = some ds := by
  induction fuel generalizing ds t with
  | zero =>
    cases h with
    | expr e => rfl
    | group _ _ => simp at hf
  | succ fuel ih =>
    cases h with
    | expr e => rfl
    | @group ds items hne hall =>
      obtain ⟨x, l, rfl⟩ := List.exists_cons_of_ne_nil hne
      simp only [Macro.dims]
      rw [ih (hall x (by simp)) (by simpa using hf)]
      rfl

theorem array_spec {ok : Tree α → Prop} {elem : Tree α → Option β} (h1 : ∀ t, ok t ↔ ∃ v, elem t = some v)
    (n : Nat) (t : Tree α) :
    (∃ items, t = .group items ∧ items.length = n ∧ ∀ x ∈ items, ok x) ↔ ∃ v, array elem n t = some v := by
  cases t with
  | expr e => simp [array, Tree.asGroup]
  | group items =>
    have hm : (∀ x ∈ items, ok x) ↔ ∃ ys, items.mapM elem = some ys ∧ ys.length = items.length := by
      induction items with
      | nil => simp
      | cons x items ih =>
        rw [List.mapM_cons]
        rw [List.forall_mem_cons, ih, h1]
        constructor
        · rintro ⟨⟨v, hv⟩, ys, hy, hl⟩
          exact ⟨v :: ys, by simp [hv, hy], by simp [hl]⟩
        · rintro ⟨ys, hy, hl⟩
          simp only [Option.pure_def, Option.bind_eq_bind, Option.bind_eq_some_iff, Option.some.injEq] at hy
          obtain ⟨v, hv, zs, hz, rfl⟩ := hy
          exact ⟨⟨v, hv⟩, zs, hz, by simpa using hl⟩
    constructor
    · rintro ⟨items', e, hl, hall⟩
      cases e
      obtain ⟨ys, hy, hlen⟩ := hm.1 hall
      refine ⟨⟨ys.toArray, by simp [hlen, hl]⟩, ?_⟩
      · simp [array, Tree.asGroup, hy, hlen, hl]
    · rintro ⟨v, hv⟩
      simp only [array, Tree.asGroup, Option.bind_eq_bind, Option.bind_some, Option.bind_eq_some_iff] at hv
      obtain ⟨ys, hy, hv⟩ := hv
      split at hv
      · rename_i hl
        have hlen : ys.length = items.length := by
          clear hv hl hm
          induction items generalizing ys with
          | nil => cases hy; rfl
          | cons x items ih =>
            rw [List.mapM_cons] at hy
            simp only [Option.pure_def, Option.bind_eq_bind, Option.bind_eq_some_iff, Option.some.injEq] at hy
            obtain ⟨v, hv, zs, hz, rfl⟩ := hy
            simp [ih zs hz]
        exact ⟨items, rfl, by omega, hm.2 ⟨ys, hy, hlen⟩⟩
      · cases hv

/-- The entries of an array value are the values of the entries of the literal. -/
theorem array_get {elem : Tree α → Option β} {n : Nat} {items : List (Tree α)} {v : Vector β n}
    (h : array elem n (.group items) = some v) (i : Nat) : v[i]? = (items[i]?).bind elem := by
  simp only [array, Tree.asGroup, Option.bind_eq_bind, Option.bind_some, Option.bind_eq_some_iff] at h
  obtain ⟨ys, hy, hv⟩ := h
  split at hv
  · simp only [Option.some.injEq] at hv
    subst hv
    rename_i hl
    have : ∀ i : Nat, ys[i]? = (items[i]?).bind elem := by
      clear hl
      induction items generalizing ys with
      | nil => cases hy; simp
      | cons x items ih =>
        rw [List.mapM_cons] at hy
        simp only [Option.pure_def, Option.bind_eq_bind, Option.bind_eq_some_iff, Option.some.injEq] at hy
        obtain ⟨v, hv, zs, hz, rfl⟩ := hy
        intro i
        cases i with
        | zero => simp [hv]
        | succ i => simpa using ih zs hz i
    rw [← this i]
    simp
  · cases hv

theorem value_spec (t : Tree α) : IsNest [] t ↔ ∃ v, value t = some v := by
  cases t with
  | expr e => exact ⟨fun _ => ⟨e, rfl⟩, fun _ => .expr e⟩
  | group l => exact ⟨fun h => (by cases h), fun ⟨_, h⟩ => (by cases h)⟩

theorem nest_array {ds : List Nat} {elem : Tree α → Option β} (h1 : ∀ t : Tree α, IsNest ds t ↔ ∃ v, elem t = some v)
    {n : Nat} (hn : 0 < n) (t : Tree α) : IsNest (n :: ds) t ↔ ∃ v, array elem n t = some v := by
  rw [← array_spec h1]
  constructor
  · intro h
    cases h with
    | group hne hall => exact ⟨_, rfl, rfl, hall⟩
  · rintro ⟨items, rfl, rfl, hall⟩
    exact .group (List.length_pos_iff.1 hn) hall

theorem dims_pos {fuel : Nat} {t : Tree α} {ds : List Nat} (h : Macro.dims fuel t = some ds) : ∀ d ∈ ds, 0 < d := by
  induction fuel generalizing t ds with
  | zero =>
    cases t with
    | expr e => cases h; simp
    | group l => simp [Macro.dims] at h
  | succ fuel ih =>
    cases t with
    | expr e => cases h; simp
    | group l =>
      cases l with
      | nil => simp [Macro.dims] at h
      | cons x l =>
        simp only [Macro.dims, Option.map_eq_some_iff] at h
        obtain ⟨es, he, rfl⟩ := h
        intro d hd
        rcases List.mem_cons.1 hd with rfl | hd
        · omega
        · exact ih he d hd

theorem prod_pos_of {ds : List Nat} (h : ∀ d ∈ ds, 0 < d) : 0 < ds.prod := by
  induction ds with
  | nil => simp
  | cons d ds ih =>
    rw [List.prod_cons]
    exact Nat.mul_pos (h d (by simp)) (ih fun e he => h e (List.mem_cons_of_mem _ he))

theorem dvd_prod_of_mem {ds : List Nat} {d : Nat} (h : d ∈ ds) : d ∣ ds.prod := by
  induction ds with
  | nil => cases h
  | cons e ds ih =>
    rw [List.prod_cons]
    rcases List.mem_cons.1 h with rfl | h
    · exact Nat.dvd_mul_right _ _
    · exact Nat.dvd_mul_left_of_dvd (ih h) _

theorem dims_length {fuel : Nat} {t : Tree α} {ds : List Nat} (h : Macro.dims fuel t = some ds) : ds.length ≤ fuel := by
  induction fuel generalizing t ds with
  | zero =>
    cases t with
    | expr e => cases h; simp
    | group l => simp [Macro.dims] at h
  | succ fuel ih =>
    cases t with
    | expr e => cases h; simp
    | group l =>
      cases l with
      | nil => simp [Macro.dims] at h
      | cons x l =>
        simp only [Macro.dims, Option.map_eq_some_iff] at h
        obtain ⟨es, he, rfl⟩ := h
        simpa using ih he

theorem leafAt_value (t : Tree α) (h : IsNest [] t) (is : List Nat) (hl : is.length = ([] : List Nat).length) :
    leafAt t is = (value t).bind fun v => if is = [] then some v else none := by
  cases h
  have : is = [] := List.length_eq_zero_iff.1 hl
  subst this
  rfl

/-- Looking up a position in a literal is looking it up in its value. -/
theorem leafAt_array {ds : List Nat} {elem : Tree α → Option β} {get : β → List Nat → Option α}
    (h1 : ∀ t : Tree α, IsNest ds t → ∀ is, is.length = ds.length → leafAt t is = (elem t).bind fun v => get v is) {n : Nat}
    {t : Tree α} (h : IsNest (n :: ds) t) {v : Vector β n} (hv : array elem n t = some v) (i : Nat) (is : List Nat)
    (hl : is.length = ds.length) : leafAt t (i :: is) = v[i]?.bind fun r => get r is := by
  cases h with
  | group hne hall =>
    rename_i items
    rw [array_get hv]
    simp only [leafAt]
    cases hx : items[i]? with
    | none => rfl
    | some x => exact h1 x (hall x (List.mem_of_getElem? hx)) is hl

theorem leafAt_array' {ds : List Nat} {elem : Tree α → Option β} {get : β → List Nat → Option α}
    (h1 : ∀ t : Tree α, IsNest ds t → ∀ is, is.length = ds.length → leafAt t is = (elem t).bind fun v => get v is)
    (h2 : ∀ t : Tree α, IsNest ds t ↔ ∃ v, elem t = some v) {n : Nat} (hn : 0 < n) (t : Tree α) (h : IsNest (n :: ds) t)
    (is : List Nat) (hl : is.length = (n :: ds).length) : leafAt t is = (array elem n t).bind fun v =>
      v[is.headD 0]?.bind fun r => get r is.tail := by
  obtain ⟨v, hv⟩ := (nest_array h2 hn t).1 h
  match is, hl with
  | i :: is, hl => rw [leafAt_array h1 h hv i is (by simpa using hl), hv]; rfl

/-- C81: `ten![...]` with brackets nested regularly, up to four deep, gives the tensor whose dimensions are the lengths of
the brackets and whose element at a position is the expression written there. -/
theorem C81_ten {ds : List Nat} {items : List (Tree α)} (h : IsNest ds (.group items)) (h4 : ds.length ≤ 4)
    (hfit : ds.prod < 2 ^ 32) :
    ∃ t xs, ten items = some (.ok t) ∧ Rep t ds xs ∧
      ∀ is, is.length = ds.length → at? ds xs is = leafAt (.group items) is := by
  unfold ten
  rw [expand_eq]
  simp only [Option.bind_eq_bind, Option.bind_some]
  unfold tensorFrom
  have hd := h.dims h4
  have hpos := dims_pos hd
  have hp := prod_pos_of hpos
  have hf : Fits ds := fits_of_pos hp hfit
  have hlt : ∀ d ∈ ds, d < 2 ^ 32 := fun d hd => by
    have := Nat.le_of_dvd hp (dvd_prod_of_mem hd)
    omega
  rw [hd]
  match ds, h4 with
  | [], _ => cases h
  | [n], _ =>
    have p1 := hpos n (by simp)
    obtain ⟨v, hv⟩ := (nest_array value_spec p1 _).1 h
    simp only [hv, Option.bind_some, Option.pure_def, Option.bind_eq_bind]
    obtain ⟨t, e, ht⟩ := C12_vec1 v.toList (by simpa using hlt n (by simp))
    refine ⟨t, v.toList, by rw [e], by simpa using ht, fun is hl => ?_⟩
    match is, hl with
    | [i], _ =>
      rw [leafAt_array leafAt_value h hv i [] rfl]
      simp only [at?, ravel]
      by_cases hi : i < n
      · simp [hi]
      · simp [hi]
  | [m, n], _ =>
    have p1 := hpos m (by simp)
    have p2 := hpos n (by simp)
    have s1 := nest_array (α := α) value_spec p2
    obtain ⟨v, hv⟩ := (nest_array s1 p1 _).1 h
    simp only [hv, Option.bind_some, Option.pure_def, Option.bind_eq_bind]
    obtain ⟨t, xs, e, ht, hx⟩ := (C12_arr2 v ⟨hlt m (by simp), hlt n (by simp)⟩).1 hf
    refine ⟨t, xs, by rw [e], ht, fun is hl => ?_⟩
    match is, hl with
    | [i, j], _ =>
      rw [leafAt_array (leafAt_array' leafAt_value value_spec p2) h hv i [j] rfl, hx]
      simp
  | [l, m, n], _ =>
    have p1 := hpos l (by simp)
    have p2 := hpos m (by simp)
    have p3 := hpos n (by simp)
    have s1 := nest_array (α := α) value_spec p3
    have s2 := nest_array s1 p2
    obtain ⟨v, hv⟩ := (nest_array s2 p1 _).1 h
    simp only [hv, Option.bind_some, Option.pure_def, Option.bind_eq_bind]
    obtain ⟨t, xs, e, ht, hx⟩ := (C12_arr3 v ⟨hlt l (by simp), hlt m (by simp), hlt n (by simp)⟩).1 hf
    refine ⟨t, xs, by rw [e], ht, fun is hl => ?_⟩
    match is, hl with
    | [i, j, k], _ =>
      rw [leafAt_array (leafAt_array' (leafAt_array' leafAt_value value_spec p3) s1 p2) h hv i [j, k] rfl, hx]
      simp
  | [k, l, m, n], _ =>
    have p1 := hpos k (by simp)
    have p2 := hpos l (by simp)
    have p3 := hpos m (by simp)
    have p4 := hpos n (by simp)
    have s1 := nest_array (α := α) value_spec p4
    have s2 := nest_array s1 p3
    have s3 := nest_array s2 p2
    obtain ⟨v, hv⟩ := (nest_array s3 p1 _).1 h
    simp only [hv, Option.bind_some, Option.pure_def, Option.bind_eq_bind]
    obtain ⟨t, xs, e, ht, hx⟩ :=
      (C12_arr4 v ⟨hlt k (by simp), hlt l (by simp), hlt m (by simp), hlt n (by simp)⟩).1 hf
    refine ⟨t, xs, by rw [e], ht, fun is hl => ?_⟩
    match is, hl with
    | [i, j, a, b], _ =>
      rw [leafAt_array (leafAt_array' (leafAt_array' (leafAt_array' leafAt_value value_spec p4) s1 p3) s2 p2) h hv i
        [j, a, b] rfl, hx]
      simp

/-- C81: a literal whose brackets are empty, irregular, or nested more than four deep is rejected when the program is
compiled: there is no input for which `ten!` panics because of its form. -/
theorem C81_rejects {items : List (Tree α)} (h : ¬ ∃ ds, ds.length ≤ 4 ∧ IsNest ds (.group items)) :
    ten items = none := by
  unfold ten
  rw [expand_eq]
  simp only [Option.bind_eq_bind, Option.bind_some]
  unfold tensorFrom
  have key : ∀ ds, Macro.dims 4 (.group items) = some ds → ¬ IsNest ds (.group items) :=
    fun ds hd hn => h ⟨ds, dims_length hd, hn⟩
  have none_of : ∀ {γ : Type} {o : Option γ} {p : Prop}, ¬ p → (p ↔ ∃ v, o = some v) → o = none := by
    intro γ o p hp ho
    cases o with
    | none => rfl
    | some v => exact absurd (ho.2 ⟨v, rfl⟩) hp
  split
  · rename_i n hd
    have hp := dims_pos hd
    rw [none_of (key _ hd) (nest_array value_spec (hp _ (by simp)) _)]; rfl
  · rename_i m n hd
    have hp := dims_pos hd
    rw [none_of (key _ hd) (nest_array (nest_array value_spec (hp n (by simp))) (hp m (by simp)) _)]; rfl
  · rename_i l m n hd
    have hp := dims_pos hd
    rw [none_of (key _ hd)
      (nest_array (nest_array (nest_array value_spec (hp n (by simp))) (hp m (by simp))) (hp l (by simp)) _)]; rfl
  · rename_i k l m n hd
    have hp := dims_pos hd
    rw [none_of (key _ hd) (nest_array (nest_array (nest_array (nest_array value_spec (hp n (by simp)))
      (hp m (by simp))) (hp l (by simp))) (hp k (by simp)) _)]; rfl
  · rfl

/-- `ten![[1, 2, 3], [4, 5, 6]]`. -/
example : ∃ t xs, ten [.group [.expr 1, .expr 2, .expr 3], .group [.expr 4, .expr 5, .expr 6]] = some (.ok t) ∧
    Rep t [2, 3] xs ∧ at? [2, 3] xs [1, 0] = some 4 := by
  have hn : IsNest [2, 3] (.group [.group [.expr 1, .expr 2, .expr 3], .group [.expr 4, .expr 5, .expr 6]]) := by
    refine .group (items := [.group [.expr 1, .expr 2, .expr 3], .group [.expr 4, .expr 5, .expr 6]]) (by simp) fun x hx => ?_
    have : ∀ l : List (Tree Nat), l.length = 3 → (∀ y ∈ l, IsNest [] y) → IsNest [3] (.group l) := by
      intro l h1 h2; rw [← h1]; exact .group (by rintro rfl; simp at h1) h2
    simp only [List.mem_cons, List.not_mem_nil, or_false] at hx
    rcases hx with rfl | rfl <;>
    · refine this _ rfl fun y hy => ?_
      simp only [List.mem_cons, List.not_mem_nil, or_false] at hy
      rcases hy with rfl | rfl | rfl <;> exact .expr _
  obtain ⟨t, xs, e, ht, h⟩ := C81_ten hn (by simp) (by simp)
  exact ⟨t, xs, e, ht, h [1, 0] rfl⟩

/-- C81: brackets directly inside the macro's parentheses count: `ten!([a, b])`, the form the crate's own tests of
`histogram` and `rfft_norm` use, has dimensions `[1, 2]`, not `[2]`. -/
theorem C81_parentheses (a b : α) : ∃ t, ten [.group [.expr a, .expr b]] = some (.ok t) ∧ Rep t [1, 2] [a, b] := by
  refine ⟨_, rfl, ?_⟩
  exact rep_fresh (ds := [1, 2]) ⟨by simp, by simp⟩ (fits_of_pos (by simp) (by simp)) rfl

example : ∃ t, ten [.group [.expr 4, .expr 5]] = some (.ok t) ∧ Rep t [1, 2] [4, 5] := C81_parentheses 4 5

/-- `ten![[1, 2], [3]]` does not compile. -/
example : ten [.group [.expr 1, .expr 2], .group [.expr 3]] = none := by
  refine C81_rejects ?_
  rintro ⟨ds, -, h⟩
  cases h with
  | group _ hall =>
    have h1 := hall (.group [.expr 1, .expr 2]) (by simp)
    have h2 := hall (.group [.expr 3]) (by simp)
    generalize e1 : Tree.group [Tree.expr 1, .expr 2] = t1 at h1
    generalize e2 : Tree.group [Tree.expr 3] = t2 at h2
    cases h1 with
    | expr => cases e1
    | group =>
      cases e1
      generalize hd : (_ :: _ : List Nat) = ds at h2
      cases h2 with
      | expr => cases e2
      | group => cases e2; simp at hd

end Macro

end Essay
