import Verif.Spec.Laws
import Verif.Props.Array
import Verif.Props.From
import Verif.Props.Ops
import Verif.Props.Init
import Verif.Props.Special

/-!
# Property C84: laws between the operations that rearrange elements
-/

namespace Essay

open Shape

set_option linter.unusedSectionVars false

variable {α β : Type}

/-! ### slices -/

theorem IsSlice.unique {pre post : List Nat} {d lo n : Nat} {xs ys zs : List α} (h : IsSlice pre d post xs lo n ys)
    (h' : IsSlice pre d post xs lo n zs) : ys = zs := by
  apply List.ext_getElem?
  intro p
  have e1 := h.1
  have e2 := h'.1
  rw [List.prod_append, List.prod_cons] at e1 e2
  by_cases hp : p < pre.prod * (n * post.prod)
  · have hj : p / (n * post.prod) < pre.prod := div_lt_of_lt_mul' hp
    have hq := Nat.mod_lt p (pos_right_of_lt_mul hp)
    have a1 := h.pos _ _ hj hq
    have a2 := h'.pos _ _ hj hq
    rw [← a2] at a1
    rw [show p / (n * post.prod) * (n * post.prod) + p % (n * post.prod) = p by
      rw [Nat.mul_comm]; exact Nat.div_add_mod _ _] at a1
    exact a1
  · rw [List.getElem?_eq_none (by omega), List.getElem?_eq_none (by omega)]

theorem IsSlice.trans {pre post : List Nat} {d lo n lo' m : Nat} {xs ys zs : List α}
    (h : IsSlice pre d post xs lo n ys) (h' : IsSlice pre n post ys lo' m zs) :
    IsSlice pre d post xs (lo + lo') m zs := by
  refine ⟨h'.1, by have := h.2.1; have := h'.2.1; omega, fun i a j hi ha => ?_⟩
  rw [h'.2.2 i a j hi ha, h.2.2 i _ j hi (by have := h'.2.1; omega), Nat.add_assoc]

theorem sum_cover : ∀ (ps : List (Nat × List α)) (c : Nat), c < (ps.map (·.1)).sum →
    ∃ A p B, ps = A ++ p :: B ∧ (A.map (·.1)).sum ≤ c ∧ c < (A.map (·.1)).sum + p.1
  | [], c, h => by simp at h
  | p :: ps, c, h => by
    by_cases hc : c < p.1
    · exact ⟨[], p, ps, rfl, by simp, by simpa using hc⟩
    · simp only [List.map_cons, List.sum_cons] at h
      obtain ⟨A, q, B, e, h1, h2⟩ := sum_cover ps (c - p.1) (by omega)
      exact ⟨p :: A, q, B, by rw [e]; rfl, by simp; omega, by simp; omega⟩

/-- The description of a concatenation determines it. -/
theorem IsConcat.unique {pre post : List Nat} {ps : List (Nat × List α)} {D : Nat} (hD : (ps.map (·.1)).sum = D)
    {xs ys : List α} (hx : xs.length = (pre ++ D :: post).prod) (hy : ys.length = (pre ++ D :: post).prod)
    (h : IsConcat pre post ps xs) (h' : IsConcat pre post ps ys) : xs = ys := by
  apply slices_ext hx hy
  intro c hc
  rw [← hD] at hc
  obtain ⟨A, p, B, e, h1, h2⟩ := sum_cover ps c hc
  refine ⟨_, _, p.2, h1, h2, ?_, ?_⟩
  · rw [← hD]; exact h A p B e
  · rw [← hD]; exact h' A p B e

theorem flatten_split : ∀ (gs : List (List β)) (A B : List β) (p : β), gs.flatten = A ++ p :: B →
    ∃ G1 g G2 A' B', gs = G1 ++ g :: G2 ∧ g = A' ++ p :: B' ∧ A = G1.flatten ++ A'
  | [], A, B, p, h => by simp at h
  | g :: gs, A, B, p, h => by
    rw [List.flatten_cons, List.append_eq_append_iff] at h
    rcases h with ⟨C, h1, h2⟩ | ⟨C, h1, h2⟩
    · obtain ⟨G1, g', G2, A', B', e1, e2, e3⟩ := flatten_split gs C B p h2
      exact ⟨g :: G1, g', G2, A', B', by rw [e1]; rfl, e2, by rw [h1, e3]; simp⟩
    · cases C with
      | nil =>
        obtain ⟨G1, g', G2, A', B', e1, e2, e3⟩ := flatten_split gs [] B p (by simpa using h2.symm)
        refine ⟨g :: G1, g', G2, A', B', by rw [e1]; rfl, e2, ?_⟩
        rw [List.flatten_cons, List.append_assoc, ← e3, List.append_nil]
        simpa using h1.symm
      | cons c C =>
        simp only [List.cons_append, List.cons.injEq] at h2
        obtain ⟨rfl, rfl⟩ := h2
        exact ⟨[], g, gs, A, C, rfl, h1, by simp⟩

theorem forall₂_split {R : α → β → Prop} : ∀ (l1 : List α) {l2 : List α} {m : List β}, List.Forall₂ R (l1 ++ l2) m →
    ∃ m1 m2, List.Forall₂ R l1 m1 ∧ List.Forall₂ R l2 m2 ∧ m = m1 ++ m2
  | [], _, m, h => ⟨[], m, .nil, h, rfl⟩
  | a :: l1, l2, m, h => by
    cases h with
    | cons h1 h2 =>
      obtain ⟨m1, m2, f1, f2, rfl⟩ := forall₂_split l1 h2
      exact ⟨_ :: m1, m2, .cons h1 f1, f2, rfl⟩

/-- Concatenating concatenations of groups of parts gives a concatenation of all the parts. -/
theorem IsConcat.nested {pre post : List Nat} {gs : List (List (Nat × List α))} {outs : List (List α)} {out : List α}
    (hg : List.Forall₂ (fun g o => IsConcat pre post g o) gs outs)
    (h : IsConcat pre post (List.zipWith (fun g o => ((g.map (·.1)).sum, o)) gs outs) out) :
    IsConcat pre post gs.flatten out := by
  have hsum : ∀ {gs : List (List (Nat × List α))} {outs : List (List α)},
      List.Forall₂ (fun g o => IsConcat pre post g o) gs outs →
      ((List.zipWith (fun g o => ((g.map (·.1)).sum, o)) gs outs).map (·.1)).sum = (gs.flatten.map (·.1)).sum := by
    intro gs outs hg
    induction hg with
    | nil => rfl
    | cons _ _ ih =>
      rw [List.zipWith_cons_cons, List.map_cons, List.sum_cons, ih, List.flatten_cons, List.map_append, List.sum_append]
  intro A p B e
  obtain ⟨G1, g, G2, A', B', e1, e2, e3⟩ := flatten_split gs A B p e
  subst e1
  obtain ⟨O1, O2', f1, f2, rfl⟩ := forall₂_split G1 hg
  cases f2 with
  | cons f2 f3 =>
  rename_i o O2
  have hl : G1.length = O1.length := f1.length_eq
  have hs := h (List.zipWith (fun g o => ((g.map (·.1)).sum, o)) G1 O1) ((g.map (·.1)).sum, o)
    (List.zipWith (fun g o => ((g.map (·.1)).sum, o)) G2 O2) (by rw [List.zipWith_append hl]; rfl)
  rw [hsum hg, hsum f1] at hs
  have := hs.trans (f2 A' p B' e2)
  rw [e3, List.map_append, List.sum_append]
  exact this

theorem Fits.mono {pre post : List Nat} {D E : Nat} (h : Fits (pre ++ D :: post)) (hE : E ≤ D) :
    Fits (pre ++ E :: post) := by
  intro k
  have hk := h k
  rw [List.drop_append] at hk ⊢
  refine Nat.lt_of_le_of_lt ?_ hk
  rw [List.prod_append, List.prod_append]
  apply Nat.mul_le_mul_left
  cases k - pre.length with
  | zero => simp only [List.drop_zero, List.prod_cons]; exact Nat.mul_le_mul_right _ hE
  | succ n => simp

theorem repAll_flatten {f : β → List Nat × List α} {gs : List (List β)} {tss : List (List (Tensor α))}
    (h : List.Forall₂ (fun ts g => RepAll ts (g.map f)) tss gs) : RepAll tss.flatten (gs.flatten.map f) := by
  have app : ∀ {ts us : List (Tensor α)} {ps qs}, RepAll ts ps → RepAll us qs → RepAll (ts ++ us) (ps ++ qs) := by
    intro ts us ps qs h1 h2
    induction h1 with
    | nil => exact h2
    | cons h _ ih => exact .cons h ih
  induction h with
  | nil => exact .nil
  | cons h1 _ ih => rw [List.flatten_cons, List.flatten_cons, List.map_append]; exact app h1 ih

/-! ## Concatenation of concatenations -/

/-- C84: concatenating groups of tensors first and then the results gives the same as concatenating all the tensors at
once, along any axis, for any number of groups of any sizes. -/
theorem C84_concatenate_nested {pre post : List Nat} {gs : List (List (Nat × List α))} {tss : List (List (Tensor α))}
    (hrep : List.Forall₂ (fun ts g => RepAll ts (g.map fun p => (pre ++ p.1 :: post, p.2))) tss gs) (hne : gs ≠ [])
    (hgne : ∀ g ∈ gs, g ≠ []) {D : Nat} (hD : (gs.flatten.map (·.1)).sum = D) (hD32 : D < 2 ^ 32)
    (hfit : Fits (pre ++ D :: post)) (hpre : Fits pre) (hr : post.length < 5) {a : Int}
    (ha : axisIndex (pre.length + 1 + post.length) a = some pre.length) :
    ∃ us v w out, tss.mapM (Tensor.concatenateAxis (some a)) = .ok us ∧
      Tensor.concatenateAxis (some a) us = .ok v ∧ Tensor.concatenateAxis (some a) tss.flatten = .ok w ∧
      Rep v (pre ++ D :: post) out ∧ Rep w (pre ++ D :: post) out := by
  have step : ∀ {tss : List (List (Tensor α))} {gs : List (List (Nat × List α))},
      List.Forall₂ (fun ts g => RepAll ts (g.map fun p => (pre ++ p.1 :: post, p.2))) tss gs → (∀ g ∈ gs, g ≠ []) →
      (gs.flatten.map (·.1)).sum ≤ D →
      ∃ us outs, tss.mapM (Tensor.concatenateAxis (some a)) = .ok us ∧
        List.Forall₂ (fun g o => IsConcat pre post g o) gs outs ∧
        RepAll us ((List.zipWith (fun g o => ((g.map (·.1)).sum, o)) gs outs).map fun p => (pre ++ p.1 :: post, p.2)) ∧
        ((List.zipWith (fun (g : List (Nat × List α)) (o : List α) => ((g.map (·.1)).sum, o)) gs outs).map (·.1)).sum =
          (gs.flatten.map (·.1)).sum := by
    intro tss gs hrep
    induction hrep with
    | nil => exact fun _ _ => ⟨[], [], rfl, .nil, .nil, rfl⟩
    | cons h1 h2 ih =>
      rename_i ts g tss gs
      intro hg hs
      rw [List.flatten_cons, List.map_append, List.sum_append] at hs
      obtain ⟨us, outs, e1, e2, e3, e4⟩ := ih (fun g hg' => hg g (List.mem_cons_of_mem _ hg')) (by omega)
      obtain ⟨t, out, f1, f2, f3⟩ := C27_concatenate_partial h1 (hg g (by simp)) rfl
        (by omega) (hfit.mono (by omega)) hpre hr ha
      refine ⟨t :: us, out :: outs, ?_, .cons f3 e2, .cons f2 e3, ?_⟩
      · rw [List.mapM_cons, f1, ok_bind, e1]; rfl
      · rw [List.zipWith_cons_cons, List.map_cons, List.sum_cons, e4, List.flatten_cons, List.map_append, List.sum_append]
  obtain ⟨us, outs, e1, e2, e3, e4⟩ := step hrep hgne (Nat.le_of_eq hD)
  have hz : List.zipWith (fun (g : List (Nat × List α)) (o : List α) => ((g.map (·.1)).sum, o)) gs outs ≠ [] := by
    cases e2 with
    | nil => exact absurd rfl hne
    | cons _ _ => simp
  obtain ⟨v, out, f1, f2, f3⟩ := C27_concatenate_partial e3 hz (e4.trans hD) hD32 hfit hpre hr ha
  have hfl : gs.flatten ≠ [] := by
    cases gs with
    | nil => exact absurd rfl hne
    | cons g gs => simp [hgne g (by simp)]
  obtain ⟨w, out', g1, g2, g3⟩ := C27_concatenate_partial (repAll_flatten hrep) hfl hD hD32 hfit hpre hr ha
  have : out = out' := IsConcat.unique hD f2.length g2.length (IsConcat.nested e2 f3) g3
  subst this
  exact ⟨us, v, w, out, e1, f1, g1, f2, g2⟩

/-- `[[M, C], [C]]` along the columns, `M` 2x3 and `C` 2x1. -/
example : ∃ us v w out, [[exMat, exCol], [exCol]].mapM (Tensor.concatenateAxis (some 1)) = .ok us ∧
    Tensor.concatenateAxis (some 1) us = .ok v ∧ Tensor.concatenateAxis (some 1) [exMat, exCol, exCol] = .ok w ∧
    Rep v [2, 5] out ∧ Rep w [2, 5] out :=
  C84_concatenate_nested (pre := [2]) (post := [])
    (gs := [[(3, [1, 2, 3, 4, 5, 6]), (1, [7, 8])], [(1, [7, 8])]])
    (.cons (.cons exMat_rep (.cons exCol_rep .nil)) (.cons (.cons exCol_rep .nil) .nil)) (by simp) (by simp) (D := 5)
    (by simp) (by simp) (fits_of_pos (by simp) (by simp)) (fits_one (by simp)) (by simp) (by decide)

/-! ## Splitting a concatenation -/

theorem ranges_running : ∀ (ls : List Nat) (acc : Nat), (∀ d ∈ ls, 0 < d) →
    Ascending acc (runningSums acc ls)
  | [], _, _ => trivial
  | d :: ls, acc, h => ⟨Nat.le_add_right _ _, ranges_running ls (acc + d) fun e he => h e (by simp [he])⟩

/-- C84: cutting a concatenation at the joints gives the tensors it was made of, in order (parts of positive length;
`split` leaves out empty pieces). -/
theorem C84_split_of_concatenate {pre post : List Nat} {ps : List (Nat × List α)} {ts : List (Tensor α)}
    (hrep : RepAll ts (ps.map fun p => (pre ++ p.1 :: post, p.2))) (hne : ps ≠ []) (hpos : ∀ p ∈ ps, p.2 ≠ [])
    {D : Nat} (hD : (ps.map (·.1)).sum = D) (hfit : (pre ++ D :: post).prod < 2 ^ 32) (hr : post.length < 5)
    {a : Int} (ha : axisIndex (pre.length + 1 + post.length) a = some pre.length) {cuts : List Nat}
    (hcuts : cuts ++ [D] = runningSums 0 (ps.map (·.1))) :
    ∃ t us, Tensor.concatenateAxis (some a) ts = .ok t ∧ t.splitAxis (some a) (.splitCuts cuts) = .ok us ∧
      RepAll us (ps.map fun p => (pre ++ p.1 :: post, p.2)) := by
  have hlens : ∀ {ts : List (Tensor α)} {ps : List (Nat × List α)},
      RepAll ts (ps.map fun p => (pre ++ p.1 :: post, p.2)) →
      ∀ p ∈ ps, p.2.length = (pre ++ p.1 :: post).prod := by
    intro ts ps h
    induction ps generalizing ts with
    | nil => simp
    | cons q ps ih =>
      cases h with
      | cons h1 h2 =>
        intro p hp
        rcases List.mem_cons.1 hp with rfl | hp
        · exact h1.length
        · exact ih h2 p hp
  have hl := hlens hrep
  have hp1 : ∀ p ∈ ps, 0 < (pre ++ p.1 :: post).prod := fun p hp => by
    rw [← hl p hp]; exact List.length_pos_iff.2 (hpos p hp)
  have hd1 : ∀ p ∈ ps, 0 < p.1 := fun p hp => pos_of_prod_pos (hp1 p hp) p.1 (by simp)
  obtain ⟨q, hq⟩ := List.exists_mem_of_ne_nil _ hne
  have hqD : q.1 ≤ D := by
    obtain ⟨A, B, e⟩ := List.append_of_mem hq
    rw [← hD, e]
    simp only [List.map_append, List.map_cons, List.sum_append, List.sum_cons]
    omega
  have hDp : 0 < (pre ++ D :: post).prod := by
    have h1 := hp1 q hq
    rw [List.prod_append, List.prod_cons] at h1 ⊢
    refine Nat.lt_of_lt_of_le h1 (Nat.mul_le_mul_left _ (Nat.mul_le_mul_right _ hqD))
  obtain ⟨f1, f2, f3⟩ := fits_parts hDp hfit
  obtain ⟨t, out, e1, e2, e3⟩ := C27_concatenate_partial hrep hne hD f1 f2 f3 hr ha
  have hout : out ≠ [] := List.length_pos_iff.1 (by rw [e2.length]; exact hDp)
  have ha' : axisIndex (pre ++ D :: post).length a = some pre.length := by
    rw [show (pre ++ D :: post).length = pre.length + 1 + post.length by simp; omega]; exact ha
  obtain ⟨us, g1, g2⟩ := (C30_split_cuts e2 hout ha' cuts).1 (by
    rw [hcuts]; exact ranges_running _ 0 (by simpa using hd1))
  refine ⟨t, us, e1, g1, ?_⟩
  rw [hcuts] at g2
  have key : ∀ (B A : List (Nat × List α)) (us : List (Tensor α)), ps = A ++ B →
      IsPieces pre D post out us (ranges (A.map (·.1)).sum (runningSums (A.map (·.1)).sum (B.map (·.1)))) →
      RepAll us (B.map fun p => (pre ++ p.1 :: post, p.2)) := by
    intro B
    induction B with
    | nil =>
      intro A us _ h
      cases h
      exact .nil
    | cons p B ih =>
      intro A us e h
      have h0 : 0 < p.1 := hd1 p (by rw [e]; simp)
      simp only [List.map_cons, runningSums, ranges] at h
      rw [if_pos (by omega)] at h
      cases h with
      | cons h1 h2 h3 =>
        have hs := e3 A p B e
        rw [hD] at hs
        rw [Nat.add_sub_cancel_left] at h1 h2
        have := h2.unique hs
        subst this
        refine .cons h1 (ih (A ++ [p]) _ (by rw [e]; simp) ?_)
        rw [List.map_append, List.sum_append]
        simpa using h3
  exact key ps [] us rfl g2

/-- Cutting `[M | C | M]` at columns 3 and 4. -/
example : ∃ t us, Tensor.concatenateAxis (some 1) [exMat, exCol, exMat] = .ok t ∧
    t.splitAxis (some 1) (.splitCuts [3, 4]) = .ok us ∧
    RepAll us [([2, 3], [1, 2, 3, 4, 5, 6]), ([2, 1], [7, 8]), ([2, 3], [1, 2, 3, 4, 5, 6])] :=
  C84_split_of_concatenate (pre := [2]) (post := [])
    (ps := [(3, [1, 2, 3, 4, 5, 6]), (1, [7, 8]), (3, [1, 2, 3, 4, 5, 6])])
    (.cons exMat_rep (.cons exCol_rep (.cons exMat_rep .nil))) (by simp) (by simp) (D := 7) (by simp) (by simp) (by simp)
    (by decide) (by simp [runningSums])

/-! ## Rearranging commutes with elementwise functions -/

theorem at_map (ds : List Nat) (xs : List α) (f : α → β) (idx : List Nat) :
    at? ds (xs.map f) idx = (at? ds xs idx).map f := by
  unfold at?
  cases ravel ds idx <;> simp

theorem IsSlice.map {pre post : List Nat} {d lo n : Nat} {xs ys : List α} (h : IsSlice pre d post xs lo n ys)
    (f : α → β) : IsSlice pre d post (xs.map f) lo n (ys.map f) :=
  ⟨by rw [List.length_map]; exact h.1, h.2.1, fun i a j hi ha => by rw [at_map, at_map, h.2.2 i a j hi ha]⟩

theorem IsConcat.map {pre post : List Nat} {ps : List (Nat × List α)} {out : List α} (h : IsConcat pre post ps out)
    (f : α → β) : IsConcat pre post (ps.map fun p => (p.1, p.2.map f)) (out.map f) := by
  intro A p B e
  obtain ⟨A', l, rfl, rfl, e2⟩ := List.map_eq_append_iff.1 e
  obtain ⟨p', B', rfl, rfl, rfl⟩ := List.map_eq_cons_iff.1 e2
  have := (h A' p' B' rfl).map f
  simpa [List.map_map, Function.comp_def] using this

theorem IsStack.map {pre post : List Nat} {ps : List (List α)} {out : List α} (h : IsStack pre post ps out)
    (f : α → β) : IsStack pre post (ps.map (List.map f)) (out.map f) := by
  intro k x hk i j hi
  rw [List.getElem?_map] at hk
  obtain ⟨y, hy, rfl⟩ := Option.map_eq_some_iff.1 hk
  rw [List.length_map, at_map, at_map, h k y hy i j hi]

/-- The description of a stack determines it. -/
theorem IsStack.unique {pre post : List Nat} {ps : List (List α)} {xs ys : List α}
    (hx : xs.length = (pre ++ ps.length :: post).prod) (hy : ys.length = (pre ++ ps.length :: post).prod)
    (h : IsStack pre post ps xs) (h' : IsStack pre post ps ys) : xs = ys := by
  apply at_ext hx hy
  intro idx
  cases hp : ravel (pre ++ ps.length :: post) idx with
  | none => simp [at?, hp]
  | some p =>
    have hl := ravel_length hp
    simp only [List.length_append, List.length_cons] at hl
    have e : idx = idx.take pre.length ++ idx[pre.length]'(by omega) :: idx.drop (pre.length + 1) := by
      rw [List.getElem_cons_drop, List.take_append_drop]
    have ht : (idx.take pre.length).length = pre.length := by simp; omega
    rw [e] at hp ⊢
    rw [ravel_append ht] at hp
    obtain ⟨q, _, hq⟩ := Option.bind_eq_some_iff.1 hp
    obtain ⟨r, hr, _⟩ := Option.map_eq_some_iff.1 hq
    have hk : idx[pre.length]'(by omega) < ps.length := (ravel_cons.1 hr).1
    have hk' := List.getElem?_eq_getElem hk
    rw [h _ _ hk' _ _ ht, h' _ _ hk' _ _ ht]

/-- Calls `f` for each element: `t.map(f)` for an `f` without effects. -/
def mapped (f : α → β) (t : Tensor α) : Res (Tensor β) := Tensor.unary (fun x => .ok (f x)) t

theorem mapped_rep (f : α → β) {t : Tensor α} {ds : List Nat} {xs : List α} (h : Rep t ds xs) :
    ∃ u, mapped f t = .ok u ∧ Rep u ds (xs.map f) := by
  have h1 := C18_unary (fun x => (.ok (f x) : Res β)) h
  have : xs.mapM (fun x => (.ok (f x) : Res β)) = .ok (xs.map f) := by
    clear h h1
    induction xs with
    | nil => rfl
    | cons x xs ih => rw [List.mapM_cons, ih]; rfl
  rw [this] at h1
  exact h1

theorem mapped_repAll (f : α → β) {γ : Type} (dim : γ → List Nat) (el : γ → List α) {ts : List (Tensor α)} {ps : List γ}
    (h : RepAll ts (ps.map fun p => (dim p, el p))) :
    ∃ us, ts.mapM (mapped f) = .ok us ∧ RepAll us (ps.map fun p => (dim p, (el p).map f)) := by
  induction ps generalizing ts with
  | nil => cases h; exact ⟨[], rfl, .nil⟩
  | cons p ps ih =>
    cases h with
    | cons h1 h2 =>
      obtain ⟨u, e1, r1⟩ := mapped_rep f h1
      obtain ⟨us, e2, r2⟩ := ih h2
      exact ⟨u :: us, by rw [List.mapM_cons, e1, ok_bind, e2]; rfl, .cons r1 r2⟩

/-- C84: applying a function to every element and rearranging can be done in either order: reshape, transpose,
subslice, concatenate and stack. -/
theorem C84_map_commutes (f : α → β) {t : Tensor α} {pre : List Nat} {r c : Nat} {xs : List α}
    (h : Rep t (pre ++ [r, c]) xs) (hne : xs ≠ []) :
    (∀ es, Adm es → Fits es → es.prod = (pre ++ [r, c]).prod →
      Agree (t.reshape (ofDims es) >>= mapped f) (mapped f t >>= fun u => u.reshape (ofDims es))) ∧
    Agree (t.transpose >>= mapped f) (mapped f t >>= Tensor.transpose) ∧
    (∀ o n, Agree (t.subslice o n >>= mapped f) (mapped f t >>= fun u => u.subslice o n)) := by
  obtain ⟨u, e, hu⟩ := mapped_rep f h
  have hne' : xs.map f ≠ [] := by simpa using hne
  have hxp : 0 < (pre ++ [r, c]).prod := by rw [← h.length]; exact List.length_pos_iff.2 hne
  refine ⟨fun es ha hf hp => ?_, ?_, fun o n => ?_⟩
  · obtain ⟨t1, a1, a2⟩ := reshape_rep h ha hf hp
    obtain ⟨u1, b1, b2⟩ := reshape_rep hu ha hf hp
    obtain ⟨t2, c1, c2⟩ := mapped_rep f a2
    exact Or.inr ⟨t2, u1, es, _, by rw [a1, ok_bind, c1], by rw [e, ok_bind, b1], c2, b2⟩
  · obtain ⟨t1, ys, a1, a2, a3⟩ := C26_transpose h hne
    obtain ⟨u1, zs, b1, b2, b3⟩ := C26_transpose hu hne'
    obtain ⟨t2, c1, c2⟩ := mapped_rep f a2
    refine Or.inr ⟨t2, u1, pre ++ [c, r], _, by rw [a1, ok_bind, c1], by rw [e, ok_bind, b1], c2, ?_⟩
    have : ys.map f = zs := by
      apply at_ext (by rw [List.length_map]; exact a2.length) b2.length
      intro idx
      cases hp : ravel (pre ++ [c, r]) idx with
      | none => simp [at?, hp]
      | some p =>
        have hl := ravel_length hp
        simp only [List.length_append, List.length_cons, List.length_nil] at hl
        obtain ⟨i, j, k, rfl, hi⟩ : ∃ i j k, idx = i ++ [j, k] ∧ i.length = pre.length := by
          refine ⟨idx.take pre.length, idx[pre.length]'(by omega), idx[pre.length + 1]'(by omega), ?_, by simp; omega⟩
          have h2 : idx.drop (pre.length + 1 + 1) = [] := List.drop_eq_nil_of_le (by omega)
          conv_lhs => rw [← List.take_append_drop pre.length idx]
          rw [List.drop_eq_getElem_cons (by omega : pre.length < idx.length),
            List.drop_eq_getElem_cons (by omega : pre.length + 1 < idx.length), h2]
        rw [at_map, a3 i j k hi, b3 i j k hi, at_map]
    rw [this]; exact b2
  · have hpos : ∀ e ∈ pre ++ [r, c], 0 < e := pos_of_prod_pos hxp
    obtain ⟨d, ds, hd⟩ : ∃ d ds, pre ++ [r, c] = d :: ds := by cases pre <;> simp
    rw [hd] at h hu hpos
    have hpos' : ∀ e ∈ ds, 0 < e := fun e he => hpos e (List.mem_cons_of_mem _ he)
    by_cases hon : 0 < n ∧ o + n ≤ d
    · obtain ⟨t1, a1, a2⟩ := (C09_subslice h hpos' o n).1 hon
      obtain ⟨u1, b1, b2⟩ := (C09_subslice hu hpos' o n).1 hon
      obtain ⟨t2, c1, c2⟩ := mapped_rep f a2
      refine Or.inr ⟨t2, u1, n :: ds, _, by rw [a1, ok_bind, c1], by rw [e, ok_bind, b1], c2, ?_⟩
      simpa [List.map_take, List.map_drop] using b2
    · exact Or.inl ⟨.panic, by rw [(C09_subslice h hpos' o n).2 hon]; rfl,
        by rw [e, ok_bind, (C09_subslice hu hpos' o n).2 hon]⟩

/-- C84: mapping the parts and concatenating is concatenating and mapping. -/
theorem C84_map_concatenate (f : α → β) {pre post : List Nat} {ps : List (Nat × List α)} {ts : List (Tensor α)}
    (hrep : RepAll ts (ps.map fun p => (pre ++ p.1 :: post, p.2))) (hne : ps ≠ []) {D : Nat}
    (hD : (ps.map (·.1)).sum = D) (hD32 : D < 2 ^ 32) (hfit : Fits (pre ++ D :: post)) (hpre : Fits pre)
    (hr : post.length < 5) {a : Int} (ha : axisIndex (pre.length + 1 + post.length) a = some pre.length) :
    Agree (ts.mapM (mapped f) >>= Tensor.concatenateAxis (some a))
      (Tensor.concatenateAxis (some a) ts >>= mapped f) := by
  obtain ⟨us, e1, r1⟩ := mapped_repAll f (fun p : Nat × List α => pre ++ p.1 :: post) (·.2) hrep
  have r1' : RepAll us ((ps.map fun p => (p.1, p.2.map f)).map fun p => (pre ++ p.1 :: post, p.2)) := by
    rw [List.map_map]; exact r1
  obtain ⟨t, out, a1, a2, a3⟩ := C27_concatenate_partial hrep hne hD hD32 hfit hpre hr ha
  have hD' : ((ps.map fun p => (p.1, p.2.map f)).map (·.1)).sum = D := by
    rw [List.map_map]; exact hD
  obtain ⟨u, out', b1, b2, b3⟩ := C27_concatenate_partial r1' (by simpa using hne) hD' hD32 hfit hpre hr ha
  obtain ⟨t2, c1, c2⟩ := mapped_rep f a2
  have : out' = out.map f := IsConcat.unique hD' b2.length c2.length b3 (a3.map f)
  subst this
  exact Or.inr ⟨u, t2, _, _, by rw [e1, ok_bind, b1], by rw [a1, ok_bind, c1], b2, c2⟩

/-- C84: mapping the tensors and stacking is stacking and mapping. -/
theorem C84_map_stack (f : α → β) {pre post : List Nat} {ps : List (List α)} {ts : List (Tensor α)}
    (hrep : RepAll ts (ps.map fun x => (pre ++ post, x))) (hne : ps ≠ []) (h32 : ps.length < 2 ^ 32)
    (hpos : 0 < post.prod) (hfit : Fits (pre ++ ps.length :: post)) (hr : post.length < 5)
    (hr6 : pre.length + post.length < 6) {a : Int}
    (ha : axisIndex (pre.length + post.length + 1) a = some pre.length) :
    Agree (ts.mapM (mapped f) >>= Tensor.stackVec (some a)) (Tensor.stackVec (some a) ts >>= mapped f) := by
  obtain ⟨us, e1, r1⟩ := mapped_repAll f (fun _ : List α => pre ++ post) id hrep
  have r1' : RepAll us ((ps.map (List.map f)).map fun x => (pre ++ post, x)) := by
    rw [List.map_map]; exact r1
  obtain ⟨t, out, a1, a2, a3⟩ := C28_stack_partial hrep hne h32 hpos hfit hr hr6 ha
  have hl : (ps.map (List.map f)).length = ps.length := by simp
  obtain ⟨u, out', b1, b2, b3⟩ := C28_stack_partial r1' (by simpa using hne) (by rw [hl]; exact h32) hpos
    (by rw [hl]; exact hfit) hr hr6 ha
  obtain ⟨t2, c1, c2⟩ := mapped_rep f a2
  rw [hl] at b2
  have : out' = out.map f := IsStack.unique (by rw [hl]; exact b2.length) (by rw [hl]; exact c2.length) b3 (a3.map f)
  subst this
  exact Or.inr ⟨u, t2, _, _, by rw [e1, ok_bind, b1], by rw [a1, ok_bind, c1], b2, c2⟩

example : Agree (exMat.transpose >>= mapped (· + 1)) (mapped (· + 1) exMat >>= Tensor.transpose) :=
  (C84_map_commutes (pre := []) (· + 1) exMat_rep (by simp)).2.1
example : Agree ([exMat, exCol].mapM (mapped (· * 2)) >>= Tensor.concatenateAxis (some (-1)))
    (Tensor.concatenateAxis (some (-1)) [exMat, exCol] >>= mapped (· * 2)) :=
  C84_map_concatenate (pre := [2]) (post := []) (ps := [(3, [1, 2, 3, 4, 5, 6]), (1, [7, 8])]) (· * 2)
    (.cons exMat_rep (.cons exCol_rep .nil)) (by simp) (D := 4) (by simp) (by simp) (fits_of_pos (by simp) (by simp))
    (fits_one (by simp)) (by simp) (by decide)
example : Agree ([exMat, exMat].mapM (mapped (· * 2)) >>= Tensor.stackVec (some 1))
    (Tensor.stackVec (some 1) [exMat, exMat] >>= mapped (· * 2)) :=
  C84_map_stack (pre := [2]) (post := [3]) (ps := [[1, 2, 3, 4, 5, 6], [1, 2, 3, 4, 5, 6]]) (· * 2)
    (.cons exMat_rep (.cons exMat_rep .nil)) (by simp) (by simp) (by simp) (fits_of_pos (by simp) (by simp)) (by simp)
    (by simp) (by decide)

/-! ## Transposition -/

/-- An index with two more coordinates than `pre` ends in two coordinates. -/
theorem idx_split2 {pre idx : List Nat} (hl : idx.length = pre.length + 2) :
    ∃ i j k, idx = i ++ [j, k] ∧ i.length = pre.length := by
  refine ⟨idx.take pre.length, idx[pre.length]'(by omega), idx[pre.length + 1]'(by omega), ?_, by simp; omega⟩
  have h2 : idx.drop (pre.length + 1 + 1) = [] := List.drop_eq_nil_of_le (by omega)
  conv_lhs => rw [← List.take_append_drop pre.length idx]
  rw [List.drop_eq_getElem_cons (by omega : pre.length < idx.length),
    List.drop_eq_getElem_cons (by omega : pre.length + 1 < idx.length), h2]

theorem at_ext2 {pre : List Nat} {r c : Nat} {xs ys : List α} (hx : xs.length = (pre ++ [r, c]).prod)
    (hy : ys.length = (pre ++ [r, c]).prod)
    (h : ∀ i j k, i.length = pre.length → j < r → k < c → at? (pre ++ [r, c]) xs (i ++ [j, k]) = at? (pre ++ [r, c]) ys (i ++ [j, k])) :
    xs = ys := by
  apply at_ext hx hy
  intro idx
  cases hp : ravel (pre ++ [r, c]) idx with
  | none => simp [at?, hp]
  | some p =>
    have hl := ravel_length hp
    simp only [List.length_append, List.length_cons, List.length_nil] at hl
    obtain ⟨i, j, k, rfl, hi⟩ := idx_split2 (pre := pre) (by omega)
    rw [ravel_append hi] at hp
    obtain ⟨q, _, hq⟩ := Option.bind_eq_some_iff.1 hp
    obtain ⟨r', hr, _⟩ := Option.map_eq_some_iff.1 hq
    obtain ⟨hj, q2, hq2, _⟩ := ravel_cons.1 hr
    exact h i j k hi hj (ravel_cons.1 hq2).1

theorem at_wrong_length {ds idx : List Nat} {xs : List α} (h : idx.length ≠ ds.length) : at? ds xs idx = none := by
  unfold at?
  cases hr : ravel ds idx with
  | none => rfl
  | some p => exact absurd (ravel_length hr) h

/-- `y` is the transpose of the batch of matrices `x`. -/
def Transposed (pre : List Nat) (r c : Nat) (x y : List α) : Prop :=
  ∀ (i : List Nat) (j k : Nat), i.length = pre.length →
    at? (pre ++ [c, r]) y (i ++ [j, k]) = at? (pre ++ [r, c]) x (i ++ [k, j])

theorem IsSlice.transposed {pre : List Nat} {c d lo n : Nat} {xs ys xs' ys' : List α}
    (h : IsSlice pre d [c] xs lo n ys) (hx : Transposed pre d c xs xs') (hy : Transposed pre n c ys ys')
    (hl : ys'.length = (pre ++ [c, n]).prod) : IsSlice (pre ++ [c]) d [] xs' lo n ys' := by
  refine ⟨by simpa using hl, h.2.1, fun i a j hi ha => ?_⟩
  simp only [List.append_assoc, List.cons_append, List.nil_append]
  cases j with
  | cons b j =>
    rw [at_wrong_length (by simp at hi ⊢; omega), at_wrong_length (by simp at hi ⊢; omega)]
  | nil =>
    obtain ⟨i, b, rfl⟩ : ∃ i' b, i = i' ++ [b] := by
      refine ⟨i.dropLast, i.getLast (by rintro rfl; simp at hi), ?_⟩
      rw [List.dropLast_append_getLast]
    have hi' : i.length = pre.length := by simpa using hi
    simp only [List.append_assoc, List.cons_append, List.nil_append]
    rw [hy i b a hi', hx i b _ hi']
    exact h.2.2 i a [b] hi' ha

theorem IsConcat.transposed {pre : List Nat} {c D : Nat} {ps ps' : List (Nat × List α)} {out out' : List α}
    (hD : (ps.map (·.1)).sum = D) (h : IsConcat pre [c] ps out) (ho : Transposed pre D c out out')
    (hp : List.Forall₂ (fun p p' => p'.1 = p.1 ∧ Transposed pre p.1 c p.2 p'.2 ∧
      p'.2.length = (pre ++ [c, p.1]).prod) ps ps') : IsConcat (pre ++ [c]) [] ps' out' := by
  have hsum : ∀ {ps ps' : List (Nat × List α)}, List.Forall₂ (fun p p' => p'.1 = p.1 ∧ Transposed pre p.1 c p.2 p'.2 ∧
      p'.2.length = (pre ++ [c, p.1]).prod) ps ps' → (ps'.map (·.1)).sum = (ps.map (·.1)).sum := by
    intro ps ps' hp
    induction hp with
    | nil => rfl
    | cons h _ ih => simp [h.1, ih]
  intro A p' B e
  subst e
  obtain ⟨A0, B0', f1, f2, rfl⟩ := forall₂_split A hp.flip
  cases f2 with
  | cons f2 f3 =>
    rename_i p B0
    have hs := h A0 p B0 rfl
    rw [hD] at hs
    rw [hsum hp, hD, hsum f1.flip, f2.1]
    exact hs.transposed ho f2.2.1 f2.2.2

/-- C84: concatenating matrices on top of each other and transposing gives the same as putting the transposed matrices
side by side (for batches of matrices too). -/
theorem C84_transpose_concatenate {pre : List Nat} {c : Nat} {ps : List (Nat × List α)} {ts : List (Tensor α)}
    (hrep : RepAll ts (ps.map fun p => (pre ++ [p.1, c], p.2))) (hne : ps ≠ []) (hpos : ∀ p ∈ ps, p.2 ≠ [])
    {D : Nat} (hD : (ps.map (·.1)).sum = D) (hfit : (pre ++ [D, c]).prod < 2 ^ 32) :
    ∃ t u us v ys, Tensor.concatenateAxis (some (-2)) ts = .ok t ∧ t.transpose = .ok u ∧
      ts.mapM Tensor.transpose = .ok us ∧ Tensor.concatenateAxis (some (-1)) us = .ok v ∧
      Rep u (pre ++ [c, D]) ys ∧ Rep v (pre ++ [c, D]) ys := by
  obtain ⟨q, hq⟩ := List.exists_mem_of_ne_nil _ hne
  have each : ∀ {ts : List (Tensor α)} {ps : List (Nat × List α)}, RepAll ts (ps.map fun p => (pre ++ [p.1, c], p.2)) →
      (∀ p ∈ ps, p.2 ≠ []) → ∃ (us : List (Tensor α)) (ps' : List (Nat × List α)), ts.mapM Tensor.transpose = .ok us ∧
        RepAll us (ps'.map fun p => ((pre ++ [c]) ++ p.1 :: [], p.2)) ∧
        List.Forall₂ (fun p p' => p'.1 = p.1 ∧ Transposed pre p.1 c p.2 p'.2 ∧
          p'.2.length = (pre ++ [c, p.1]).prod) ps ps' ∧
        ∀ p ∈ ps, p.2.length = (pre ++ [p.1, c]).prod ∧ pre.length + 2 ≤ 6 := by
    intro ts ps
    induction ps generalizing ts with
    | nil => intro h _; cases h; exact ⟨[], [], rfl, .nil, .nil, by simp⟩
    | cons p ps ih =>
      intro h hp
      cases h with
      | cons h1 h2 =>
        obtain ⟨us, ps', e1, e2, e3, e4⟩ := ih h2 fun p hp' => hp p (List.mem_cons_of_mem _ hp')
        obtain ⟨u, ys, f1, f2, f3⟩ := C26_transpose h1 (hp p (by simp))
        refine ⟨u :: us, (p.1, ys) :: ps', by rw [List.mapM_cons, f1, ok_bind, e1]; rfl, .cons (by simpa using f2) e2,
          .cons ⟨rfl, f3, f2.length⟩ e3, fun p' hp' => ?_⟩
        rcases List.mem_cons.1 hp' with rfl | hp'
        · have := h1.adm.len
          exact ⟨h1.length, by simpa using this⟩
        · exact e4 p' hp'
  obtain ⟨us, ps', e1, e2, e3, e4⟩ := each hrep hpos
  have hqp : 0 < (pre ++ [q.1, c]).prod := by rw [← (e4 q hq).1]; exact List.length_pos_iff.2 (hpos q hq)
  have hrank := (e4 q hq).2
  have hqD : q.1 ≤ D := by
    obtain ⟨A, B, e⟩ := List.append_of_mem hq
    rw [← hD, e]
    simp only [List.map_append, List.map_cons, List.sum_append, List.sum_cons]
    omega
  have hDp : 0 < (pre ++ [D, c]).prod := by
    have h1 := hqp
    rw [List.prod_append, List.prod_cons] at h1 ⊢
    exact Nat.lt_of_lt_of_le h1 (Nat.mul_le_mul_left _ (Nat.mul_le_mul_right _ hqD))
  have hswap : ((pre ++ [c]) ++ D :: []).prod = (pre ++ [D, c]).prod := by
    simp [List.prod_append, Nat.mul_comm]
  obtain ⟨g1, g2, g3⟩ := fits_parts hDp hfit
  obtain ⟨g1', g2', g3'⟩ := fits_parts (pre := pre ++ [c]) (D := D) (post := []) (by rw [hswap]; exact hDp)
    (by rw [hswap]; exact hfit)
  have ax : ∀ r : Nat, axisIndex (pre.length + 1 + 1) (-2) = some pre.length ∧
      axisIndex ((pre ++ [c]).length + 1 + 0) (-1) = some (pre ++ [c]).length := by
    intro _
    constructor
    · unfold axisIndex
      rw [if_neg (by omega), if_pos (by omega)]
      congr 1
      omega
    · unfold axisIndex
      rw [if_neg (by omega), if_pos (by simp)]
      congr 1
      simp
  obtain ⟨t, out, a1, a2, a3⟩ := C27_concatenate_partial (post := [c]) hrep hne hD g1 g2 g3 (by simp) (ax 0).1
  have hsum : (ps'.map (·.1)).sum = D := by
    rw [← hD]
    clear hrep hne hpos hD hfit hq e1 e2 e4 hqD hDp a2 a3 a1
    induction e3 with
    | nil => rfl
    | cons h _ ih => simp [h.1, ih]
  have hne' : ps' ≠ [] := by
    cases e3 with
    | nil => exact absurd rfl hne
    | cons _ _ => simp
  obtain ⟨v, out', b1, b2, b3⟩ := C27_concatenate_partial (pre := pre ++ [c]) (post := []) e2 hne' hsum g1' g2' g3'
    (by simp) (ax 0).2
  obtain ⟨u, ys, c1, c2, c3⟩ := C26_transpose a2 (List.length_pos_iff.1 (by rw [a2.length]; exact hDp))
  have : ys = out' := IsConcat.unique (pre := pre ++ [c]) (post := []) hsum (by simpa using c2.length) b2.length
    (IsConcat.transposed hD a3 c3 e3) b3
  subst this
  exact ⟨t, u, us, v, ys, a1, c1, e1, b1, c2, by simpa using b2⟩

example : ∃ t u us v ys, Tensor.concatenateAxis (some (-2)) [exMat, exMat] = .ok t ∧ t.transpose = .ok u ∧
    [exMat, exMat].mapM Tensor.transpose = .ok us ∧ Tensor.concatenateAxis (some (-1)) us = .ok v ∧
    Rep u [3, 4] ys ∧ Rep v [3, 4] ys :=
  C84_transpose_concatenate (pre := []) (c := 3) (ps := [(2, [1, 2, 3, 4, 5, 6]), (2, [1, 2, 3, 4, 5, 6])])
    (.cons exMat_rep (.cons exMat_rep .nil)) (by simp) (by simp) (D := 4) (by simp) (by simp)

/-- C84: the transpose of the lower triangle is the upper triangle of the transpose, and the other way round. -/
theorem C84_triangles [Zero α] {t : Tensor α} {pre : List Nat} {r c : Nat} {xs : List α} (h : Rep t (pre ++ [r, c]) xs)
    (hne : xs ≠ []) : Agree (Init.tril t >>= Tensor.transpose) (t.transpose >>= Init.triu) ∧
      Agree (Init.triu t >>= Tensor.transpose) (t.transpose >>= Init.tril) := by
  have hxp : 0 < (pre ++ [r, c]).prod := by rw [← h.length]; exact List.length_pos_iff.2 hne
  have hpos := pos_of_prod_pos hxp
  have hrc : 0 < r * c := Nat.mul_pos (hpos r (by simp)) (hpos c (by simp))
  obtain ⟨l, ls, l1, l2, l3⟩ := C33_tril_partial h hrc
  obtain ⟨u, us, u1, u2, u3⟩ := C33_triu_partial h hrc
  obtain ⟨v, vs, v1, v2, v3⟩ := C26_transpose h hne
  obtain ⟨lt, lts, lt1, lt2, lt3⟩ := C26_transpose l2 (List.length_pos_iff.1 (by rw [l2.length]; exact hxp))
  obtain ⟨ut, uts, ut1, ut2, ut3⟩ := C26_transpose u2 (List.length_pos_iff.1 (by rw [u2.length]; exact hxp))
  have hcr : 0 < c * r := by rw [Nat.mul_comm]; exact hrc
  obtain ⟨vl, vls, vl1, vl2, vl3⟩ := C33_tril_partial v2 hcr
  obtain ⟨vu, vus, vu1, vu2, vu3⟩ := C33_triu_partial v2 hcr
  have key : ∀ (i : List Nat) (j k : Nat), i.length = pre.length →
      (at? (pre ++ [c, r]) vs (i ++ [j, k]) = none → at? (pre ++ [c, r]) lts (i ++ [j, k]) = none ∧
        at? (pre ++ [c, r]) vus (i ++ [j, k]) = none ∧ at? (pre ++ [c, r]) uts (i ++ [j, k]) = none ∧
        at? (pre ++ [c, r]) vls (i ++ [j, k]) = none) := by
    intro i j k hi hn
    have hr : ravel (pre ++ [c, r]) (i ++ [j, k]) = none := by
      cases hr : ravel (pre ++ [c, r]) (i ++ [j, k]) with
      | none => rfl
      | some p =>
        have hp := ravel_lt hr
        rw [← v2.length] at hp
        simp [at?, hr, List.getElem?_eq_getElem hp] at hn
    simp [at?, hr]
  refine ⟨Or.inr ⟨lt, vu, _, lts, by rw [l1, ok_bind, lt1], by rw [v1, ok_bind, vu1], lt2, ?_⟩,
    Or.inr ⟨ut, vl, _, uts, by rw [u1, ok_bind, ut1], by rw [v1, ok_bind, vl1], ut2, ?_⟩⟩
  · have : lts = vus := by
      apply at_ext2 lt2.length vu2.length
      intro i j k hi _ _
      cases hx : at? (pre ++ [c, r]) vs (i ++ [j, k]) with
      | none => have := key i j k hi hx; rw [this.1, this.2.1]
      | some x =>
        rw [vu3 i j k x hi hx, lt3 i j k hi]
        rw [v3 i j k hi] at hx
        rw [l3 i k j x hi hx]
    rw [this]; exact vu2
  · have : uts = vls := by
      apply at_ext2 ut2.length vl2.length
      intro i j k hi _ _
      cases hx : at? (pre ++ [c, r]) vs (i ++ [j, k]) with
      | none => have := key i j k hi hx; rw [this.2.2.1, this.2.2.2]
      | some x =>
        rw [vl3 i j k x hi hx, ut3 i j k hi]
        rw [v3 i j k hi] at hx
        rw [u3 i k j x hi hx]
    rw [this]; exact vl2

example : Agree (Init.tril exMat >>= Tensor.transpose) (exMat.transpose >>= Init.triu) :=
  (C84_triangles (pre := []) exMat_rep (by simp)).1

/-- C84: folding a tensor along the second-to-last axis is folding its transpose along the last, for every closure: the
same calls in the same order, the same results. -/
theorem C84_fold_transpose {σ S V : Type} {t : Tensor α} {pre : List Nat} {r c : Nat} {xs : List α} (h : Rep t (pre ++ [r, c]) xs)
    (hne : xs ≠ []) (init : S) (f : S → α → Exec σ S) (g : S → V) :
    ∃ u y, t.transpose = .ok u ∧ Yields (t.foldAxis (some (-2)) init f g) y (pre ++ [c]) ∧
      Yields (u.foldAxis (some (-1)) init f g) y (pre ++ [c]) := by
  obtain ⟨u, ys, e1, e2, e3⟩ := C26_transpose h hne
  have hxp : 0 < (pre ++ [r, c]).prod := by rw [← h.length]; exact List.length_pos_iff.2 hne
  have hyp : ys ≠ [] := by
    apply List.length_pos_iff.1
    rw [e2.length]
    rw [List.prod_append] at hxp ⊢
    simpa [Nat.mul_comm] using hxp
  obtain ⟨ls, l1, l2⟩ := C21_fold_axis (pre := pre) (post := [c]) h hne (a := -2) (by
    unfold axisIndex
    rw [if_neg (by omega), if_pos (by simp)]
    congr 1
    simp) init f g
  have e2' : Rep u ((pre ++ [c]) ++ r :: []) ys := by simpa using e2
  obtain ⟨ms, m1, m2⟩ := C21_fold_axis e2' hyp (a := -1) (by
    unfold axisIndex
    rw [if_neg (by omega), if_pos (by simp; try omega)]
    congr 1
    simp
    try omega) init f g
  have : ms = ls := by
    refine IsLanes.unique (pre := pre) (d := r) (post := [c]) (xs := xs) ⟨by simpa using m1.1, ?_⟩ l1
    intro i j p hi hp
    have hl := ravel_length hp
    simp only [List.length_append, List.length_cons, List.length_nil] at hl
    obtain ⟨b, rfl⟩ : ∃ b, j = [b] := List.length_eq_one_iff.1 (by omega)
    obtain ⟨lane, a1, a2, a3⟩ := m1.2 (i ++ [b]) [] p (by simp [hi]) (by simpa using hp)
    refine ⟨lane, a1, a2, fun k hk => ?_⟩
    obtain ⟨x, b1, b2⟩ := a3 k hk
    refine ⟨x, b1, ?_⟩
    simp only [List.append_assoc, List.cons_append, List.nil_append] at b2
    rw [e3 i b k hi] at b2
    exact b2
  subst this
  exact ⟨u, _, e1, l2, by simpa using m2⟩

/-! ## Repeating, appending, rows -/

/-- C84: tiling a tensor `n` times along its first axis is concatenating `n` copies of it. -/
theorem C84_tile_concatenate {t : Tensor α} {d : Nat} {post : List Nat} {xs : List α} (h : Rep t (d :: post) xs)
    (hne : xs ≠ []) {n : Nat} (hn : 0 < n) (hfit : n * (d :: post).prod < 2 ^ 32) (hr : post.length < 5)
    {mt : Tensor Nat} (hm : Rep mt [post.length + 1] (n :: List.replicate post.length 1)) :
    Agree (Tensor.tile t mt) (Tensor.concatenate (List.replicate n t)) := by
  have hxp : 0 < (d :: post).prod := by rw [← h.length]; exact List.length_pos_iff.2 hne
  have hd : 0 < d := pos_of_prod_pos hxp d (by simp)
  have hl : (n :: List.replicate post.length 1).length = post.length + 1 := by simp
  obtain ⟨u, out, e1, e2, e3⟩ := C32_tile_partial h (ms := n :: List.replicate post.length 1) (by rw [hl]; exact hm) hne
    (by
      intro m hm
      rcases List.mem_cons.1 hm with rfl | hm
      · exact hn
      · rw [List.eq_of_mem_replicate hm]; exact Nat.one_pos)
    (by rw [hl]; omega) (by simpa using hfit) (by simp)
  have hp1 : padLeft (max (d :: post).length (n :: List.replicate post.length 1).length) (d :: post) = d :: post := by
    simp [padLeft]
  have hp2 : padLeft (max (d :: post).length (n :: List.replicate post.length 1).length)
      (n :: List.replicate post.length 1) = n :: List.replicate post.length 1 := by
    simp [padLeft]
  have hmul : mulDims (n :: List.replicate post.length 1) (d :: post) = n * d :: post := by
    unfold mulDims
    rw [List.zipWith_cons_cons]
    congr 1
    clear e3 e2 e1 hp1 hp2 hl hm hr hfit h hxp
    induction post with
    | nil => rfl
    | cons a post ih => rw [List.length_cons, List.replicate_succ, List.zipWith_cons_cons, ih]; simp
  rw [hp1, hp2, hmul] at e2
  rw [hp1, hp2, hmul] at e3
  have hsum : ((List.replicate n (d, xs)).map (·.1)).sum = n * d := by simp
  have hDp : 0 < ([] ++ n * d :: post).prod := by
    rw [List.nil_append, List.prod_cons, Nat.mul_assoc, ← List.prod_cons]; exact Nat.mul_pos hn hxp
  have hDf : ([] ++ n * d :: post).prod < 2 ^ 32 := by
    rw [List.nil_append, List.prod_cons, Nat.mul_assoc, ← List.prod_cons]; exact hfit
  obtain ⟨g1, g2, _⟩ := fits_parts hDp hDf
  have hrep : RepAll (List.replicate n t) ((List.replicate n (d, xs)).map fun p => (p.1 :: post, p.2)) := by
    clear hn hfit hm e1 e2 e3 hl hp1 hp2 hmul hsum hDp hDf g1 g2
    induction n with
    | zero => exact .nil
    | succ n ih => exact .cons h ih
  obtain ⟨v, out', f1, _, f2, f3⟩ := C27_concatenate_outer_partial hrep (by simp; omega) hsum g1 g2 hr
  have : out = out' := by
    refine IsConcat.unique (pre := []) hsum e2.length f2.length ?_ f3
    intro A p B e
    have hA : p = (d, xs) ∧ A = List.replicate A.length (d, xs) ∧ A.length < n := by
      have hlen : n = A.length + (B.length + 1) := by
        have := congrArg List.length e
        simpa using this
      refine ⟨?_, ?_, by omega⟩
      · have : p ∈ List.replicate n (d, xs) := by rw [e]; simp
        exact List.eq_of_mem_replicate this
      · apply List.eq_replicate_of_mem
        intro b hb
        have : b ∈ List.replicate n (d, xs) := by rw [e]; simp [hb]
        exact List.eq_of_mem_replicate this
    obtain ⟨rfl, hA, hAn⟩ := hA
    have hAs : (A.map (·.1)).sum = A.length * d := by rw [hA]; simp
    rw [hsum, hAs]
    have hAn' : A.length * d + d ≤ n * d := by
      have := Nat.mul_le_mul_right d (Nat.succ_le_of_lt hAn)
      rwa [Nat.succ_mul] at this
    refine ⟨by rw [h.length]; rfl, hAn', fun i a j hi ha => ?_⟩
    cases i with
    | cons b i => simp at hi
    | nil =>
      simp only [List.nil_append]
      unfold at?
      cases hq : ravel post j with
      | none => simp [ravel, hq]
      | some q =>
        have r1 : ravel (n * d :: post) ((A.length * d + a) :: j) = some ((A.length * d + a) * post.prod + q) :=
          ravel_cons.2 ⟨by omega, q, hq, rfl⟩
        rw [r1, Option.bind_some, e3 _ _ r1]
        unfold at?
        rw [List.zipWith_cons_cons, mul_add_mod' ha]
        congr 2
        have : List.zipWith (· % ·) j post = j := by
          clear e3 e2 f2 f3 r1 hp1 hp2 hmul hrep hm hr hfit h hxp hDp hDf g2 hl
          induction post generalizing j q with
          | nil =>
            cases j with
            | nil => rfl
            | cons b j => simp [ravel] at hq
          | cons e post ih =>
            cases j with
            | nil => simp [ravel] at hq
            | cons b j =>
              obtain ⟨hb, q', hq', _⟩ := ravel_cons.1 hq
              rw [List.zipWith_cons_cons, ih _ _ hq', Nat.mod_eq_of_lt hb]
        rw [this]
  subst this
  exact Or.inr ⟨u, v, _, out, e1, f1, e2, f2⟩

/-- C84: `a.append(b)` is `concatenate([a, b])`. -/
theorem C84_append_concatenate {t u : Tensor α} {a b : Nat} {post : List Nat} {xs ys : List α}
    (ht : Rep t (a :: post) xs) (hu : Rep u (b :: post) ys) (hpos : ∀ d ∈ post, 0 < d) (h0 : 0 < a + b)
    (hlt : (a + b) * post.prod < 2 ^ 32) (hr : post.length < 5) :
    Agree (t.append u) (Tensor.concatenate [t, u]) := by
  obtain ⟨r, e1, e2⟩ := C62_append ht hu hpos h0 hlt
  have hp : 0 < post.prod := prod_pos hpos
  obtain ⟨g1, g2, _⟩ := fits_parts (pre := []) (D := a + b) (post := post)
    (by simpa using Nat.mul_pos h0 hp) (by simpa using hlt)
  obtain ⟨v, out, f1, _, f2, f3⟩ := C27_concatenate_outer_partial (ps := [(a, xs), (b, ys)]) (post := post)
    (.cons ht (.cons hu .nil)) (by simp) (D := a + b) (by simp) g1 g2 hr
  have : xs ++ ys = out := by
    refine IsConcat.unique (pre := []) (ps := [(a, xs), (b, ys)]) (D := a + b) (by simp) e2.length f2.length ?_ f3
    have hx := ht.length
    have hy := hu.length
    rw [List.prod_cons] at hx hy
    intro A p B e
    rcases A with _ | ⟨p1, _ | ⟨p2, A⟩⟩
    · simp only [List.nil_append, List.cons.injEq] at e
      obtain ⟨rfl, rfl⟩ := e
      refine isSlice_of_pos (by rw [hx]; simp) (by simp) fun j q hj hq => ?_
      simp only [List.prod_nil] at hj
      obtain rfl : j = 0 := by omega
      rw [List.getElem?_append_left (by simp only [List.map_nil, List.sum_nil] at hq ⊢; omega)]
      simp
    · simp only [List.cons_append, List.nil_append, List.cons.injEq] at e
      obtain ⟨rfl, rfl, rfl⟩ := e
      refine isSlice_of_pos (by rw [hy]; simp) (by simp) fun j q hj hq => ?_
      simp only [List.prod_nil] at hj
      obtain rfl : j = 0 := by omega
      simp only [List.map_cons, List.map_nil, List.sum_cons, List.sum_nil, Nat.zero_mul, Nat.zero_add, Nat.add_zero]
      rw [List.getElem?_append_right (by omega)]
      congr 1
      omega
    · have := congrArg List.length e
      simp at this
  subst this
  exact Or.inr ⟨r, v, _, _, e1, f1, e2, f2⟩

/-- C84: a matrix rebuilt from the rows `iter_row` yields is the matrix. -/
theorem C84_rows {t : Tensor α} {r c : Nat} {xs : List α} (h : Rep t [r, c] xs) (hne : xs ≠ []) :
    ∃ rows u, t.iterRow = .ok rows ∧ Tensor.ofVec2 rows = .ok u ∧ Rep u [r, c] xs := by
  have hxp : 0 < [r, c].prod := by rw [← h.length]; exact List.length_pos_iff.2 hne
  have hpos := pos_of_prod_pos hxp
  obtain ⟨rows, e1, e2, e3, e4, e5⟩ := C63_iter_row_partial (ds := [r]) h (by simp) (hpos c (by simp))
  have hn : rows.length = r := by simpa using e2
  obtain ⟨u, ys, f1, f2, f3⟩ := (C12_vec2 hn (hpos r (by simp)) e3
    ⟨h.adm.lt r (by simp), h.adm.lt c (by simp)⟩).1 h.fits
  refine ⟨rows, u, e1, f1, ?_⟩
  have : xs = ys := by
    apply at_ext2 (pre := []) h.length f2.length
    intro i j k hi hj hk
    obtain rfl : i = [] := List.length_eq_zero_iff.1 hi
    simp only [List.nil_append]
    have hj' : j < rows.length := by omega
    rw [f3 j k, List.getElem?_eq_getElem hj', Option.bind_some, e5 j _ (List.getElem?_eq_getElem hj'),
      List.getElem?_take, if_pos hk, List.getElem?_drop]
    unfold at?
    have : ravel [r, c] [j, k] = some (j * c + k) := by simp [ravel, hj, hk]
    rw [this, Option.bind_some]
  rw [this]; exact f2

/-- C84: the `k`-th outer row of a stack (`subslice(k, 1)`) holds the elements of the `k`-th tensor. -/
theorem C84_stack_subslice {post : List Nat} {ps : List (List α)} {ts : List (Tensor α)}
    (hrep : RepAll ts (ps.map fun x => (post, x))) (hpos : ∀ d ∈ post, 0 < d) (hfit : ps.length * post.prod < 2 ^ 32)
    (hr : post.length < 5) {k : Nat} {x : List α} (hk : ps[k]? = some x) :
    ∃ t u, Tensor.stack ts = .ok t ∧ t.subslice k 1 = .ok u ∧ Rep u (1 :: post) x := by
  have hkl : k < ps.length := (List.getElem?_eq_some_iff.1 hk).1
  have hp : 0 < post.prod := prod_pos hpos
  obtain ⟨g1, g2, _⟩ := fits_parts (pre := []) (D := ps.length) (post := post)
    (by simpa using Nat.mul_pos (by omega : 0 < ps.length) hp) (by simpa using hfit)
  obtain ⟨t, out, e1, e2, e3⟩ := C28_stack_outer_partial hrep (by rintro rfl; simp at hk) g1 hp g2 hr
  obtain ⟨u, f1, f2⟩ := (C09_subslice e2 hpos k 1).1 ⟨by omega, by omega⟩
  refine ⟨t, u, e1, f1, ?_⟩
  have hx : x.length = post.prod := by
    clear e1 e2 e3 f1 f2 hfit g1 g2 hkl
    induction ps generalizing ts k with
    | nil => simp at hk
    | cons y ps ih =>
      cases hrep with
      | cons h1 h2 =>
        cases k with
        | zero => simp at hk; subst hk; exact h1.length
        | succ k => exact ih h2 (by simpa using hk)
  have : (out.drop (k * post.prod)).take (1 * post.prod) = x := by
    have hl : ((out.drop (k * post.prod)).take (1 * post.prod)).length = post.prod := by
      rw [List.length_take, List.length_drop, e2.length, List.prod_cons, Nat.one_mul, ← Nat.sub_mul, Nat.min_eq_left]
      exact Nat.le_mul_of_pos_left _ (by omega)
    apply at_ext (ds := post) hl hx
    intro idx
    rw [← List.nil_append post, ← List.nil_append idx, ← e3 k x hk [] idx rfl]
    unfold at?
    simp only [List.nil_append, ravel]
    rw [if_pos hkl]
    cases hq : ravel post idx with
    | none => rfl
    | some q =>
      have := ravel_lt hq
      simp only [Option.map_some, Option.bind_some]
      rw [List.getElem?_take, if_pos (by omega), List.getElem?_drop]
  rw [← this]; exact f2

/-- C84: for two axes, `meshgrid` gives the transposes of what `meshgrid_ij` gives. -/
theorem C84_meshgrid_transpose {x y : Tensor α} {xs ys : List α} (hx : Rep x [xs.length] xs) (hy : Rep y [ys.length] ys)
    (hxn : xs ≠ []) (hyn : ys ≠ []) (hf : xs.length * ys.length < 2 ^ 32) :
    ∃ a b c d, Init.meshgridIJ [x, y] = .ok [a, b] ∧ Init.meshgrid [x, y] = .ok [c, d] ∧
      Agree a.transpose (.ok c) ∧ Agree b.transpose (.ok d) := by
  have hrep : RepAll [x, y] ([xs, ys].map fun xs => ([xs.length], xs)) := .cons hx (.cons hy .nil)
  have hne : ∀ l ∈ [xs, ys], l ≠ [] := by simp [hxn, hyn]
  obtain ⟨os, e1, e2, e3⟩ := C34_meshgrid_ij hrep (by simp) hne (by simpa using hf)
  obtain ⟨os', f1, f2, f3⟩ := C34_meshgrid hrep (by simp) hne (by simpa using hf)
  obtain ⟨a, b, rfl⟩ := List.length_eq_two.1 e2
  obtain ⟨c, d, rfl⟩ := List.length_eq_two.1 f2
  have px : 0 < xs.length := List.length_pos_iff.2 hxn
  have py : 0 < ys.length := List.length_pos_iff.2 hyn
  have key : ∀ (k : Nat) (l : List α) (o o' : Tensor α), [xs, ys][k]? = some l → [a, b][k]? = some o → [c, d][k]? = some o' →
      Agree o.transpose (.ok o') := by
    intro k l o o' hk ho ho'
    obtain ⟨o1, zs, h1, h2, h3⟩ := e3 k l hk
    obtain ⟨o2, ws, h4, h5, h6⟩ := f3 k l hk
    rw [ho] at h1; cases h1
    rw [ho'] at h4; cases h4
    simp only [List.map_cons, List.map_nil, List.reverse_cons, List.reverse_nil, List.nil_append, List.cons_append] at h2 h3 h5 h6
    obtain ⟨v, vs, g1, g2, g3⟩ := C26_transpose (pre := []) h2 (List.length_pos_iff.1 (by
      rw [h2.length]; simpa using Nat.mul_pos px py))
    refine Or.inr ⟨v, o', _, ws, g1, rfl, ?_, h5⟩
    have : vs = ws := by
      apply at_ext2 (pre := []) g2.length h5.length
      intro i j m hi hj hm
      rw [g3 i j m hi]
      obtain rfl : i = [] := List.length_eq_zero_iff.1 hi
      simp only [List.nil_append]
      have hk2 : k < 2 := (List.getElem?_eq_some_iff.1 hk).1
      have r1 : (ravel [xs.length, ys.length] [m, j]).isSome := by simp [ravel, hj, hm]
      have r2 : (ravel [ys.length, xs.length] [j, m]).isSome := by simp [ravel, hj, hm]
      rcases (by omega : k = 0 ∨ k = 1) with rfl | rfl
      · rw [h3 [m, j] m r1 rfl, h6 [j, m] m r2 rfl]
      · rw [h3 [m, j] j r1 rfl, h6 [j, m] j r2 rfl]
    rw [← this]; exact g2
  exact ⟨a, b, c, d, e1, f1, key 0 xs a c rfl rfl rfl, key 1 ys b d rfl rfl rfl⟩

/-! Concrete cases. -/

example : ∃ rows u, exMat.iterRow = .ok rows ∧ Tensor.ofVec2 rows = .ok u ∧ Rep u [2, 3] [1, 2, 3, 4, 5, 6] :=
  C84_rows exMat_rep (by simp)
example : Agree (exMat.append exMat) (Tensor.concatenate [exMat, exMat]) :=
  C84_append_concatenate exMat_rep exMat_rep (by simp) (by simp) (by simp) (by simp)
example : ∃ t u, Tensor.stack [exMat, exMat, exMat] = .ok t ∧ t.subslice 2 1 = .ok u ∧ Rep u [1, 2, 3] [1, 2, 3, 4, 5, 6] :=
  C84_stack_subslice (ps := [[1, 2, 3, 4, 5, 6], [1, 2, 3, 4, 5, 6], [1, 2, 3, 4, 5, 6]])
    (.cons exMat_rep (.cons exMat_rep (.cons exMat_rep .nil))) (by simp) (by simp) (by simp) (k := 2) rfl

/-- Column sums of a matrix are row sums of its transpose, and the calls are the same. -/
example : ∃ u y, exMat.transpose = .ok u ∧
    Yields (exMat.foldAxis (some (-2)) 0 (fun s x => (fun n => .ok (s + x, n + 1) : Exec Nat Nat)) id) y [3] ∧
    Yields (u.foldAxis (some (-1)) 0 (fun s x => (fun n => .ok (s + x, n + 1) : Exec Nat Nat)) id) y [3] :=
  C84_fold_transpose (pre := []) exMat_rep (by simp) _ _ _

example : Agree (Tensor.tile exMat ⟨ofDims [2], 0, 2, [3, 1]⟩) (Tensor.concatenate [exMat, exMat, exMat]) :=
  C84_tile_concatenate (n := 3) exMat_rep (by simp) (by simp) (by simp) (by simp)
    (rep_fresh (ds := [2]) (xs := [3, 1]) ⟨by simp, by simp⟩ (fits_of_pos (by simp) (by simp)) rfl)

example {x y : Tensor Nat} (hx : Rep x [2] [5, 6]) (hy : Rep y [3] [7, 8, 9]) :
    ∃ a b c d, Init.meshgridIJ [x, y] = .ok [a, b] ∧ Init.meshgrid [x, y] = .ok [c, d] ∧
      Agree a.transpose (.ok c) ∧ Agree b.transpose (.ok d) :=
  C84_meshgrid_transpose (xs := [5, 6]) (ys := [7, 8, 9]) hx hy (by simp) (by simp) (by simp)

end Essay
