import Mathlib.Data.List.FinRange
import Verif.Lemmas.Perm
import Verif.Props.Structure

/-! # Rearranged arrays have the same elements (no claims here) -/

set_option linter.unusedSectionVars false

namespace Essay

variable {α : Type}

/-- An array whose indices are matched one to one with those of another array with equal elements is a rearrangement of
it. -/
theorem perm_of_index {ds es : List Nat} {xs ys : List α} (hx : xs.length = ds.prod) (hy : ys.length = es.prod)
    (hl : es.prod = ds.prod) (φ : List Nat → List Nat → Prop)
    (tot : ∀ idx p, ravel es idx = some p → ∃ idx' q, φ idx idx' ∧ ravel ds idx' = some q ∧ at? es ys idx = at? ds xs idx')
    (inj : ∀ a b c, φ a c → φ b c → a = b) : ys.Perm xs := by
  have h1 : ∀ p, p < es.prod → ∃ q, q < ds.prod ∧ ys[p]? = xs[q]? ∧
      ∃ idx idx', ravel es idx = some p ∧ ravel ds idx' = some q ∧ φ idx idx' := by
    intro p hp
    obtain ⟨idx, hi⟩ := ravel_surj es hp
    obtain ⟨idx', q, h1, h2, h3⟩ := tot idx p hi
    refine ⟨q, ravel_lt h2, ?_, idx, idx', hi, h2, h1⟩
    simpa [at?, hi, h2] using h3
  choose! σ hσ1 hσ2 hσ3 using h1
  have hinj : ∀ p q, p < es.prod → q < es.prod → σ p = σ q → p = q := by
    intro p q hp hq h
    obtain ⟨i1, j1, a1, b1, c1⟩ := hσ3 p hp
    obtain ⟨i2, j2, a2, b2, c2⟩ := hσ3 q hq
    rw [← h] at b2
    have := ravel_inj b1 b2
    subst this
    have := inj _ _ _ c1 c2
    subst this
    rw [a1] at a2
    exact Option.some.inj a2
  have hperm : ((List.range es.prod).map σ).Perm (List.range es.prod) := by
    apply List.Subperm.perm_of_length_le
    · apply List.subperm_of_subset
      · apply List.Nodup.map_on _ List.nodup_range
        intro x hx y hy hxy
        rw [List.mem_range] at hx hy
        exact hinj x y hx hy hxy
      · intro v hv
        obtain ⟨q, hq, rfl⟩ := List.mem_map.1 hv
        rw [List.mem_range] at hq ⊢
        rw [hl]; exact hσ1 q hq
    · simp
  have hpm : (ys.map some).Perm (xs.map some) := by
    have e1 : ys.map some = ((List.range es.prod).map σ).map fun q => xs[q]? := by
      apply List.ext_getElem?
      intro p
      by_cases hp : p < es.prod
      · simp only [List.getElem?_map, List.getElem?_range hp, Option.map_some]
        rw [← hσ2 p hp, List.getElem?_eq_getElem (by omega)]; rfl
      · rw [List.getElem?_eq_none (by simp; omega), List.getElem?_eq_none (by simp; omega)]
    have e2 : xs.map some = (List.range es.prod).map fun q => xs[q]? := by
      apply List.ext_getElem?
      intro p
      by_cases hp : p < es.prod
      · simp only [List.getElem?_map, List.getElem?_range hp, Option.map_some]
        rw [List.getElem?_eq_getElem (by omega)]; rfl
      · rw [List.getElem?_eq_none (by simp; omega), List.getElem?_eq_none (by simp; omega)]
    rw [e1, e2]
    exact hperm.map _
  have := hpm.filterMap id
  simpa using this

theorem Transposed.perm {pre : List Nat} {r c : Nat} {xs ys : List α} (h : Transposed pre r c xs ys)
    (hx : xs.length = (pre ++ [r, c]).prod) (hy : ys.length = (pre ++ [c, r]).prod) : ys.Perm xs := by
  refine perm_of_index hx hy (by simp [Nat.mul_comm]) (fun a b => ∃ i j k, i.length = pre.length ∧ a = i ++ [j, k] ∧ b = i ++ [k, j])
    ?_ ?_
  · intro idx p hp
    have hl := ravel_length hp
    obtain ⟨i, j, k, rfl, hi⟩ := idx_split2 (pre := pre) (by simpa using hl)
    rw [ravel_append hi] at hp
    cases hq : ravel pre i with
    | none => simp [hq] at hp
    | some q =>
      have hjk : j < c ∧ k < r := by
        cases h2 : ravel [c, r] [j, k] with
        | none => simp [hq, h2] at hp
        | some q2 =>
          obtain ⟨hj, q3, h3, _⟩ := ravel_cons.1 h2
          exact ⟨hj, (ravel_cons.1 h3).1⟩
      refine ⟨i ++ [k, j], q * ([r, c].prod) + (k * c + j), ⟨i, j, k, hi, rfl, rfl⟩, ?_, h i j k hi⟩
      rw [ravel_append hi, hq]
      simp [ravel, hjk.1, hjk.2]
  · rintro a b e ⟨i, j, k, hi, rfl, rfl⟩ ⟨i', j', k', hi', rfl, h⟩
    obtain ⟨h1, h2⟩ := List.append_inj h (by omega)
    simp at h2
    rw [h1, h2.1, h2.2]

theorem IsLanes.perm {pre post : List Nat} {d : Nat} {xs : List α} {lanes : List (List α)}
    (h : IsLanes pre d post xs lanes) (hx : xs.length = (pre ++ d :: post).prod) : lanes.flatten.Perm xs := by
  have hlen : ∀ l ∈ lanes, l.length = d := fun l hl => h.length_of_mem l hl
  have hprod : (pre ++ post ++ [d]).prod = (pre ++ d :: post).prod := by
    simp only [List.prod_append, List.prod_cons, List.prod_nil]; ring
  refine perm_of_index hx (es := pre ++ post ++ [d]) ?_ hprod
    (fun a b => ∃ i j k, i.length = pre.length ∧ j.length = post.length ∧ a = i ++ j ++ [k] ∧ b = i ++ k :: j) ?_ ?_
  · rw [flatten_length_const hlen, h.1]; simp [List.prod_append, Nat.mul_assoc]
  · intro idx p hp
    have hl := ravel_length hp
    simp only [List.length_append, List.length_cons, List.length_nil] at hl
    obtain ⟨ij, k, rfl⟩ : ∃ is j, idx = is ++ [j] := by
      have hne : idx ≠ [] := by rintro rfl; simp at hl
      exact ⟨idx.dropLast, idx.getLast hne, (List.dropLast_append_getLast hne).symm⟩
    simp only [List.length_append, List.length_cons, List.length_nil] at hl
    have hij : ij.length = (pre ++ post).length := by simp; omega
    have hp' := hp
    rw [ravel_append hij] at hp
    cases hq : ravel (pre ++ post) ij with
    | none => simp [hq] at hp
    | some q =>
      have hk : k < d := by
        by_contra hc
        simp [hq, ravel, hc] at hp
      have hsplit : ij = ij.take pre.length ++ ij.drop pre.length := (List.take_append_drop _ _).symm
      have hil : (ij.take pre.length).length = pre.length := by simp; simp at hij; omega
      have hjl : (ij.drop pre.length).length = post.length := by simp; simp at hij; omega
      rw [hsplit] at hq
      obtain ⟨lane, e1, e2, e3⟩ := h.2 _ _ q hil hq
      obtain ⟨x, e4, e5⟩ := e3 k hk
      have hr : (ravel (pre ++ d :: post) (ij.take pre.length ++ k :: ij.drop pre.length)).isSome := by
        cases hr : ravel (pre ++ d :: post) (ij.take pre.length ++ k :: ij.drop pre.length) with
        | none => simp [at?, hr] at e5
        | some _ => rfl
      obtain ⟨r, hr⟩ := Option.isSome_iff_exists.1 hr
      refine ⟨_, r, ⟨ij.take pre.length, ij.drop pre.length, k, hil, hjl, by rw [← hsplit], rfl⟩, hr, ?_⟩
      rw [e5]
      rw [← hsplit] at hq
      have hpq : p = q * d + k := by
        simp [hq, ravel, hk] at hp
        omega
      have hqlt := ravel_lt hq
      simp only [at?, hp', Option.bind_some]
      rw [flatten_get hlen p (by rw [h.1, hpq]; exact lt_mul_add hqlt hk), hpq, mul_add_div' hk, mul_add_mod' hk, e1]
      exact e4
  · rintro a b e ⟨i, j, k, hi, hj, rfl, rfl⟩ ⟨i', j', k', hi', hj', rfl, h⟩
    obtain ⟨h1, h2⟩ := List.append_inj h (by omega)
    simp at h2
    rw [h1, h2.1, h2.2]

theorem idx_split_mid {pre post idx : List Nat} (hl : idx.length = pre.length + post.length + 1) :
    ∃ k i j, idx = k :: (i ++ j) ∧ i.length = pre.length ∧ j.length = post.length := by
  cases idx with
  | nil => simp at hl
  | cons k ij =>
    refine ⟨k, ij.take pre.length, ij.drop pre.length, by rw [List.take_append_drop], ?_, ?_⟩ <;> simp at hl ⊢ <;> omega

theorem ravel_mid {pre post i j : List Nat} {d k : Nat} (hi : i.length = pre.length) :
    (ravel (d :: (pre ++ post)) (k :: (i ++ j))).isSome ↔ (ravel (pre ++ d :: post) (i ++ k :: j)).isSome := by
  have e1 : ravel (d :: (pre ++ post)) (k :: (i ++ j)) = ravel ([d] ++ (pre ++ post)) ([k] ++ (i ++ j)) := rfl
  have e2 : ravel (d :: post) (k :: j) = ravel ([d] ++ post) ([k] ++ j) := rfl
  rw [e1, ravel_append (by rfl), ravel_append hi, ravel_append hi, e2, ravel_append (by rfl)]
  cases ravel [d] [k] <;> cases ravel pre i <;> cases ravel post j <;> simp

/-- The array with one axis moved to the front: a rearrangement. -/
theorem front_exists {pre post : List Nat} {d : Nat} {xs : List α} (hx : xs.length = (pre ++ d :: post).prod) :
    ∃ ys : List α, ys.length = (d :: (pre ++ post)).prod ∧ ys.Perm xs ∧ ∀ k i j, i.length = pre.length →
      at? (d :: (pre ++ post)) ys (k :: (i ++ j)) = at? (pre ++ d :: post) xs (i ++ k :: j) := by
  have hprod : (d :: (pre ++ post)).prod = (pre ++ d :: post).prod := by
    simp only [List.prod_append, List.prod_cons]; ring
  have h1 : ∀ p, p < (d :: (pre ++ post)).prod → ∃ q, q < xs.length ∧ ∃ k i j, i.length = pre.length ∧
      ravel (d :: (pre ++ post)) (k :: (i ++ j)) = some p ∧ ravel (pre ++ d :: post) (i ++ k :: j) = some q := by
    intro p hp
    obtain ⟨idx, hi⟩ := ravel_surj _ hp
    have hl := ravel_length hi
    obtain ⟨k, i, j, rfl, hil, hjl⟩ := idx_split_mid (pre := pre) (post := post) (by simpa using hl)
    obtain ⟨q, hq⟩ := Option.isSome_iff_exists.1 ((ravel_mid hil).1 (by rw [hi]; rfl))
    exact ⟨q, by rw [hx]; exact ravel_lt hq, k, i, j, hil, hi, hq⟩
  choose! f hf1 hf2 using h1
  have hlen := gather_length (xs := xs) hf1
  have hat : ∀ k i j, i.length = pre.length →
      at? (d :: (pre ++ post)) (gather (d :: (pre ++ post)).prod f xs) (k :: (i ++ j)) = at? (pre ++ d :: post) xs (i ++ k :: j) := by
    intro k i j hi
    cases hp : ravel (d :: (pre ++ post)) (k :: (i ++ j)) with
    | none =>
      have : ravel (pre ++ d :: post) (i ++ k :: j) = none := by
        cases h : ravel (pre ++ d :: post) (i ++ k :: j) with
        | none => rfl
        | some q =>
          have := (ravel_mid hi).2 (by rw [h]; rfl)
          simp [hp] at this
      simp [at?, hp, this]
    | some p =>
      have hlt := ravel_lt hp
      obtain ⟨k', i', j', hi', e1, e2⟩ := hf2 p hlt
      have := ravel_inj e1 hp
      simp only [List.cons.injEq] at this
      obtain ⟨rfl, h2⟩ := this
      obtain ⟨rfl, rfl⟩ := List.append_inj h2 (by omega)
      simp only [at?, hp, e2, Option.bind_some]
      exact gather_get hf1 hlt
  refine ⟨_, hlen, ?_, hat⟩
  refine perm_of_index hx hlen hprod (fun a b => ∃ k i j, i.length = pre.length ∧ a = k :: (i ++ j) ∧ b = i ++ k :: j) ?_ ?_
  · intro idx p hp
    have hl := ravel_length hp
    obtain ⟨k, i, j, rfl, hil, hjl⟩ := idx_split_mid (pre := pre) (post := post) (by simpa using hl)
    obtain ⟨q, hq⟩ := Option.isSome_iff_exists.1 ((ravel_mid hil).1 (by rw [hp]; rfl))
    exact ⟨_, q, ⟨k, i, j, hil, rfl, rfl⟩, hq, hat k i j hil⟩
  · rintro a b e ⟨k, i, j, hi, rfl, rfl⟩ ⟨k', i', j', hi', rfl, h⟩
    obtain ⟨h1, h2⟩ := List.append_inj h (by omega)
    simp at h2
    rw [h1, h2.1, h2.2]

/-- A list that shows the parts one after the other is their concatenation. -/
theorem flatten_of_parts {ls : List (List α)} {l : List α} (hl : l.length = ls.flatten.length)
    (h : ∀ A p B, ls = A ++ p :: B → ∀ q, q < p.length → l[A.flatten.length + q]? = p[q]?) : l = ls.flatten := by
  induction ls generalizing l with
  | nil => simpa using hl
  | cons p ls ih =>
    have h0 := h [] p ls rfl
    simp only [List.flatten_nil, List.length_nil, Nat.zero_add] at h0
    have e1 : l.take p.length = p := by
      apply List.ext_getElem?
      intro q
      by_cases hq : q < p.length
      · rw [List.getElem?_take_of_lt hq, h0 q hq]
      · rw [List.getElem?_eq_none (by simp; omega), List.getElem?_eq_none (by omega)]
    have e2 : l.drop p.length = ls.flatten := by
      apply ih
      · simp at hl ⊢; omega
      · intro A p' B e q hq
        have := h (p :: A) p' B (by rw [e]; rfl) q hq
        rw [List.getElem?_drop, ← this]
        congr 1
        simp; omega
    rw [← List.take_append_drop p.length l, e1, e2, List.flatten_cons]

theorem IsConcat.perm {pre post : List Nat} {ps : List (Nat × List α)} {D : Nat} {out : List α}
    (h : IsConcat pre post ps out) (hD : (ps.map (·.1)).sum = D) (hout : out.length = (pre ++ D :: post).prod)
    (hps : ∀ p ∈ ps, p.2.length = (pre ++ p.1 :: post).prod) : out.Perm (ps.map (·.2)).flatten := by
  subst hD
  obtain ⟨o, ho1, ho2, ho3⟩ := front_exists hout
  have key : ∀ (qs : List (Nat × List α)), (∀ p ∈ qs, p.2.length = (pre ++ p.1 :: post).prod) → ∃ rs : List (Nat × List α),
      List.Forall₂ (fun p r => r.1 = p.1 ∧ r.2.length = (p.1 :: (pre ++ post)).prod ∧ r.2.Perm p.2 ∧ ∀ k i j, i.length = pre.length →
        at? (p.1 :: (pre ++ post)) r.2 (k :: (i ++ j)) = at? (pre ++ p.1 :: post) p.2 (i ++ k :: j)) qs rs := by
    intro qs
    induction qs with
    | nil => intro _; exact ⟨[], .nil⟩
    | cons p qs ih =>
      intro hq
      obtain ⟨rs, hrs⟩ := ih fun p hp => hq p (List.mem_cons_of_mem _ hp)
      obtain ⟨r, r1, r2, r3⟩ := front_exists (hq p List.mem_cons_self)
      exact ⟨(p.1, r) :: rs, .cons ⟨rfl, r1, r2, r3⟩ hrs⟩
  obtain ⟨rs, hrs⟩ := key ps hps
  have hperm : (rs.map (·.2)).flatten.Perm (ps.map (·.2)).flatten := by
    clear h hout ho1 ho2 ho3 hps
    induction hrs with
    | nil => exact .refl _
    | cons h _ ih => exact h.2.2.1.append ih
  have hlens : ∀ {qs ss : List (Nat × List α)}, List.Forall₂ (fun p r => r.1 = p.1 ∧ r.2.length = (p.1 :: (pre ++ post)).prod ∧
      r.2.Perm p.2 ∧ ∀ k i j, i.length = pre.length →
        at? (p.1 :: (pre ++ post)) r.2 (k :: (i ++ j)) = at? (pre ++ p.1 :: post) p.2 (i ++ k :: j)) qs ss →
      (ss.map (·.2)).flatten.length = (qs.map (·.1)).sum * (pre ++ post).prod := by
    intro qs ss h
    induction h with
    | nil => simp
    | cons h _ ih =>
      simp only [List.map_cons, List.flatten_cons, List.length_append, List.sum_cons, ih, h.2.1, List.prod_cons, Nat.add_mul]
  have : o = (rs.map (·.2)).flatten := by
    apply flatten_of_parts
    · rw [ho1, hlens hrs, List.prod_cons]
    · intro A r B e q hq
      obtain ⟨A', B0, eA, eB, eC⟩ := List.map_eq_append_iff.1 e
      obtain ⟨r', B', eB0, er, eB'⟩ := List.map_eq_cons_iff.1 eC
      subst eB er eB' eB0 eA
      obtain ⟨A0, B1, f1, f2, rfl⟩ := forall₂_split A' hrs.flip
      cases f2 with
      | @cons _ p _ B2 g1 g2 =>
        obtain ⟨g3, g4, g5, g6⟩ := g1
        obtain ⟨s1, s2, s3⟩ := h A0 p B2 rfl
        rw [hlens f1.flip]
        rw [g4] at hq
        obtain ⟨idx, hi⟩ := ravel_surj _ hq
        have hl := ravel_length hi
        obtain ⟨k, i, j, rfl, hil, hjl⟩ := idx_split_mid (pre := pre) (post := post) (by simpa using hl)
        obtain ⟨hk, q', hq', rfl⟩ := ravel_cons.1 hi
        have e1 := g6 k i j hil
        rw [s3 i k j hil hk, ← ho3 _ i j hil] at e1
        have e2 : ravel (((A0 ++ p :: B2).map (·.1)).sum :: (pre ++ post)) (((A0.map (·.1)).sum + k) :: (i ++ j)) =
            some (((A0.map (·.1)).sum + k) * (pre ++ post).prod + q') := ravel_cons.2 ⟨by omega, q', hq', rfl⟩
        simp only [at?, hi, e2, Option.bind_some] at e1
        rw [e1]
        congr 1
        rw [Nat.add_mul, Nat.add_assoc]
  rw [this] at ho2
  exact ho2.symm.trans hperm

theorem IsStack.perm {pre post : List Nat} {ps : List (List α)} {out : List α} (h : IsStack pre post ps out)
    (hout : out.length = (pre ++ ps.length :: post).prod) (hps : ∀ x ∈ ps, x.length = (pre ++ post).prod) :
    out.Perm ps.flatten := by
  have hs : ∀ l : List (List α), ((l.map fun x => (1, x)).map (·.1)).sum = l.length := by
    intro l; induction l with
    | nil => rfl
    | cons a l ih => simp only [List.map_cons, List.sum_cons, ih, List.length_cons]; omega
  have hc : IsConcat pre post (ps.map fun x => (1, x)) out := by
    intro A p B e
    obtain ⟨A', B0, eA, eB, eC⟩ := List.map_eq_append_iff.1 e
    obtain ⟨x, B', eB0, er, eB'⟩ := List.map_eq_cons_iff.1 eC
    subst eB er eB' eB0 eA
    rw [hs, hs]
    refine ⟨?_, by simp, ?_⟩
    · rw [hps x (by simp)]; simp
    · intro i a j hi ha
      have ha0 : a = 0 := by simp at ha; omega
      subst ha0
      have := h A'.length x (by simp) i j hi
      rw [Nat.add_zero, this]
      have e2 : ravel (pre ++ 1 :: post) (i ++ 0 :: j) = ravel (pre ++ post) (i ++ j) := by
        rw [ravel_append hi, ravel_append hi]
        simp [ravel]
      simp only [at?, e2]
  have := hc.perm (hs _) hout (by
    intro p hp
    obtain ⟨x, hx, rfl⟩ := List.mem_map.1 hp
    rw [hps x hx]; simp)
  simpa using this

end Essay
