import Verif.Spec.Laws
import Verif.Props.Ops

/-!
# Helper lemmas for laws between operations
-/

namespace Essay

open Shape

set_option linter.unusedSectionVars false

variable {T U V : Type}

theorem ravel_trail {ds es idx : List Nat} {p : Nat} (hs : ds <:+ es) (h : ravel es idx = some p) :
    ravel ds (idx.drop (es.length - ds.length)) = some (p % ds.prod) := by
  obtain ⟨pre, rfl⟩ := hs
  have hl := ravel_length h
  rw [← List.take_append_drop pre.length idx, ravel_append (by simp at hl ⊢; omega)] at h
  obtain ⟨pi, _, h⟩ := Option.bind_eq_some_iff.1 h
  obtain ⟨q, hq, rfl⟩ := Option.map_eq_some_iff.1 h
  have hqlt := ravel_lt hq
  rw [mul_add_mod' hqlt]
  simpa using hq

theorem Bcast.flat {ds es : List Nat} {xs as : List T} (h : Bcast ds xs es as) (hs : ds <:+ es) {p : Nat}
    (hp : p < es.prod) : as[p]? = xs[p % ds.prod]? := by
  obtain ⟨idx, hi⟩ := ravel_surj es hp
  obtain ⟨x, h1, h2⟩ := h.2 idx p hi
  rw [h1, ← h2]
  unfold at?
  rw [ravel_trail hs hi]; rfl

theorem mapM_error_get {f : U → Res V} {l : List U} {e : Err} (h : l.mapM f = .error e) :
    ∃ (i : Nat) (x : U), l[i]? = some x ∧ f x = .error e := by
  induction l with
  | nil => cases h
  | cons y l ih =>
    rw [List.mapM_cons] at h
    cases hy : f y with
    | error e' =>
      rw [hy] at h
      cases h
      exact ⟨0, y, rfl, hy⟩
    | ok z =>
      rw [hy, ok_bind] at h
      cases hl : l.mapM f with
      | error e' =>
        rw [hl] at h
        cases h
        obtain ⟨i, x, h1, h2⟩ := ih hl
        exact ⟨i + 1, x, by simpa using h1, h2⟩
      | ok zs => rw [hl] at h; cases h

/-- An operator between two nonempty tensors, by flat positions. -/
theorem binary_flat (ar : Arith T U V) (op : Tensor.OpName) {a : Tensor T} {b : Tensor U} {ds es big : List Nat}
    {xs : List T} {ys : List U} (ha : Rep a ds xs) (hb : Rep b es ys) (hd : ds <:+ big) (he : es <:+ big)
    (hbig : big = ds ∨ big = es) (hx : xs ≠ []) (hy : ys ≠ []) :
    (∃ t zs, Tensor.binary ar op a b = .ok t ∧ Rep t big zs ∧ ∀ p < big.prod, ∀ x y,
      xs[p % ds.prod]? = some x → ys[p % es.prod]? = some y → ∃ z, meaning ar op x y = .ok z ∧ zs[p]? = some z) ∨
    (∃ e, Tensor.binary ar op a b = .error e ∧ ∃ p < big.prod, ∃ x y,
      xs[p % ds.prod]? = some x ∧ ys[p % es.prod]? = some y ∧ meaning ar op x y = .error e) := by
  have key : ∃ as bs, Bcast ds xs big as ∧ Bcast es ys big bs ∧
      Results (Tensor.binary ar op a b) ((as.zip bs).mapM fun p => meaning ar op p.1 p.2) big := by
    rcases hbig with rfl | rfl
    · exact C18_tensor_tensor_right ar op ha hb he hx
    · exact C18_tensor_tensor_left ar op ha hb hd hy
  obtain ⟨as, bs, h1, h2, h3⟩ := key
  unfold Results at h3
  cases hm : (as.zip bs).mapM fun p => meaning ar op p.1 p.2 with
  | error e =>
    rw [hm] at h3
    obtain ⟨i, q, hq, hz⟩ := mapM_error_get hm
    obtain ⟨q1, q2⟩ := List.getElem?_zip_eq_some.1 hq
    have hi : i < big.prod := by
      rw [← h1.1]
      exact (List.getElem?_eq_some_iff.1 q1).1
    exact Or.inr ⟨e, h3, i, hi, q.1, q.2, by rw [← h1.flat hd hi]; exact q1, by rw [← h2.flat he hi]; exact q2, hz⟩
  | ok zs =>
    rw [hm] at h3
    obtain ⟨t, e, hr⟩ := h3
    refine Or.inl ⟨t, zs, e, hr, fun p hp x y hx hy => ?_⟩
    exact mapM_ok_get hm (i := p) (x := (x, y))
      (List.getElem?_zip_eq_some.2 ⟨by rw [h1.flat hd hp]; exact hx, by rw [h2.flat he hp]; exact hy⟩)

theorem results_flat {x : Res (Tensor V)} {l : List U} {f : U → Res V} {ds : List Nat}
    (h : Results x (l.mapM f) ds) :
    (∃ t zs, x = .ok t ∧ Rep t ds zs ∧ ∀ (p : Nat) u, l[p]? = some u → ∃ z, f u = .ok z ∧ zs[p]? = some z) ∨
    (∃ e, x = .error e ∧ ∃ (p : Nat) (u : U), l[p]? = some u ∧ f u = .error e) := by
  unfold Results at h
  cases hm : l.mapM f with
  | error e => rw [hm] at h; obtain ⟨i, u, h1, h2⟩ := mapM_error_get hm; exact Or.inr ⟨e, h, i, u, h1, h2⟩
  | ok zs =>
    rw [hm] at h
    obtain ⟨t, e, hr⟩ := h
    exact Or.inl ⟨t, zs, e, hr, fun p u hu => mapM_ok_get hm hu⟩

namespace TExpr

theorem vars_ne_nil : ∀ e : TExpr T, e.vars ≠ []
  | var _ => by simp [vars]
  | un _ e => vars_ne_nil e
  | bin _ e1 e2 => by simp [vars, vars_ne_nil e1]
  | scalR _ e _ => vars_ne_nil e
  | scalL _ _ e => vars_ne_nil e

theorem value_congr (ar : Arith T T T) {v w : Nat → T} : ∀ e : TExpr T, (∀ n ∈ e.vars, v n = w n) →
    e.value ar v = e.value ar w
  | var n => fun h => by simp [value, h n (by simp [vars])]
  | un f e => fun h => by simp only [value]; rw [value_congr ar e h]
  | bin op e1 e2 => fun h => by
    simp only [value]
    rw [value_congr ar e1 fun n hn => h n (by simp [vars, hn]), value_congr ar e2 fun n hn => h n (by simp [vars, hn])]
  | scalR _ e _ => fun h => by simp only [value]; rw [value_congr ar e h]
  | scalL _ _ e => fun h => by simp only [value]; rw [value_congr ar e h]

end TExpr

theorem suffix_antisymm {ds es : List Nat} (h : ds <:+ es) (h' : es <:+ ds) : ds = es :=
  List.IsSuffix.eq_of_length h (Nat.le_antisymm h.length_le h'.length_le)

/-- A part of the variables has a common shape too. -/
theorem CommonShape.part {ds : Nat → List Nat} {big : List Nat} : ∀ {ns : List Nat}, ns ≠ [] →
    (∀ n ∈ ns, ds n <:+ big) → ∃ b, CommonShape ns ds b ∧ b <:+ big := by
  intro ns
  induction ns with
  | nil => simp
  | cons n ns ih =>
    intro _ h
    by_cases hn : ns = []
    · subst hn
      exact ⟨ds n, ⟨by simp, n, by simp⟩, h n (by simp)⟩
    · obtain ⟨b, ⟨hb1, m, hm, hb2⟩, hb3⟩ := ih hn fun k hk => h k (by simp [hk])
      rcases List.suffix_or_suffix_of_suffix (h n (by simp)) hb3 with hs | hs
      · refine ⟨b, ⟨?_, m, by simp [hm], hb2⟩, hb3⟩
        intro k hk
        rcases List.mem_cons.1 hk with rfl | hk
        · exact hs
        · exact hb1 k hk
      · refine ⟨ds n, ⟨?_, n, by simp⟩, h n (by simp)⟩
        intro k hk
        rcases List.mem_cons.1 hk with rfl | hk
        · exact List.suffix_refl _
        · exact (hb1 k hk).trans hs

/-- The element of each variable at a flat position. -/
def FlatAt (ns : List Nat) (ds : Nat → List Nat) (xs : Nat → List T) (p : Nat) (v : Nat → T) : Prop :=
  ∀ n ∈ ns, (xs n)[p % (ds n).prod]? = some (v n)

theorem flatAt_exists {ns : List Nat} {ds : Nat → List Nat} {xs : Nat → List T} (hns : ns ≠ [])
    (hx : ∀ n ∈ ns, (xs n).length = (ds n).prod ∧ xs n ≠ []) (p : Nat) : ∃ v, FlatAt ns ds xs p v := by
  obtain ⟨m, hm⟩ := List.exists_mem_of_ne_nil _ hns
  have h0 := hx m hm
  let x0 := (xs m).head h0.2
  refine ⟨fun n => (xs n)[p % (ds n).prod]?.getD x0, fun n hn => ?_⟩
  have h1 := hx n hn
  have : p % (ds n).prod < (xs n).length := by
    rw [h1.1]
    exact Nat.mod_lt _ (by rw [← h1.1]; exact List.length_pos_iff.2 h1.2)
  simp [List.getElem?_eq_getElem this]

theorem FlatAt.congr {ns : List Nat} {ds : Nat → List Nat} {xs : Nat → List T} {p q : Nat} {v w : Nat → T}
    (h : FlatAt ns ds xs p v) (h' : FlatAt ns ds xs q w) (hpq : ∀ n ∈ ns, p % (ds n).prod = q % (ds n).prod) :
    ∀ n ∈ ns, v n = w n := by
  intro n hn
  have h1 := h n hn
  have h2 := h' n hn
  rw [hpq n hn, h2] at h1
  exact (Option.some.inj h1).symm

theorem panic_of_ne_ub {α : Type} {x : Res α} {e : Err} (h : x ≠ .error .ub) (hx : x = .error e) : e = .panic := by
  cases e
  · rfl
  · exact absurd hx h

/-- An expression over nonempty tensors with a common shape, by flat positions. -/
theorem eval_flat (ar : Arith T T T) (ρ : Nat → Tensor T) (ds : Nat → List Nat) (xs : Nat → List T) (e : TExpr T)
    (hs : e.Safe ar) (h : ∀ n ∈ e.vars, Rep (ρ n) (ds n) (xs n) ∧ xs n ≠ []) :
    ∀ big, CommonShape e.vars ds big →
    (∃ t zs, e.eval ar ρ = .ok t ∧ Rep t big zs ∧ ∀ p < big.prod, ∀ v, FlatAt e.vars ds xs p v →
      ∃ z, e.value ar v = .ok z ∧ zs[p]? = some z) ∨
    (e.eval ar ρ = .error .panic ∧ ∃ p < big.prod, ∃ v, FlatAt e.vars ds xs p v ∧ e.value ar v = .error .panic) := by
  have hlen : ∀ n ∈ e.vars, (xs n).length = (ds n).prod ∧ xs n ≠ [] := fun n hn => ⟨(h n hn).1.length, (h n hn).2⟩
  induction e with
  | var n =>
    intro big hc
    obtain ⟨m, hm, hm2⟩ := hc.2
    simp [TExpr.vars] at hm; subst hm; subst hm2
    refine Or.inl ⟨ρ m, xs m, rfl, (h m (by simp [TExpr.vars])).1, fun p hp v hv => ⟨v m, rfl, ?_⟩⟩
    rw [← hv m (by simp [TExpr.vars]), Nat.mod_eq_of_lt hp]
  | un f e ih =>
    intro big hc
    rcases ih hs.2 h hlen big hc with ⟨t, zs, h1, h2, h3⟩ | ⟨h1, p, hp, v, h2, h3⟩
    · rcases results_flat (C18_unary f h2) with ⟨t', ws, e1, e2, e3⟩ | ⟨er, e1, q, u, e2, e3⟩
      · refine Or.inl ⟨t', ws, by simp only [TExpr.eval, h1, ok_bind, e1], e2, fun p hp v hv => ?_⟩
        obtain ⟨z, hz1, hz2⟩ := h3 p hp v hv
        obtain ⟨w, hw1, hw2⟩ := e3 p z hz2
        exact ⟨w, by simp only [TExpr.value, hz1, ok_bind, hw1], hw2⟩
      · have hq : q < big.prod := by rw [← h2.length]; exact (List.getElem?_eq_some_iff.1 e2).1
        obtain ⟨v, hv⟩ := flatAt_exists (TExpr.vars_ne_nil e) hlen q
        obtain ⟨z, hz1, hz2⟩ := h3 q hq v hv
        have := panic_of_ne_ub (hs.1 u) e3
        subst this
        rw [e2] at hz2; cases hz2
        exact Or.inr ⟨by simp only [TExpr.eval, h1, ok_bind, e1], q, hq, v, hv,
          by simp only [TExpr.value, hz1, ok_bind, e3]⟩
    · exact Or.inr ⟨by simp only [TExpr.eval, h1, error_bind], p, hp, v, h2, by
        simp only [TExpr.value, h3, error_bind]⟩
  | scalR op e y ih =>
    intro big hc
    rcases ih hs.2 h hlen big hc with ⟨t, zs, h1, h2, h3⟩ | ⟨h1, p, hp, v, h2, h3⟩
    · rcases results_flat (C18_tensor_scalar ar op h2 y) with ⟨t', ws, e1, e2, e3⟩ | ⟨er, e1, q, u, e2, e3⟩
      · refine Or.inl ⟨t', ws, by simp only [TExpr.eval, h1, ok_bind, e1], e2, fun p hp v hv => ?_⟩
        obtain ⟨z, hz1, hz2⟩ := h3 p hp v hv
        obtain ⟨w, hw1, hw2⟩ := e3 p z hz2
        exact ⟨w, by simp only [TExpr.value, hz1, ok_bind, hw1], hw2⟩
      · have hq : q < big.prod := by rw [← h2.length]; exact (List.getElem?_eq_some_iff.1 e2).1
        obtain ⟨v, hv⟩ := flatAt_exists (TExpr.vars_ne_nil e) hlen q
        obtain ⟨z, hz1, hz2⟩ := h3 q hq v hv
        have := panic_of_ne_ub (hs.1 u) e3
        subst this
        rw [e2] at hz2; cases hz2
        exact Or.inr ⟨by simp only [TExpr.eval, h1, ok_bind, e1], q, hq, v, hv,
          by simp only [TExpr.value, hz1, ok_bind, e3]⟩
    · exact Or.inr ⟨by simp only [TExpr.eval, h1, error_bind], p, hp, v, h2, by
        simp only [TExpr.value, h3, error_bind]⟩
  | scalL op x e ih =>
    intro big hc
    rcases ih hs.2 h hlen big hc with ⟨t, zs, h1, h2, h3⟩ | ⟨h1, p, hp, v, h2, h3⟩
    · rcases results_flat (C18_scalar_tensor ar op h2 x) with ⟨t', ws, e1, e2, e3⟩ | ⟨er, e1, q, u, e2, e3⟩
      · refine Or.inl ⟨t', ws, by simp only [TExpr.eval, h1, ok_bind, e1], e2, fun p hp v hv => ?_⟩
        obtain ⟨z, hz1, hz2⟩ := h3 p hp v hv
        obtain ⟨w, hw1, hw2⟩ := e3 p z hz2
        exact ⟨w, by simp only [TExpr.value, hz1, ok_bind, hw1], hw2⟩
      · have hq : q < big.prod := by rw [← h2.length]; exact (List.getElem?_eq_some_iff.1 e2).1
        obtain ⟨v, hv⟩ := flatAt_exists (TExpr.vars_ne_nil e) hlen q
        obtain ⟨z, hz1, hz2⟩ := h3 q hq v hv
        have := panic_of_ne_ub (hs.1 u) e3
        subst this
        rw [e2] at hz2; cases hz2
        exact Or.inr ⟨by simp only [TExpr.eval, h1, ok_bind, e1], q, hq, v, hv,
          by simp only [TExpr.value, hz1, ok_bind, e3]⟩
    · exact Or.inr ⟨by simp only [TExpr.eval, h1, error_bind], p, hp, v, h2, by
        simp only [TExpr.value, h3, error_bind]⟩
  | bin op e1 e2 ih1 ih2 =>
    intro big hc
    have v1 : ∀ n ∈ e1.vars, n ∈ (TExpr.bin op e1 e2).vars := fun n hn => by simp [TExpr.vars, hn]
    have v2 : ∀ n ∈ e2.vars, n ∈ (TExpr.bin op e1 e2).vars := fun n hn => by simp [TExpr.vars, hn]
    obtain ⟨b1, c1, s1⟩ := CommonShape.part (TExpr.vars_ne_nil e1) fun n hn => hc.1 n (v1 n hn)
    obtain ⟨b2, c2, s2⟩ := CommonShape.part (TExpr.vars_ne_nil e2) fun n hn => hc.1 n (v2 n hn)
    have hbig : big = b1 ∨ big = b2 := by
      obtain ⟨n, hn, rfl⟩ := hc.2
      simp only [TExpr.vars, List.mem_append] at hn
      rcases hn with hn | hn
      · exact Or.inl (suffix_antisymm (c1.1 n hn) s1)
      · exact Or.inr (suffix_antisymm (c2.1 n hn) s2)
    have hpos : 0 < big.prod := by
      obtain ⟨n, hn, rfl⟩ := hc.2
      rw [← (hlen n hn).1]; exact List.length_pos_iff.2 (hlen n hn).2
    have d1 := suffix_prod_dvd s1
    have d2 := suffix_prod_dvd s2
    have p1 : 0 < b1.prod := Nat.pos_of_dvd_of_pos d1 hpos
    have p2 : 0 < b2.prod := Nat.pos_of_dvd_of_pos d2 hpos
    have m1 : ∀ p, ∀ n ∈ e1.vars, p % (ds n).prod = p % b1.prod % (ds n).prod := fun p n hn =>
      (Nat.mod_mod_of_dvd _ (suffix_prod_dvd (c1.1 n hn))).symm
    have m2 : ∀ p, ∀ n ∈ e2.vars, p % (ds n).prod = p % b2.prod % (ds n).prod := fun p n hn =>
      (Nat.mod_mod_of_dvd _ (suffix_prod_dvd (c2.1 n hn))).symm
    have f1 : ∀ {p v}, FlatAt (TExpr.bin op e1 e2).vars ds xs p v → FlatAt e1.vars ds xs (p % b1.prod) v :=
      fun hv n hn => by rw [← m1 _ n hn]; exact hv n (v1 n hn)
    have f2 : ∀ {p v}, FlatAt (TExpr.bin op e1 e2).vars ds xs p v → FlatAt e2.vars ds xs (p % b2.prod) v :=
      fun hv n hn => by rw [← m2 _ n hn]; exact hv n (v2 n hn)
    rcases ih1 hs.2.1 (fun n hn => h n (v1 n hn)) (fun n hn => hlen n (v1 n hn)) b1 c1 with
      ⟨t1, zs1, a1, a2, a3⟩ | ⟨a1, p, hp, v, a2, a3⟩
    · rcases ih2 hs.2.2 (fun n hn => h n (v2 n hn)) (fun n hn => hlen n (v2 n hn)) b2 c2 with
        ⟨t2, zs2, g1, g2, g3⟩ | ⟨g1, p, hp, v, g2, g3⟩
      · have n1 : zs1 ≠ [] := List.length_pos_iff.1 (by rw [a2.length]; exact p1)
        have n2 : zs2 ≠ [] := List.length_pos_iff.1 (by rw [g2.length]; exact p2)
        rcases binary_flat ar op a2 g2 s1 s2 hbig n1 n2 with ⟨t, zs, k1, k2, k3⟩ | ⟨er, k1, p, hp, x, y, k2, k3, k4⟩
        · refine Or.inl ⟨t, zs, by simp only [TExpr.eval, a1, g1, ok_bind, k1], k2, fun p hp v hv => ?_⟩
          obtain ⟨x, x1, x2⟩ := a3 _ (Nat.mod_lt p p1) v (f1 hv)
          obtain ⟨y, y1, y2⟩ := g3 _ (Nat.mod_lt p p2) v (f2 hv)
          obtain ⟨z, z1, z2⟩ := k3 p hp x y x2 y2
          exact ⟨z, by simp only [TExpr.value, x1, y1, ok_bind, z1], z2⟩
        · obtain ⟨v, hv⟩ := flatAt_exists (TExpr.vars_ne_nil _) hlen p
          obtain ⟨x', x1, x2⟩ := a3 _ (Nat.mod_lt p p1) v (f1 hv)
          obtain ⟨y', y1, y2⟩ := g3 _ (Nat.mod_lt p p2) v (f2 hv)
          rw [k2] at x2; cases x2
          rw [k3] at y2; cases y2
          have := panic_of_ne_ub (hs.1 x y) k4
          subst this
          exact Or.inr ⟨by simp only [TExpr.eval, a1, g1, ok_bind, k1], p, hp, v, hv,
            by simp only [TExpr.value, x1, y1, ok_bind, k4]⟩
      · obtain ⟨w, hw⟩ := flatAt_exists (TExpr.vars_ne_nil _) hlen p
        have hc' : e2.value ar w = e2.value ar v :=
          TExpr.value_congr ar e2 fun n hn => FlatAt.congr (f2 hw) g2 (fun n hn => (m2 p n hn).symm) n hn
        obtain ⟨x', x1, x2⟩ := a3 _ (Nat.mod_lt p p1) w (f1 hw)
        exact Or.inr ⟨by simp only [TExpr.eval, a1, g1, ok_bind, error_bind], p,
          Nat.lt_of_lt_of_le hp (Nat.le_of_dvd hpos d2), w, hw,
          by simp only [TExpr.value, x1, hc', g3, ok_bind, error_bind]⟩
    · obtain ⟨w, hw⟩ := flatAt_exists (TExpr.vars_ne_nil _) hlen p
      have hc' : e1.value ar w = e1.value ar v :=
        TExpr.value_congr ar e1 fun n hn => FlatAt.congr (f1 hw) a2 (fun n hn => (m1 p n hn).symm) n hn
      exact Or.inr ⟨by simp only [TExpr.eval, a1, error_bind], p,
        Nat.lt_of_lt_of_le hp (Nat.le_of_dvd hpos d1), w, hw,
        by simp only [TExpr.value, hc', a3, error_bind]⟩

/-- Without a common shape the evaluation panics. -/
theorem eval_reject (ar : Arith T T T) (ρ : Nat → Tensor T) (ds : Nat → List Nat) (xs : Nat → List T) (e : TExpr T)
    (hs : e.Safe ar) (h : ∀ n ∈ e.vars, Rep (ρ n) (ds n) (xs n) ∧ xs n ≠ [])
    (hn : ¬ ∃ big, CommonShape e.vars ds big) : e.eval ar ρ = .error .panic := by
  induction e with
  | var n => exact absurd ⟨ds n, by simp [CommonShape, TExpr.vars]⟩ hn
  | un f e ih => simp only [TExpr.eval, ih hs.2 h hn, error_bind]
  | scalR op e y ih => simp only [TExpr.eval, ih hs.2 h hn, error_bind]
  | scalL op x e ih => simp only [TExpr.eval, ih hs.2 h hn, error_bind]
  | bin op e1 e2 ih1 ih2 =>
    have v1 : ∀ n ∈ e1.vars, n ∈ (TExpr.bin op e1 e2).vars := fun n hn => by simp [TExpr.vars, hn]
    have v2 : ∀ n ∈ e2.vars, n ∈ (TExpr.bin op e1 e2).vars := fun n hn => by simp [TExpr.vars, hn]
    by_cases h1 : ∃ big, CommonShape e1.vars ds big
    · obtain ⟨b1, c1⟩ := h1
      rcases eval_flat ar ρ ds xs e1 hs.2.1 (fun n hn => h n (v1 n hn)) b1 c1 with ⟨t1, zs1, a1, a2, _⟩ | ⟨a1, _⟩
      · by_cases h2 : ∃ big, CommonShape e2.vars ds big
        · obtain ⟨b2, c2⟩ := h2
          rcases eval_flat ar ρ ds xs e2 hs.2.2 (fun n hn => h n (v2 n hn)) b2 c2 with ⟨t2, zs2, g1, g2, _⟩ | ⟨g1, _⟩
          · have hno : ¬ b1 <:+ b2 ∧ ¬ b2 <:+ b1 := by
              constructor <;> intro hb
              · apply hn
                obtain ⟨m, hm, hm2⟩ := c2.2
                refine ⟨b2, fun n hn => ?_, m, v2 m hm, hm2⟩
                simp only [TExpr.vars, List.mem_append] at hn
                rcases hn with hn | hn
                · exact (c1.1 n hn).trans hb
                · exact c2.1 n hn
              · apply hn
                obtain ⟨m, hm, hm2⟩ := c1.2
                refine ⟨b1, fun n hn => ?_, m, v1 m hm, hm2⟩
                simp only [TExpr.vars, List.mem_append] at hn
                rcases hn with hn | hn
                · exact c1.1 n hn
                · exact (c2.1 n hn).trans hb
            simp only [TExpr.eval, a1, g1, ok_bind, C18_rejects ar op a2 g2 (Or.inl hno)]
          · simp only [TExpr.eval, a1, g1, ok_bind, error_bind]
        · simp only [TExpr.eval, a1, ih2 hs.2.2 (fun n hn => h n (v2 n hn)) h2, ok_bind, error_bind]
      · simp only [TExpr.eval, a1, error_bind]
    · simp only [TExpr.eval, ih1 hs.2.1 (fun n hn => h n (v1 n hn)) h1, error_bind]

/-- `FlatAt` and `ElementsAt` say the same. -/
theorem flatAt_iff {ns : List Nat} {ds : Nat → List Nat} {xs : Nat → List T} {big idx : List Nat} {p : Nat}
    {v : Nat → T} (hs : ∀ n ∈ ns, ds n <:+ big) (hp : ravel big idx = some p) :
    FlatAt ns ds xs p v ↔ ElementsAt ns ds xs big idx v := by
  have key : ∀ n ∈ ns, at? (ds n) (xs n) (idx.drop (big.length - (ds n).length)) = (xs n)[p % (ds n).prod]? := by
    intro n hn
    unfold at?
    rw [ravel_trail (hs n hn) hp]; rfl
  constructor
  · exact fun h => ⟨⟨p, hp⟩, fun n hn => by rw [key n hn]; exact h n hn⟩
  · exact fun h n hn => by rw [← key n hn]; exact h.2 n hn

end Essay
