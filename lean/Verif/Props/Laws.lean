import Verif.Lemmas.Laws
import Verif.Props.From
import Mathlib.Tactic.Ring

/-!
# Property C83: laws of elementwise arithmetic

An expression written with tensors means the same as the expression written with numbers, at every index; so an
identity between numbers is an identity between tensors of whatever shapes.
-/

namespace Essay

open Shape

set_option linter.unusedSectionVars false

variable {T : Type}

/-- C83: an expression (`a * b - 2 / c`, nested to any depth) over nonempty tensors. If the dimensions of all variables
are suffixes of those of one of them, either the result has these dimensions and at every index is the value of the
expression at the variables' elements there, or the call panics, and then the expression panics at some index. If there
is no such common shape, the call panics. -/
theorem C83_expression (ar : Arith T T T) (ρ : Nat → Tensor T) (ds : Nat → List Nat) (xs : Nat → List T) (e : TExpr T)
    (hs : e.Safe ar) (h : ∀ n ∈ e.vars, Rep (ρ n) (ds n) (xs n) ∧ xs n ≠ []) :
    (∀ big, CommonShape e.vars ds big →
      (∃ t zs, e.eval ar ρ = .ok t ∧ Rep t big zs ∧ ∀ idx v, ElementsAt e.vars ds xs big idx v →
        ∃ z, e.value ar v = .ok z ∧ at? big zs idx = some z) ∨
      (e.eval ar ρ = .error .panic ∧ ∃ idx v, ElementsAt e.vars ds xs big idx v ∧ e.value ar v = .error .panic)) ∧
    ((¬ ∃ big, CommonShape e.vars ds big) → e.eval ar ρ = .error .panic) := by
  refine ⟨fun big hc => ?_, eval_reject ar ρ ds xs e hs h⟩
  rcases eval_flat ar ρ ds xs e hs h big hc with ⟨t, zs, h1, h2, h3⟩ | ⟨h1, p, hp, v, h2, h3⟩
  · refine Or.inl ⟨t, zs, h1, h2, fun idx v hv => ?_⟩
    obtain ⟨p, hp⟩ := hv.1
    obtain ⟨z, hz1, hz2⟩ := h3 p (ravel_lt hp) v ((flatAt_iff hc.1 hp).2 hv)
    exact ⟨z, hz1, by unfold at?; rw [hp]; exact hz2⟩
  · obtain ⟨idx, hi⟩ := ravel_surj big hp
    exact Or.inr ⟨h1, idx, v, (flatAt_iff hc.1 hi).1 h2, h3⟩

/-- C83: two expressions with the same variables that have the same value (or panic) for all numbers agree on all
nonempty tensors: same dimensions and elements, or both panic. -/
theorem C83_identity (ar : Arith T T T) (ρ : Nat → Tensor T) (ds : Nat → List Nat) (xs : Nat → List T)
    (e1 e2 : TExpr T) (h1 : e1.Safe ar) (h2 : e2.Safe ar) (hv : ∀ n, n ∈ e1.vars ↔ n ∈ e2.vars)
    (h : ∀ n ∈ e1.vars, Rep (ρ n) (ds n) (xs n) ∧ xs n ≠ []) (heq : ∀ v, e1.value ar v = e2.value ar v) :
    Agree (e1.eval ar ρ) (e2.eval ar ρ) := by
  have h' : ∀ n ∈ e2.vars, Rep (ρ n) (ds n) (xs n) ∧ xs n ≠ [] := fun n hn => h n ((hv n).2 hn)
  have hsh : ∀ big, CommonShape e1.vars ds big ↔ CommonShape e2.vars ds big := by
    intro big; unfold CommonShape; simp only [hv]
  have hfl : ∀ p v, FlatAt e1.vars ds xs p v ↔ FlatAt e2.vars ds xs p v := by
    intro p v; unfold FlatAt; simp only [hv]
  by_cases hc : ∃ big, CommonShape e1.vars ds big
  · obtain ⟨big, hc⟩ := hc
    have hl : ∀ n ∈ e1.vars, (xs n).length = (ds n).prod ∧ xs n ≠ [] := fun n hn => ⟨(h n hn).1.length, (h n hn).2⟩
    rcases eval_flat ar ρ ds xs e1 h1 h big hc with ⟨t, zs, a1, a2, a3⟩ | ⟨a1, p, hp, v, a2, a3⟩ <;>
    rcases eval_flat ar ρ ds xs e2 h2 h' big ((hsh big).1 hc) with ⟨u, ws, b1, b2, b3⟩ | ⟨b1, q, hq, w, b2, b3⟩
    · refine Or.inr ⟨t, u, big, zs, a1, b1, a2, ?_⟩
      have : zs = ws := by
        apply List.ext_getElem?
        intro p
        by_cases hp : p < big.prod
        · obtain ⟨v, hv'⟩ := flatAt_exists (TExpr.vars_ne_nil e1) hl p
          obtain ⟨z, z1, z2⟩ := a3 p hp v hv'
          obtain ⟨z', z1', z2'⟩ := b3 p hp v ((hfl p v).1 hv')
          rw [heq, z1'] at z1
          cases z1
          rw [z2, z2']
        · rw [List.getElem?_eq_none (by rw [a2.length]; omega), List.getElem?_eq_none (by rw [b2.length]; omega)]
      rw [this]; exact b2
    · obtain ⟨z, z1, _⟩ := a3 q hq w ((hfl q w).2 b2)
      rw [heq, b3] at z1; cases z1
    · obtain ⟨z, z1, _⟩ := b3 p hp v ((hfl p v).1 a2)
      rw [← heq, a3] at z1; cases z1
    · exact Or.inl ⟨_, a1, b1⟩
  · refine Or.inl ⟨.panic, eval_reject ar ρ ds xs e1 h1 h hc, eval_reject ar ρ ds xs e2 h2 h' ?_⟩
    rintro ⟨big, hb⟩
    exact hc ⟨big, (hsh big).2 hb⟩

/-- The arithmetic of a commutative ring of unlimited numbers: `+`, `-`, `*` never fail. The other operators are not
used. -/
def ringArith (R : Type) [CommRing R] : Arith R R R :=
  ⟨fun x y => .ok (x + y), fun x y => .ok (x - y), fun x y => .ok (x * y), fun _ _ => .error .panic,
    fun _ _ => .error .panic, fun _ _ => .error .panic, fun _ _ => .error .panic, fun _ _ => .error .panic,
    fun _ _ => .error .panic, fun _ _ => .error .panic⟩

/-- C83: an operator that commutes on the elements (panics included, so also checked integer `+`, `*`) commutes on
tensors, whatever the shapes. -/
theorem C83_commutes (ar : Arith T T T) (op : Tensor.OpName) (hub : ∀ x y, meaning ar op x y ≠ .error .ub)
    (hc : ∀ x y, meaning ar op x y = meaning ar op y x) {a b : Tensor T} {ds es : List Nat} {xs ys : List T}
    (ha : Rep a ds xs) (hb : Rep b es ys) : Agree (Tensor.binary ar op a b) (Tensor.binary ar op b a) := by
  by_cases hne : xs = [] ∨ ys = []
  · exact Or.inl ⟨.panic, C18_rejects ar op ha hb (Or.inr hne), C18_rejects ar op hb ha (Or.inr hne.symm)⟩
  rw [not_or] at hne
  have := C83_identity ar (fun n => if n = 0 then a else b) (fun n => if n = 0 then ds else es)
    (fun n => if n = 0 then xs else ys) (.bin op (.var 0) (.var 1)) (.bin op (.var 1) (.var 0))
    ⟨hub, trivial, trivial⟩ ⟨hub, trivial, trivial⟩ (fun n => by simp [TExpr.vars]; tauto)
    (fun n hn => by
      by_cases h0 : n = 0
      · simp only [h0, if_true]; exact ⟨ha, hne.1⟩
      · simp only [if_neg h0]; exact ⟨hb, hne.2⟩)
    (fun v => by simp only [TExpr.value, ok_bind]; exact hc _ _)
  simpa [TExpr.eval, ok_bind] using this

/-- C83: `(a op b) op c` agrees with `a op (b op c)` on tensors of any three shapes if it does on the elements. -/
theorem C83_associates (ar : Arith T T T) (op : Tensor.OpName) (hub : ∀ x y, meaning ar op x y ≠ .error .ub)
    (has : ∀ x y z, (meaning ar op x y >>= fun w => meaning ar op w z) =
      (meaning ar op y z >>= fun w => meaning ar op x w))
    {a b c : Tensor T} {ds es fs : List Nat} {xs ys zs : List T}
    (ha : Rep a ds xs) (hb : Rep b es ys) (hc : Rep c fs zs) (hx : xs ≠ []) (hy : ys ≠ []) (hz : zs ≠ []) :
    Agree ((Tensor.binary ar op a b) >>= fun t => Tensor.binary ar op t c)
      ((Tensor.binary ar op b c) >>= fun t => Tensor.binary ar op a t) := by
  have := C83_identity ar (fun n => if n = 0 then a else if n = 1 then b else c)
    (fun n => if n = 0 then ds else if n = 1 then es else fs)
    (fun n => if n = 0 then xs else if n = 1 then ys else zs)
    (.bin op (.bin op (.var 0) (.var 1)) (.var 2)) (.bin op (.var 0) (.bin op (.var 1) (.var 2)))
    ⟨hub, ⟨hub, trivial, trivial⟩, trivial⟩ ⟨hub, trivial, hub, trivial, trivial⟩ (fun n => by simp [TExpr.vars])
    (fun n hn => by
      by_cases h0 : n = 0
      · simp only [h0, if_true]; exact ⟨ha, hx⟩
      · by_cases h1 : n = 1
        · simp only [if_neg h0, if_pos h1]; exact ⟨hb, hy⟩
        · simp only [if_neg h0, if_neg h1]; exact ⟨hc, hz⟩)
    (fun v => by
      have := has (v 0) (v 1) (v 2)
      simp only [TExpr.value, ok_bind]
      exact this)
  simpa [TExpr.eval, ok_bind] using this

/-- C83, exact arithmetic: `a * (b + c)` agrees with `a * b + a * c`, `(a + b) - b` with `a` broadcast by `b * 0`, and
`a - b` with `a + b * (-1)`: instances of `C83_identity` for any commutative ring and any shapes. -/
theorem C83_ring {R : Type} [CommRing R] {a b c : Tensor R} {ds es fs : List Nat} {xs ys zs : List R}
    (ha : Rep a ds xs) (hb : Rep b es ys) (hc : Rep c fs zs) (hx : xs ≠ []) (hy : ys ≠ []) (hz : zs ≠ []) :
    Agree ((Tensor.binary (ringArith R) .add b c) >>= fun t => Tensor.binary (ringArith R) .mul a t)
      ((Tensor.binary (ringArith R) .mul a b) >>= fun t => (Tensor.binary (ringArith R) .mul a c) >>= fun u =>
        Tensor.binary (ringArith R) .add t u) ∧
    Agree ((Tensor.binary (ringArith R) .add a b) >>= fun t => Tensor.binary (ringArith R) .sub t b)
      ((Tensor.binaryScalar (ringArith R) .mul b 0) >>= fun t => Tensor.binary (ringArith R) .add a t) ∧
    Agree (Tensor.binary (ringArith R) .sub a b)
      ((Tensor.binaryScalar (ringArith R) .mul b (-1)) >>= fun t => Tensor.binary (ringArith R) .add a t) := by
  have key : ∀ e1 e2 : TExpr R, e1.Safe (ringArith R) → e2.Safe (ringArith R) → (∀ n, n ∈ e1.vars ↔ n ∈ e2.vars) →
      (∀ v, e1.value (ringArith R) v = e2.value (ringArith R) v) →
      Agree (e1.eval (ringArith R) fun n => if n = 0 then a else if n = 1 then b else c)
        (e2.eval (ringArith R) fun n => if n = 0 then a else if n = 1 then b else c) :=
    fun e1 e2 s1 s2 hv hval => C83_identity (ringArith R) _ (fun n => if n = 0 then ds else if n = 1 then es else fs)
      (fun n => if n = 0 then xs else if n = 1 then ys else zs) e1 e2 s1 s2 hv
      (fun n hn => by
        by_cases h0 : n = 0
        · simp only [h0, if_true]; exact ⟨ha, hx⟩
        · by_cases h1 : n = 1
          · simp only [if_neg h0, if_pos h1]; exact ⟨hb, hy⟩
          · simp only [if_neg h0, if_neg h1]; exact ⟨hc, hz⟩) hval
  refine ⟨?_, ?_, ?_⟩
  · have := key (.bin .mul (.var 0) (.bin .add (.var 1) (.var 2)))
      (.bin .add (.bin .mul (.var 0) (.var 1)) (.bin .mul (.var 0) (.var 2)))
      (by simp [TExpr.Safe, meaning, ringArith]) (by simp [TExpr.Safe, meaning, ringArith])
      (fun n => by simp [TExpr.vars]; tauto)
      (fun v => by simp only [TExpr.value, ok_bind, meaning, ringArith, mul_add])
    simpa [TExpr.eval, ok_bind] using this
  · have := key (.bin .sub (.bin .add (.var 0) (.var 1)) (.var 1))
      (.bin .add (.var 0) (.scalR .mul (.var 1) 0))
      (by simp [TExpr.Safe, meaning, ringArith]) (by simp [TExpr.Safe, meaning, ringArith])
      (fun n => by simp [TExpr.vars])
      (fun v => by simp only [TExpr.value, ok_bind, meaning, ringArith, mul_zero, add_zero, add_sub_cancel_right])
    simpa [TExpr.eval, ok_bind] using this
  · have := key (.bin .sub (.var 0) (.var 1)) (.bin .add (.var 0) (.scalR .mul (.var 1) (-1)))
      (by simp [TExpr.Safe, meaning, ringArith]) (by simp [TExpr.Safe, meaning, ringArith])
      (fun n => by simp [TExpr.vars])
      (fun v => by
        simp only [TExpr.value, ok_bind, meaning, ringArith]
        exact congrArg _ (by ring))
    simpa [TExpr.eval, ok_bind] using this

/-- C83: an operator with a scalar gives the same as the operator with the tensor made from the scalar, on either side;
except that the tensor form rejects empty tensors, which the scalar form accepts. -/
theorem C83_scalar_tensor (ar : Arith T T T) (op : Tensor.OpName) {a : Tensor T} {ds : List Nat} {xs : List T}
    (ha : Rep a ds xs) (y : T) :
    ∃ s, Tensor.ofScalar y = .ok s ∧
      (xs ≠ [] → Agree (Tensor.binaryScalar ar op a y) (Tensor.binary ar op a s) ∧
        Agree (Tensor.scalarBinary ar op y a) (Tensor.binary ar op s a)) ∧
      (xs = [] → Tensor.binary ar op a s = .error .panic ∧ ∃ t, Tensor.binaryScalar ar op a y = .ok t ∧ Rep t ds []) := by
  obtain ⟨⟨s, hs, hr⟩, _⟩ := C12_scalar y
  refine ⟨s, hs, fun hne => ?_, fun he => ?_⟩
  · have e0 : ∀ {as : List T}, Bcast ds xs ds as → as = xs := by
      intro as h
      apply List.ext_getElem?
      intro p
      by_cases hp : p < ds.prod
      · rw [h.flat (List.suffix_refl _) hp, Nat.mod_eq_of_lt hp]
      · rw [List.getElem?_eq_none (by rw [h.1]; omega), List.getElem?_eq_none (by rw [ha.length]; omega)]
    have e1 : ∀ {bs : List T}, Bcast [] [y] ds bs → bs = List.replicate xs.length y := by
      intro bs h
      apply List.ext_getElem?
      intro p
      by_cases hp : p < ds.prod
      · rw [h.flat List.nil_suffix hp, List.getElem?_replicate, if_pos (by rw [ha.length]; exact hp)]
        simp [Nat.mod_one]
      · rw [List.getElem?_eq_none (by rw [h.1]; omega),
          List.getElem?_eq_none (by rw [List.length_replicate, ha.length]; omega)]
    have e2 : ∀ l : List T, (l.zip (List.replicate l.length y)).mapM (fun p => meaning ar op p.1 p.2) =
        l.mapM fun x => meaning ar op x y := by
      intro l
      induction l with
      | nil => rfl
      | cons x l ih => simp [List.replicate_succ, List.mapM_cons, ih]
    have e3 : ∀ l : List T, ((List.replicate l.length y).zip l).mapM (fun p => meaning ar op p.1 p.2) =
        l.mapM fun x => meaning ar op y x := by
      intro l
      induction l with
      | nil => rfl
      | cons x l ih => simp [List.replicate_succ, List.mapM_cons, ih]
    have agree : ∀ {x x' : Res (Tensor T)} {l : Res (List T)}, Results x l ds → Results x' l ds → Agree x x' := by
      intro x x' l h h'
      cases l with
      | error e => exact Or.inl ⟨e, h, h'⟩
      | ok zs =>
        obtain ⟨t, h1, h2⟩ := h
        obtain ⟨t', h1', h2'⟩ := h'
        exact Or.inr ⟨t, t', ds, zs, h1, h1', h2, h2'⟩
    constructor
    · obtain ⟨as, bs, h1, h2, h3⟩ := C18_tensor_tensor_right ar op ha hr List.nil_suffix hne
      rw [e0 h1, e1 h2, e2] at h3
      exact agree (C18_tensor_scalar ar op ha y) h3
    · obtain ⟨as, bs, h1, h2, h3⟩ := C18_tensor_tensor_left ar op hr ha List.nil_suffix hne
      rw [e0 h2, e1 h1, e3] at h3
      exact agree (C18_scalar_tensor ar op ha y) h3
  · refine ⟨C18_rejects ar op ha hr (Or.inr (Or.inl he)), ?_⟩
    have := C18_tensor_scalar ar op ha y
    rw [he] at this
    exact this

/-! Concrete cases: a 3x2 view, a row and the scalar 10. -/

example : Agree (Tensor.binary u8Arith .mul exRow exView) (Tensor.binary u8Arith .mul exView exRow) :=
  C83_commutes u8Arith .mul (fun x y => by simp only [meaning, u8Arith]; split <;> simp)
    (fun x y => by simp only [meaning, u8Arith, Nat.mul_comm]) exRow_rep exView_rep

/-- `(2 * x + y) - x`, `x` the view and `y` the row, is the view plus the row. -/
example : ∃ t, (TExpr.bin .sub (.bin .add (.scalL .mul 2 (.var 0)) (.var 1)) (.var 0)).eval u8Arith
    (fun n => if n = 0 then exView else exRow) = .ok t ∧ Rep t [3, 2] [12, 23, 14, 25, 16, 27] :=
  ⟨_, by decide +kernel, rep_fresh (ds := [3, 2]) (xs := [12, 23, 14, 25, 16, 27]) ⟨by simp, by simp⟩
    (fits_of_pos (by simp) (by simp)) rfl⟩

example : CommonShape (TExpr.bin .sub (.bin .add (.scalL .mul 2 (.var 0)) (.var 1)) (.var 0) : TExpr Nat).vars
    (fun n => if n = 0 then [3, 2] else [2]) [3, 2] :=
  ⟨fun n _ => by by_cases h : n = 0 <;> simp [h], 0, by simp [TExpr.vars], by simp⟩

/-- `(x + y) + x` and `(y + x) + x` with checked `u8` additions. -/
example : Agree ((TExpr.bin .add (.bin .add (.var 0) (.var 1)) (.var 0)).eval u8Arith (fun n => if n = 0 then exView else exRow))
    ((TExpr.bin .add (.bin .add (.var 1) (.var 0)) (.var 0)).eval u8Arith (fun n => if n = 0 then exView else exRow)) := by
  have hs : ∀ x y, meaning u8Arith .add x y ≠ .error .ub := fun x y => by simp only [meaning, u8Arith]; split <;> simp
  refine C83_identity u8Arith _ (fun n => if n = 0 then [3, 2] else [2])
    (fun n => if n = 0 then [2, 3, 4, 5, 6, 7] else [10, 20]) _ _ ⟨hs, ⟨hs, trivial, trivial⟩, trivial⟩
    ⟨hs, ⟨hs, trivial, trivial⟩, trivial⟩ (fun n => by simp [TExpr.vars]; omega) ?_ ?_
  · intro n _
    by_cases h : n = 0 <;> simp only [h, if_true, if_false]
    · exact ⟨exView_rep, by simp⟩
    · exact ⟨exRow_rep, by simp⟩
  · intro v
    simp only [TExpr.value, meaning, u8Arith, ok_bind, Nat.add_comm]

example : Agree ((Tensor.binary (ringArith Int) .mul ⟨ofDims [2], 0, 2, [3, -4]⟩ ⟨ofDims [], 0, 1, [5]⟩) >>=
      fun t => Tensor.binary (ringArith Int) .mul t ⟨ofDims [1, 2], 0, 2, [7, 8]⟩)
    ((Tensor.binary (ringArith Int) .mul ⟨ofDims [], 0, 1, [5]⟩ ⟨ofDims [1, 2], 0, 2, [7, 8]⟩) >>=
      fun t => Tensor.binary (ringArith Int) .mul ⟨ofDims [2], 0, 2, [3, -4]⟩ t) :=
  C83_associates (ringArith Int) .mul (fun _ _ => by simp [meaning, ringArith])
    (fun x y z => by simp [meaning, ringArith, mul_assoc])
    (rep_fresh (ds := [2]) (xs := [3, -4]) ⟨by simp, by simp⟩ (fits_of_pos (by simp) (by simp)) rfl)
    (rep_fresh (ds := []) (xs := [5]) ⟨by simp, by simp⟩ fits_nil rfl)
    (rep_fresh (ds := [1, 2]) (xs := [7, 8]) ⟨by simp, by simp⟩ (fits_of_pos (by simp) (by simp)) rfl)
    (by simp) (by simp) (by simp)

example : Agree (Tensor.binary (ringArith Int) .sub ⟨ofDims [2], 0, 2, [3, -4]⟩ ⟨ofDims [], 0, 1, [5]⟩)
    ((Tensor.binaryScalar (ringArith Int) .mul ⟨ofDims [], 0, 1, [5]⟩ (-1)) >>=
      fun t => Tensor.binary (ringArith Int) .add ⟨ofDims [2], 0, 2, [3, -4]⟩ t) :=
  (C83_ring (R := Int)
    (rep_fresh (ds := [2]) (xs := [3, -4]) ⟨by simp, by simp⟩ (fits_of_pos (by simp) (by simp)) rfl)
    (rep_fresh (ds := []) (xs := [5]) ⟨by simp, by simp⟩ fits_nil rfl)
    (rep_fresh (ds := [1, 2]) (xs := [7, 8]) ⟨by simp, by simp⟩ (fits_of_pos (by simp) (by simp)) rfl)
    (by simp) (by simp) (by simp)).2.2

example : ∃ s, Tensor.ofScalar 3 = .ok s ∧ Agree (Tensor.binaryScalar u8Arith .add exView 3) (Tensor.binary u8Arith .add exView s) := by
  obtain ⟨s, h, h', _⟩ := C83_scalar_tensor u8Arith .add exView_rep 3
  exact ⟨s, h, (h' (by simp)).1⟩

/-- `x * x + y`, `x` the view and `y` the row. -/
example : (∃ t zs, (TExpr.bin .add (.bin .mul (.var 0) (.var 0)) (.var 1)).eval u8Arith
      (fun n => if n = 0 then exView else exRow) = .ok t ∧ Rep t [3, 2] zs ∧
      ∀ idx v, ElementsAt [0, 0, 1] (fun n => if n = 0 then [3, 2] else [2])
        (fun n => if n = 0 then [2, 3, 4, 5, 6, 7] else [10, 20]) [3, 2] idx v →
        ∃ z, (TExpr.bin .add (.bin .mul (.var 0) (.var 0)) (.var 1)).value u8Arith v = .ok z ∧ at? [3, 2] zs idx = some z) ∨
    ((TExpr.bin .add (.bin .mul (.var 0) (.var 0)) (.var 1)).eval u8Arith (fun n => if n = 0 then exView else exRow) =
      .error .panic ∧ ∃ idx v, ElementsAt [0, 0, 1] (fun n => if n = 0 then [3, 2] else [2])
        (fun n => if n = 0 then [2, 3, 4, 5, 6, 7] else [10, 20]) [3, 2] idx v ∧
        (TExpr.bin .add (.bin .mul (.var 0) (.var 0)) (.var 1)).value u8Arith v = .error .panic) := by
  have hs : ∀ op, op = .add ∨ op = .mul → ∀ x y, meaning u8Arith op x y ≠ .error .ub := by
    rintro op (rfl | rfl) x y <;> simp only [meaning, u8Arith] <;> split <;> simp
  refine (C83_expression u8Arith (fun n => if n = 0 then exView else exRow) (fun n => if n = 0 then [3, 2] else [2])
    (fun n => if n = 0 then [2, 3, 4, 5, 6, 7] else [10, 20]) (.bin .add (.bin .mul (.var 0) (.var 0)) (.var 1))
    ⟨hs _ (.inl rfl), ⟨hs _ (.inr rfl), trivial, trivial⟩, trivial⟩ ?_).1 [3, 2]
    ⟨fun n _ => by by_cases h : n = 0 <;> simp [h], 0, by simp [TExpr.vars], by simp⟩
  intro n _
  by_cases h : n = 0 <;> simp only [h, if_true, if_false]
  · exact ⟨exView_rep, by simp⟩
  · exact ⟨exRow_rep, by simp⟩

end Essay
