import Verif.Lemmas.Base
import Verif.Model.Tensor

/-! # Helper lemmas about `FnMut` executions and sequential filling (no claims here) -/

namespace Essay

section
variable {σ α β V : Type}

@[simp] theorem lift_ok (a : α) : (liftM (Except.ok a : Res α) : Exec σ α) = pure a := rfl
@[simp] theorem lift_error_bind (e : Err) (f : α → Exec σ β) :
    ((liftM (Except.error e : Res α) : Exec σ α) >>= f) = liftM (Except.error e : Res β) := rfl
theorem lift_bind (x : Res α) (f : α → Res β) :
    (liftM (x >>= f) : Exec σ β) = (liftM x : Exec σ α) >>= fun a => liftM (f a) := by
  cases x <;> rfl

theorem exec_ext {x y : Exec σ α} (h : ∀ s, x.run s = y.run s) : x = y := by
  funext s; exact h s

theorem mapM_length (f : β → Exec σ α) (l : List β) (s s' : σ) (vs : List α)
    (h : (l.mapM f).run s = Except.ok (vs, s')) : vs.length = l.length := by
  induction l generalizing s vs with
  | nil =>
    simp only [List.mapM_nil, StateT.run_pure] at h
    cases h; rfl
  | cons a l ih =>
    simp only [List.mapM_cons, StateT.run_bind] at h
    obtain ⟨⟨v, s1⟩, _, h2⟩ := bind_eq_ok.1 h
    obtain ⟨⟨ws, s2⟩, h3, h4⟩ := bind_eq_ok.1 h2
    simp only [StateT.run_pure] at h4
    cases h4
    simp [ih _ _ h3]

theorem mapM_bind_congr {γ : Type} (f : β → Exec σ α) (l : List β) {k k' : List α → Exec σ γ}
    (h : ∀ vs, vs.length = l.length → k vs = k' vs) : (l.mapM f >>= k) = (l.mapM f >>= k') := by
  apply exec_ext; intro s
  simp only [StateT.run_bind]
  cases hr : (l.mapM f).run s with
  | error e => rfl
  | ok p =>
    obtain ⟨vs, s'⟩ := p
    show (k vs).run s' = (k' vs).run s'
    rw [h vs (mapM_length f l s s' vs hr)]

/-- A block whose first slots hold `l` and whose last `r` slots are uninitialised. -/
def pre (l : List V) (r : Nat) : Buf V := l.map some ++ List.replicate r none

theorem write_pre (l : List V) (r : Nat) (v : V) : (pre l (r + 1)).write l.length v = Except.ok (pre (l ++ [v]) r) := by
  rw [Buf.write_ok (by simp [pre])]
  congr 1
  unfold pre
  rw [List.set_append_right _ _ (by simp)]
  simp [List.replicate_succ]

theorem foldlM_push (f : Nat → Exec σ V) (base : Nat) :
    ∀ (n k : Nat) (l : List V) (r : Nat), l.length = base + k →
      (List.range' k n).foldlM (fun b i => f i >>= fun v => (liftM (Buf.write b (base + i) v) : Exec σ (Buf V)))
        (pre l (n + r)) =
      ((List.range' k n).mapM f >>= fun vs => pure (pre (l ++ vs) r)) := by
  intro n
  induction n with
  | zero => intro k l r _; simp
  | succ n ih =>
    intro k l r hl
    simp only [List.range'_succ, List.foldlM_cons, List.mapM_cons, bind_assoc, pure_bind]
    congr 1
    funext v
    rw [← hl, Nat.add_right_comm n 1 r, write_pre, lift_ok, pure_bind, ih (k + 1) (l ++ [v]) r (by simp; omega)]
    simp

/-- A loop writing slots `base, base+1, ...` in order is a traversal. -/
theorem forR_push (f : Nat → Exec σ V) (n : Nat) (l : List V) (r : Nat) :
    forR 0 n (pre l (n + r)) (fun i b => f i >>= fun v => (liftM (Buf.write b (l.length + i) v) : Exec σ (Buf V))) =
      ((List.range n).mapM f >>= fun vs => pure (pre (l ++ vs) r)) := by
  unfold forR
  rw [Nat.sub_zero, foldlM_push f l.length n 0 l r (by simp), List.range_eq_range']

theorem forR_push0 (f : Nat → Exec σ V) (n : Nat) :
    forR 0 n (Buf.uninit n) (fun i b => f i >>= fun v => (liftM (Buf.write b i v) : Exec σ (Buf V))) =
      ((List.range n).mapM f >>= fun vs => pure (vs.map some)) := by
  have := forR_push f n [] 0
  simpa [pre, Buf.uninit] using this

/-- Nested loops over `n × m` are one loop over `n * m`. -/
theorem forR_nest {m' : Type u → Type v} [Monad m'] [LawfulMonad m'] {γ : Type u} (n m : Nat) (s : γ)
    (body : Nat → Nat → γ → m' γ) :
    forR 0 n s (fun i s => forR 0 m s (body i)) = forR 0 (n * m) s (fun p s => body (p / m) (p % m) s) := by
  induction n with
  | zero => simp
  | succ n ih =>
    rw [forR_snoc (Nat.zero_le _), ih]
    have key : ∀ k, k ≤ m → forR 0 (n * m + k) s (fun p s => body (p / m) (p % m) s) =
        (forR 0 (n * m) s (fun p s => body (p / m) (p % m) s) >>= fun s => forR 0 k s (body n)) := by
      intro k
      induction k with
      | zero => intro _; simp
      | succ k ihk =>
        intro hk
        rw [← Nat.add_assoc, forR_snoc (Nat.zero_le _), ihk (by omega), bind_assoc]
        congr 1
        funext s'
        rw [forR_snoc (Nat.zero_le _)]
        have h1 : (n * m + k) / m = n := by
          rw [Nat.mul_comm, Nat.mul_add_div (by omega), Nat.div_eq_of_lt (by omega)]; simp
        have h2 : (n * m + k) % m = k := by
          rw [Nat.mul_comm, Nat.mul_add_mod, Nat.mod_eq_of_lt (by omega)]
        rw [h1, h2]
    rw [Nat.succ_mul, key m (Nat.le_refl _)]

/-- A loop whose step `i` appends a row of `N` values is a traversal by rows. -/
theorem foldlM_rows {N : Nat} (f : Nat → Exec σ (Vector V N)) (body : Nat → Buf V → Exec σ (Buf V)) (base : Nat) :
    ∀ (n k : Nat) (l : List V) (r : Nat), l.length = base + k * N →
      (∀ i l r, k ≤ i → i < k + n → l.length = base + i * N →
        body i (pre l (N + r)) = (f i >>= fun v => pure (pre (l ++ v.toList) r))) →
      (List.range' k n).foldlM (fun b i => body i b) (pre l (n * N + r)) =
        ((List.range' k n).mapM f >>= fun vs => pure (pre (l ++ (vs.map Vector.toList).flatten) r)) := by
  intro n
  induction n with
  | zero => intro k l r _ _; simp
  | succ n ih =>
    intro k l r hl hb
    simp only [List.range'_succ, List.foldlM_cons, List.mapM_cons, bind_assoc, pure_bind]
    rw [show (n + 1) * N + r = N + (n * N + r) by rw [Nat.succ_mul]; omega,
      hb k l (n * N + r) (Nat.le_refl _) (by omega) hl]
    simp only [bind_assoc, pure_bind]
    congr 1
    funext v
    rw [ih (k + 1) (l ++ v.toList) r (by simp [Nat.succ_mul]; omega)
      (fun i l r h1 h2 h3 => hb i l r (by omega) (by omega) h3)]
    simp

theorem forR_rows {N : Nat} (f : Nat → Exec σ (Vector V N)) (body : Nat → Buf V → Exec σ (Buf V)) (n : Nat)
    (hb : ∀ i l r, i < n → l.length = i * N →
        body i (pre l (N + r)) = (f i >>= fun v => pure (pre (l ++ v.toList) r))) :
    forR 0 n (Buf.uninit (n * N)) body =
        ((List.range n).mapM f >>= fun vs => pure ((vs.map Vector.toList).flatten.map some)) := by
  have := foldlM_rows f body 0 n 0 [] 0 (by simp) (fun i l r _ h2 h3 => hb i l r (by omega) (by omega))
  unfold forR
  rw [Nat.sub_zero]
  simpa [pre, Buf.uninit, List.range_eq_range'] using this

end

end Essay
