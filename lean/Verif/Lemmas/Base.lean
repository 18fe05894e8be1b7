import Verif.Base.Res

/-! # Helper lemmas about outcomes, loops and buffers (no claims here) -/

namespace Essay

@[simp] theorem ok_bind {α β : Type u} (a : α) (f : α → Res β) : ((Except.ok a : Res α) >>= f) = f a := rfl
@[simp] theorem error_bind {α β : Type u} (e : Err) (f : α → Res β) :
    ((Except.error e : Res α) >>= f) = Except.error e := rfl
@[simp] theorem pure_eq_ok {α : Type u} (a : α) : (pure a : Res α) = Except.ok a := rfl
@[simp] theorem ok_map {α β : Type u} (a : α) (f : α → β) : (f <$> (Except.ok a : Res α)) = Except.ok (f a) := rfl
@[simp] theorem error_map {α β : Type u} (e : Err) (f : α → β) :
    (f <$> (Except.error e : Res α)) = Except.error e := rfl

theorem bind_eq_ok {α β : Type u} {x : Res α} {f : α → Res β} {b : β} :
    (x >>= f) = Except.ok b ↔ ∃ a, x = Except.ok a ∧ f a = Except.ok b := by
  cases x <;> simp

theorem bind_eq_error {α β : Type u} {x : Res α} {f : α → Res β} {e : Err} :
    (x >>= f) = Except.error e ↔ x = Except.error e ∨ ∃ a, x = Except.ok a ∧ f a = Except.error e := by
  cases x <;> simp

/-- Never undefined behaviour: a value or a panic. -/
def NoUB {α : Type u} (x : Res α) : Prop := x ≠ Except.error Err.ub

@[simp] theorem noUB_ok {α : Type u} (a : α) : NoUB (Except.ok a : Res α) := by simp [NoUB]
@[simp] theorem noUB_panic {α : Type u} : NoUB (Except.error Err.panic : Res α) := by simp [NoUB]
theorem noUB_bind {α β : Type u} {x : Res α} {f : α → Res β} (hx : NoUB x)
    (hf : ∀ a, x = Except.ok a → NoUB (f a)) : NoUB (x >>= f) := by
  cases x with
  | error e => cases e <;> simp_all [NoUB]
  | ok a => simpa using hf a rfl

@[simp] theorem ensure_true {c : Prop} [Decidable c] (h : c) : ensure c = Except.ok () := by simp [ensure, h]
theorem ensure_false {c : Prop} [Decidable c] (h : ¬ c) : ensure c = Except.error Err.panic := by simp [ensure, h]
theorem ensure_eq_ok {c : Prop} [Decidable c] {u : Unit} : ensure c = Except.ok u ↔ c := by
  by_cases h : c <;> simp [ensure, h]
theorem ensure_bind_eq_ok {α : Type} {c : Prop} [Decidable c] {f : Unit → Res α} {b : α} :
    (ensure c >>= f) = Except.ok b ↔ c ∧ f () = Except.ok b := by
  by_cases h : c <;> simp [ensure, h]
@[simp] theorem noUB_ensure (c : Prop) [Decidable c] : NoUB (ensure c) := by
  by_cases h : c <;> simp [ensure, h]

theorem usub_ok {a b : Nat} (h : b ≤ a) : usub a b = Except.ok (a - b) := by simp [usub, h]
theorem usub_eq_ok {a b c : Nat} : usub a b = Except.ok c ↔ b ≤ a ∧ c = a - b := by
  unfold usub; split <;> simp_all
  · exact eq_comm
  · omega
@[simp] theorem noUB_usub (a b : Nat) : NoUB (usub a b) := by unfold usub; split <;> simp
theorem udiv_ok {a b : Nat} (h : b ≠ 0) : udiv a b = Except.ok (a / b) := by simp [udiv, h]
theorem udiv_eq_ok {a b c : Nat} : udiv a b = Except.ok c ↔ b ≠ 0 ∧ c = a / b := by
  unfold udiv; split <;> simp_all; exact eq_comm
@[simp] theorem noUB_udiv (a b : Nat) : NoUB (udiv a b) := by unfold udiv; split <;> simp
theorem umod_ok {a b : Nat} (h : b ≠ 0) : umod a b = Except.ok (a % b) := by simp [umod, h]
theorem umod_eq_ok {a b c : Nat} : umod a b = Except.ok c ↔ b ≠ 0 ∧ c = a % b := by
  unfold umod; split <;> simp_all; exact eq_comm
@[simp] theorem noUB_umod (a b : Nat) : NoUB (umod a b) := by unfold umod; split <;> simp
theorem mulU32_ok {a b : Nat} (h : a * b < 4294967296) : mulU32 a b = Except.ok (a * b) := by simp [mulU32, h]
theorem mulU32_eq_ok {a b c : Nat} : mulU32 a b = Except.ok c ↔ a * b < 4294967296 ∧ c = a * b := by
  unfold mulU32; split <;> simp_all
  · exact eq_comm
  · omega
@[simp] theorem noUB_mulU32 (a b : Nat) : NoUB (mulU32 a b) := by unfold mulU32; split <;> simp
@[simp] theorem noUB_iadd (a b : Int) : NoUB (iadd a b) := by unfold iadd; split <;> simp
@[simp] theorem noUB_imod (a b : Int) : NoUB (imod a b) := by unfold imod; split <;> simp

theorem asU32_of_lt {n : Nat} (h : n < 4294967296) : asU32 n = n := Nat.mod_eq_of_lt h
theorem asU32_lt (n : Nat) : asU32 n < 4294967296 := Nat.mod_lt _ (by decide)

theorem idx_ok {α : Type u} {xs : List α} {i : Nat} {x : α} (h : xs[i]? = some x) : idx xs i = Except.ok x := by
  simp [idx, h]
theorem idx_eq_ok {α : Type u} {xs : List α} {i : Nat} {x : α} : idx xs i = Except.ok x ↔ xs[i]? = some x := by
  unfold idx; split <;> simp_all
theorem idx_lt {α : Type u} {xs : List α} {i : Nat} (h : i < xs.length) : idx xs i = Except.ok xs[i] := by
  simp [idx, h]
theorem idx_ge {α : Type u} {xs : List α} {i : Nat} (h : xs.length ≤ i) : idx xs i = Except.error Err.panic := by
  simp [idx, h]
@[simp] theorem noUB_idx {α : Type u} (xs : List α) (i : Nat) : NoUB (idx xs i) := by
  unfold idx; split <;> simp
theorem setIdx_ok {α : Type u} {xs : List α} {i : Nat} {x : α} (h : i < xs.length) :
    setIdx xs i x = Except.ok (xs.set i x) := by simp [setIdx, h]
theorem setIdx_eq_ok {α : Type u} {xs ys : List α} {i : Nat} {x : α} :
    setIdx xs i x = Except.ok ys ↔ i < xs.length ∧ ys = xs.set i x := by
  unfold setIdx; split <;> simp_all
  · exact eq_comm
  · omega
@[simp] theorem noUB_setIdx {α : Type u} (xs : List α) (i : Nat) (x : α) : NoUB (setIdx xs i x) := by
  unfold setIdx; split <;> simp
@[simp] theorem noUB_panicked {α : Type u} : NoUB (panicked : Res α) := by simp [panicked]

/-! ## Loops -/

section loops
variable {m : Type u → Type v} [Monad m] {β : Type u}

theorem forR_stop {lo hi : Nat} (h : hi ≤ lo) (s : β) (body : Nat → β → m β) : forR lo hi s body = pure s := by
  have : hi - lo = 0 := by omega
  simp [forR, this]

theorem forR_cons [LawfulMonad m] {lo hi : Nat} (h : lo < hi) (s : β) (body : Nat → β → m β) :
    forR lo hi s body = body lo s >>= fun s => forR (lo + 1) hi s body := by
  have : hi - lo = (hi - (lo + 1)) + 1 := by omega
  simp [forR, this, List.range'_succ]

theorem forR_snoc [LawfulMonad m] {lo hi : Nat} (h : lo ≤ hi) (s : β) (body : Nat → β → m β) :
    forR lo (hi + 1) s body = forR lo hi s body >>= body hi := by
  have e : hi + 1 - lo = (hi - lo) + 1 := by omega
  simp only [forR, e, List.range'_concat, List.foldlM_append, Nat.one_mul]
  have : lo + (hi - lo) = hi := by omega
  simp [this]

@[simp] theorem forR_zero (s : β) (body : Nat → β → m β) (lo : Nat) : forR lo 0 s body = pure s :=
  forR_stop (Nat.zero_le _) s body

theorem forR_congr {lo hi : Nat} {s : β} {body body' : Nat → β → m β}
    (h : ∀ i s, lo ≤ i → i < hi → body i s = body' i s) : forR lo hi s body = forR lo hi s body' := by
  unfold forR
  have : ∀ (l : List Nat) (s : β), (∀ i ∈ l, lo ≤ i ∧ i < hi) →
      l.foldlM (fun s i => body i s) s = l.foldlM (fun s i => body' i s) s := by
    intro l
    induction l with
    | nil => intros; rfl
    | cons a l ih =>
      intro s hl
      simp only [List.foldlM_cons]
      rw [h a s (hl a (by simp)).1 (hl a (by simp)).2]
      congr 1
      funext s'
      exact ih s' (fun i hi => hl i (by simp [hi]))
  apply this
  intro i hi'
  simp [List.mem_range'] at hi'
  omega

theorem forR_shift {lo n : Nat} {s : β} {body : Nat → β → m β} :
    forR lo (lo + n) s body = forR 0 n s (fun i => body (lo + i)) := by
  unfold forR
  simp only [Nat.add_sub_cancel_left, Nat.sub_zero]
  rw [← List.range_eq_range', List.range'_eq_map_range, List.foldlM_map]

end loops

/-- Invariant rule for loops in `Res`: total correctness. -/
theorem forR_inv {β : Type} {lo hi : Nat} (hle : lo ≤ hi) {s : β} {body : Nat → β → Res β} (P : Nat → β → Prop)
    (h0 : P lo s) (hs : ∀ i s, lo ≤ i → i < hi → P i s → ∃ s', body i s = Except.ok s' ∧ P (i + 1) s') :
    ∃ s', forR lo hi s body = Except.ok s' ∧ P hi s' := by
  obtain ⟨n, rfl⟩ : ∃ n, hi = lo + n := ⟨hi - lo, by omega⟩
  clear hle
  induction n with
  | zero => exact ⟨s, by rw [forR_stop (by omega)]; rfl, h0⟩
  | succ n ih =>
    obtain ⟨s', e, hp⟩ := ih (fun i s hi1 hi2 => hs i s hi1 (by omega))
    obtain ⟨s'', e', hp'⟩ := hs (lo + n) s' (by omega) (by omega) hp
    refine ⟨s'', ?_, hp'⟩
    rw [← Nat.add_assoc, forR_snoc (by omega), e]
    simpa using e'

/-- Partial invariant rule: if the loop returns, the invariant holds; if it fails, the body failed from a state
satisfying the invariant. -/
theorem forR_noUB {β : Type} {lo hi : Nat} {s : β} {body : Nat → β → Res β} (P : Nat → β → Prop)
    (h0 : P lo s) (hs : ∀ i s, lo ≤ i → i < hi → P i s → NoUB (body i s) ∧ ∀ s', body i s = Except.ok s' → P (i + 1) s') :
    NoUB (forR lo hi s body) ∧ ∀ s', forR lo hi s body = Except.ok s' → lo ≤ hi → P hi s' := by
  by_cases hle : lo ≤ hi
  · obtain ⟨n, rfl⟩ : ∃ n, hi = lo + n := ⟨hi - lo, by omega⟩
    clear hle
    induction n with
    | zero => rw [forR_stop (by omega)]; simpa using h0
    | succ n ih =>
      obtain ⟨e, hp⟩ := ih (fun i s hi1 hi2 => hs i s hi1 (by omega))
      rw [← Nat.add_assoc, forR_snoc (by omega)]
      constructor
      · apply noUB_bind e
        intro a ha
        exact (hs (lo + n) a (by omega) (by omega) (hp a ha (by omega))).1
      · intro s' h _
        obtain ⟨a, ha, hb⟩ := bind_eq_ok.1 h
        exact (hs (lo + n) a (by omega) (by omega) (hp a ha (by omega))).2 s' hb
  · rw [forR_stop (by omega)]
    exact ⟨by simp, fun _ _ h => absurd h hle⟩

/-! ## Buffers -/

theorem Buf.write_ok {α : Type u} {b : Buf α} {i : Nat} {v : α} (h : i < b.length) :
    b.write i v = Except.ok (b.set i (some v)) := by simp [Buf.write, h]

theorem Buf.complete_map_some {α : Type u} (l : List α) : Buf.complete (l.map some) = some l := by
  induction l with
  | nil => rfl
  | cons a l ih =>
    unfold Buf.complete at *
    simp only [List.map_cons, List.mapM_cons, id_eq]
    rw [ih]; rfl

/-- `Fills L P g body`: on every block of `L` slots the code `body` succeeds, writes exactly the slots satisfying `P`,
and leaves in every written slot `p` the value `g p`. -/
def Fills {α : Type} (L : Nat) (P : Nat → Prop) (g : Nat → α) (body : Buf α → Res (Buf α)) : Prop :=
  ∀ b : Buf α, b.length = L → ∃ b', body b = Except.ok b' ∧ b'.length = L ∧
    ∀ p, p < L → (P p → b'[p]? = some (some (g p))) ∧ (¬ P p → b'[p]? = b[p]?)

theorem fills_write {α : Type} {L : Nat} {g : Nat → α} {i : Nat} {v : α} (h : i < L) (hv : v = g i) :
    Fills L (· = i) g (fun b => b.write i v) := by
  intro b hb
  refine ⟨b.set i (some v), Buf.write_ok (by omega), by simp [hb], ?_⟩
  intro p hp
  constructor
  · rintro rfl; rw [List.getElem?_set_self (by omega), hv]
  · intro hne; rw [List.getElem?_set_ne (by omega)]

theorem Fills.congr {α : Type} {L : Nat} {P Q : Nat → Prop} {g : Nat → α} {body body' : Buf α → Res (Buf α)}
    (h : Fills L P g body) (hP : ∀ p, p < L → (P p ↔ Q p)) (hb : ∀ b, body' b = body b) : Fills L Q g body' := by
  intro b hl
  obtain ⟨b', e, hl', hw⟩ := h b hl
  refine ⟨b', by rw [hb, e], hl', fun p hp => ?_⟩
  rw [← hP p hp]; exact hw p hp

theorem fills_loop {α : Type} {L : Nat} {g : Nat → α} {lo hi : Nat} {P : Nat → Nat → Prop}
    {body : Nat → Buf α → Res (Buf α)} (h : ∀ i, lo ≤ i → i < hi → Fills L (P i) g (body i)) :
    Fills L (fun p => ∃ i, lo ≤ i ∧ i < hi ∧ P i p) g (fun b => forR lo hi b body) := by
  intro b hb
  by_cases hle : lo ≤ hi
  · obtain ⟨s', e, hl, hw⟩ := forR_inv hle (s := b) (body := body)
      (fun k b' => b'.length = L ∧ ∀ p, p < L →
        ((∃ i, lo ≤ i ∧ i < k ∧ P i p) → b'[p]? = some (some (g p))) ∧
        ((¬ ∃ i, lo ≤ i ∧ i < k ∧ P i p) → b'[p]? = b[p]?))
      ⟨hb, fun p _ => ⟨fun ⟨i, h1, h2, _⟩ => by omega, fun _ => rfl⟩⟩
      (by
        rintro k b' hk1 hk2 ⟨hl, hw⟩
        obtain ⟨b'', e, hl'', hw''⟩ := h k hk1 hk2 b' hl
        refine ⟨b'', e, hl'', fun p hp => ⟨?_, ?_⟩⟩
        · rintro ⟨i, h1, h2, h3⟩
          by_cases hkp : P k p
          · exact (hw'' p hp).1 hkp
          · rw [(hw'' p hp).2 hkp]
            apply (hw p hp).1
            refine ⟨i, h1, ?_, h3⟩
            rcases Nat.lt_succ_iff_lt_or_eq.1 h2 with h | h
            · exact h
            · subst h; exact absurd h3 hkp
        · intro hn
          have hkp : ¬ P k p := fun hkp => hn ⟨k, hk1, by omega, hkp⟩
          rw [(hw'' p hp).2 hkp]
          apply (hw p hp).2
          rintro ⟨i, h1, h2, h3⟩
          exact hn ⟨i, h1, by omega, h3⟩)
    exact ⟨s', e, hl, hw⟩
  · refine ⟨b, by show forR lo hi b body = _; rw [forR_stop (by omega)]; rfl, hb, fun p _ => ⟨fun ⟨i, h1, h2, _⟩ => by omega, fun _ => rfl⟩⟩

/-- A body that fills every slot turns an uninitialised block into the list of intended values. -/
theorem Fills.complete {α : Type} {L : Nat} {P : Nat → Prop} {g : Nat → α} {body : Buf α → Res (Buf α)}
    (h : Fills L P g body) (hP : ∀ p, p < L → P p) :
    body (Buf.uninit L) = Except.ok (((List.range L).map g).map some) := by
  obtain ⟨b', e, hl, hw⟩ := h (Buf.uninit L) (by simp [Buf.uninit])
  rw [e]
  congr 1
  apply List.ext_getElem?
  intro p
  by_cases hp : p < L
  · rw [(hw p hp).1 (hP p hp)]; simp [hp]
  · rw [List.getElem?_eq_none (by omega), List.getElem?_eq_none (by simp; omega)]

/-- Safety of a body on blocks of `L` slots: never undefined behaviour, and the block keeps its length. -/
def SafeBody {α : Type} (L : Nat) (body : Buf α → Res (Buf α)) : Prop :=
  ∀ b : Buf α, b.length = L → NoUB (body b) ∧ ∀ b', body b = Except.ok b' → b'.length = L

end Essay
