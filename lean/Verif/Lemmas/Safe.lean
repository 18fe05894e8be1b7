import Verif.Lemmas.Reach
import Verif.Props.Signal
import Verif.Lemmas.Split
import Verif.Lemmas.Tile
import Verif.Lemmas.Init
import Verif.Props.Io

/-! # Helper lemmas on undefined behaviour (no claims here) -/

namespace Essay

open Shape

/-- No undefined behaviour, and every returned value satisfies `P`. -/
def SafeR {α : Type} (x : Res α) (P : α → Prop) : Prop := NoUB x ∧ Post x P

/-- No undefined behaviour, and every returned value satisfies `P`, from every closure state. -/
def SafeE {σ α : Type} (x : Exec σ α) (P : α → Prop) : Prop := ∀ s, NoUB (x.run s) ∧ ∀ r, x.run s = Except.ok r → P r.1

section
variable {σ α β γ : Type}

theorem SafeR.mono {x : Res α} {P Q : α → Prop} (h : SafeR x P) (hPQ : ∀ a, P a → Q a) : SafeR x Q :=
  ⟨h.1, h.2.mono hPQ⟩

theorem SafeR.bind {x : Res α} {f : α → Res β} {Q : α → Prop} {P : β → Prop} (hx : SafeR x Q)
    (hf : ∀ a, Q a → SafeR (f a) P) : SafeR (x >>= f) P :=
  ⟨noUB_bind hx.1 fun a ha => (hf a (hx.2 a ha)).1, hx.2.bind fun a ha => (hf a ha).2⟩

theorem SafeR.bind' {x : Res α} {f : α → Res β} {P : β → Prop} (hx : NoUB x)
    (hf : ∀ a, x = Except.ok a → SafeR (f a) P) : SafeR (x >>= f) P :=
  ⟨noUB_bind hx fun a ha => (hf a ha).1, Post.bind' fun a ha => (hf a ha).2⟩

theorem safeR_pure {a : α} {P : α → Prop} (h : P a) : SafeR (pure a) P := ⟨noUB_ok a, post_pure h⟩

theorem safeR_true {x : Res α} (h : NoUB x) : SafeR x fun _ => True := ⟨h, post_true⟩

theorem SafeE.mono {x : Exec σ α} {P Q : α → Prop} (h : SafeE x P) (hPQ : ∀ a, P a → Q a) : SafeE x Q :=
  fun s => ⟨(h s).1, fun r hr => hPQ _ ((h s).2 r hr)⟩

theorem SafeE.bind {x : Exec σ α} {f : α → Exec σ β} {Q : α → Prop} {P : β → Prop} (hx : SafeE x Q)
    (hf : ∀ a, Q a → SafeE (f a) P) : SafeE (x >>= f) P := by
  intro s
  rw [StateT.run_bind]
  constructor
  · exact noUB_bind (hx s).1 fun r hr => (hf r.1 ((hx s).2 r hr) r.2).1
  · intro r hr
    obtain ⟨a, ha, hb⟩ := bind_eq_ok.1 hr
    exact (hf a.1 ((hx s).2 a ha) a.2).2 r hb

theorem safeE_lift {x : Res α} {P : α → Prop} (h : SafeR x P) : SafeE (liftM x : Exec σ α) P := by
  intro s
  cases x with
  | ok a => exact ⟨noUB_ok _, fun r hr => by cases hr; exact h.2 a rfl⟩
  | error e => cases e with
    | panic => exact ⟨noUB_panic, fun r hr => by cases hr⟩
    | ub => exact absurd rfl h.1

theorem SafeE.lift_bind {x : Res α} {f : α → Exec σ β} {P : β → Prop} (hx : NoUB x)
    (hf : ∀ a, x = Except.ok a → SafeE (f a) P) : SafeE ((liftM x : Exec σ α) >>= f) P := by
  intro s
  cases x with
  | ok a => exact hf a rfl s
  | error e => cases e with
    | panic => exact ⟨noUB_panic, fun r hr => by cases hr⟩
    | ub => exact absurd rfl hx

theorem safeE_pure {a : α} {P : α → Prop} (h : P a) : SafeE (pure a : Exec σ α) P := by
  intro s
  exact ⟨noUB_ok _, fun r hr => by cases hr; exact h⟩

theorem SafeE.runPure {x : Exec Unit α} {P : α → Prop} (h : SafeE x P) : SafeR (Tensor.runPure x) P := by
  unfold Tensor.runPure
  exact SafeR.bind' (h ()).1 fun r hr => safeR_pure ((h ()).2 r hr)

theorem safeE_closure {x : Exec σ α} (h : ∀ s, NoUB (x.run s)) : SafeE x fun _ => True := fun s => ⟨h s, fun _ _ => trivial⟩

theorem forR_safeR {lo hi : Nat} {s : β} {body : Nat → β → Res β} (P : Nat → β → Prop) (hle : lo ≤ hi) (h0 : P lo s)
    (h : ∀ i s, lo ≤ i → i < hi → P i s → SafeR (body i s) (P (i + 1))) : SafeR (forR lo hi s body) (P hi) := by
  obtain ⟨h1, h2⟩ := forR_noUB (body := body) P h0 fun i s hi1 hi2 hp => h i s hi1 hi2 hp
  exact ⟨h1, fun a ha => h2 a ha hle⟩

theorem forR_safeE {lo hi : Nat} {s : β} {body : Nat → β → Exec σ β} (P : Nat → β → Prop) (hle : lo ≤ hi) (h0 : P lo s)
    (h : ∀ i s, lo ≤ i → i < hi → P i s → SafeE (body i s) (P (i + 1))) : SafeE (forR lo hi s body) (P hi) := by
  obtain ⟨n, rfl⟩ := Nat.exists_eq_add_of_le hle
  unfold forR
  rw [Nat.add_sub_cancel_left]
  induction n generalizing lo s with
  | zero => exact safeE_pure h0
  | succ n ih =>
    rw [List.range'_succ, List.foldlM_cons]
    refine (h lo s (Nat.le_refl _) (by omega) h0).bind fun s' hs' => ?_
    have := ih (lo := lo + 1) (s := s') hs' (by omega) fun i s h1 h2 hp => h i s (by omega) (by omega) hp
    rwa [show lo + 1 + n = lo + (n + 1) by omega] at this

theorem forL_safeR {xs : List γ} {s : β} {body : γ → β → Res β} (P : β → Prop) (h0 : P s)
    (h : ∀ x ∈ xs, ∀ s, P s → SafeR (body x s) P) : SafeR (forL xs s body) P := by
  unfold forL
  induction xs generalizing s with
  | nil => exact safeR_pure h0
  | cons x xs ih =>
    rw [List.foldlM_cons]
    exact (h x List.mem_cons_self s h0).bind fun s' hs' => ih hs' fun y hy => h y (List.mem_cons_of_mem _ hy)

/-! ### blocks -/

/-- A block of `L` slots of which at least those in `W` have been written. -/
def Has {α : Type} (L : Nat) (W : Nat → Prop) (b : Buf α) : Prop := b.length = L ∧ ∀ j, W j → ∃ v, b[j]? = some (some v)

theorem has_uninit (L : Nat) : Has L (fun _ => False) (Buf.uninit L : Buf α) := ⟨by simp [Buf.uninit], fun _ h => h.elim⟩

theorem Has.mono {L : Nat} {W W' : Nat → Prop} {b : Buf α} (h : Has L W b) (hW : ∀ j, W' j → W j) : Has L W' b :=
  ⟨h.1, fun j hj => h.2 j (hW j hj)⟩

theorem write_safe {L : Nat} {W : Nat → Prop} {b : Buf α} (h : Has L W b) {j : Nat} (hj : j < L) (v : α) :
    SafeR (b.write j v) (Has L fun i => W i ∨ i = j) := by
  unfold Buf.write
  rw [if_pos (by rw [h.1]; exact hj)]
  refine safeR_pure ⟨by simpa using h.1, fun i hi => ?_⟩
  by_cases hij : i = j
  · exact ⟨v, by rw [hij, List.getElem?_set_self (by rw [h.1]; exact hj)]⟩
  · rw [List.getElem?_set_ne (fun h => hij h.symm)]
    exact h.2 i (hi.resolve_right hij)

theorem has_complete {L : Nat} {W : Nat → Prop} {b : Buf α} (h : Has L W b) (hW : ∀ j, j < L → W j) :
    ∃ l, b.complete = some l := by
  replace h : ∀ j, j < b.length → ∃ v, b[j]? = some (some v) := fun j hj => h.2 j (hW j (h.1 ▸ hj))
  clear hW
  suffices ∃ l : List α, b = l.map some by
    obtain ⟨l, rfl⟩ := this
    exact ⟨l, Buf.complete_map_some l⟩
  induction b with
  | nil => exact ⟨[], rfl⟩
  | cons x b ih =>
    obtain ⟨v, hv⟩ := h 0 (by simp)
    obtain ⟨l, rfl⟩ := ih fun j hj => by
      obtain ⟨v, hv⟩ := h (j + 1) (by simpa using hj)
      exact ⟨v, by simpa using hv⟩
    exact ⟨v :: l, by simpa using hv⟩

theorem finish_safe {L : Nat} {W : Nat → Prop} {b : Buf α} (h : Has L W b) (hW : ∀ j, j < L → W j) (s : Shape) :
    NoUB (Tensor.finish b s) := by
  obtain ⟨l, hl⟩ := has_complete h hW
  unfold Tensor.finish
  rw [hl]
  exact noUB_new s

theorem unsafeInit_safe {L : Nat} {s : Shape} {f : Buf α → Res (Buf α)} (W : Nat → Prop) (hW : ∀ j, j < L → W j)
    (h : ∀ b, Has L (fun _ => False) b → SafeR (f b) (Has L W)) : NoUB (Tensor.unsafeInit L s f) := by
  unfold Tensor.unsafeInit
  have := h _ (has_uninit L)
  exact noUB_bind this.1 fun b hb => finish_safe (this.2 b hb) hW s

theorem unsafeInitM_safe {L : Nat} {s : Shape} {f : Buf α → Exec σ (Buf α)} (W : Nat → Prop) (hW : ∀ j, j < L → W j)
    (h : ∀ b, Has L (fun _ => False) b → SafeE (f b) (Has L W)) : SafeE (Tensor.unsafeInitM L s f) fun _ => True := by
  unfold Tensor.unsafeInitM
  exact (h _ (has_uninit L)).bind fun b hb => safeE_lift (safeR_true (finish_safe hb hW s))

/-- The slots written by a loop are those written by its iterations. -/
theorem forR_has {L lo hi : Nat} {W0 : Nat → Prop} {W : Nat → Nat → Prop} {b : Buf α} {body : Nat → Buf α → Res (Buf α)}
    (hb : Has L W0 b) (h : ∀ i b V, lo ≤ i → i < hi → Has L V b → SafeR (body i b) (Has L fun j => V j ∨ W i j)) :
    SafeR (forR lo hi b body) (Has L fun j => W0 j ∨ ∃ i, lo ≤ i ∧ i < hi ∧ W i j) := by
  by_cases hle : lo ≤ hi
  · refine forR_safeR (fun i => Has L fun j => W0 j ∨ ∃ i', lo ≤ i' ∧ i' < i ∧ W i' j) hle ?_ ?_
    · exact hb.mono fun j hj => hj.elim id fun ⟨i, h1, h2, _⟩ => absurd h2 (by omega)
    · intro i b h1 h2 hb
      refine (h i b _ h1 h2 hb).mono fun b hb => hb.mono fun j hj => ?_
      rcases hj with hj | ⟨i', h3, h4, h5⟩
      · exact Or.inl (Or.inl hj)
      · by_cases hi' : i' = i
        · exact Or.inr (hi' ▸ h5)
        · exact Or.inl (Or.inr ⟨i', h3, by omega, h5⟩)
  · unfold forR
    rw [show hi - lo = 0 by omega]
    exact safeR_pure (hb.mono fun j hj => hj.elim id fun ⟨i, h1, h2, _⟩ => absurd h2 (by omega))

theorem forR_hasE {L lo hi : Nat} {W0 : Nat → Prop} {W : Nat → Nat → Prop} {b : Buf α}
    {body : Nat → Buf α → Exec σ (Buf α)} (hb : Has L W0 b)
    (h : ∀ i b V, lo ≤ i → i < hi → Has L V b → SafeE (body i b) (Has L fun j => V j ∨ W i j)) :
    SafeE (forR lo hi b body) (Has L fun j => W0 j ∨ ∃ i, lo ≤ i ∧ i < hi ∧ W i j) := by
  by_cases hle : lo ≤ hi
  · refine forR_safeE (fun i => Has L fun j => W0 j ∨ ∃ i', lo ≤ i' ∧ i' < i ∧ W i' j) hle ?_ ?_
    · exact hb.mono fun j hj => hj.elim id fun ⟨i, h1, h2, _⟩ => absurd h2 (by omega)
    · intro i b h1 h2 hb
      refine (h i b _ h1 h2 hb).mono fun b hb => hb.mono fun j hj => ?_
      rcases hj with hj | ⟨i', h3, h4, h5⟩
      · exact Or.inl (Or.inl hj)
      · by_cases hi' : i' = i
        · exact Or.inr (hi' ▸ h5)
        · exact Or.inl (Or.inr ⟨i', h3, by omega, h5⟩)
  · unfold forR
    rw [show hi - lo = 0 by omega]
    exact safeE_pure (hb.mono fun j hj => hj.elim id fun ⟨i, h1, h2, _⟩ => absurd h2 (by omega))

/-- A loop running a closure on a state without a block. -/
theorem forR_closure {lo hi : Nat} {s : β} {body : Nat → β → Exec σ β} (h : ∀ i s st, NoUB ((body i s).run st)) :
    SafeE (forR lo hi s body) fun _ => True := by
  by_cases hle : lo ≤ hi
  · exact forR_safeE (fun _ _ => True) hle trivial fun i s _ _ _ => safeE_closure (h i s)
  · unfold forR
    rw [show hi - lo = 0 by omega]
    exact safeE_pure trivial

/-! ### numbers -/

theorem cover1 {L : Nat} : ∀ j, j < L → False ∨ ∃ i, 0 ≤ i ∧ i < L ∧ j = i := fun j hj => Or.inr ⟨j, by omega, hj, rfl⟩

theorem lt_of_lt_mul {n m i k : Nat} (hi : i < n) (hk : k < m) : i * m + k < n * m := by
  have : (i + 1) * m ≤ n * m := Nat.mul_le_mul_right m hi
  rw [Nat.succ_mul] at this
  omega

theorem exists_mul_add {n m j : Nat} (h : j < n * m) : ∃ i k, i < n ∧ k < m ∧ j = i * m + k := by
  have hm : 0 < m := by rcases Nat.eq_zero_or_pos m with rfl | h' <;> omega
  refine ⟨j / m, j % m, ?_, Nat.mod_lt _ hm, ?_⟩
  · exact (Nat.div_lt_iff_lt_mul hm).2 h
  · rw [Nat.mul_comm]; exact (Nat.div_add_mod j m).symm

end

end Essay
