import Verif.Spec.Unwind
import Verif.Lemmas.Clones

/-! # Helper lemmas for panics and ownership (no claims here) -/

namespace Essay

open Shape

variable {α β γ σ : Type}

namespace Own

@[simp] theorem go_of (f : Ledger α σ → Except Err β × Ledger α σ) (l : Ledger α σ) : (Own.of f).go l = f l := rfl

@[simp] theorem go_pure (b : β) (l : Ledger α σ) : (pure b : Own α σ β).go l = (.ok b, l) := rfl

theorem go_bind (x : Own α σ β) (f : β → Own α σ γ) (l : Ledger α σ) :
    (x >>= f).go l = match x.go l with
      | (.ok b, l') => (f b).go l'
      | (.error e, l') => (.error e, l') := by
  unfold Own.go
  rw [ExceptT.run_bind, StateT.run_bind]
  generalize (x.run.run l : Id (Except Err β × Ledger α σ)) = p
  change Except Err β × Ledger α σ at p
  obtain ⟨r, l'⟩ := p
  cases r <;> rfl

theorem go_lift (r : Res β) (l : Ledger α σ) : (liftM r : Own α σ β).go l = (r, l) := rfl

theorem go_holding (own : List α) (x : Own α σ β) (l : Ledger α σ) :
    (Unwinds.holding own x : Own α σ β).go l = match x.go l with
      | (.error .panic, l') => (.error .panic, { l' with dropped := l'.dropped ++ own })
      | r => r := by
  show (Own.of _).go l = _
  rw [Own.go_of]
  rcases x.go l with ⟨(_ | _) | _, l'⟩ <;> rfl

theorem ext {x y : Own α σ β} (h : ∀ l, x.go l = y.go l) : x = y := by
  refine ExceptT.ext ?_
  refine StateT.ext ?_
  exact h

end Own

theorem perm_step {a b own vs vs' ds ds' : List α} (h : (a ++ ds).Perm (own ++ vs)) (h' : (b ++ ds').Perm (a ++ vs')) :
    (b ++ (ds ++ ds')).Perm (own ++ (vs ++ vs')) := by
  classical
  simp only [List.perm_iff_count, List.count_append] at *
  intro x
  have := h x
  have := h' x
  omega

namespace Settled

variable {k : Nat} {own : List α} {x : Own α σ β} {toks toks' : β → List α} {post post' : β → Prop}

theorem ret {b : β} (h : (toks b).Perm own) (hp : post b) : Settled k own (pure b : Own α σ β) toks post := by
  intro l
  rw [Own.go_pure]
  exact ⟨hp, [], [], by simp, by simp, by simpa using h⟩

theorem lift (r : Res β) (h : ∀ b, r = .ok b → toks b = [] ∧ post b) : Settled k [] (liftM r : Own α σ β) toks post := by
  intro l
  rw [Own.go_lift]
  match r, h with
  | .ok b, h => exact ⟨(h b rfl).2, [], [], by simp, by simp, by simp [(h b rfl).1]⟩
  | .error .panic, _ => exact ⟨[], [], [], by simp, by simp, by simp, by simp⟩
  | .error .ub, _ => trivial

theorem bind {f : β → Own α σ γ} {toks' : γ → List α} {post' : γ → Prop} (h : Settled k own x toks post)
    (hf : ∀ b, post b → Settled k (toks b) (f b) toks' post') : Settled k own (x >>= f) toks' post' := by
  intro l
  have h := h l
  rw [Own.go_bind]
  match hx : x.go l, h with
  | (.error .panic, l'), h => exact h
  | (.error .ub, l'), _ => trivial
  | (.ok b, l'), ⟨hp, vs, ds, e1, e2, e3⟩ =>
    have hf := hf b hp l'
    show match (f b).go l' with
      | (.ok b, l') => _
      | (.error .panic, l') => _
      | (.error .ub, _) => _
    match (f b).go l', hf with
    | (.ok c, l''), ⟨hp', vs', ds', e1', e2', e3'⟩ =>
      refine ⟨hp', vs ++ vs', ds ++ ds', by rw [e1', e1, List.append_assoc], by rw [e2', e2, List.append_assoc], ?_⟩
      exact perm_step e3 e3'
    | (.error .panic, l''), ⟨vs', ds', lost, e1', e2', e3', e4'⟩ =>
      refine ⟨vs ++ vs', ds ++ ds', lost, by rw [e1', e1, List.append_assoc], by rw [e2', e2, List.append_assoc], ?_, e4'⟩
      exact perm_step e3 e3'
    | (.error .ub, _), _ => trivial

theorem mono {k' : Nat} (h : Settled k own x toks post) (hk : k ≤ k') : Settled k' own x toks post := by
  intro l
  have h := h l
  match x.go l, h with
  | (.ok b, l'), h => exact h
  | (.error .panic, l'), ⟨vs, ds, lost, e1, e2, e3, e4⟩ => exact ⟨vs, ds, lost, e1, e2, e3, by omega⟩
  | (.error .ub, _), _ => trivial

theorem imp (h : Settled k own x toks post) {own' : List α} (ho : own.Perm own')
    (hp : ∀ b, post b → post' b ∧ (toks' b).Perm (toks b)) : Settled k own' x toks' post' := by
  intro l
  have h := h l
  match x.go l, h with
  | (.ok b, l'), ⟨hb, vs, ds, e1, e2, e3⟩ =>
    exact ⟨(hp b hb).1, vs, ds, e1, e2, (((hp b hb).2.append_right ds).trans e3).trans (ho.append_right vs)⟩
  | (.error .panic, l'), ⟨vs, ds, lost, e1, e2, e3, e4⟩ =>
    exact ⟨vs, ds, lost, e1, e2, e3.trans (ho.append_right vs), e4⟩
  | (.error .ub, _), _ => trivial

/-- Values in a raw block are lost by a panic. -/
theorem loose (h : Settled k own x toks post) (extra : List α) :
    Settled (k + extra.length) (extra ++ own) x (fun b => extra ++ toks b) post := by
  intro l
  have h := h l
  match x.go l, h with
  | (.ok b, l'), ⟨hb, vs, ds, e1, e2, e3⟩ =>
    refine ⟨hb, vs, ds, e1, e2, ?_⟩
    rw [List.append_assoc, List.append_assoc]
    exact e3.append_left extra
  | (.error .panic, l'), ⟨vs, ds, lost, e1, e2, e3, e4⟩ =>
    refine ⟨vs, ds, extra ++ lost, e1, e2, ?_, by simp; omega⟩
    rw [List.append_assoc, List.append_assoc]
    exact e3.append_left extra
  | (.error .ub, _), _ => trivial

/-- Values owned by a frame are dropped by a panic. -/
theorem held (h : Settled k own x toks post) (extra : List α) :
    Settled k (extra ++ own) (Unwinds.holding extra x : Own α σ β) (fun b => extra ++ toks b) post := by
  intro l
  have h := h l
  rw [Own.go_holding]
  match x.go l, h with
  | (.ok b, l'), ⟨hb, vs, ds, e1, e2, e3⟩ =>
    refine ⟨hb, vs, ds, e1, e2, ?_⟩
    rw [List.append_assoc, List.append_assoc]
    exact e3.append_left extra
  | (.error .panic, l'), ⟨vs, ds, lost, e1, e2, e3, e4⟩ =>
    refine ⟨vs, ds ++ extra, lost, e1, by simp [e2], ?_, e4⟩
    rw [← List.append_assoc, List.append_assoc extra]
    exact (e3.append_right extra).trans List.perm_append_comm
  | (.error .ub, _), _ => trivial

theorem dropAll (vs : List α) : Settled k vs (Unwinds.drop vs : Own α σ Unit) (fun _ => []) fun _ => True := by
  intro l
  exact ⟨trivial, [], vs, by show l.made = _; simp, rfl, by simp⟩

theorem track (c : γ → σ → Except Err α × σ) (y : γ) : Settled k [] (Own.track c y : Own α σ α) (fun v => [v]) := by
  intro l
  unfold Own.track
  rw [Own.go_of]
  match c y l.env with
  | (.ok v, e) => exact ⟨trivial, [v], [], rfl, by simp, by simp⟩
  | (.error .panic, e) => exact ⟨[], [], [], by simp, by simp, by simp, by simp⟩
  | (.error .ub, e) => trivial

/-- A loop whose state keeps an invariant. -/
theorem loop {lo hi : Nat} {s : β} {body : Nat → β → Own α σ β} (Inv : Nat → β → Prop) (hle : lo ≤ hi) (h0 : Inv lo s)
    (hb : ∀ i s, lo ≤ i → i < hi → Inv i s → Settled k (toks s) (body i s) toks (Inv (i + 1))) :
    Settled k (toks s) (forR lo hi s body) toks (Inv hi) := by
  induction hi, hle using Nat.le_induction with
  | base => rw [forR_stop (Nat.le_refl _)]; exact ret (List.Perm.refl _) h0
  | succ n hn ih =>
    rw [forR_snoc hn]
    exact (ih fun i s h1 h2 => hb i s h1 (by omega)).bind fun b h => hb n b hn (by omega) h

theorem loopL {xs : List γ} {s : β} {body : γ → β → Own α σ β} (h0 : post s)
    (hb : ∀ y s, y ∈ xs → post s → Settled k (toks s) (body y s) toks post) : Settled k (toks s) (forL xs s body) toks post := by
  induction xs generalizing s with
  | nil => exact ret (List.Perm.refl _) h0
  | cons y xs ih =>
    rw [Clones.forL_step]
    exact (hb y s (by simp) h0).bind fun b h => ih h fun z s hz => hb z s (List.mem_cons_of_mem _ hz)

end Settled

end Essay
