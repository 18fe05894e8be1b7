import Verif.Spec.Build
import Verif.Lemmas.Base

/-!
# Outcomes that carry over from one build to another
-/

namespace Essay

variable {α β γ σ : Type}

/-- If `x` returns a value, `y` returns the same. -/
structure Refines (x y : Res α) : Prop where
  apply : ∀ v, x = .ok v → y = .ok v

/-- `Refines` from every state. -/
structure RefinesM (x y : Exec σ α) : Prop where
  apply : ∀ s, Refines (x s) (y s)

theorem Refines.refl (x : Res α) : Refines x x := ⟨fun _ h => h⟩

theorem Refines.bind {x y : Res α} {f g : α → Res β} (h : Refines x y) (hf : ∀ a, x = .ok a → Refines (f a) (g a)) :
    Refines (x >>= f) (y >>= g) := by
  refine ⟨fun v hv => ?_⟩
  obtain ⟨a, ha, hv⟩ := bind_eq_ok.1 hv
  rw [h.apply a ha]
  exact (hf a ha).apply v hv

theorem Refines.ite {c : Prop} [Decidable c] {a b a' b' : Res α} (h : c → Refines a a') (h' : ¬ c → Refines b b') :
    Refines (if c then a else b) (if c then a' else b') := by
  by_cases hc : c
  · rw [if_pos hc, if_pos hc]; exact h hc
  · rw [if_neg hc, if_neg hc]; exact h' hc

theorem Refines.foldlM {l : List γ} {f g : β → γ → Res β} (h : ∀ b c, Refines (f b c) (g b c)) (s : β) :
    Refines (l.foldlM f s) (l.foldlM g s) := by
  induction l generalizing s with
  | nil => exact .refl _
  | cons c l ih => exact .bind (h s c) fun b _ => ih b

theorem Refines.forR {lo hi : Nat} {s : β} {f g : Nat → β → Res β} (h : ∀ i b, Refines (f i b) (g i b)) :
    Refines (forR lo hi s f) (forR lo hi s g) := .foldlM (fun b i => h i b) s

theorem Refines.forL {l : List γ} {s : β} {f g : γ → β → Res β} (h : ∀ i b, Refines (f i b) (g i b)) :
    Refines (forL l s f) (forL l s g) := .foldlM (fun b i => h i b) s

theorem Refines.mapM {l : List γ} {f g : γ → Res β} (h : ∀ c, Refines (f c) (g c)) : Refines (l.mapM f) (l.mapM g) := by
  induction l with
  | nil => exact .refl _
  | cons c l ih =>
    rw [List.mapM_cons, List.mapM_cons]
    exact .bind (h c) fun b _ => .bind ih fun _ _ => .refl _

theorem RefinesM.refl (x : Exec σ α) : RefinesM x x := ⟨fun _ => .refl _⟩

theorem RefinesM.bind {x y : Exec σ α} {f g : α → Exec σ β} (h : RefinesM x y) (hf : ∀ a, RefinesM (f a) (g a)) :
    RefinesM (x >>= f) (y >>= g) := ⟨fun s => .bind (h.apply s) fun a _ => (hf a.1).apply a.2⟩

theorem RefinesM.lift {x y : Res α} (h : Refines x y) : RefinesM (liftM x : Exec σ α) (liftM y) :=
  ⟨fun _ => .bind h fun _ _ => .refl _⟩

theorem RefinesM.ite {c : Prop} [Decidable c] {a b a' b' : Exec σ α} (h : c → RefinesM a a') (h' : ¬ c → RefinesM b b') :
    RefinesM (if c then a else b) (if c then a' else b') := by
  by_cases hc : c
  · rw [if_pos hc, if_pos hc]; exact h hc
  · rw [if_neg hc, if_neg hc]; exact h' hc

theorem RefinesM.foldlM {l : List γ} {f g : β → γ → Exec σ β} (h : ∀ b c, RefinesM (f b c) (g b c)) (s : β) :
    RefinesM (l.foldlM f s) (l.foldlM g s) := by
  induction l generalizing s with
  | nil => exact .refl _
  | cons c l ih => exact .bind (h s c) fun b => ih b

theorem RefinesM.forR {lo hi : Nat} {s : β} {f g : Nat → β → Exec σ β} (h : ∀ i b, RefinesM (f i b) (g i b)) :
    RefinesM (forR lo hi s f) (forR lo hi s g) := .foldlM (fun b i => h i b) s

theorem RefinesM.forL {l : List γ} {s : β} {f g : γ → β → Exec σ β} (h : ∀ i b, RefinesM (f i b) (g i b)) :
    RefinesM (forL l s f) (forL l s g) := .foldlM (fun b i => h i b) s

/-- `Refines` for an outcome that may be missing. -/
structure RefinesO (x y : Option (Res α)) : Prop where
  apply : ∀ v, x = some (.ok v) → y = some (.ok v)

theorem RefinesO.refl (x : Option (Res α)) : RefinesO x x := ⟨fun _ h => h⟩

theorem RefinesO.some {x y : Res α} (h : Refines x y) : RefinesO (some x) (some y) :=
  ⟨fun v hv => by rw [h.apply v (Option.some.inj hv)]⟩

theorem RefinesO.pure {x y : Res α} (h : Refines x y) : RefinesO (pure x) (pure y) := .some h

theorem RefinesO.map {o : Option β} {f g : β → Res α} (h : ∀ b, Refines (f b) (g b)) : RefinesO (o.map f) (o.map g) := by
  cases o with
  | none => exact .refl _
  | some b => exact .some (h b)

theorem RefinesO.bind {o : Option β} {f g : β → Option (Res α)} (h : ∀ b, RefinesO (f b) (g b)) :
    RefinesO (o >>= f) (o >>= g) := by
  cases o with
  | none => exact .refl _
  | some b => exact h b

theorem RefinesO.ite {c : Prop} [Decidable c] {a b a' b' : Option (Res α)} (h : c → RefinesO a a')
    (h' : ¬ c → RefinesO b b') : RefinesO (if c then a else b) (if c then a' else b') := by
  by_cases hc : c
  · rw [if_pos hc, if_pos hc]; exact h hc
  · rw [if_neg hc, if_neg hc]; exact h' hc

theorem usub_refines (a b : Nat) : Refines (@usub .checked a b) (@usub .release a b) := by
  refine ⟨fun v h => ?_⟩
  unfold usub at *
  split at h
  · rw [if_pos (by assumption)]; exact h
  · cases h

theorem mulU32_refines (a b : Nat) : Refines (@mulU32 .checked a b) (@mulU32 .release a b) := by
  refine ⟨fun v h => ?_⟩
  unfold mulU32 at *
  split at h
  · rw [if_pos (by assumption)]; exact h
  · cases h

theorem iadd_refines (a b : Int) : Refines (@iadd .checked a b) (@iadd .release a b) := by
  refine ⟨fun v h => ?_⟩
  unfold iadd at *
  split at h
  · rw [if_pos (by assumption)]; exact h
  · cases h

theorem wrap_le_refines (a b : Nat) :
    Refines (ensure (Build.checked.wrap a ≤ b)) (ensure (Build.release.wrap a ≤ b)) := by
  refine ⟨fun v h => ?_⟩
  by_cases hc : a ≤ b
  · exact ensure_true (Nat.le_trans (Nat.mod_le a _) hc)
  · exact absurd (h.symm.trans (show ensure (Build.checked.wrap a ≤ b) = _ from ensure_false hc)) (by simp)

theorem RefinesM.run {x y : Exec σ α} (h : RefinesM x y) (s : σ) : Refines (StateT.run x s) (StateT.run y s) := h.apply s

/-- One step towards `Refines x y` with `x` and `y` the two versions of one term. -/
syntax "carry1" : tactic

macro_rules | `(tactic| carry1) => `(tactic| with_reducible exact Refines.refl _)
macro_rules | `(tactic| carry1) => `(tactic| with_reducible exact RefinesM.refl _)
macro_rules | `(tactic| carry1) => `(tactic| with_reducible exact RefinesO.refl _)
macro_rules | `(tactic| carry1) => `(tactic| with_reducible apply RefinesO.some)
macro_rules | `(tactic| carry1) => `(tactic| with_reducible apply RefinesO.pure)
macro_rules | `(tactic| carry1) => `(tactic| with_reducible apply RefinesO.map)
macro_rules | `(tactic| carry1) => `(tactic| with_reducible apply RefinesO.bind)
macro_rules | `(tactic| carry1) => `(tactic| with_reducible apply RefinesO.ite)
macro_rules | `(tactic| carry1) => `(tactic| with_reducible apply Refines.mapM)
macro_rules | `(tactic| carry1) => `(tactic| with_reducible apply Refines.foldlM)
macro_rules | `(tactic| carry1) => `(tactic| with_reducible apply RefinesM.foldlM)
macro_rules | `(tactic| carry1) => `(tactic| with_reducible apply Refines.forL)
macro_rules | `(tactic| carry1) => `(tactic| with_reducible apply RefinesM.forL)
macro_rules | `(tactic| carry1) => `(tactic| with_reducible apply Refines.forR)
macro_rules | `(tactic| carry1) => `(tactic| with_reducible apply RefinesM.forR)
macro_rules | `(tactic| carry1) => `(tactic| with_reducible apply Refines.ite)
macro_rules | `(tactic| carry1) => `(tactic| with_reducible apply RefinesM.ite)
macro_rules | `(tactic| carry1) => `(tactic| with_reducible apply RefinesM.lift)
macro_rules | `(tactic| carry1) => `(tactic| with_reducible apply Refines.bind)
macro_rules | `(tactic| carry1) => `(tactic| with_reducible apply RefinesM.bind)
macro_rules | `(tactic| carry1) => `(tactic| with_reducible apply RefinesM.run)
macro_rules | `(tactic| carry1) => `(tactic| with_reducible apply usub_refines)
macro_rules | `(tactic| carry1) => `(tactic| with_reducible apply mulU32_refines)
macro_rules | `(tactic| carry1) => `(tactic| with_reducible apply iadd_refines)
macro_rules | `(tactic| carry1) => `(tactic| with_reducible apply wrap_le_refines)

/-- `Refines` for the two versions of one term, by the lemmas given. -/
syntax "carry" "[" term,* "]" : tactic

macro_rules
  | `(tactic| carry [$ts,*]) => do
    let mut step ← `(tactic| first | carry1 | assumption | intro _ | dsimp only | split)
    for t in ts.getElems do
      step ← `(tactic| first | with_reducible apply $t | $step:tactic)
    `(tactic| repeat' $step:tactic)

end Essay
