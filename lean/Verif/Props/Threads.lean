import Verif.Props.Random
import Verif.Spec.Threads

/-!
# Property C88: threads do not disturb each other's draws
-/

namespace Essay

open Random

variable {F : Type}

theorem perform_some (fr : FRand F) {tid : Nat} {p : Process} {l : BitVec 128} (hl : p.locals tid = some l) {e : Event F}
    {o : Outcome F} {q : Process} (h : perform fr tid p e = .ok (o, q)) :
    FromSeed fr (next64 l).1 e o ∧ q = { p with locals := Function.update p.locals tid (some (next64 l).2) } := by
  have hn : newRand32 tid p = ((next64 l).1, { p with locals := Function.update p.locals tid (some (next64 l).2) }) := by
    unfold newRand32 nextU64 localRng; rw [hl]
  cases e with
  | new32 =>
    simp only [perform, hn, Except.ok.injEq, Prod.mk.injEq] at h
    exact ⟨h.1.symm, h.2.symm⟩
  | new64 =>
    have hn' : newRand64 tid p = ((next64 l).1.setWidth 128, { p with locals := Function.update p.locals tid (some (next64 l).2) }) := by
      unfold newRand64
      rw [show nextU64 tid p = newRand32 tid p from rfl, hn]
    simp only [perform, hn', Except.ok.injEq, Prod.mk.injEq] at h
    exact ⟨h.1.symm, h.2.symm⟩
  | normal s mean std =>
    unfold perform randomNormal initRand at h
    simp only [hn] at h
    cases e : (Tensor.init s (drawNormal fr ⟨mean, std, none⟩)).run (next64 l).1 with
    | error x => rw [e] at h; cases h
    | ok r =>
      rw [e] at h
      cases h
      refine ⟨⟨r.1, rfl, fun tid p => ?_⟩, rfl⟩
      unfold randomNormal initRand
      simp only
      rw [show drawNormal fr ⟨mean, std, some (next64 l).1⟩ = drawNormal fr ⟨mean, std, none⟩ from rfl, e]
      rfl
  | uniform s min max =>
    unfold perform randomUniform initRand at h
    simp only [hn] at h
    cases e : (Tensor.init s (drawUniform fr ⟨min, max, none⟩)).run (next64 l).1 with
    | error x => rw [e] at h; cases h
    | ok r =>
      rw [e] at h
      cases h
      refine ⟨⟨r.1, rfl, fun tid p => ?_⟩, rfl⟩
      unfold randomUniform initRand
      simp only
      rw [show drawUniform fr ⟨min, max, some (next64 l).1⟩ = drawUniform fr ⟨min, max, none⟩ from rfl, e]
      rfl

theorem initRand_other (seed : Option (BitVec 64)) {i tid : Nat} (p : Process) (hi : i ≠ tid) :
    (initRand seed i p).2.locals tid = p.locals tid := by
  unfold initRand
  cases seed with
  | some s => rfl
  | none =>
    unfold newRand32 nextU64 localRng
    cases e : p.locals i with
    | some l => simp only [Function.update_of_ne hi.symm]
    | none => simp only [Function.update_of_ne hi.symm]

theorem perform_other (fr : FRand F) {i tid : Nat} {p : Process} (hi : i ≠ tid) {e : Event F} {o : Outcome F} {q : Process}
    (h : perform fr i p e = .ok (o, q)) : q.locals tid = p.locals tid := by
  cases e with
  | new32 =>
    simp only [perform, Except.ok.injEq, Prod.mk.injEq] at h
    rw [← h.2]; exact initRand_other none p hi
  | new64 =>
    simp only [perform, Except.ok.injEq, Prod.mk.injEq] at h
    rw [← h.2]; exact initRand_other none p hi
  | normal s mean std =>
    unfold perform randomNormal at h
    cases e : (Tensor.init s (drawNormal fr ⟨mean, std, none⟩)).run (initRand none i p).1 with
    | error x => simp only [e] at h; cases h
    | ok r =>
      simp only [e] at h
      cases h
      exact initRand_other none p hi
  | uniform s min max =>
    unfold perform randomUniform at h
    cases e : (Tensor.init s (drawUniform fr ⟨min, max, none⟩)).run (initRand none i p).1 with
    | error x => simp only [e] at h; cases h
    | ok r =>
      simp only [e] at h
      cases h
      exact initRand_other none p hi

/-- C88: what a thread that has a generator draws, in any program, depends only on that generator and its own calls: its
`k`-th call returns what it would return with the `k`-th value of the generator given as seed. Calls of other threads and
`random_seed`, in whatever order, do not matter. -/
theorem C88_isolated (fr : FRand F) {tid : Nat} {p q : Process} {l : BitVec 128} (hl : p.locals tid = some l)
    {as : List (Nat × Action F)} {os : List (Nat × Outcome F)} (h : runAll fr as p = .ok (os, q)) :
    FromGenerator fr l (callsOf tid as) (resultsOf tid os) := by
  induction as generalizing p l os with
  | nil => cases h; rfl
  | cons a as ih =>
    obtain ⟨i, a⟩ := a
    cases a with
    | reseed s => exact ih (p := randomSeed s p) hl h
    | call e =>
      unfold runAll at h
      obtain ⟨⟨o, p'⟩, h1, h⟩ := bind_eq_ok.1 h
      obtain ⟨⟨os', q'⟩, h2, h⟩ := bind_eq_ok.1 h
      cases h
      by_cases hi : i = tid
      · subst hi
        obtain ⟨hs, rfl⟩ := perform_some fr hl h1
        have := ih (l := (next64 l).2) (by simp) h2
        simp only [callsOf, if_true, resultsOf, List.filter_cons, decide_true, List.map_cons]
        exact ⟨_, _, rfl, hs, this⟩
      · have := ih ((perform_other fr hi h1).trans hl) h2
        simp only [callsOf, resultsOf, List.filter_cons, decide_false, hi, Bool.false_eq_true, if_false]
        exact this

/-- C88: the first call of a thread makes its generator, from the process-wide seed if it is not 0 (which moves on to the
next value of its chain), else from the operating system. -/
theorem C88_first_use (fr : FRand F) {tid : Nat} {p q : Process} (hl : p.locals tid = none) {e : Event F} {o : Outcome F}
    (h : perform fr tid p e = .ok (o, q)) :
    ∃ seed : BitVec 64, (p.seed ≠ 0 → seed = chain p.seed 1 ∧ q.entropy = p.entropy) ∧
      (p.seed = 0 → ∀ x xs, p.entropy = x :: xs → seed = x ∧ q.entropy = xs) ∧
      FromSeed fr (next64 (seed.setWidth 128)).1 e o ∧ q.seed = seed ∧
      q.locals = Function.update p.locals tid (some (next64 (seed.setWidth 128)).2) := by
  obtain ⟨seed, hseed⟩ : ∃ seed, seed = seedFrom p.seed p.fresh.1 := ⟨_, rfl⟩
  let p' : Process := ⟨seed, Function.update p.locals tid (some (seed.setWidth 128)), if p.seed = 0 then p.fresh.2 else p.entropy⟩
  have hp' : p'.locals tid = some (seed.setWidth 128) := by simp [p']
  have e32 : newRand32 tid p = newRand32 tid p' := by
    unfold newRand32 nextU64 localRng
    rw [hl, hp']
    simp only [← hseed]; rfl
  have e64 : newRand64 tid p = newRand64 tid p' := by
    unfold newRand64
    rw [show nextU64 tid p = nextU64 tid p' from e32]
  have eP : perform fr tid p e = perform fr tid p' e := by
    cases e with
    | new32 => simp only [perform, e32]
    | new64 => simp only [perform, e64]
    | normal s mean std => simp only [perform, randomNormal, initRand, e32]
    | uniform s min max => simp only [perform, randomUniform, initRand, e32]
  rw [eP] at h
  obtain ⟨hs, rfl⟩ := perform_some fr hp' h
  refine ⟨seed, fun h0 => ?_, fun h0 x xs hx => ?_, hs, rfl, ?_⟩
  · refine ⟨?_, if_neg h0⟩
    rw [hseed, seedFrom, if_neg h0]; rfl
  · refine ⟨?_, ?_⟩
    · rw [hseed, seedFrom, if_pos h0, Process.fresh, hx]; rfl
    · show (if p.seed = 0 then p.fresh.2 else p.entropy) = xs
      rw [if_pos h0, Process.fresh, hx]; rfl
  · show Function.update p'.locals tid _ = _
    simp [p', Function.update_idem]

/-- Two threads in turn, and a reseeding in between: thread 0 gets the first two values of its generator. -/
example (fr : FRand F) {p q : Process} (h0 : p.locals 0 = some 5) {os : List (Nat × Outcome F)}
    (h : runAll fr [(0, .call .new32), (1, .call .new64), (1, .reseed 7), (0, .call .new32)] p = .ok (os, q)) :
    resultsOf 0 os = [.gen32 (next64 5).1, .gen32 (next64 (next64 5).2).1] := by
  obtain ⟨o, os', e, h1, o2, os2, e2, h2, rfl⟩ := C88_isolated fr h0 h
  rw [e, e2, h1, h2]

example (fr : FRand F) : ∃ os q, runAll fr [(0, .call .new32), (1, .call .new64), (1, .reseed 7), (0, .call .new32)]
    ⟨3, fun i => if i = 0 then some 5 else none, []⟩ = .ok (os, q) := ⟨_, _, rfl⟩

/-- The first call of thread 1 in a process seeded with 3. -/
example (fr : FRand F) : ∃ o q, perform fr 1 ⟨3, fun _ => none, []⟩ .new32 = .ok (o, q) ∧ q.seed = chain 3 1 := by
  refine ⟨_, _, rfl, ?_⟩
  obtain ⟨seed, h1, _, _, h2, _⟩ := C88_first_use fr (p := ⟨3, fun _ => none, []⟩) (tid := 1) rfl (e := .new32) rfl
  rw [h2]; exact (h1 (by decide)).1

end Essay
