import Verif.Spec.Opt

/-!
# C65 Option builders are last-write-wins and independent
-/

namespace Essay

namespace Opt

variable {V : Type}

theorem pathToString_eq {idents : List String} {s : String} (h0 : s ≠ "") (hs : ':' ∉ s.toList) :
    pathToString idents = s ↔ idents = [s] := by
  match idents with
  | [] => simp [pathToString, Ne.symm h0]
  | [a] => simp [pathToString]
  | a :: b :: l =>
    simp only [pathToString]
    refine ⟨fun h => absurd ?_ hs, fun h => by simp at h⟩
    rw [← h]; simp

/-- What the setter for a field stores. -/
theorem argMethod_means (vs : Values V) (f : Field) (v : V) : ∃ st,
    (argMethod f).body = .update f.name st ∧ Means vs f.ty v (st.eval vs v) := by
  unfold argMethod
  have hO : ∀ i, pathToString i = "Option" ↔ i = ["Option"] := fun i => pathToString_eq (by decide) (by decide)
  have hU : ∀ i, pathToString i = "usize" ↔ i = ["usize"] := fun i => pathToString_eq (by decide) (by decide)
  generalize hty : f.ty = ty
  cases ty with
  | other s =>
    refine ⟨.same, rfl, .plain _ _ (by simp)⟩
  | path i args =>
    by_cases hi : i = ["Option"]
    · subst hi
      match args with
      | none => exact ⟨.same, rfl, .plain _ _ (by simp)⟩
      | some [] => exact ⟨.same, rfl, .plain _ _ (by simp)⟩
      | some (t :: rest) =>
        by_cases hu : ∃ a, t = .path ["usize"] a
        · obtain ⟨a, rfl⟩ := hu
          exact ⟨.some, rfl, .optUsize _ _ _⟩
        · have : isIntoType t = true := by
            cases t with
            | other s => rfl
            | path j a =>
              simp only [isIntoType, decide_eq_true_eq, hU]
              intro h; exact hu ⟨a, by rw [h]⟩
          refine ⟨.someInto t, ?_, .optInto _ _ _ (fun a h => hu ⟨a, h⟩)⟩
          simp [optionType, pathToString, this]
    · have : optionType (.path i args) = none := by simp [optionType, hO, hi]
      refine ⟨.same, by rw [this], .plain _ _ ?_⟩
      intro t rest h; exact hi (by simpa using congrArg (fun | .path i _ => i | _ => []) h)

theorem argMethod_name (f : Field) : (argMethod f).name = f.name := by
  unfold argMethod; split
  · split <;> rfl
  · rfl

theorem nilMethod_name (f : Field) : (nilMethod f).name = f.name := by
  unfold nilMethod; split
  · split <;> rfl
  · rfl

theorem nilMethod_body (f : Field) : (nilMethod f).body = .defaultThen f.name := by
  unfold nilMethod; split
  · split <;> rfl
  · rfl

theorem find_field {fields : List Field} {M : Field → Method} (hM : ∀ f, (M f).name = f.name) (name : String) :
    (fields.map M).find? (fun m => decide (m.name = name)) =
      (fields.find? (fun f => decide (f.name = name))).map M := by
  rw [List.find?_map]
  congr 2
  funext f
  simp [hM]

/-- The declared field of a name. -/
theorem find_mem {fields : List Field} (hn : (fields.map Field.name).Nodup) {f : Field} (hf : f ∈ fields) :
    fields.find? (fun g => decide (g.name = f.name)) = some f := by
  induction fields with
  | nil => cases hf
  | cons g fields ih =>
    rw [List.map_cons, List.nodup_cons] at hn
    rcases List.mem_cons.1 hf with rfl | hf
    · simp
    · rw [List.find?_cons_of_neg, ih hn.2 hf]
      simp only [decide_eq_true_eq]
      intro h; exact hn.1 (h ▸ List.mem_map_of_mem hf)

/-- A call of a setter, on a struct value. -/
theorem callArg_eq (vs : Values V) {fields : List Field} (hn : (fields.map Field.name).Nodup) {f : Field}
    (hf : f ∈ fields) (a : Arg V) (v : V) :
    ∃ w, Means vs f.ty v w ∧ callArg vs fields a f.name v = some (update f.name w a) := by
  obtain ⟨st, h1, h2⟩ := argMethod_means vs f v
  refine ⟨_, h2, ?_⟩
  unfold callArg argMethods
  rw [find_field argMethod_name, find_mem hn hf]
  generalize hm : argMethod f = m at h1
  obtain ⟨_, _, b⟩ := m
  simp only at h1
  subst h1
  simp [hm]

theorem callArg_none (vs : Values V) {fields : List Field} {name : String} (h : ∀ f ∈ fields, f.name ≠ name)
    (a : Arg V) (v : V) : callArg vs fields a name v = none := by
  unfold callArg argMethods
  rw [find_field argMethod_name, List.find?_eq_none.2 (fun f hf => by simpa using h f hf)]
  rfl

/-- A call of a setter on either receiver. -/
theorem call_eq (vs : Values V) {fields : List Field} (hn : (fields.map Field.name).Nodup) (dflt : Arg V) (r : Recv V)
    {f : Field} (hf : f ∈ fields) (v : V) :
    ∃ w, Means vs f.ty v w ∧ call vs fields dflt r f.name v = some (.arg (update f.name w (intoArg dflt r))) := by
  cases r with
  | arg a =>
    obtain ⟨w, h1, h2⟩ := callArg_eq vs hn hf a v
    exact ⟨w, h1, by simp only [call, h2, Option.map_some]; rfl⟩
  | nil =>
    obtain ⟨w, h1, h2⟩ := callArg_eq vs hn hf dflt v
    refine ⟨w, h1, ?_⟩
    unfold call nilMethods
    simp only
    rw [find_field nilMethod_name, find_mem hn hf]
    have hb := nilMethod_body f
    generalize hm : nilMethod f = m at hb
    obtain ⟨_, _, b⟩ := m
    simp only at hb
    subst hb
    simp only [Option.map_some, hm, h2]
    rfl

theorem call_none (vs : Values V) {fields : List Field} {name : String} (h : ∀ f ∈ fields, f.name ≠ name)
    (dflt : Arg V) (r : Recv V) (v : V) : call vs fields dflt r name v = none := by
  cases r with
  | arg a => simp only [call, callArg_none vs h]; rfl
  | nil =>
    unfold call nilMethods
    simp only
    rw [find_field nilMethod_name, List.find?_eq_none.2 (fun f hf => by simpa using h f hf)]
    rfl

/-! ### update -/

theorem update_typed {fields : List Field} {a : Arg V} (h : Typed fields a) (n : String) (v : V) :
    Typed fields (update n v a) := by
  unfold Typed update at *
  rw [← h, List.map_map]
  apply List.map_congr_left
  intro x _
  simp only [Function.comp]; split <;> rfl

theorem update_get_ne {a : Arg V} {n m : String} (hnm : m ≠ n) (v : V) : (update n v a).get m = a.get m := by
  unfold Arg.get update
  induction a with
  | nil => rfl
  | cons x a ih =>
    rw [List.map_cons]
    by_cases hx : x.1 = n
    · rw [if_pos hx, List.find?_cons_of_neg (by simpa [hx] using Ne.symm hnm),
        List.find?_cons_of_neg (by simpa [hx] using Ne.symm hnm), ih]
    · rw [if_neg hx]
      by_cases hm : x.1 = m
      · rw [List.find?_cons_of_pos (by simpa using hm), List.find?_cons_of_pos (by simpa using hm)]
      · rw [List.find?_cons_of_neg (by simpa using hm), List.find?_cons_of_neg (by simpa using hm), ih]

theorem update_get_eq {a : Arg V} {n : String} (h : n ∈ a.map Prod.fst) (v : V) : (update n v a).get n = some v := by
  unfold Arg.get update
  induction a with
  | nil => cases h
  | cons x a ih =>
    rw [List.map_cons]
    by_cases hx : x.1 = n
    · rw [if_pos hx, List.find?_cons_of_pos (by simpa using hx)]; rfl
    · rw [if_neg hx, List.find?_cons_of_neg (by simpa using hx)]
      exact ih ((List.mem_cons.1 h).resolve_left (Ne.symm hx))

theorem update_comm {n m : String} (hnm : n ≠ m) (v w : V) (a : Arg V) :
    update n v (update m w a) = update m w (update n v a) := by
  unfold update
  rw [List.map_map, List.map_map]
  apply List.map_congr_left
  intro x _
  simp only [Function.comp]
  by_cases h1 : x.1 = n <;> by_cases h2 : x.1 = m <;> simp [h1, h2, hnm, Ne.symm hnm]

/-! ## C65 -/

/-- What an argument means is determined by the declared type. -/
theorem C65_means_unique {vs : Values V} {ty : Ty} {v w w' : V} (h : Means vs ty v w) (h' : Means vs ty v w') :
    w = w' := by
  cases h with
  | optUsize _ rest a =>
    cases h' with
    | optUsize => rfl
    | optInto _ _ _ h => exact absurd rfl (h a)
    | plain _ _ h => exact absurd rfl (h _ _)
  | optInto t _ rest h =>
    cases h' with
    | optUsize => exact absurd rfl (h _)
    | optInto => rfl
    | plain _ _ h => exact absurd rfl (h _ _)
  | plain _ _ h =>
    cases h' with
    | optUsize => exact absurd rfl (h _ _)
    | optInto => exact absurd rfl (h _ _)
    | plain => rfl

/-- C65: a chain of setters compiles exactly when every name is a field. -/
theorem C65_compiles (vs : Values V) {fields : List Field} (hn : (fields.map Field.name).Nodup) (dflt : Arg V)
    (r : Recv V) (calls : List (String × V)) :
    (∃ a, chain vs fields dflt r calls = some a) ↔ ∀ c ∈ calls, c.1 ∈ fields.map Field.name := by
  unfold chain
  induction calls generalizing r with
  | nil => simp
  | cons c calls ih =>
    rw [List.foldlM_cons]
    by_cases hc : c.1 ∈ fields.map Field.name
    · obtain ⟨f, hf, e⟩ := List.mem_map.1 hc
      obtain ⟨w, _, h2⟩ := call_eq vs hn dflt r hf c.2
      rw [← e, h2, Option.bind_eq_bind, Option.bind_some, ih]
      constructor
      · intro h d hd
        rcases List.mem_cons.1 hd with rfl | hd
        · exact hc
        · exact h d hd
      · intro h d hd; exact h d (List.mem_cons_of_mem _ hd)
    · rw [call_none vs (fun f hf h => hc (List.mem_map.2 ⟨f, hf, h⟩))]
      constructor
      · rintro ⟨a, h⟩; cases h
      · intro h; exact absurd (h c List.mem_cons_self) hc

/-- C65: after any chain of setters, from `()` or from an existing value, each field holds what the last setting of it
means, or, if it was never set, what it held at the start (the default for `()`). -/
theorem C65_last_write_wins (vs : Values V) {fields : List Field} (hn : (fields.map Field.name).Nodup) {dflt : Arg V}
    {r : Recv V} (hr : Typed fields (intoArg dflt r)) {calls : List (String × V)} {a : Arg V}
    (h : chain vs fields dflt r calls = some a) :
    Typed fields a ∧ ∀ f ∈ fields,
      match lastSet f.name calls with
      | some v => ∃ w, Means vs f.ty v w ∧ a.get f.name = some w
      | none => a.get f.name = (intoArg dflt r).get f.name := by
  induction calls generalizing r with
  | nil =>
    simp only [chain, List.foldlM_nil, Option.pure_def, Option.map_some, Option.some.injEq] at h
    subst h
    exact ⟨hr, fun f _ => rfl⟩
  | cons c calls ih =>
    have hc : c.1 ∈ fields.map Field.name :=
      (C65_compiles vs hn dflt r (c :: calls)).1 ⟨a, h⟩ c List.mem_cons_self
    obtain ⟨g, hg, e⟩ := List.mem_map.1 hc
    obtain ⟨w, hw, h2⟩ := call_eq vs hn dflt r hg c.2
    have h' : chain vs fields dflt (.arg (update g.name w (intoArg dflt r))) calls = some a := by
      unfold chain at h ⊢
      rw [List.foldlM_cons, ← e, h2, Option.bind_eq_bind, Option.bind_some] at h
      exact h
    obtain ⟨i1, i2⟩ := ih (r := .arg (update g.name w (intoArg dflt r))) (update_typed hr _ _) h'
    refine ⟨i1, fun f hf => ?_⟩
    have hi := i2 f hf
    simp only [lastSet]
    cases hl : lastSet f.name calls with
    | some v => rw [hl] at hi; simpa using hi
    | none =>
      rw [hl] at hi
      have hi : a.get f.name = (update g.name w (intoArg dflt r)).get f.name := hi
      by_cases hcf : c.1 = f.name
      · have hfg : g = f := by
          have := find_mem hn hf
          rw [← hcf, ← e, find_mem hn hg] at this
          exact Option.some.inj this
        subst hfg
        rw [if_pos hcf]
        refine ⟨w, hw, ?_⟩
        rw [hi]
        apply update_get_eq
        rw [hr]; exact List.mem_map_of_mem hf
      · rw [if_neg hcf]
        show a.get f.name = _
        rw [hi, update_get_ne]
        rw [e]; exact Ne.symm hcf

/-- C65: settings of different fields commute, at any place in a chain. -/
theorem C65_commute (vs : Values V) {fields : List Field} (hn : (fields.map Field.name).Nodup) (dflt : Arg V)
    (r : Recv V) {n m : String} (hnm : n ≠ m) (v w : V) (before after : List (String × V)) :
    chain vs fields dflt r (before ++ (n, v) :: (m, w) :: after) =
      chain vs fields dflt r (before ++ (m, w) :: (n, v) :: after) := by
  unfold chain
  rw [List.foldlM_append, List.foldlM_append]
  congr 1
  cases before.foldlM (fun r c => call vs fields dflt r c.1 c.2) r with
  | none => rfl
  | some s =>
    show (List.foldlM _ s _) = (List.foldlM _ s _)
    simp only [List.foldlM_cons]
    by_cases h1 : n ∈ fields.map Field.name
    · obtain ⟨f, hf, rfl⟩ := List.mem_map.1 h1
      obtain ⟨x, hx, e1⟩ := call_eq vs hn dflt s hf v
      by_cases h2 : m ∈ fields.map Field.name
      · obtain ⟨g, hg, rfl⟩ := List.mem_map.1 h2
        obtain ⟨y, hy, e2⟩ := call_eq vs hn dflt s hg w
        obtain ⟨y', hy', e3⟩ := call_eq vs hn dflt (.arg (update f.name x (intoArg dflt s))) hg w
        obtain ⟨x', hx', e4⟩ := call_eq vs hn dflt (.arg (update g.name y (intoArg dflt s))) hf v
        rw [e1, e2]
        simp only [Option.bind_eq_bind, Option.bind_some]
        rw [e3, e4, C65_means_unique hy' hy, C65_means_unique hx' hx]
        simp only [intoArg]
        rw [update_comm hnm]
      · have h2' : ∀ f ∈ fields, f.name ≠ m := fun g hg h => h2 (List.mem_map.2 ⟨g, hg, h⟩)
        rw [e1, call_none vs h2']
        simp only [Option.bind_eq_bind, Option.bind_some, Option.bind_none]
        rw [call_none vs h2']; rfl
    · have h1' : ∀ f ∈ fields, f.name ≠ n := fun g hg h => h1 (List.mem_map.2 ⟨g, hg, h⟩)
      rw [call_none vs h1']
      cases call vs fields dflt s m w with
      | none => rfl
      | some s' =>
        simp only [Option.bind_eq_bind, Option.bind_some, Option.bind_none]
        rw [call_none vs h1']; rfl

/-- C65: without settings the options are the defaults, and `into_arg` returns an existing value unchanged. -/
theorem C65_default (vs : Values V) (fields : List Field) (dflt a : Arg V) :
    chain vs fields dflt .nil [] = some dflt ∧ chain vs fields dflt (.arg a) [] = some a := ⟨rfl, rfl⟩

/-- C65: both generated `impl` blocks implement exactly the signatures of the generated trait, one setter per field. -/
theorem C65_signatures (fields : List Field) :
    (argMethods fields).map (fun m => (m.name, m.param)) = traitMethods fields ∧
      (nilMethods fields).map (fun m => (m.name, m.param)) = traitMethods fields ∧
      (traitMethods fields).map Prod.fst = fields.map Field.name := by
  unfold argMethods nilMethods traitMethods
  simp only [List.map_map]
  refine ⟨List.map_congr_left fun f _ => ?_, List.map_congr_left fun f _ => ?_, List.map_congr_left fun f _ => ?_⟩
  · simp only [Function.comp, argMethod]
    split
    · split <;> rfl
    · rfl
  · simp only [Function.comp, nilMethod]
    split
    · split <;> rfl
    · rfl
  · simp only [Function.comp]
    split
    · split <;> rfl
    · rfl

/-- `FftArg`, rfft.rs:70-74, with a second field. -/
def exFields : List Field :=
  [⟨"fft_length", .path ["Option"] (some [.path ["usize"] none])⟩, ⟨"name", .path ["Option"] (some [.path ["String"] none])⟩]

/-- Values as texts. -/
def exValues : Values String := ⟨fun v => "Some(" ++ v ++ ")", fun _ v => v ++ ".into()"⟩

example : chain exValues exFields [("fft_length", "None"), ("name", "None")] .nil
    [("name", "a"), ("fft_length", "3"), ("name", "b")] =
      some [("fft_length", "Some(3)"), ("name", "Some(b.into())")] := by decide +kernel

example : ∃ a, chain exValues exFields [("fft_length", "None"), ("name", "None")] .nil
    [("name", "a"), ("fft_length", "3"), ("name", "b")] = some a :=
  (C65_compiles exValues (by decide) _ _ _).2 (by decide)

example (w : String) (h : Means exValues (.path ["Option"] (some [.path ["String"] none])) "a" w) : w = "Some(a.into())" :=
  C65_means_unique h (.optInto (.path ["String"] none) "a" [] (by simp))

example : ∃ w, Means exValues (.path ["Option"] (some [.path ["usize"] none])) "3" w ∧
    Arg.get [("fft_length", "Some(3)"), ("name", "Some(b.into())")] "fft_length" = some w :=
  (C65_last_write_wins exValues (fields := exFields) (by decide) (dflt := [("fft_length", "None"), ("name", "None")])
    (r := .nil) rfl (calls := [("name", "a"), ("fft_length", "3"), ("name", "b")]) (by decide +kernel)).2
    ⟨"fft_length", .path ["Option"] (some [.path ["usize"] none])⟩ (by simp [exFields])

example (v w : String) : chain exValues exFields [("fft_length", "None"), ("name", "None")] .nil [("name", v), ("fft_length", w)] =
    chain exValues exFields [("fft_length", "None"), ("name", "None")] .nil [("fft_length", w), ("name", v)] :=
  C65_commute exValues (by decide) _ _ (by decide) v w [] []

example : chain exValues exFields [("fft_length", "None"), ("name", "None")] .nil [] =
    some [("fft_length", "None"), ("name", "None")] := (C65_default _ _ _ []).1

example : (traitMethods exFields).map Prod.fst = ["fft_length", "name"] := (C65_signatures exFields).2.2

end Opt

end Essay
