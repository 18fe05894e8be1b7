import Verif.Lemmas.UnwindCopy
import Verif.Props.CloneFold
import Verif.Props.Clones

/-!
# C100: what a panic does to the values made before it
-/

namespace Essay

open Shape

variable {α β γ σ : Type}

/-! ## The model with owned values is the model of the other files -/

theorem Unwind.holding_exec (own : List α) (x : Exec σ β) : (Unwinds.holding own x : Exec σ β) = x := rfl

theorem Unwind.collect_eq (clone : α → Exec σ α) : ∀ xs acc : List α,
    Unwind.collect (m := Exec σ) clone acc xs = (do let ys ← xs.mapM clone; return acc ++ ys)
  | [], acc => by rw [List.mapM_nil, pure_bind, List.append_nil]; rfl
  | x :: xs, acc => by
    rw [List.mapM_cons]
    show (clone x >>= fun v => Unwind.collect clone (acc ++ [v]) xs) = _
    simp only [Unwind.collect_eq clone xs, bind_assoc, pure_bind, List.append_assoc, List.singleton_append]

theorem Unwind.collect_nil (clone : α → Exec σ α) (xs : List α) : Unwind.collect (m := Exec σ) clone [] xs = xs.mapM clone := by
  rw [Unwind.collect_eq]; simp only [List.nil_append, bind_pure]

theorem Unwind.concatSlices_eq (clone : α → Exec σ α) (ts : List (Tensor α)) :
    Unwind.concatSlices (m := Exec σ) clone ts = Clones.concatSlices clone ts := by
  unfold Unwind.concatSlices Clones.concatSlices
  simp only [Unwind.collect_eq]; rfl

theorem Unwind.splitInner_eq (clone : α → Exec σ α) (t : Tensor α) (axis nOuter nInner axisLen : Nat) (x : List α) :
    ∀ (cuts : List Nat) (prev : Nat), Unwind.splitInner (m := Exec σ) clone t axis nOuter nInner axisLen x cuts prev =
      Clones.splitInner clone t axis nOuter nInner axisLen x cuts prev
  | [], _ => rfl
  | cut :: cuts, prev => by
    unfold Unwind.splitInner Clones.splitInner
    simp only [Unwind.splitInner_eq clone t axis nOuter nInner axisLen x cuts]
    rfl

/-- The functions with owned values are those of `C95` and `C99` when drops are not recorded. -/
theorem C100_models_agree (clone : α → Exec σ α) :
    (∀ ts s, Unwind.fromMerge (m := Exec σ) clone ts s = Clones.fromMerge clone ts s) ∧
    (∀ t u, Unwind.append (m := Exec σ) clone t u = Clones.append clone t u) ∧
    (∀ v, Unwind.joinVec (m := Exec σ) clone v = Clones.joinVec clone v) ∧
    (∀ v, Unwind.ofVec1 (m := Exec σ) clone v = Clones.ofVec1 clone v) ∧
    (∀ (N : Nat) (v : List (Vector α N)), Unwind.ofRows (m := Exec σ) clone v = Clones.ofRows clone v) ∧
    (∀ v, Unwind.ofVec2 (m := Exec σ) clone v = Clones.ofVec2 clone v) ∧
    (∀ v, Unwind.ofTensors (m := Exec σ) clone v = Clones.ofTensors clone v) ∧
    (∀ t axis s, Unwind.splitAxis (m := Exec σ) clone t axis s = Clones.splitAxis clone t axis s) ∧
    (∀ axes order, Unwind.buildMeshgrid (m := Exec σ) clone axes order = Clones.buildMeshgrid clone axes order) ∧
    (∀ s (f : Exec σ α), Unwind.init (m := Exec σ) s f = Tensor.init s f) ∧
    (∀ (t : Tensor β) (f : β → Exec σ α), Unwind.map (m := Exec σ) t f = t.map f) ∧
    (∀ (t : Tensor β) (u : Tensor γ) (f : β → γ → Exec σ α), Unwind.map2 (m := Exec σ) t u f = t.map2 u f) ∧
    (∀ (t : Tensor β) (init : α) f, Unwind.fold (m := Exec σ) clone t init f = Clones.fold t (clone init) f pure) ∧
    (∀ (t : Tensor β) axis (init : α) f,
      Unwind.foldAxis (m := Exec σ) clone t axis init f = Clones.foldAxis t axis (clone init) f pure) ∧
    (∀ t f, Unwind.reduce (m := Exec σ) clone t f = Clones.reduce clone t f) ∧
    (∀ t axis f, Unwind.reduceAxis (m := Exec σ) clone t axis f = Clones.reduceAxis clone t axis f) := by
  refine ⟨?_, ?_, ?_, ?_, ?_, ?_, ?_, ?_, ?_, ?_, ?_, ?_, ?_, ?_, ?_, ?_⟩
  · intro ts s; unfold Unwind.fromMerge Clones.fromMerge; rw [Unwind.concatSlices_eq]; rfl
  · intro t u; unfold Unwind.append Clones.append Unwind.fromMerge Clones.fromMerge; rw [Unwind.concatSlices_eq]; rfl
  · intro v; unfold Unwind.joinVec Clones.joinVec; rw [Unwind.collect_nil]; rfl
  · intro v; unfold Unwind.ofVec1 Clones.ofVec1; rw [Unwind.collect_nil]; rfl
  · intro N v; unfold Unwind.ofRows Clones.ofRows; rw [Unwind.collect_nil]; rfl
  · intro v; unfold Unwind.ofVec2 Clones.ofVec2; simp only [Unwind.collect_eq]; rfl
  · intro v; unfold Unwind.ofTensors Clones.ofTensors; rw [Unwind.concatSlices_eq]; rfl
  · intro t axis s; unfold Unwind.splitAxis Clones.splitAxis; simp only [Unwind.splitInner_eq]
  · intro axes order; rfl
  · intro s f; rfl
  · intro t f; rfl
  · intro t u f; rfl
  · intro t init f
    unfold Unwind.fold Clones.fold
    simp only [pure_bind]
    exact bind_pure _
  · intro t axis init f
    unfold Unwind.foldAxis Clones.foldAxis
    simp only [pure_bind]
    exact bind_pure _
  · intro t f
    unfold Unwind.reduce Clones.reduce
    simp only [Unwind.holding_exec, bind_assoc]
  · intro t axis f
    unfold Unwind.reduceAxis Clones.reduceAxis
    simp only [Unwind.holding_exec, bind_assoc]
    rfl

/-! ## Vectors: everything is dropped -/

/-- C100: `Tensor::from_vec` and the functions that collect copies into a vector, for all arguments, valid or not: if they
panic, every value given or made is dropped, once; if they return, every value made is in the result. -/
theorem C100_vectors {clone : α → Own α σ α} (hc : ∀ x, Settled 0 [] (clone x) fun v => [v]) :
    (∀ data s, Settled 0 data (Unwind.fromVec data s : Own α σ (Tensor α)) Tensor.data) ∧
    (∀ ts s, Settled 0 [] (Unwind.fromMerge clone ts s) Tensor.data) ∧
    (∀ t u, Settled 0 [] (Unwind.append clone t u) Tensor.data) ∧
    (∀ v, Settled 0 [] (Unwind.joinVec clone v) Tensor.data) ∧
    (∀ v, Settled 0 [] (Unwind.ofVec1 clone v) Tensor.data) ∧
    (∀ (N : Nat) (v : List (Vector α N)), Settled 0 [] (Unwind.ofRows clone v) Tensor.data) ∧
    (∀ v, Settled 0 [] (Unwind.ofVec2 clone v) Tensor.data) ∧
    (∀ v, Settled 0 [] (Unwind.ofTensors clone v) Tensor.data) := by
  have merge : ∀ ts s, Settled 0 [] (Unwind.fromMerge clone ts s) Tensor.data := fun ts s =>
    Settled.first fun n _ => Settled.first fun _ _ => (Settled.concatSlices hc ts).bind fun data _ => Settled.fromVec data s
  refine ⟨Settled.fromVec, merge, ?_, ?_, ?_, ?_, ?_, ?_⟩
  · intro t u
    refine Settled.first fun _ _ => Settled.first fun _ _ => Settled.first fun _ _ => Settled.first fun _ _ =>
      Settled.first fun _ _ => Settled.first fun _ _ => Settled.first fun _ _ => Settled.first fun s _ => merge [t, u] s
  · intro v; exact (Settled.collect hc _ []).bind fun data _ => Settled.fromVecInto data _
  · intro v; exact (Settled.collect hc _ []).bind fun data _ => Settled.fromVecInto data _
  · intro N v; exact (Settled.collect hc _ []).bind fun data _ => Settled.fromVecInto data _
  · intro v
    refine Settled.first fun r0 _ => Settled.bind (toks := fun vs => vs) (post := fun _ => True) ?_
      fun data _ => Settled.fromVecInto data _
    refine Settled.loopL (toks := fun vs => vs) (post := fun _ => True) trivial fun v1 acc _ _ => ?_
    exact (Settled.heldLift (toks := fun _ => acc) (post := fun _ => True) _ fun _ _ => ⟨List.Perm.refl _, trivial⟩).bind
      fun _ _ => Settled.collect hc v1 acc
  · intro v
    refine Settled.first fun _ _ => Settled.first fun v0 _ => ?_
    refine Settled.bind (toks := fun _ => []) (post := fun _ => True) ?_ fun _ _ =>
      (Settled.concatSlices hc v).bind fun data _ => Settled.fromVecInto data _
    refine Settled.loopL (toks := fun _ => []) (post := fun _ => True) (s := ()) trivial fun y _ _ _ => ?_
    exact Settled.first fun _ _ => Settled.lift _ fun _ _ => ⟨rfl, trivial⟩

/-- C100: `fold` and `reduce` own one value at a time: for all arguments nothing is lost. The closures are assumed to take
care of the values they are given. -/
theorem C100_single {clone : α → Own α σ α} (hc : ∀ x, Settled 0 [] (clone x) fun v => [v]) :
    (∀ (t : Tensor β) init (f : α → β → Own α σ α), (∀ s x, Settled 0 [s] (f s x) fun v => [v]) →
      Settled 0 [init] (Unwind.fold clone t init f) Tensor.data) ∧
    (∀ t (f : α → α → Own α σ α), (∀ s x, Settled 0 [s, x] (f s x) fun v => [v]) →
      Settled 0 [] (Unwind.reduce clone t f) Tensor.data) := by
  have scalar : ∀ v : α, Settled 0 [v] (Unwinds.holding [v] (liftM (Tensor.fromScalar v) : Own α σ (Tensor α)) :
      Own α σ (Tensor α)) Tensor.data := fun v => Settled.heldLift _ fun t ht => ⟨by rw [(new_eq_ok ht).2], trivial⟩
  constructor
  · intro t init f hf
    unfold Unwind.fold
    have inner : Settled 0 [] (do
        let a ← (liftM t.asSlice : Own α σ (List β))
        let value ← clone init
        let value ← forR 0 t.size value fun i value => do
          let x ← (Unwinds.holding [value] (liftM (idx a i) : Own α σ β) : Own α σ β)
          f value x
        (Unwinds.holding [value] (liftM (Tensor.fromScalar value) : Own α σ (Tensor α)) : Own α σ (Tensor α)))
        Tensor.data := by
      refine Settled.first fun a _ => (hc init).bind fun v _ => ?_
      refine Settled.bind (toks := fun v => [v]) (post := fun _ => True) ?_ fun v _ => scalar v
      refine Settled.loop (toks := fun v => [v]) (fun _ _ => True) (Nat.zero_le _) trivial fun i s _ _ _ => ?_
      exact (Settled.heldLift (toks := fun _ => [s]) (post := fun _ => True) _ fun _ _ => ⟨List.Perm.refl _, trivial⟩).bind
        fun x _ => hf s x
    refine Settled.bind ((inner.held [init]).imp (own' := [init]) (toks' := fun t => [init] ++ t.data) (by simp)
      fun _ _ => ⟨trivial, List.Perm.refl _⟩) fun r _ => ?_
    refine Settled.bind (toks := fun _ => r.data) (post := fun _ => True) ?_ fun _ _ => Settled.ret (List.Perm.refl _) trivial
    intro l
    exact ⟨trivial, [], [init], by show l.made = _; simp, rfl, by simp⟩
  · intro t f hf
    refine Settled.first fun a _ => Settled.first fun x0 _ => (hc x0).bind fun v _ => ?_
    refine Settled.bind (toks := fun v => [v]) (post := fun _ => True) ?_ fun v _ => scalar v
    by_cases h1 : 1 ≤ t.size
    · refine Settled.loop (toks := fun v => [v]) (fun _ _ => True) h1 trivial fun i s _ _ _ => ?_
      have get : Settled 0 [] (do let x ← (liftM (idx a i) : Own α σ α); clone x) fun v => [v] :=
        Settled.first fun x _ => hc x
      exact ((get.held [s]).imp (toks' := fun v => [s, v]) (post' := fun _ => True) (by simp)
        fun _ _ => ⟨trivial, List.Perm.refl _⟩).bind fun x _ => hf s x
    · rw [forR_stop (by omega)]
      exact Settled.ret (List.Perm.refl _) trivial

/-! ## Blocks: at most the values written are lost -/

/-- C100: `init`, `map` and `map2`, for all arguments: if the closure panics, at most as many values are lost as the result
has slots, and nothing is dropped twice. -/
theorem C100_blocks :
    (∀ s n (f : Own α σ α), Shape.size s = .ok n → Settled 0 [] f (fun v => [v]) →
      Settled n [] (Unwind.init s f) Tensor.data) ∧
    (∀ (t : Tensor β) (f : β → Own α σ α), (∀ x, Settled 0 [] (f x) fun v => [v]) →
      Settled t.size [] (Unwind.map t f) Tensor.data) ∧
    (∀ (t : Tensor β) (u : Tensor γ) (f : β → γ → Own α σ α), (∀ x y, Settled 0 [] (f x y) fun v => [v]) →
      Settled (max t.size u.size) [] (Unwind.map2 t u f) Tensor.data) := by
  refine ⟨?_, ?_, ?_⟩
  · intro s n f hn hf
    unfold Unwind.init
    rw [hn]
    refine Settled.first fun m hm => ?_
    obtain rfl := Except.ok.inj hm
    exact Settled.unsafeInit (Settled.blockLoop fun i b _ hb => Settled.fill hb hf)
  · intro t f hf
    refine Settled.unsafeInit (Settled.first fun xs _ => Settled.blockLoop fun i b _ hb => ?_)
    exact Settled.pass (Settled.vals_le hb) fun x _ => Settled.fill hb (hf x)
  · intro t u f hf
    refine Settled.first fun s _ => Settled.first fun batch _ => Settled.first fun _ _ => Settled.unsafeInit ?_
    refine (Settled.loop (toks := fun b : Buf α => b.filterMap id)
      (fun j => Settled.FreeFrom (max t.size u.size) (j * min t.size u.size)) (Nat.zero_le batch)
      (by rw [Nat.zero_mul]; exact Settled.freeFrom_uninit _) fun j b _ _ hb => ?_).imp (by rw [Settled.vals_uninit])
      fun _ _ => ⟨trivial, List.Perm.refl _⟩
    refine Settled.pass (Settled.vals_le hb) fun as _ => Settled.pass (Settled.vals_le hb) fun bs _ => ?_
    refine (Settled.loop (toks := fun b : Buf α => b.filterMap id)
      (fun i => Settled.FreeFrom (max t.size u.size) (j * min t.size u.size + i)) (Nat.zero_le (min t.size u.size)) hb
      fun i b _ hi hb => ?_).imp (List.Perm.refl _) fun _ hb => ⟨by rw [Nat.succ_mul]; exact hb, List.Perm.refl _⟩
    exact Settled.pass (Settled.vals_le hb) fun x _ => Settled.pass (Settled.vals_le hb) fun y _ => Settled.fill hb (hf x y)

/-- A fold along an axis, in terms of the sizes it computes. -/
theorem Unwind.foldAxis_settled {clone : α → Own α σ α} (hc : ∀ x, Settled 0 [] (clone x) fun v => [v]) (t : Tensor β)
    (axis : Axis) (init : α) (f : α → β → Own α σ α) (hf : ∀ s x, Settled 0 [s] (f s x) fun v => [v]) {k : Nat}
    (hk : ∀ os b a i n, axis.reduce t.shape = .ok (os, b, a, i) → os.size = .ok n → n ≤ k) :
    Settled k [init] (Unwind.foldAxis clone t axis init f) Tensor.data := by
  unfold Unwind.foldAxis
  have inner : Settled k [] (do
      let (oShape, batch, aLen, inner) ← (liftM (axis.reduce t.shape) : Own α σ (Shape × Nat × Nat × Nat))
      let oSize ← (liftM oShape.size : Own α σ Nat)
      Unwind.unsafeInit oSize oShape fun o => do
        let a ← (liftM t.asSlice : Own α σ (List β))
        forR 0 batch o fun n o =>
          forR 0 inner o fun i o => do
            let state ← clone init
            let state ← forR 0 aLen state fun k state => do
              let v ← (Unwinds.holding [state] (liftM (idx a ((n * aLen + k) * inner + i)) : Own α σ β) : Own α σ β)
              f state v
            (liftM (o.write (n * inner + i) state) : Own α σ (Buf α))) Tensor.data := by
    refine Settled.first fun r hr => ?_
    obtain ⟨os, batch, aLen, inner⟩ := r
    refine Settled.first fun n hn => Settled.mono ?_ (hk _ _ _ _ _ hr hn)
    refine Settled.unsafeInit (Settled.first fun a _ => Settled.blockLoop2 fun j i b _ hb => ?_)
    rw [← bind_assoc]
    refine Settled.fill hb ((hc init).bind fun v _ => ?_)
    refine (Settled.loop (toks := fun v => [v]) (fun _ _ => True) (Nat.zero_le _) trivial fun i s _ _ _ => ?_)
    exact (Settled.heldLift (toks := fun _ => [s]) (post := fun _ => True) _ fun _ _ => ⟨List.Perm.refl _, trivial⟩).bind
      fun x _ => hf s x
  refine Settled.bind ((inner.held [init]).imp (own' := [init]) (toks' := fun t => [init] ++ t.data) (by simp)
    fun _ _ => ⟨trivial, List.Perm.refl _⟩) fun r _ => ?_
  refine Settled.bind (toks := fun _ => r.data) (post := fun _ => True) ?_ fun _ _ => Settled.ret (List.Perm.refl _) trivial
  intro l
  exact ⟨trivial, [], [init], by show l.made = _; simp, rfl, by simp⟩

/-- A reduction along an axis, in terms of the sizes it computes. -/
theorem Unwind.reduceAxis_settled {clone : α → Own α σ α} (hc : ∀ x, Settled 0 [] (clone x) fun v => [v]) (t : Tensor α)
    (axis : Axis) (f : α → α → Own α σ α) (hf : ∀ s x, Settled 0 [s, x] (f s x) fun v => [v]) {k : Nat}
    (hk : ∀ os b a i n, axis.reduce t.shape = .ok (os, b, a, i) → os.size = .ok n → n ≤ k) :
    Settled k [] (Unwind.reduceAxis clone t axis f) Tensor.data := by
  refine Settled.first fun r hr => ?_
  obtain ⟨os, batch, aLen, inner⟩ := r
  refine Settled.first fun n hn => Settled.mono ?_ (hk _ _ _ _ _ hr hn)
  refine Settled.unsafeInit (Settled.first fun a _ => Settled.blockLoop2 fun j i b _ hb => ?_)
  refine Settled.pass (Settled.vals_le hb) fun s0 _ => ?_
  rw [← bind_assoc]
  refine Settled.fill hb ((hc s0).bind fun v _ => ?_)
  by_cases h1 : 1 ≤ aLen
  · refine (Settled.loop (toks := fun v => [v]) (fun _ _ => True) h1 trivial fun i' s _ _ _ => ?_)
    have get : Settled 0 [] (do
        let x ← (liftM (idx a (j * aLen * inner + i + i' * inner)) : Own α σ α)
        clone x) fun v => [v] := Settled.first fun x _ => hc x
    exact ((get.held [s]).imp (toks' := fun v => [s, v]) (post' := fun _ => True) (by simp)
      fun _ _ => ⟨trivial, List.Perm.refl _⟩).bind fun x _ => hf s x
  · rw [forR_stop (by omega)]
    exact Settled.ret (List.Perm.refl _) trivial

/-- C100: `fold_axis` and `reduce_axis`: at most one value for each lane is lost, those in slots already written. -/
theorem C100_axis {clone : α → Own α σ α} (hc : ∀ x, Settled 0 [] (clone x) fun v => [v]) {t : Tensor α}
    {pre post : List Nat} {d : Nat} {xs : List α} (h : Rep t (pre ++ d :: post) xs) {a : Int}
    (ha : axisIndex (pre ++ d :: post).length a = some pre.length) :
    (∀ init (f : α → α → Own α σ α), (∀ s x, Settled 0 [s] (f s x) fun v => [v]) →
      Settled (pre ++ post).prod [init] (Unwind.foldAxis clone t (some a) init f) Tensor.data) ∧
    (∀ f : α → α → Own α σ α, (∀ s x, Settled 0 [s, x] (f s x) fun v => [v]) →
      Settled (pre ++ post).prod [] (Unwind.reduceAxis clone t (some a) f) Tensor.data) := by
  have hk : ∀ os b l i n, Axis.reduce (some a) t.shape = .ok (os, b, l, i) → os.size = .ok n → n ≤ (pre ++ post).prod := by
    intro os b l i n hr hn
    rw [h.shape] at hr
    by_cases hpos : ∀ x ∈ pre ++ post, 0 < x
    · rw [reduce_some h.adm h.fits hpos (by rw [← ha]; congr 1; simp; omega)] at hr
      simp only [Except.ok.injEq, Prod.mk.injEq] at hr
      obtain ⟨rfl, _⟩ := hr
      have := ((size_ofDims_iff (adm_erase h.adm)).1 hn).2
      omega
    · have h0 : 0 ∈ pre ++ post := by
        by_contra hn0
        exact hpos fun x hx => Nat.pos_of_ne_zero fun e => hn0 (e ▸ hx)
      rw [reduce_zero h.adm h0 (by rw [← ha]; congr 1; simp; omega)] at hr
      cases hr
  exact ⟨fun init f hf => Unwind.foldAxis_settled hc t _ init f hf hk, fun f hf => Unwind.reduceAxis_settled hc t _ f hf hk⟩

/-- C100: without an axis at most the one finished value. -/
theorem C100_axis_none {clone : α → Own α σ α} (hc : ∀ x, Settled 0 [] (clone x) fun v => [v]) (t : Tensor α) :
    (∀ init (f : α → α → Own α σ α), (∀ s x, Settled 0 [s] (f s x) fun v => [v]) →
      Settled 1 [init] (Unwind.foldAxis clone t none init f) Tensor.data) ∧
    (∀ f : α → α → Own α σ α, (∀ s x, Settled 0 [s, x] (f s x) fun v => [v]) →
      Settled 1 [] (Unwind.reduceAxis clone t none f) Tensor.data) := by
  have hk : ∀ os b l i n, Axis.reduce none t.shape = .ok (os, b, l, i) → os.size = .ok n → n ≤ 1 := by
    intro os b l i n hr hn
    obtain ⟨m, _, hr⟩ := bind_eq_ok.1 hr
    cases hr
    cases hn
    exact Nat.le_refl _
  exact ⟨fun init f hf => Unwind.foldAxis_settled hc t _ init f hf hk, fun f hf => Unwind.reduceAxis_settled hc t _ f hf hk⟩

theorem Unwind.unsafeInit_exec (n : Nat) (s : Shape) (f : Buf α → Exec σ (Buf α)) :
    Unwind.unsafeInit (m := Exec σ) n s f = Tensor.unsafeInitM n s f := rfl

/-- The other functions with closures, without the record of drops. -/
theorem C100_models_agree_closures {δ : Type} {N : Nat} :
    (∀ s (f : List Nat → Exec σ α), Unwind.initRindexed (m := Exec σ) s f = Tensor.initRindexed s f) ∧
    (∀ (t : Tensor β) (f : List β → Exec σ (Vector α N)), Unwind.mapRow (m := Exec σ) t N f = t.mapRow N f) ∧
    (∀ (t : Tensor β) (f : β → Exec σ (Vector α N)), Unwind.mapExpand (m := Exec σ) t N f = t.mapExpand N f) ∧
    (∀ (t : Tensor β) (u : Tensor γ) (v : Tensor δ) (f : β → γ → δ → Exec σ α),
      Unwind.map3 (m := Exec σ) t u v f = t.map3 u v f) ∧
    (∀ (cloneRow : Vector α N → Exec σ (Vector α N)) (t : Tensor β) axis init f,
      Unwind.foldRow (m := Exec σ) cloneRow t axis init f = Clones.foldRow t axis N (cloneRow init) f pure) ∧
    (∀ (clone : α → Exec σ α) (t : Tensor β) axis init accum complete norm,
      Unwind.normalize (m := Exec σ) clone t axis init accum complete norm =
        Clones.normalize t axis (clone init) accum complete norm) := by
  refine ⟨?_, ?_, ?_, ?_, ?_, ?_⟩
  · intro s f; rfl
  · intro t f
    unfold Unwind.mapRow Tensor.mapRow
    split <;> rfl
  · intro t f; rfl
  · intro t u v f; rfl
  · intro cloneRow t axis init f
    unfold Unwind.foldRow Clones.foldRow
    simp only [pure_bind]
    exact bind_pure _
  · intro clone t axis init accum complete norm
    unfold Unwind.normalize Clones.normalize
    refine Eq.trans (bind_pure _) ?_
    simp only [Unwind.holding_exec]
    refine bind_congr fun r => bind_congr fun n => ?_
    rw [Unwind.unsafeInit_exec]
    refine congrArg (Tensor.unsafeInitM n t.shape) ?_
    funext o
    refine bind_congr fun a => ?_
    refine congrArg (forR 0 _ o) ?_
    funext j o
    refine congrArg (forR 0 _ o) ?_
    funext i o
    refine bind_congr fun _ => bind_congr fun _ => bind_congr fun _ => ?_
    exact bind_pure _

/-- C100: `init_rindexed`, `map_row`, `map_expand` and `map3`, for all arguments. -/
theorem C100_rows {δ : Type} {N : Nat} :
    (∀ s n (f : List Nat → Own α σ α), Shape.size s = .ok n → (∀ i, Settled 0 [] (f i) fun v => [v]) →
      Settled n [] (Unwind.initRindexed s f) Tensor.data) ∧
    (∀ (t : Tensor β) c (f : List β → Own α σ (Vector α N)), t.shape.cols = .ok c →
      (∀ x, Settled 0 [] (f x) fun v => v.toList) → Settled (N * (t.size / c)) [] (Unwind.mapRow t N f) Tensor.data) ∧
    (∀ (t : Tensor β) (f : β → Own α σ (Vector α N)), (∀ x, Settled 0 [] (f x) fun v => v.toList) →
      Settled (N * t.size) [] (Unwind.mapExpand t N f) Tensor.data) ∧
    (∀ (t : Tensor β) (u : Tensor γ) (v : Tensor δ) (f : β → γ → δ → Own α σ α),
      (∀ x y z, Settled 0 [] (f x y z) fun v => [v]) →
      Settled (max (max t.size u.size) v.size) [] (Unwind.map3 t u v f) Tensor.data) := by
  have rows : ∀ {n m : Nat} {body : Nat → Buf α → Own α σ (Buf α)},
      (∀ i b, i < m → Settled.FreeFrom n (i * N) b →
        Settled n (b.filterMap id) (body i b) (fun b => b.filterMap id) (Settled.FreeFrom n ((i + 1) * N))) →
      Settled n [] (forR 0 m (Buf.uninit n) body) fun b => b.filterMap id := by
    intro n m body h
    refine (Settled.loop (toks := fun b : Buf α => b.filterMap id) (fun i => Settled.FreeFrom n (i * N)) (Nat.zero_le m)
      (by rw [Nat.zero_mul]; exact Settled.freeFrom_uninit n) fun i b _ hi hb => h i b hi hb).imp
      (by rw [Settled.vals_uninit]) fun _ _ => ⟨trivial, List.Perm.refl _⟩
  refine ⟨?_, ?_, ?_, ?_⟩
  · intro s n f hn hf
    unfold Unwind.initRindexed
    rw [hn]
    refine Settled.first fun m hm => ?_
    obtain rfl := Except.ok.inj hm
    refine Settled.unsafeInit (Settled.bind (toks := fun st => st.1.filterMap id) (post := fun _ => True) ?_
      fun st _ => Settled.ret (List.Perm.refl _) trivial)
    refine (Settled.loop (toks := fun st : Buf α × List Nat => st.1.filterMap id) (fun i st => Settled.FreeFrom n i st.1)
      (Nat.zero_le n) (Settled.freeFrom_uninit n) fun i st _ hi hb => ?_).imp (by rw [Settled.vals_uninit])
      fun _ _ => ⟨trivial, List.Perm.refl _⟩
    rw [← bind_assoc]
    refine (Settled.fill hb (hf st.2)).bind fun o ho => ?_
    exact Settled.pass (Settled.vals_le ho) fun index _ => Settled.ret (List.Perm.refl _) ho
  · intro t c f hc hf
    unfold Unwind.mapRow
    refine Settled.first fun shape _ => ?_
    rw [hc]
    refine Settled.first fun c' hc' => ?_
    obtain rfl := Except.ok.inj hc'
    refine Settled.first fun len hlen => ?_
    have hlen : len = t.size / c := by
      unfold udiv at hlen
      split at hlen
      · cases hlen
      · exact (Except.ok.inj hlen).symm
    subst hlen
    refine Settled.unsafeInit (rows fun i b _ hb => ?_)
    exact Settled.pass (Settled.vals_le hb) fun x _ => Settled.fillRow hb (hf x)
  · intro t f hf
    refine Settled.first fun shape _ => Settled.unsafeInit (Settled.first fun xs _ => rows fun i b _ hb => ?_)
    exact Settled.pass (Settled.vals_le hb) fun x _ => Settled.fillRow hb (hf x)
  · intro t u v f hf
    refine Settled.first fun _ _ => Settled.first fun s _ => Settled.first fun batch _ => Settled.first fun _ _ =>
      Settled.unsafeInit ?_
    generalize max (max t.size u.size) v.size = n
    refine (Settled.loop (toks := fun b : Buf α => b.filterMap id)
      (fun j => Settled.FreeFrom n (j * min (min t.size u.size) v.size)) (Nat.zero_le batch)
      (by rw [Nat.zero_mul]; exact Settled.freeFrom_uninit _) fun j b _ _ hb => ?_).imp (by rw [Settled.vals_uninit])
      fun _ _ => ⟨trivial, List.Perm.refl _⟩
    refine Settled.pass (Settled.vals_le hb) fun as _ => Settled.pass (Settled.vals_le hb) fun bs _ =>
      Settled.pass (Settled.vals_le hb) fun cs _ => ?_
    refine (Settled.loop (toks := fun b : Buf α => b.filterMap id)
      (fun i => Settled.FreeFrom n (j * min (min t.size u.size) v.size + i)) (Nat.zero_le _) hb
      fun i b _ hi hb => ?_).imp (List.Perm.refl _) fun _ hb => ⟨by rw [Nat.succ_mul]; exact hb, List.Perm.refl _⟩
    exact Settled.pass (Settled.vals_le hb) fun x _ => Settled.pass (Settled.vals_le hb) fun y _ =>
      Settled.pass (Settled.vals_le hb) fun z _ => Settled.fill hb (hf x y z)

/-- The end of a fold: its start value goes out of scope. -/
theorem Unwind.startValue {k : Nat} {own : List α} {x : Own α σ (Tensor α)} (h : Settled k [] x Tensor.data) :
    Settled k own (do
      let r ← (Unwinds.holding own x : Own α σ (Tensor α))
      (Unwinds.drop own : Own α σ Unit)
      return r) Tensor.data := by
  refine Settled.bind ((h.held own).imp (own' := own) (toks' := fun t => own ++ t.data) (by simp)
    fun _ _ => ⟨trivial, List.Perm.refl _⟩) fun r _ => ?_
  refine Settled.bind (toks := fun _ => r.data) (post := fun _ => True) ?_ fun _ _ => Settled.ret (List.Perm.refl _) trivial
  intro l
  exact ⟨trivial, [], own, by show l.made = _; simp, rfl, by simpa using List.perm_append_comm⟩

theorem Unwind.foldRow_settled {N : Nat} {cloneRow : Vector α N → Own α σ (Vector α N)}
    (hc : ∀ x, Settled 0 [] (cloneRow x) fun v => v.toList) (t : Tensor β) (axis : Axis) (init : Vector α N)
    (f : Vector α N → List β → Own α σ (Vector α N)) (hf : ∀ s x, Settled 0 s.toList (f s x) fun v => v.toList) {k : Nat}
    (hk : ∀ os b a i n, axis.reduceRow t.shape N = .ok (os, b, a, i) → os.size = .ok n → n ≤ k) :
    Settled k init.toList (Unwind.foldRow cloneRow t axis init f) Tensor.data := by
  refine Unwind.startValue (Settled.first fun r hr => ?_)
  obtain ⟨os, batch, aLen, inner⟩ := r
  refine Settled.first fun cols _ => Settled.first fun n hn => Settled.mono ?_ (hk _ _ _ _ _ hr hn)
  refine Settled.unsafeInit ?_
  refine (Settled.loop (toks := fun b : Buf α => b.filterMap id) (fun j => Settled.FreeFrom n (j * inner * N))
    (Nat.zero_le batch) (by rw [Nat.zero_mul, Nat.zero_mul]; exact Settled.freeFrom_uninit n) fun b o _ _ hb => ?_).imp
    (by rw [Settled.vals_uninit]) fun _ _ => ⟨trivial, List.Perm.refl _⟩
  refine (Settled.loop (toks := fun b : Buf α => b.filterMap id) (fun i => Settled.FreeFrom n ((b * inner + i) * N))
    (Nat.zero_le inner) hb fun j o _ hj hb => ?_).imp (List.Perm.refl _)
    fun _ hb => ⟨by rw [Nat.succ_mul]; exact hb, List.Perm.refl _⟩
  rw [← bind_assoc]
  refine Settled.fillRow hb ((hc init).bind fun v _ => ?_)
  refine Settled.loop (toks := fun v : Vector α N => v.toList) (fun _ _ => True) (Nat.zero_le _) trivial fun i s _ _ _ => ?_
  exact (Settled.heldLift (toks := fun _ => s.toList) (post := fun _ => True) _
    fun _ _ => ⟨List.Perm.refl _, trivial⟩).bind fun x _ => hf s x

/-- C100: `fold_row` with an array as state: at most the values of the rows already written are lost. -/
theorem C100_fold_row {N : Nat} {cloneRow : Vector α N → Own α σ (Vector α N)}
    (hc : ∀ x, Settled 0 [] (cloneRow x) fun v => v.toList) (init : Vector α N)
    (f : Vector α N → List β → Own α σ (Vector α N)) (hf : ∀ s x, Settled 0 s.toList (f s x) fun v => v.toList) :
    (∀ (t : Tensor β) ds c xs, Rep t (ds ++ [c]) xs → 0 < c → N < 2 ^ 32 →
      Settled N init.toList (Unwind.foldRow cloneRow t none init f) Tensor.data) ∧
    (∀ (t : Tensor β) pre d post c xs a, Rep t (pre ++ d :: post ++ [c]) xs → (∀ x ∈ pre ++ post, 0 < x) → 0 < N → N < 2 ^ 32 →
      axisIndex (pre.length + post.length + 2) a = some pre.length →
      Settled (pre ++ post ++ [N]).prod init.toList (Unwind.foldRow cloneRow t (some a) init f) Tensor.data) := by
  constructor
  · intro t ds c xs h hpos hN
    refine Unwind.foldRow_settled hc t none init f hf fun os b l i n hr hn => ?_
    rw [h.shape, reduceRow_none h.adm h.fits hpos hN] at hr
    simp only [Except.ok.injEq, Prod.mk.injEq] at hr
    obtain ⟨rfl, _⟩ := hr
    have := ((size_ofDims_iff ⟨by simp, by simpa using hN⟩).1 hn).2
    simp at this
    omega
  · intro t pre d post c xs a h hpos hN hN' ha
    refine Unwind.foldRow_settled hc t (some a) init f hf fun os b l i n hr hn => ?_
    rw [h.shape, reduceRow_some h.adm hpos hN hN' ha] at hr
    simp only [Except.ok.injEq, Prod.mk.injEq] at hr
    obtain ⟨rfl, _⟩ := hr
    refine Nat.le_of_eq ((size_ofDims_iff ?_).1 hn).2
    have hadm := h.adm
    refine ⟨?_, fun x hx => ?_⟩
    · have := hadm.len
      simp at this ⊢
      omega
    · simp only [List.mem_append, List.mem_singleton] at hx
      rcases hx with (hx | hx) | rfl
      · exact hadm.lt x (by simp [hx])
      · exact hadm.lt x (by simp [hx])
      · exact hN'

/-- C100: `normalize`, for all arguments, with states and results of one type: each state is dropped once, and at most the
values already written are lost. -/
theorem C100_normalize {clone : α → Own α σ α} (hc : ∀ x, Settled 0 [] (clone x) fun v => [v]) (t : Tensor β) (axis : Axis)
    {n : Nat} (hn : t.shape.size = .ok n) (init : α) {accum : α → β → Own α σ α} {complete : α → Own α σ α}
    {norm : α → β → Own α σ α} (ha : ∀ s x, Settled 0 [s] (accum s x) fun v => [v])
    (hd : ∀ s, Settled 0 [s] (complete s) fun v => [v]) (hm : ∀ s x, Settled 0 [] (norm s x) fun v => [v]) :
    Settled n [init] (Unwind.normalize clone t axis init accum complete norm) Tensor.data := by
  refine Unwind.startValue (Settled.first fun r hr => ?_)
  obtain ⟨_, batch, aLen, inner⟩ := r
  dsimp only
  rw [hn]
  refine Settled.first fun n' hn' => ?_
  obtain rfl := Except.ok.inj hn'
  refine Settled.unsafeInit (Settled.first fun a _ => ?_)
  refine (Settled.loop (toks := fun b : Buf α => b.filterMap id) (fun j => Settled.FreeFrom n (j * inner * aLen))
    (Nat.zero_le batch) (by rw [Nat.zero_mul, Nat.zero_mul]; exact Settled.freeFrom_uninit n) fun b o _ _ hb => ?_).imp
    (by rw [Settled.vals_uninit]) fun _ _ => ⟨trivial, List.Perm.refl _⟩
  refine (Settled.loop (toks := fun b : Buf α => b.filterMap id) (fun i => Settled.FreeFrom n ((b * inner + i) * aLen))
    (Nat.zero_le inner) hb fun i o _ _ hb => ?_).imp (List.Perm.refl _)
    fun _ hb => ⟨by rw [Nat.succ_mul]; exact hb, List.Perm.refl _⟩
  have hstate : Settled 0 [] (do
      let state ← clone init
      let state ← forR 0 aLen state fun k state => do
        let v ← (Unwinds.holding [state] (liftM (idx a ((b * aLen + k) * inner + i)) : Own α σ β) : Own α σ β)
        accum state v
      complete state) fun v => [v] := by
    refine (hc init).bind fun v _ => Settled.bind (toks := fun v => [v]) (post := fun _ => True) ?_ fun s _ => hd s
    refine Settled.loop (toks := fun v => [v]) (fun _ _ => True) (Nat.zero_le _) trivial fun k s _ _ _ => ?_
    exact (Settled.heldLift (toks := fun _ => [s]) (post := fun _ => True) _
      fun _ _ => ⟨List.Perm.refl _, trivial⟩).bind fun x _ => ha s x
  have hrow : ∀ s, Settled n (o.filterMap id) (forR 0 aLen o fun k o => do
      let v ← (liftM (idx a ((b * aLen + k) * inner + i)) : Own α σ β)
      let w ← norm s v
      (liftM (o.write ((b * inner + i) * aLen + k) w) : Own α σ (Buf α))) (fun b => b.filterMap id)
      (Settled.FreeFrom n ((b * inner + (i + 1)) * aLen)) := by
    intro s
    refine (Settled.loop (toks := fun b : Buf α => b.filterMap id) (fun k => Settled.FreeFrom n ((b * inner + i) * aLen + k))
      (Nat.zero_le aLen) hb fun k o _ _ hb => ?_).imp (List.Perm.refl _)
      fun _ hb => ⟨by rw [← Nat.add_assoc, Nat.succ_mul]; exact hb, List.Perm.refl _⟩
    exact Settled.pass (Settled.vals_le hb) fun x _ => Settled.fill hb (hm s x)
  have hs := ((hstate.loose (o.filterMap id)).mono (k' := n) (by have := Settled.vals_le hb; omega)).imp
    (own' := o.filterMap id) (toks' := fun v => o.filterMap id ++ [v]) (post' := fun _ => True) (by simp)
    fun _ _ => ⟨trivial, List.Perm.refl _⟩
  have hall := hs.bind (toks' := fun b : Buf α => b.filterMap id) (post' := Settled.FreeFrom n ((b * inner + (i + 1)) * aLen))
    (f := fun state => do
      let o ← (Unwinds.holding [state] (forR 0 aLen o fun k o => do
        let v ← (liftM (idx a ((b * aLen + k) * inner + i)) : Own α σ β)
        let w ← norm state v
        (liftM (o.write ((b * inner + i) * aLen + k) w) : Own α σ (Buf α))) : Own α σ (Buf α))
      (Unwinds.drop [state] : Own α σ Unit)
      return o) fun s _ => by
    refine Settled.bind (((hrow s).held [s]).imp (own' := o.filterMap id ++ [s])
      (toks' := fun b => [s] ++ b.filterMap id) List.perm_append_comm fun _ hb => ⟨hb, List.Perm.refl _⟩) fun o' ho' => ?_
    refine Settled.bind (toks := fun _ => o'.filterMap id) (post := fun _ => True) ?_ fun _ _ =>
      Settled.ret (List.Perm.refl _) ho'
    intro l
    exact ⟨trivial, [], [s], by show l.made = _; simp, rfl, by simp⟩
  simp only [bind_assoc] at hall
  exact hall

/-- The matrices, without the record of drops. -/
theorem C100_models_agree_matrices (clone : α → Exec σ α) (zero one : Exec σ α) :
    (∀ n, Unwind.eye (m := Exec σ) zero one n = Clones.eye zero one n) ∧
    (∀ n, Unwind.tri (m := Exec σ) zero one n = Clones.tri zero one n) ∧
    (∀ t, Unwind.diagflat (m := Exec σ) clone zero t = Clones.diagflat clone zero t) ∧
    (∀ t, Unwind.tril (m := Exec σ) clone zero t = Clones.tril clone zero t) ∧
    (∀ t, Unwind.triu (m := Exec σ) clone zero t = Clones.triu clone zero t) := by
  refine ⟨fun n => ?_, fun n => rfl, fun t => rfl, fun t => rfl, fun t => rfl⟩
  unfold Unwind.eye Clones.eye
  split <;> rfl

/-- C100: `eye`, `identity`, `tri`, `diagflat`, `tril` and `triu`, for all arguments. `zero` and `one` are the calls of
`T::zero()` and `T::one()`. -/
theorem C100_matrices {clone : α → Own α σ α} {zero one : Own α σ α} (hc : ∀ x, Settled 0 [] (clone x) fun v => [v])
    (hz : Settled 0 [] zero fun v => [v]) (ho : Settled 0 [] one fun v => [v]) :
    (∀ n, n < 2 ^ 32 → Settled (n * n) [] (Unwind.eye zero one n) Tensor.data) ∧
    (∀ n, n < 2 ^ 32 → Settled (n * n) [] (Unwind.tri zero one n) Tensor.data) ∧
    (∀ t : Tensor α, t.size < 2 ^ 32 → Settled (t.size * t.size) [] (Unwind.diagflat clone zero t) Tensor.data) ∧
    (∀ (t : Tensor α) n, t.shape.size = .ok n → Settled n [] (Unwind.tril clone zero t) Tensor.data) ∧
    (∀ (t : Tensor α) n, t.shape.size = .ok n → Settled n [] (Unwind.triu clone zero t) Tensor.data) := by
  have square : ∀ (n : Nat) (f : List Nat → Own α σ α), n < 2 ^ 32 → (∀ i, Settled 0 [] (f i) fun v => [v]) →
      Settled (n * n) [] (do
        let shape ← (liftM (Shape.ofSlice [n, n]) : Own α σ Shape)
        Unwind.initRindexed shape f) Tensor.data := by
    intro n f hn hf
    refine Settled.first fun s hs => ?_
    have hs' : s = ofDims [n, n] := by
      rw [ofSlice_adm ⟨by simp, by simp; omega⟩] at hs
      exact (Except.ok.inj hs).symm
    subst hs'
    cases hsz : (ofDims [n, n]).size with
    | ok k =>
      have := ((size_ofDims_iff ⟨by simp, by simp; omega⟩).1 hsz).2
      exact (C100_rows (N := 0) (β := Unit) (γ := Unit) (δ := Unit)).1 _ _ f hsz hf |>.mono (by simp at this; omega)
    | error e =>
      unfold Unwind.initRindexed
      rw [hsz]
      exact Settled.first fun m hm => by cases hm
  have tri : ∀ keep (t : Tensor α) n, t.shape.size = .ok n → Settled n [] (Unwind.triFill clone zero keep t) Tensor.data := by
    intro keep t n hn
    refine Settled.first fun _ _ => ?_
    rw [hn]
    refine Settled.first fun n' hn' => ?_
    obtain rfl := Except.ok.inj hn'
    refine Settled.unsafeInit (Settled.first fun x _ => Settled.first fun rows _ => Settled.first fun cols _ =>
      Settled.first fun q _ => ?_)
    refine (Settled.loop (toks := fun b : Buf α => b.filterMap id) (fun k => Settled.FreeFrom n (k * rows * cols))
      (Nat.zero_le q) (by rw [Nat.zero_mul, Nat.zero_mul]; exact Settled.freeFrom_uninit n) fun k o _ _ hb => ?_).imp
      (by rw [Settled.vals_uninit]) fun _ _ => ⟨trivial, List.Perm.refl _⟩
    refine (Settled.loop (toks := fun b : Buf α => b.filterMap id) (fun j => Settled.FreeFrom n (k * rows * cols + j * cols))
      (Nat.zero_le rows) (by rw [Nat.zero_mul]; exact hb) fun j o _ _ hb => ?_).imp (List.Perm.refl _)
      fun _ hb => ⟨by rw [Nat.succ_mul, Nat.add_mul]; exact hb, List.Perm.refl _⟩
    refine (Settled.loop (toks := fun b : Buf α => b.filterMap id)
      (fun i => Settled.FreeFrom n (k * rows * cols + j * cols + i))
      (Nat.zero_le cols) hb fun i o _ _ hb => ?_).imp (List.Perm.refl _)
      fun _ hb => ⟨by rw [Nat.succ_mul, ← Nat.add_assoc]; exact hb, List.Perm.refl _⟩
    dsimp only
    split
    · rw [← bind_assoc]
      exact Settled.fill hb (Settled.first fun v _ => hc v)
    · exact Settled.fill hb hz
  refine ⟨fun n hn => ?_, fun n hn => ?_, fun t ht => ?_, tri _, tri _⟩
  · unfold Unwind.eye
    split
    · refine Settled.mono ?_ (Nat.zero_le _)
      exact hz.bind fun v _ => Settled.fromVec [v] Shape.scalar
    · refine square n _ hn fun i => Settled.first fun i0 _ => Settled.first fun i1 _ => ?_
      split
      · exact ho
      · exact hz
  · refine square n _ hn fun i => Settled.first fun i0 _ => Settled.first fun i1 _ => ?_
    split
    · exact ho
    · exact hz
  · refine Settled.first fun _ _ => square t.size _ ht fun i => Settled.first fun i0 _ => Settled.first fun i1 _ => ?_
    split
    · exact Settled.first fun v _ => hc v
    · exact hz

/-! ## Copies -/

/-- C100: the copying functions that write into a block: if a clone panics, the copies made before it are lost, none is
dropped; if none does, the result has exactly the copies and nothing is dropped. -/
theorem C100_copies {u : Tensor α} {es : List Nat} {ys : List α} (hu : Rep u es ys) (c : α → σ → Except Err α × σ) :
    (∀ data, Tensor.fromSlice data = .ok u → CopiesIn c (Clones.fromSlice (Own.track c) data) es ys fun _ => []) ∧
    (∀ s v, Tensor.fill s v = .ok u → CopiesIn c (Clones.fill (Own.track c) s v) es ys fun _ => []) ∧
    (∀ t ds xs, Rep t ds xs → t.transpose = .ok u → CopiesIn c (Clones.transpose (Own.track c) t) es ys fun _ => []) ∧
    (∀ axis ts, Tensor.concatAxis axis ts = .ok u →
      CopiesIn c (Clones.concatAxis (Own.track c) axis ts) es ys fun _ => []) ∧
    (∀ axis ts, Tensor.stackVec axis ts = .ok u → CopiesIn c (Clones.stackVec (Own.track c) axis ts) es ys fun _ => []) ∧
    (∀ t ms, Tensor.tile t ms = .ok u → CopiesIn c (Clones.tile (Own.track c) t ms) es ys fun _ => []) := by
  refine ⟨?_, ?_, ?_, ?_, ?_, ?_⟩
  · intro data h; exact (Clones.fromSlice_isPuts data h).copiesIn h hu c
  · intro s v h
    rw [← Clones.fill_agrees] at h
    obtain ⟨n, hn, _⟩ := Clones.lift_eq_ok.1 h
    exact (Clones.fill_isPuts s v hn).copiesIn h hu c
  · intro t ds xs ht h
    rw [← Clones.transpose_agrees] at h
    exact (Clones.transpose_isPuts ht h).copiesIn h hu c
  · intro axis ts h
    rw [← Clones.concatAxis_agrees] at h
    exact (Clones.concatAxis_isPuts h).copiesIn h hu c
  · intro axis ts h
    rw [← Clones.stackVec_agrees] at h
    exact (Clones.stackVec_isPuts h).copiesIn h hu c
  · intro t ms h
    rw [← Clones.tile_agrees] at h
    exact (Clones.tile_isPuts h).copiesIn h hu c

/-- C100: the conversions that collect copies into a vector: if a clone panics, the copies made before it are dropped. -/
theorem C100_from {N : Nat} {v : List (List α)} {xs : List α} {rows : List (Vector α N)} {u : Tensor α} {es : List Nat}
    {ys : List α} (hu : Rep u es ys) (c : α → σ → Except Err α × σ) :
    (Tensor.joinVec v = .ok u → CopiesIn c (Unwind.joinVec (Own.track c) v) es ys id) ∧
    (Tensor.ofVec1 xs = .ok u → CopiesIn c (Unwind.ofVec1 (Own.track c) xs) es ys id) ∧
    (Tensor.ofRows rows = .ok u → CopiesIn c (Unwind.ofRows (Own.track c) rows) es ys id) := by
  have into : ∀ (data : List α) (s : Shape), (Unwind.fromVecInto data (.ok s) : Own α σ (Tensor α)) = Unwind.fromVec data s := by
    intro data s
    refine Own.ext fun l => ?_
    unfold Unwind.fromVecInto
    rw [Own.go_bind, Own.go_holding]
    rfl
  have data_eq : ∀ {data : List α} {s : Shape}, Tensor.fromVec data s = .ok u → data = ys := by
    intro data s h
    obtain ⟨_, rfl⟩ := new_eq_ok h
    have := hu.elems
    unfold Tensor.asSlice rawSlice at this
    simp at this
    exact this
  refine ⟨fun h => ?_, fun h => ?_, fun h => ?_⟩
  · obtain ⟨s, hs, h⟩ := bind_eq_ok.1 h
    obtain rfl := data_eq h
    exact copiesIn_collect rfl (fun vs hv => by rw [hv, hs, into]) h hu
  · obtain ⟨s, hs, h⟩ := bind_eq_ok.1 h
    obtain rfl := data_eq h
    exact copiesIn_collect rfl (fun vs hv => by rw [hv, hs, into]) h hu
  · obtain ⟨s, hs, h⟩ := bind_eq_ok.1 h
    obtain rfl := data_eq h
    exact copiesIn_collect rfl (fun vs hv => by rw [hs, into]) h hu

theorem Unwind.holding_ok (own : List α) (b : β) : (Unwinds.holding own (liftM (.ok b : Res β) : Own α σ β) : Own α σ β) = pure b :=
  Own.ext fun l => by rw [Own.go_holding]; rfl

theorem Unwind.fromVecInto_ok (data : List α) (s : Shape) :
    (Unwind.fromVecInto data (.ok s) : Own α σ (Tensor α)) = Unwind.fromVec data s := by
  unfold Unwind.fromVecInto
  rw [Unwind.holding_ok, pure_bind]

theorem Unwind.collect_append (clone : α → Own α σ α) : ∀ xs ys acc : List α,
    Unwind.collect clone acc (xs ++ ys) = Unwind.collect clone acc xs >>= fun acc => Unwind.collect clone acc ys
  | [], ys, acc => by
    rw [List.nil_append]
    show _ = (pure acc : Own α σ (List α)) >>= _
    rw [pure_bind]
  | x :: xs, ys, acc => by
    rw [List.cons_append]
    show (Unwinds.holding acc (clone x) >>= fun v => Unwind.collect clone (acc ++ [v]) (xs ++ ys)) =
      (Unwinds.holding acc (clone x) >>= fun v => Unwind.collect clone (acc ++ [v]) xs) >>= _
    rw [bind_assoc]
    exact bind_congr fun v => Unwind.collect_append clone xs ys _

theorem Unwind.concatSlices_collect (clone : α → Own α σ α) {ts : List (Tensor α)} {rs : List (List Nat × List α)}
    (h : RepAll ts rs) : Unwind.concatSlices clone ts = Unwind.collect clone [] (rs.flatMap Prod.snd) := by
  unfold Unwind.concatSlices
  generalize ([] : List α) = acc
  induction h generalizing acc with
  | nil => rfl
  | cons h _ ih =>
    rw [Clones.forL_step, List.flatMap_cons, Unwind.collect_append, h.elems, Unwind.holding_ok, pure_bind]
    exact bind_congr fun acc => ih acc

theorem Unwind.rows_collect (clone : α → Own α σ α) {n : Nat} : ∀ {v : List (List α)}, (∀ v1 ∈ v, n = v1.length) → ∀ acc,
    (forL v acc fun v1 data => do
      Unwinds.holding data (liftM (ensure (n = v1.length)) : Own α σ Unit)
      Unwind.collect clone data v1) = Unwind.collect clone acc v.flatten
  | [], _, acc => rfl
  | v1 :: v, h, acc => by
    rw [Clones.forL_step, List.flatten_cons, Unwind.collect_append, ensure_true (h v1 (by simp)), Unwind.holding_ok, pure_bind]
    exact bind_congr fun acc => Unwind.rows_collect clone (fun w hw => h w (List.mem_cons_of_mem _ hw)) acc

theorem Unwind.checks {n : Nat} {sh : Shape} : ∀ {ts : List (Tensor α)}, (∀ v ∈ ts, n = v.size ∧ sh = v.shape) →
    (forL ts () fun value _ => do
      (liftM (ensure (n = value.size)) : Own α σ Unit)
      (liftM (ensure (sh = value.shape)) : Own α σ Unit)) = pure ()
  | [], _ => rfl
  | t :: ts, hall => by
    rw [Clones.forL_step, ensure_true (hall t (by simp)).1, ensure_true (hall t (by simp)).2]
    exact Unwind.checks fun v hv => hall v (List.mem_cons_of_mem _ hv)

/-- C100: so do `from_merge`, `append`, the conversion of nested vectors and that of slices of tensors. -/
theorem C100_merge {u : Tensor α} {es : List Nat} {ys : List α} (hu : Rep u es ys) (c : α → σ → Except Err α × σ) :
    (∀ ts rs s, RepAll ts rs → Tensor.fromMerge ts s = .ok u → CopiesIn c (Unwind.fromMerge (Own.track c) ts s) es ys id) ∧
    (∀ t v dt dv xt xv, Rep t dt xt → Rep v dv xv → Tensor.append t v = .ok u →
      CopiesIn c (Unwind.append (Own.track c) t v) es ys id) ∧
    (∀ v, Tensor.ofVec2 v = .ok u → CopiesIn c (Unwind.ofVec2 (Own.track c) v) es ys id) ∧
    (∀ ts rs, RepAll ts rs → Tensor.ofTensors ts = .ok u → CopiesIn c (Unwind.ofTensors (Own.track c) ts) es ys id) := by
  have data_eq : ∀ {data : List α} {s : Shape}, Tensor.fromVec data s = .ok u → data = ys := by
    intro data s h
    obtain ⟨_, rfl⟩ := new_eq_ok h
    have := hu.elems
    unfold Tensor.asSlice rawSlice at this
    simp at this
    exact this
  have merge : ∀ ts rs s, RepAll ts rs → Tensor.fromMerge ts s = .ok u →
      CopiesIn c (Unwind.fromMerge (Own.track c) ts s) es ys id := by
    intro ts rs s h ht
    obtain ⟨n, h1, ht⟩ := bind_eq_ok.1 ht
    obtain ⟨_, h2, ht⟩ := bind_eq_ok.1 ht
    rw [Clones.concatSlices_pure h, ok_bind] at ht
    obtain rfl := data_eq ht
    refine copiesIn_collect (f := fun vs => Unwind.fromVec vs s) ?_ (fun _ _ => rfl) ht hu
    unfold Unwind.fromMerge
    dsimp only
    rw [h1, Clones.lift_ok', pure_bind, h2, Clones.lift_ok', pure_bind, Unwind.concatSlices_collect _ h]
  refine ⟨merge, ?_, ?_, ?_⟩
  · intro t v dt dv xt xv h1 h2 ho
    obtain ⟨a, e1, ho⟩ := bind_eq_ok.1 ho
    obtain ⟨b, e2, ho⟩ := bind_eq_ok.1 ho
    obtain ⟨_, e3, ho⟩ := bind_eq_ok.1 ho
    obtain ⟨vec, e4, ho⟩ := bind_eq_ok.1 ho
    obtain ⟨d, e5, ho⟩ := bind_eq_ok.1 ho
    obtain ⟨e, e6, ho⟩ := bind_eq_ok.1 ho
    obtain ⟨vec', e7, ho⟩ := bind_eq_ok.1 ho
    obtain ⟨shape, e8, ho⟩ := bind_eq_ok.1 ho
    have := merge _ _ _ (.cons h1 (.cons h2 .nil)) ho
    unfold Unwind.append
    rw [e1, Clones.lift_ok', pure_bind, e2, Clones.lift_ok', pure_bind, e3, Clones.lift_ok', pure_bind, e4, Clones.lift_ok',
      pure_bind, e5, Clones.lift_ok', pure_bind, e6, Clones.lift_ok', pure_bind, e7, Clones.lift_ok', pure_bind, e8,
      Clones.lift_ok', pure_bind]
    exact this
  · intro v ho
    unfold Tensor.ofVec2 at ho
    obtain ⟨r0, e1, ho⟩ := bind_eq_ok.1 ho
    obtain ⟨data, e2, ho⟩ := bind_eq_ok.1 ho
    obtain ⟨shape, e3, ho⟩ := bind_eq_ok.1 ho
    have hall : ∀ v1 ∈ v, r0.length = v1.length := fun v1 hv => by
      obtain ⟨a, b, e⟩ := forL_ok_all e2 v1 hv
      exact (ensure_bind_eq_ok.1 e).1
    have hd : data = v.flatten := by
      have := Clones.rows_pure hall []
      rw [e2] at this
      exact Except.ok.inj this
    subst hd
    obtain rfl := data_eq ho
    refine copiesIn_collect (f := fun vs => Unwind.fromVecInto vs (Shape.ofSlice [v.length, r0.length])) ?_
      (fun vs _ => by rw [e3, Unwind.fromVecInto_ok]) ho hu
    unfold Unwind.ofVec2
    rw [e1, Clones.lift_ok', pure_bind]
    dsimp only
    rw [Unwind.rows_collect _ hall]
  · intro ts rs h ht
    unfold Tensor.ofTensors at ht
    obtain ⟨_, e1, ht⟩ := bind_eq_ok.1 ht
    obtain ⟨v0, e2, ht⟩ := bind_eq_ok.1 ht
    obtain ⟨_, e3, ht⟩ := bind_eq_ok.1 ht
    rw [Clones.concatSlices_pure h, ok_bind] at ht
    obtain ⟨shape, e4, ht⟩ := bind_eq_ok.1 ht
    obtain rfl := data_eq ht
    refine copiesIn_collect (f := fun vs => Unwind.fromVecInto vs (v0.shape.push ts.length)) ?_
      (fun vs _ => by rw [e4, Unwind.fromVecInto_ok]) ht hu
    unfold Unwind.ofTensors
    dsimp only
    rw [e1, Clones.lift_ok', pure_bind, e2, Clones.lift_ok', pure_bind]
    have hall : ∀ v ∈ ts, v0.size = v.size ∧ v0.shape = v.shape := fun v hv => by
      obtain ⟨a, b, e⟩ := forL_ok_all e3 v hv
      have := ensure_bind_eq_ok.1 e
      exact ⟨this.1, ensure_eq_ok.1 this.2⟩
    rw [Unwind.checks hall, pure_bind, Unwind.concatSlices_collect _ h]

/-! ## Functions with several results -/

theorem Unwind.splitInner_settled {t : Tensor α} {axis nOuter nInner axisLen : Nat} {x : List α}
    (c : α → σ → Except Err α × σ) {k : Nat} :
    ∀ {cuts : List Nat} {prev : Nat} {us : List (Tensor α)} {rs : List (List Nat × List α)},
      t.splitInner axis nOuter nInner axisLen x cuts prev = .ok us → RepAll us rs → (∀ r ∈ rs, r.2.length ≤ k) →
      Settled k [] (Unwind.splitInner (Own.track c) t axis nOuter nInner axisLen x cuts prev) fun ts => ts.flatMap (·.data)
  | [], _, us, rs, h, hr, _ => Settled.ret (List.Perm.refl _) trivial
  | cut :: cuts, prev, us, rs, h, hr, hk => by
    unfold Tensor.splitInner at h
    unfold Unwind.splitInner
    split at h
    · rename_i e
      rw [if_pos e]
      exact Unwind.splitInner_settled c h hr hk
    · rename_i e
      rw [if_neg e]
      obtain ⟨p, h1, h⟩ := bind_eq_ok.1 h
      obtain ⟨rest, h2, h⟩ := bind_eq_ok.1 h
      obtain rfl := Except.ok.inj h
      cases hr with
      | cons hp hrest =>
        rw [← Clones.splitPiece_agrees] at h1
        have hpiece := ((Clones.splitPiece_isPuts h1).copiesIn h1 hp c).settled.mono (hk _ List.mem_cons_self)
        have hr := Unwind.splitInner_settled c h2 hrest fun r hr => hk r (List.mem_cons_of_mem _ hr)
        refine hpiece.bind fun piece _ => ?_
        refine Settled.bind ((hr.held piece.data).imp (own' := piece.data) (post' := fun _ => True)
          (toks' := fun ts => piece.data ++ ts.flatMap (·.data)) (by simp) fun _ _ => ⟨trivial, List.Perm.refl _⟩) fun ts _ => ?_
        exact Settled.ret (by simp) trivial

/-- C100: `split` along any axis but the first: if a clone panics, the finished pieces are dropped and at most one piece, the
one being copied, is lost. -/
theorem C100_split {t : Tensor α} {axis : Axis} {s : Tensor.Sections} {us : List (Tensor α)}
    {rs : List (List Nat × List α)} (h : t.splitAxis axis s = .ok us) (hu : RepAll us rs)
    (ha : axis.axisFromRank t.shape.rank ≠ .ok 0) (c : α → σ → Except Err α × σ) {k : Nat}
    (hk : ∀ r ∈ rs, r.2.length ≤ k) :
    Settled k [] (Unwind.splitAxis (Own.track c) t axis s) fun ts => ts.flatMap (·.data) := by
  unfold Tensor.splitAxis at h
  obtain ⟨a, e1, h⟩ := bind_eq_ok.1 h
  obtain ⟨len, e2, h⟩ := bind_eq_ok.1 h
  obtain ⟨cuts, e3, h⟩ := bind_eq_ok.1 h
  have ha : a ≠ 0 := by rintro rfl; exact ha e1
  rw [if_neg ha] at h
  unfold Tensor.splitByAxis at h
  obtain ⟨nOuter, e4, h⟩ := bind_eq_ok.1 h
  have hb : ∃ nInner, (if a < t.shape.rank then t.shape.sublen (a + 1) t.shape.rank else pure 1 : Res Nat) =
      Except.ok nInner ∧ (do
        let axisLen ← t.shape.dim a
        let x ← t.asSlice
        t.splitInner a nOuter nInner axisLen x cuts 0) = Except.ok us := by
    split at h
    · rename_i hlt
      obtain ⟨nInner, e5, h⟩ := bind_eq_ok.1 h
      exact ⟨nInner, by rw [if_pos hlt, e5], h⟩
    · rename_i hlt
      exact ⟨1, by rw [if_neg hlt]; rfl, h⟩
  obtain ⟨nInner, e5, h⟩ := hb
  obtain ⟨axisLen, e6, h⟩ := bind_eq_ok.1 h
  obtain ⟨x, e7, h⟩ := bind_eq_ok.1 h
  unfold Unwind.splitAxis
  rw [e1, Clones.lift_ok', pure_bind, e2, Clones.lift_ok', pure_bind, e3, Clones.lift_ok', pure_bind, if_neg ha, e4,
    Clones.lift_ok', pure_bind, e5, Clones.lift_ok', pure_bind, pure_bind, e7, Clones.lift_ok', pure_bind]
  rw [e2] at e6
  obtain rfl := Except.ok.inj e6
  exact Unwind.splitInner_settled c h hu hk

/-- C100: `split` along the first axis makes and drops nothing. -/
theorem C100_split_views {t : Tensor α} {axis : Axis} {s : Tensor.Sections} (ha : axis.axisFromRank t.shape.rank = .ok 0)
    (clone : α → Own α σ α) (l : Ledger α σ) : (Unwind.splitAxis clone t axis s).go l = (t.splitAxis axis s, l) := by
  unfold Unwind.splitAxis Tensor.splitAxis
  rw [ha, Clones.lift_ok', pure_bind, ok_bind]
  cases t.shape.dim 0 with
  | error e => rfl
  | ok len =>
    rw [Clones.lift_ok', pure_bind, ok_bind]
    cases Tensor.sectionCuts len s with
    | error e => rfl
    | ok cuts => rfl

theorem Unwind.mesh_settled {axes : List (Tensor α)} (hw : ∀ t ∈ axes, ∃ ds xs, Rep t ds xs) {shape : Shape} {k : Nat}
    (c : α → σ → Except Err α × σ) : ∀ {acc acc' : List (Tensor α)} {kS : Nat} {st : List (Tensor α) × Nat},
      (forL axes (acc, kS) fun x st => do
        let t ← Init.buildMeshgridAxis x shape st.2
        return (st.1 ++ [t], st.2 * x.size)) = Except.ok st →
      (∀ us, st.1 = acc ++ us → ∃ rs, RepAll us rs ∧ ∀ r ∈ rs, r.2.length ≤ k) →
      Settled k (acc'.flatMap (·.data)) (forL axes (acc', kS) fun x st => do
        let t ← (Unwinds.holding (st.1.flatMap (·.data)) (Clones.buildMeshgridAxis (Own.track c) x shape st.2) :
          Own α σ (Tensor α))
        return (st.1 ++ [t], st.2 * x.size)) fun st => st.1.flatMap (·.data) := by
  induction axes with
  | nil =>
    intro acc acc' kS st h hk
    exact Settled.ret (List.Perm.refl _) trivial
  | cons a axes ih =>
    intro acc acc' kS st h hk
    rw [Clones.forL_step] at h ⊢
    obtain ⟨st1, h1, h⟩ := bind_eq_ok.1 h
    obtain ⟨t, ht, h1⟩ := bind_eq_ok.1 h1
    obtain rfl := Except.ok.inj h1
    obtain ⟨ds, xs, ha⟩ := hw a (by simp)
    have hpre : ∃ us, st.1 = acc ++ t :: us := by
      have : ∀ (axes : List (Tensor α)) (acc : List (Tensor α)) (kS : Nat), (forL axes (acc, kS) fun x st => do
          let t ← Init.buildMeshgridAxis x shape st.2
          return (st.1 ++ [t], st.2 * x.size)) = Except.ok st → ∃ us, st.1 = acc ++ us := by
        intro axes
        induction axes with
        | nil => intro acc kS h; obtain rfl := Except.ok.inj h; exact ⟨[], by simp⟩
        | cons a axes ih =>
          intro acc kS h
          rw [Clones.forL_step] at h
          obtain ⟨st1, h1, h⟩ := bind_eq_ok.1 h
          obtain ⟨t, _, h1⟩ := bind_eq_ok.1 h1
          obtain rfl := Except.ok.inj h1
          obtain ⟨us, e⟩ := ih _ _ h
          exact ⟨t :: us, by rw [e]; simp⟩
      obtain ⟨us, e⟩ := this _ _ _ h
      exact ⟨us, by rw [e]; simp⟩
    obtain ⟨us, e⟩ := hpre
    obtain ⟨rs, hr, hle⟩ := hk _ e
    cases hr with
    | cons hp hrest =>
      rw [← Clones.buildMeshgridAxis_agrees] at ht
      have hpiece := ((Clones.buildMeshgridAxis_isPuts ha ht).copiesIn ht hp c).settled.mono (hle _ List.mem_cons_self)
      rw [bind_assoc]
      refine Settled.bind ((hpiece.held (acc'.flatMap (·.data))).imp (own' := acc'.flatMap (·.data)) (post' := fun _ => True)
        (toks' := fun t => acc'.flatMap (·.data) ++ t.data) (by simp) fun _ _ => ⟨trivial, List.Perm.refl _⟩) fun t' _ => ?_
      rw [pure_bind]
      have := ih (fun t ht => hw t (List.mem_cons_of_mem _ ht)) (acc' := acc' ++ [t']) h fun us' e' => by
        have : us' = us := by
          rw [e] at e'
          simpa using e'.symm
        subst this
        exact ⟨_, hrest, fun r hr => hle r (List.mem_cons_of_mem _ hr)⟩
      exact this.imp (by simp) fun _ _ => ⟨trivial, List.Perm.refl _⟩

/-- C100: `meshgrid` and `meshgrid_ij`: if a clone panics, the finished grids are dropped and at most one grid is lost. -/
theorem C100_meshgrid {axes : List (Tensor α)} {ps : List (List Nat × List α)} (hw : RepAll axes ps) {order : Init.Order}
    {us : List (Tensor α)} {rs : List (List Nat × List α)} (h : Init.buildMeshgrid axes order = .ok us) (hu : RepAll us rs)
    (c : α → σ → Except Err α × σ) {k : Nat} (hk : ∀ r ∈ rs, r.2.length ≤ k) :
    Settled k [] (Unwind.buildMeshgrid (Own.track c) axes order) fun ts => ts.flatMap (·.data) := by
  have hw' : ∀ t ∈ axes, ∃ ds xs, Rep t ds xs := by
    clear h hu
    induction hw with
    | nil => simp
    | cons h _ ih =>
      intro t ht
      rcases List.mem_cons.1 ht with rfl | ht
      · exact ⟨_, _, h⟩
      · exact ih t ht
  unfold Init.buildMeshgrid at h
  obtain ⟨shape, hs, h⟩ := bind_eq_ok.1 h
  obtain ⟨st, hst, h⟩ := bind_eq_ok.1 h
  obtain rfl := Except.ok.inj h
  unfold Unwind.buildMeshgrid
  dsimp only
  rw [hs, Clones.lift_ok', pure_bind]
  have := Unwind.mesh_settled (k := k) (σ := σ) (acc' := []) (by
    intro t ht
    refine hw' t ?_
    rw [List.mem_reverse] at ht
    split at ht
    · exact List.mem_reverse.1 ht
    · exact ht) c hst fun us' e => by
      rw [List.nil_append] at e
      rw [e] at hu
      split at hu
      · have := Clones.repAll_reverse hu
        rw [List.reverse_reverse] at this
        exact ⟨_, this, fun r hr => hk r (List.mem_reverse.1 hr)⟩
      · exact ⟨_, hu, hk⟩
  refine this.bind fun st _ => Settled.ret ?_ trivial
  split
  · exact (List.reverse_perm _).flatMap_right _
  · exact List.Perm.refl _

/-! ## Examples: a clone that panics at its third call, `env` counts the calls -/

def thirdPanics (x : Nat) (n : Nat) : Except Err Nat × Nat := (if n = 2 then .error .panic else .ok (x + 10), n + 1)

/-- The vector drops the two copies, the block loses them. -/
example : (Unwind.ofVec1 (Own.track thirdPanics) [1, 2, 3]).go ⟨[], [], 0⟩ = (.error .panic, ⟨[11, 12], [11, 12], 3⟩) ∧
    (Clones.fromSlice (Own.track thirdPanics) [1, 2, 3]).go ⟨[], [], 0⟩ = (.error .panic, ⟨[11, 12], [], 3⟩) := by
  constructor <;> rfl

/-- A row of the wrong length is found after the clones of the first row, which are dropped. -/
example : (Unwind.ofVec2 (Own.track thirdPanics) [[1, 2], [3]]).go ⟨[], [], 0⟩ = (.error .panic, ⟨[11, 12], [11, 12], 2⟩) :=
  rfl

/-- A state of a fold is dropped with the start value. -/
example : (Unwind.fold (Own.track thirdPanics) (⟨Shape.ofDims [2], 0, 2, [5, 6]⟩ : Tensor Nat) 1 fun s x => do
      Unwinds.drop [s]
      Own.track thirdPanics (s + x)).go ⟨[], [], 0⟩ = (.error .panic, ⟨[11, 26], [11, 26, 1], 3⟩) := by
  rfl

/-- The first piece is dropped, the second is lost. -/
example : let r := (Unwind.splitAxis (Own.track thirdPanics) (cloneT [1, 4] [5, 6, 7, 8]) (some 1) (.splitCuts [1])).go ⟨[], [], 0⟩
    r.1.isOk = false ∧ r.2.made = [15, 16] ∧ r.2.dropped = [15] := by
  decide +kernel

example (x : Nat) : Settled 0 [] (Own.track thirdPanics x : Own Nat Nat Nat) fun v => [v] := Settled.track _ _

/-- A closure that drops its state and makes a new one. -/
theorem exFold (c : Nat → σ → Except Err Nat × σ) (s x : Nat) :
    Settled 0 [s] (do Unwinds.drop [s]; Own.track c (s + x) : Own Nat σ Nat) fun v => [v] :=
  (Settled.dropAll [s]).bind fun _ _ => Settled.track c _

example (c : Nat → σ → Except Err Nat × σ) : Settled 3 [0] (Unwind.foldAxis (Own.track c) exView (some 1) 0 fun s x => do
      Unwinds.drop [s]; Own.track c (s + x)) Tensor.data :=
  (C100_axis (fun x => Settled.track c x) (pre := [3]) (post := []) exView_rep (by decide)).1 0 _ (exFold c)

example (c : Nat → σ → Except Err Nat × σ) :
    CopiesIn c (Clones.transpose (Own.track c) exView) [2, 3] [2, 4, 6, 3, 5, 7] fun _ => [] :=
  (C100_copies (u := cloneT [2, 3] [2, 4, 6, 3, 5, 7]) (cloneT_rep ⟨by simp, by simp⟩ (by simp) (by simp) rfl) c).2.2.1
    _ _ _ exView_rep rfl

example (c : Nat → σ → Except Err Nat × σ) :
    CopiesIn c (Unwind.joinVec (Own.track c) [[1], [2, 3]]) [3] [1, 2, 3] id :=
  (C100_from (N := 0) (xs := []) (rows := []) (u := cloneT [3] [1, 2, 3])
    (cloneT_rep ⟨by simp, by simp⟩ (by simp) (by simp) rfl) c).1 rfl

example (c : Nat → σ → Except Err Nat × σ) :
    CopiesIn c (Unwind.fromMerge (Own.track c) [exRow, exView] (ofDims [4, 2])) [4, 2] [10, 20, 2, 3, 4, 5, 6, 7] id :=
  (C100_merge (u := cloneT [4, 2] [10, 20, 2, 3, 4, 5, 6, 7]) (cloneT_rep ⟨by simp, by simp⟩ (by simp) (by simp) rfl) c).1
    _ _ _ (.cons exRow_rep (.cons exView_rep .nil)) rfl

example (c : Nat → σ → Except Err Nat × σ) :
    Settled 3 [] (Unwind.splitAxis (Own.track c) exView (some 1) (.splitEqual 2)) fun ts => ts.flatMap (·.data) :=
  C100_split (us := [cloneT [3, 1] [2, 4, 6], cloneT [3, 1] [3, 5, 7]]) (by decide +kernel)
    (.cons (cloneT_rep ⟨by simp, by simp⟩ (by simp) (by simp) rfl) (.cons (cloneT_rep ⟨by simp, by simp⟩ (by simp) (by simp) rfl) .nil))
    (by decide +kernel) c (by simp)

example (c : Nat → σ → Except Err Nat × σ) :
    Settled 6 [] (Unwind.buildMeshgrid (Own.track c) [exRow, cloneT [3] [1, 2, 3]] .IJ) fun ts => ts.flatMap (·.data) :=
  C100_meshgrid (.cons exRow_rep (.cons (cloneT_rep ⟨by simp, by simp⟩ (by simp) (by simp) rfl) .nil))
    (us := [cloneT [2, 3] [10, 10, 10, 20, 20, 20], cloneT [2, 3] [1, 2, 3, 1, 2, 3]]) rfl
    (.cons (cloneT_rep ⟨by simp, by simp⟩ (by simp) (by simp) rfl) (.cons (cloneT_rep ⟨by simp, by simp⟩ (by simp) (by simp) rfl) .nil))
    c (by simp)

example (l : Ledger Nat Nat) : ((Unwind.splitAxis (Own.track thirdPanics) exView (some 0) (.splitEqual 3)).go l).2 = l := by
  rw [C100_split_views (axisFromRank_eq (by decide) (by decide))]

/-! ### Rows and matrices -/

/-- The clone of an array of two: if the second clone panics the first copy is dropped. -/
def exCloneRow (c : Nat → σ → Except Err Nat × σ) (v : Vector Nat 2) : Own Nat σ (Vector Nat 2) := do
  let a ← Own.track c v[0]
  let b ← Unwinds.holding [a] (Own.track c v[1] : Own Nat σ Nat)
  return #v[a, b]

theorem exCloneRow_settled (c : Nat → σ → Except Err Nat × σ) (v : Vector Nat 2) :
    Settled 0 [] (exCloneRow c v) fun v => v.toList :=
  (Settled.track c _).bind fun a _ => (((Settled.track c v[1]).held [a]).imp (own' := [a]) (toks' := fun b => [a, b])
    (post' := fun _ => True) (by simp) fun _ _ => ⟨trivial, List.Perm.refl _⟩).bind fun b _ => Settled.ret (List.Perm.refl _) trivial

/-- A closure that adds a row to its state. -/
def exAddRow (c : Nat → σ → Except Err Nat × σ) (s : Vector Nat 2) (x : List Nat) : Own Nat σ (Vector Nat 2) := do
  let r ← (Unwinds.holding s.toList (exCloneRow c (s.map (· + x.sum))) : Own Nat σ (Vector Nat 2))
  Unwinds.drop s.toList
  return r

theorem exAddRow_settled (c : Nat → σ → Except Err Nat × σ) (s : Vector Nat 2) (x : List Nat) :
    Settled 0 s.toList (exAddRow c s x) fun v => v.toList := by
  refine Settled.bind (((exCloneRow_settled c _).held s.toList).imp (own' := s.toList) (toks' := fun v => s.toList ++ v.toList)
    (post' := fun _ => True) (by simp) fun _ _ => ⟨trivial, List.Perm.refl _⟩) fun r _ => ?_
  refine Settled.bind (toks := fun _ => r.toList) (post := fun _ => True) ?_ fun _ _ => Settled.ret (List.Perm.refl _) trivial
  intro l
  exact ⟨trivial, [], s.toList, by show l.made = _; simp, rfl, by simpa using List.perm_append_comm⟩

example (c : Nat → σ → Except Err Nat × σ) :
    Settled 2 [0, 0] (Unwind.foldRow (exCloneRow c) exView (some 0) #v[0, 0] (exAddRow c)) Tensor.data :=
  (C100_fold_row (exCloneRow_settled c) #v[0, 0] _ (exAddRow_settled c)).2 _ [] 3 [] 2 _ _ exView_rep (by simp) (by decide)
    (by decide) (by decide)

/-- The state is dropped with the start value; nothing was written, so nothing is lost. -/
example : let r := (Unwind.foldRow (exCloneRow thirdPanics) exView (some 0) #v[1, 2] (exAddRow thirdPanics)).go ⟨[], [], 0⟩
    r.1.isOk = false ∧ r.2.made = [11, 12] ∧ r.2.dropped = [11, 12, 1, 2] := by
  decide +kernel

example (c : Nat → σ → Except Err Nat × σ) :
    Settled 6 [0] (Unwind.normalize (Own.track c) exView (some 1) 0 (fun s x => do Unwinds.drop [s]; Own.track c (s + x))
      (fun s => pure s) fun s x => Own.track c (s * x)) Tensor.data :=
  C100_normalize (fun x => Settled.track c x) exView (some 1) (n := 6) (by rw [exView_rep.shape]; rfl) 0 (exFold c)
    (fun s => Settled.ret (List.Perm.refl _) trivial) fun s x => Settled.track c _

/-- The state of a lane is dropped, the value written before the panic is lost. -/
example : let r := (Unwind.normalize (Own.track thirdPanics) (⟨Shape.ofDims [2], 0, 2, [5, 6]⟩ : Tensor Nat) (some 0) 1
      (fun s _ => pure s) (fun s => pure s) fun s x => Own.track thirdPanics (s + x)).go ⟨[], [], 0⟩
    r.1.isOk = false ∧ r.2.made = [11, 26] ∧ r.2.dropped = [11, 1] := by
  decide +kernel

example (c : Nat → σ → Except Err Nat × σ) :
    Settled 6 [] (Unwind.mapRow exView 2 fun x => exCloneRow c #v[x.sum, x.length]) Tensor.data :=
  (C100_rows (α := Nat) (β := Nat) (γ := Nat) (δ := Nat) (N := 2)).2.1 exView 2 _ (by rw [exView_rep.shape]; rfl)
    fun x => exCloneRow_settled c _

/-- A row whose second value is not made: the first row is lost, its own first value is dropped. -/
example : let r := (Unwind.mapExpand (⟨Shape.ofDims [2], 0, 2, [5, 6]⟩ : Tensor Nat) 2 fun x =>
      exCloneRow (fun x n => (if n = 3 then .error .panic else .ok x, n + 1)) #v[x, x + 10]).go ⟨[], [], 0⟩
    r.1.isOk = false ∧ r.2.made = [5, 15, 6] ∧ r.2.dropped = [6] := by
  decide +kernel

example (c : Nat → σ → Except Err Nat × σ) :
    Settled 9 [] (Unwind.eye (Own.track c 0) (Own.track c 1) 3) Tensor.data ∧
    Settled 6 [] (Unwind.tril (Own.track c) (Own.track c 0) exView) Tensor.data :=
  have h := C100_matrices (fun x => Settled.track c x) (Settled.track c 0) (Settled.track c 1)
  ⟨h.1 3 (by decide), h.2.2.2.1 exView 6 (by rw [exView_rep.shape]; rfl)⟩

end Essay
