import Verif.Lemmas.BuildCalls
import Verif.Spec.Build
import Verif.Props.Reach
import Verif.Props.Release

/-!
# C98 Release builds agree with checked builds

The model has two builds: `Build.checked` panics on an overflow (`cargo build`), `Build.release` wraps
(`cargo build --release`). What returns in the first returns the same in the second. The converse fails: a release build
goes on where the other panics, and what it then does is not always defined (`C64_release_violates`,
`C60_release_violates`).
-/

namespace Essay

open Shape

variable {α β σ T U V W S F : Type}

/-- The functions of shapes and axes whose arithmetic can overflow. -/
theorem C98_shapes (s u : Shape) (i j k v : Nat) (a : Int) (ax : Option Int) (axis : Axis) :
    Carries (s.size) ∧ Carries (s.dim i) ∧ Carries (s.idim a) ∧ Carries (s.len) ∧ Carries (s.batchLen i) ∧
      Carries (s.asVec) ∧ Carries (s.sublen i j) ∧ Carries (s.rsublen i j) ∧ Carries (s.replace i v) ∧
      Carries (s.withDim i v) ∧ Carries (s.broadcast u) ∧ Carries (s.broadcastMin i u j) ∧ Carries (s.expandDims a) ∧
      Carries (s.squeeze ax) ∧ Carries (s.pop) ∧ Carries (s.remove i) ∧ Carries (s.rremove i) ∧ Carries (s.reduce) ∧
      Carries (s.insert i v) ∧ Carries (axis.axisFromRank k) ∧ Carries (axis.reduce s) ∧
      Carries (axis.reduceRow s v) :=
  ⟨(Shape.size_refines ..).apply, (Shape.dim_refines ..).apply, (Shape.idim_refines ..).apply,
    (Shape.len_refines ..).apply, (Shape.batchLen_refines ..).apply, (Shape.asVec_refines ..).apply,
    (Shape.sublen_refines ..).apply, (Shape.rsublen_refines ..).apply, (Shape.replace_refines ..).apply,
    (Shape.withDim_refines ..).apply, (Shape.broadcast_refines ..).apply, (Shape.broadcastMin_refines ..).apply,
    (Shape.expandDims_refines ..).apply, (Shape.squeeze_refines ..).apply, (Shape.pop_refines ..).apply,
    (Shape.remove_refines ..).apply, (Shape.rremove_refines ..).apply, (Shape.reduce_refines ..).apply,
    (Shape.insert_refines ..).apply, (Axis.axisFromRank_refines ..).apply, (Axis.reduce_refines ..).apply,
    (Axis.reduceRow_refines ..).apply⟩

example : @Shape.size .release (ofDims [2, 3]) = .ok 6 :=
  (C98_shapes (ofDims [2, 3]) (ofDims [3]) 0 0 0 0 0 none none).1 6 (by decide +kernel)

/-- Constructors and conversions. -/
theorem C98_constructors {N : Nat} (x : α) (xs : List α) (rows : List (Vector α N)) (m : List (List α)) (m3 : List (List (List α)))
    (ts : List (Tensor α)) (t u : Tensor α) (s : Shape) :
    Carries (Tensor.fromVec xs s) ∧ Carries (Tensor.fromScalar x) ∧ Carries (Tensor.ofScalar x) ∧
      Carries (Tensor.ofVec1 xs) ∧ Carries (Tensor.ofVecRows rows) ∧ Carries (Tensor.ofRows rows) ∧
      Carries (Tensor.ofVec2 m) ∧ Carries (Tensor.ofVec3 m3) ∧ Carries (Tensor.fromSlice xs) ∧
      Carries (Tensor.joinVec m) ∧ Carries (Tensor.ofTensors ts) ∧ Carries (Tensor.fromMerge ts s) ∧
      Carries (Tensor.append t u) ∧ Carries (Tensor.fill s x) ∧ Carries (Tensor.initDefault x s) :=
  ⟨(Tensor.fromVec_refines ..).apply, (Tensor.fromScalar_refines ..).apply, (Tensor.ofScalar_refines ..).apply,
    (Tensor.ofVec1_refines ..).apply, (Tensor.ofVecRows_refines ..).apply, (Tensor.ofRows_refines ..).apply,
    (Tensor.ofVec2_refines ..).apply, (Tensor.ofVec3_refines ..).apply, (Tensor.fromSlice_refines ..).apply,
    (Tensor.joinVec_refines ..).apply, (Tensor.ofTensors_refines ..).apply, (Tensor.fromMerge_refines ..).apply,
    (Tensor.append_refines ..).apply, (Tensor.fill_refines ..).apply, (Tensor.initDefault_refines ..).apply⟩

example : @Tensor.fromVec .release Nat [1, 2, 3, 4, 5, 6] (ofDims [2, 3]) = .ok ⟨ofDims [2, 3], 0, 6, [1, 2, 3, 4, 5, 6]⟩ :=
  (C98_constructors (N := 0) 0 [1, 2, 3, 4, 5, 6] [] [] [] [] ⟨ofDims [1], 0, 1, [0]⟩ ⟨ofDims [1], 0, 1, [0]⟩
    (ofDims [2, 3])).1 _ (by decide +kernel)

/-- Views, element access, formatting, and taking tensors apart. `size()` is a `usize`, so below 2^64. -/
theorem C98_views {t : Tensor α} (ht : t.size < 2 ^ 64) (s : Shape) (i j k n : Nat) (a : Int) (sec : Tensor.Sections) (axis : Axis)
    (fmt : α → String) (name : String) :
    Carries (Tensor.reshape t s) ∧ Carries (Tensor.expandDims t a) ∧ Carries (Tensor.flatten t) ∧
      Carries (Tensor.squeeze t) ∧ Carries (Tensor.squeezeAxis t a) ∧ Carries (Tensor.subslice t i n) ∧
      Carries (Tensor.subsliceFlat t i n s) ∧ Carries (Tensor.asWrapSlice t i) ∧
      Carries (Tensor.asWrapSliceN t i n) ∧ Carries (Tensor.index2 t i j) ∧ Carries (Tensor.index3 t i j k) ∧
      Carries (Tensor.index4 t i j k n) ∧ Carries (Fmt.debug fmt name t) ∧ Carries (Tensor.split t sec) ∧
      Carries (Tensor.splitAxis t axis sec) ∧ Carries (Tensor.vsplit t sec) ∧ Carries (Tensor.hsplit t sec) ∧
      Carries (Tensor.dsplit t sec) ∧ Carries (Tensor.unstack t axis) ∧ Carries (Signal.frame t i n) :=
  ⟨(Tensor.reshape_refines ..).apply, (Tensor.expandDims_refines ..).apply, (Tensor.flatten_refines ..).apply,
    (Tensor.squeeze_refines ..).apply, (Tensor.squeezeAxis_refines ..).apply,
    (Tensor.subslice_refines t ht ..).apply, (Tensor.subsliceFlat_refines ..).apply,
    (Tensor.asWrapSlice_refines ..).apply, (Tensor.asWrapSliceN_refines ..).apply, (Tensor.index2_refines ..).apply,
    (Tensor.index3_refines ..).apply, (Tensor.index4_refines ..).apply, (Fmt.debug_refines ..).apply,
    (Tensor.split_refines t ht ..).apply, (Tensor.splitAxis_refines t ht ..).apply,
    (Tensor.vsplit_refines t ht ..).apply, (Tensor.hsplit_refines t ht ..).apply,
    (Tensor.dsplit_refines t ht ..).apply, (Tensor.unstack_refines t ht ..).apply,
    (Signal.frame_refines t ht ..).apply⟩

example : @Tensor.subslice .release Nat ⟨ofDims [3, 2], 0, 6, [1, 2, 3, 4, 5, 6]⟩ 1 2 =
    .ok ⟨ofDims [2, 2], 2, 4, [1, 2, 3, 4, 5, 6]⟩ :=
  (C98_views (t := ⟨ofDims [3, 2], 0, 6, [1, 2, 3, 4, 5, 6]⟩) (by decide) (ofDims [6]) 1 0 0 2 0 (.splitEqual 1) none
    (fun _ => "") "").2.2.2.2.2.1 _ (by decide +kernel)

/-- Transposing, putting tensors together, and tiling. -/
theorem C98_arrays (t : Tensor α) (m : Tensor Nat) (ts : List (Tensor α)) (axis : Axis) :
    Carries (Tensor.transpose t) ∧ Carries (Tensor.concatenate ts) ∧ Carries (Tensor.concatenateAxis axis ts) ∧
      Carries (Tensor.stackVec axis ts) ∧ Carries (Tensor.stack ts) ∧ Carries (Tensor.hstack ts) ∧
      Carries (Tensor.dstack ts) ∧ Carries (Tensor.vstack ts) ∧ Carries (Tensor.tile t m) ∧
      Carries (Init.meshgrid ts) ∧ Carries (Init.meshgridIJ ts) :=
  ⟨(Tensor.transpose_refines ..).apply, (Tensor.concatenate_refines ..).apply,
    (Tensor.concatenateAxis_refines ..).apply, (Tensor.stackVec_refines ..).apply, (Tensor.stack_refines ..).apply,
    (Tensor.hstack_refines ..).apply, (Tensor.dstack_refines ..).apply, (Tensor.vstack_refines ..).apply,
    (Tensor.tile_refines ..).apply, (Init.meshgrid_refines ..).apply, (Init.meshgridIJ_refines ..).apply⟩

example : @Tensor.transpose .release Nat ⟨ofDims [2, 2], 0, 4, [1, 2, 3, 4]⟩ = .ok ⟨ofDims [2, 2], 0, 4, [1, 3, 2, 4]⟩ :=
  (C98_arrays ⟨ofDims [2, 2], 0, 4, [1, 2, 3, 4]⟩ ⟨ofDims [1], 0, 1, [1]⟩ [] none).1 _ (by decide +kernel)

/-- Linear algebra, statistics, initialisers and random tensors. -/
theorem C98_numbers (fo : FOps F) (fs : FStat F) (fr : FRand F) (bl : Linalg.Blas F) (a b : Tensor F) (tr : Linalg.Transpose)
    (axis : Axis) (s : Shape) (n tid : Nat) (p : Random.Process) (un : Random.Uniform F) (no : Random.Normal F) :
    Carries (Linalg.matmulT bl a b tr) ∧ Carries (Linalg.matvecT bl a b tr) ∧ Carries (Init.linspace fo a b n) ∧
      Carries (Init.logspace fo a b n) ∧ Carries (Init.geomspace fo a b n) ∧ Carries (Stats.reduceHypot fo a) ∧
      Carries (Stats.reduceMin fo a) ∧ Carries (Stats.reduceMinAxis fo a axis) ∧ Carries (Stats.reduceMax fo a) ∧
      Carries (Stats.reduceMaxAxis fo a axis) ∧ Carries (Stats.reduceMean fo a) ∧
      Carries (Stats.reduceMeanAxis fo a axis) ∧ Carries (Stats.reduceStd fo a) ∧
      Carries (Stats.reduceStdAxis fo a axis) ∧ Carries (Stats.reduceVariance fo a) ∧
      Carries (Stats.reduceVarianceAxis fo a axis) ∧ Carries (Stats.normalizeUnit fs a) ∧
      Carries (Stats.histogram fs a n) ∧ Carries (Stats.histogram2d fs a n) ∧
      Carries (Random.randomUniform fr s un tid p) ∧ Carries (Random.randomNormal fr s no tid p) :=
  ⟨(Linalg.matmulT_refines ..).apply, (Linalg.matvecT_refines ..).apply, (Init.linspace_refines ..).apply,
    (Init.logspace_refines ..).apply, (Init.geomspace_refines ..).apply, (Stats.reduceHypot_refines ..).apply,
    (Stats.reduceMin_refines ..).apply, (Stats.reduceMinAxis_refines ..).apply, (Stats.reduceMax_refines ..).apply,
    (Stats.reduceMaxAxis_refines ..).apply, (Stats.reduceMean_refines ..).apply,
    (Stats.reduceMeanAxis_refines ..).apply, (Stats.reduceStd_refines ..).apply,
    (Stats.reduceStdAxis_refines ..).apply, (Stats.reduceVariance_refines ..).apply,
    (Stats.reduceVarianceAxis_refines ..).apply, (Stats.normalizeUnit_refines ..).apply,
    (Stats.histogram_refines ..).apply, (Stats.histogram2d_refines ..).apply,
    (Random.randomUniform_refines ..).apply, (Random.randomNormal_refines ..).apply⟩

example (fo : FOps F) (fs : FStat F) (fr : FRand F) (tid : Nat) (p : Random.Process) (un : Random.Uniform F)
    (no : Random.Normal F) (x : F) : @Linalg.matmul .release F fo ⟨ofDims [1, 1], 0, 1, [x]⟩ ⟨ofDims [1, 1], 0, 1, [x]⟩ =
      .ok ⟨ofDims [1, 1], 0, 1, [fo.mul fo.one (fo.add fo.zero (fo.mul x x))]⟩ :=
  (C98_numbers fo fs fr fo ⟨ofDims [1, 1], 0, 1, [x]⟩ ⟨ofDims [1, 1], 0, 1, [x]⟩ .none none Shape.scalar 0 tid p un no).1 _
    rfl


theorem Keeps.refines {x y : Res α} (h : Keeps x y) : Refines x y := ⟨h⟩

theorem KeepsM.refines {x y : Exec σ α} (h : KeepsM x y) : RefinesM x y := ⟨fun s => ⟨h s⟩⟩

theorem RefinesM.keeps {x y : Exec σ α} (h : RefinesM x y) : KeepsM x y := fun s => (h.apply s).apply

/-- Operations with closures, for closures `f` that keep their results and their effects when compiled without overflow
checks (`g`). Element type and state of the closures are arbitrary. -/
theorem C98_closures {f g : T → Exec σ V} (hf : ∀ x, KeepsM (f x) (g x)) {f2 g2 : T → U → Exec σ V}
    (hf2 : ∀ x y, KeepsM (f2 x y) (g2 x y)) {f3 g3 : T → U → W → Exec σ V}
    (hf3 : ∀ x y z, KeepsM (f3 x y z) (g3 x y z)) {fs gs : S → T → Exec σ S} (hs : ∀ s x, KeepsM (fs s x) (gs s x))
    {fr gr : T → T → Exec σ T} (hr : ∀ x y, KeepsM (fr x y) (gr x y)) {fi gi : List Nat → Exec σ V}
    (hi : ∀ l, KeepsM (fi l) (gi l)) (shape : Shape) (t : Tensor T) (u : Tensor U) (w : Tensor W) (axis : Axis) (s : S)
    (r : S → V) :
    KeepsM (@Tensor.initRindexed .checked σ V shape fi) (@Tensor.initRindexed .release σ V shape gi) ∧
      KeepsM (@Tensor.map .checked σ T V t f) (@Tensor.map .release σ T V t g) ∧
      KeepsM (@Tensor.map2 .checked σ T U V t u f2) (@Tensor.map2 .release σ T U V t u g2) ∧
      KeepsM (@Tensor.map3 .checked σ T U W V t u w f3) (@Tensor.map3 .release σ T U W V t u w g3) ∧
      KeepsM (@Tensor.fold .checked σ T V S t s fs r) (@Tensor.fold .release σ T V S t s gs r) ∧
      KeepsM (@Tensor.foldAxis .checked σ T V S t axis s fs r) (@Tensor.foldAxis .release σ T V S t axis s gs r) ∧
      KeepsM (@Tensor.reduce .checked σ T t fr) (@Tensor.reduce .release σ T t gr) ∧
      KeepsM (@Tensor.reduceAxis .checked σ T t axis fr) (@Tensor.reduceAxis .release σ T t axis gr) :=
  ⟨(Tensor.initRindexed_refines shape fun l => (hi l).refines).keeps, (Tensor.map_refines t fun x => (hf x).refines).keeps,
    (Tensor.map2_refines t u fun x y => (hf2 x y).refines).keeps,
    (Tensor.map3_refines t u w fun x y z => (hf3 x y z).refines).keeps,
    (Tensor.fold_refines t s (fun x y => (hs x y).refines) r).keeps,
    (Tensor.foldAxis_refines t axis s (fun x y => (hs x y).refines) r).keeps,
    (Tensor.reduce_refines t fun x y => (hr x y).refines).keeps,
    (Tensor.reduceAxis_refines t axis fun x y => (hr x y).refines).keeps⟩

example : @Tensor.map .release Unit Nat Nat ⟨ofDims [2], 0, 2, [5, 6]⟩ (fun x => pure (x + 1)) () =
    .ok (⟨ofDims [2], 0, 2, [6, 7]⟩, ()) :=
  (C98_closures (σ := Unit) (T := Nat) (U := Nat) (V := Nat) (W := Nat) (S := Nat) (f := fun x => pure (x + 1))
    (fun _ _ _ h => h) (f2 := fun x _ => pure x) (fun _ _ _ _ h => h) (f3 := fun x _ _ => pure x) (fun _ _ _ _ _ h => h)
    (fs := fun s _ => pure s) (fun _ _ _ _ h => h) (fr := fun x _ => pure x) (fun _ _ _ _ h => h)
    (fi := fun _ => pure 0) (fun _ _ _ h => h) Shape.scalar ⟨ofDims [2], 0, 2, [5, 6]⟩ ⟨ofDims [2], 0, 2, [5, 6]⟩
    ⟨ofDims [2], 0, 2, [5, 6]⟩ none 0 id).2.1 () _ (by decide +kernel)

/-- The operators, for element operations `ar` that keep their results when compiled without overflow checks (`ar'`):
integer operators panic on an overflow in one build and wrap in the other, so what returns is the same. -/
theorem C98_operators {ar ar' : Arith T U V} {op : Tensor.OpName} (h : ∀ x y, Keeps (op.binop ar x y) (op.binop ar' x y))
    (a : Tensor T) (b : Tensor U) (x : T) (y : U) :
    Keeps (@Tensor.binary .checked T U V ar op a b) (@Tensor.binary .release T U V ar' op a b) ∧
      Keeps (@Tensor.binaryScalar .checked T U V ar op a y) (@Tensor.binaryScalar .release T U V ar' op a y) ∧
      Keeps (@Tensor.scalarBinary .checked T U V ar op x b) (@Tensor.scalarBinary .release T U V ar' op x b) :=
  ⟨(Tensor.binary_refines op (fun x y => (h x y).refines) a b).apply,
    (Tensor.binaryScalar_refines op (fun x y => (h x y).refines) a y).apply,
    (Tensor.scalarBinary_refines op (fun x y => (h x y).refines) x b).apply⟩

/-- Additions of bytes: with overflow checks, and wrapping. -/
def exBytes (wrap : Bool) : Arith Nat Nat Nat where
  add x y := if x + y < 256 then .ok (x + y) else if wrap then .ok ((x + y) % 256) else .error .panic
  sub _ _ := .error .panic
  mul _ _ := .error .panic
  div _ _ := .error .panic
  rem _ _ := .error .panic
  bitand _ _ := .error .panic
  bitor _ _ := .error .panic
  bitxor _ _ := .error .panic
  shl _ _ := .error .panic
  shr _ _ := .error .panic

example : @Tensor.binary .release Nat Nat Nat (exBytes true) .add ⟨ofDims [2], 0, 2, [5, 200]⟩ ⟨ofDims [2], 0, 2, [1, 2]⟩ =
    .ok ⟨ofDims [2], 0, 2, [6, 202]⟩ :=
  (C98_operators (ar := exBytes false) (ar' := exBytes true) (op := .add)
    (fun x y v h => by
      show (exBytes true).add x y = .ok v
      change (exBytes false).add x y = .ok v at h
      unfold exBytes at h ⊢
      dsimp only at h ⊢
      split at h
      · rw [if_pos (by assumption)]; exact h
      · cases h)
    ⟨ofDims [2], 0, 2, [5, 200]⟩ ⟨ofDims [2], 0, 2, [1, 2]⟩ 0 0).1 _ (by decide +kernel)

theorem size_lt {s : Shape} {n : Nat} (h : s.size = .ok n) : n < 4294967296 := by
  unfold size productTo at h
  obtain ⟨_, h⟩ := ensure_bind_eq_ok.1 h
  have : ∀ (l : List Nat) (a : Nat), a < 4294967296 → l.foldlM mulU32 a = .ok n → n < 4294967296 := by
    intro l
    induction l with
    | nil => intro a ha h; cases h; exact ha
    | cons d l ih =>
      intro a ha h
      obtain ⟨b, hb, h⟩ := bind_eq_ok.1 h
      unfold mulU32 at hb
      split at hb
      · cases hb; exact ih _ (by assumption) h
      · cases hb
  exact this _ 1 (by omega) h

/-- Every object a program can hold after a history of calls in the build with overflow checks, it can hold after a
history of the same length in the release build (for histories without assignments to the public fields, and in which
`subslice_flat` gets shapes of the size of the slice). -/
theorem C98_history {R : Rules} (hE : R.exactFlat) (hF : R.fields) (hM : ¬ R.matmul) {n : Nat} {o : Obj}
    (h : @After .checked R n o) : @After .release R n o := by
  induction n generalizing o with
  | zero => exact h
  | succ n ih =>
    rcases h with h | ⟨β, x, outs, r, hc, hx, ho⟩
    · exact Or.inl (ih h)
    · have hS : ∀ (γ : Type) (t : Tensor γ), @After .checked R n (.tensor t) → t.size < 2 ^ 64 := fun γ t ht =>
        Nat.lt_trans (size_lt ((after_good hF n _ ht : Good R t).size hE)) (by decide)
      obtain ⟨y, hy, hr⟩ := Call.release hM (fun o => ih) hS hc
      exact Or.inr ⟨β, y, outs, r, hy, hr.apply r hx, ho⟩

example : @After .release ⟨True, False, False, False, False, False, True⟩ 1
    (.tensor (⟨ofDims [2], 0, 2, [5, 6]⟩ : Tensor Nat)) :=
  C98_history (R := ⟨True, False, False, False, False, False, True⟩) trivial trivial id
    (After.step (Call.ofVec1 (xs := [5, 6])) (by decide +kernel) (List.mem_singleton.2 rfl))

/-- A release build goes on where the other panics: `subslice(2^63, 2^63 + 1)` on a tensor with a single row returns that
row. -/
theorem C98_subslice_actual (x y : α) :
    Tensor.subslice (⟨ofDims [1, 2], 0, 2, [x, y]⟩ : Tensor α) 9223372036854775808 9223372036854775809 = .error .panic ∧
      @Tensor.subslice .release α ⟨ofDims [1, 2], 0, 2, [x, y]⟩ 9223372036854775808 9223372036854775809 =
        .ok ⟨ofDims [1, 2], 0, 2, [x, y]⟩ := ⟨rfl, rfl⟩

/-- C64 fails in release builds also for programs that keep to the rules: `as_wrap_slice_n(1, usize::MAX)` on a vector of
two elements passes the check, whose sum wraps to 0, and reads far outside the buffer. -/
theorem C64_release_violates : ∃ outs : List Nat → List Obj,
    @Call .release .all (@After .release .all 1) _ (.error .ub) outs := by
  have h : @After .release .all 1 (.tensor (⟨ofDims [2], 0, 2, [5, 6]⟩ : Tensor Nat)) :=
    Or.inr ⟨_, _, _, _, @Call.ofVec1 .release _ _ _ [5, 6], by decide +kernel, List.mem_singleton.2 rfl⟩
  have e : (@Tensor.asWrapSliceN .release _ (⟨ofDims [2], 0, 2, [5, 6]⟩ : Tensor Nat) 1 18446744073709551615) =
    .error .ub := by decide +kernel
  exact ⟨_, e ▸ @Call.asWrapSliceN .release .all _ _ _ 1 18446744073709551615 h⟩

end Essay
