import Verif.Props.Array
import Verif.Props.Ops
import Verif.Model.Methods

/-!
# Methods that fix an argument of another: the splitting methods (C30), `abs_sub` (C18), `init_default` (C61);
`map2_row` and `map2_expand` (C89)
-/

namespace Essay

open Shape

variable {α T V : Type}

/-- What is split when `split_axis` splits along the axis at position `pre.length`: a number of sections, which divides the
axis, or cut positions. -/
def SplitsAlong (pre : List Nat) (d : Nat) (post : List Nat) (xs : List α) (split : Tensor.Sections → Res (List (Tensor α))) :
    Prop :=
  (∀ n, n ∣ d → ∃ ts, split (Tensor.sectionsOfUsize n) = .ok ts ∧ ts.length = n ∧
    IsPieces pre d post xs ts ((List.range n).map fun k => (k * (d / n), (k + 1) * (d / n)))) ∧
  (∀ cuts, Ascending 0 (cuts ++ [d]) → ∃ ts, split (Tensor.sectionsOfCuts cuts) = .ok ts ∧
    IsPieces pre d post xs ts (ranges 0 (cuts ++ [d]))) ∧
  (∀ cuts, ¬ Ascending 0 (cuts ++ [d]) → split (Tensor.sectionsOfCuts cuts) = .error .panic)

theorem splitsAlong {t : Tensor α} {pre post : List Nat} {d : Nat} {xs : List α} (h : Rep t (pre ++ d :: post) xs)
    (hne : xs ≠ []) {a : Int} (ha : axisIndex (pre ++ d :: post).length a = some pre.length) :
    SplitsAlong pre d post xs (t.splitAxis (some a)) :=
  ⟨fun n hn => C30_split_equal h hne ha n hn, fun cuts => (C30_split_cuts h hne ha cuts).1,
    fun cuts => (C30_split_cuts h hne ha cuts).2⟩

theorem split_eq_vsplit {t : Tensor α} {d : Nat} {post : List Nat} {xs : List α} (h : Rep t (d :: post) xs)
    (s : Tensor.Sections) : t.split s = t.vsplit s := by
  unfold Tensor.split Tensor.vsplit Tensor.splitAxis
  have hl := h.adm.len
  rw [h.rank, axisFromRank_eq (a := 0) (i := 0) hl (by simp [axisIndex])]
  rfl

/-- C30 for the methods: `split` and `vsplit` split along the first axis, `hsplit` along the second, `dsplit` along the
third, and a number means that many equal sections, a list cut positions. -/
theorem C30_methods :
    (∀ {t : Tensor α} {d : Nat} {post : List Nat} {xs : List α}, Rep t (d :: post) xs → xs ≠ [] →
      SplitsAlong [] d post xs t.split ∧ SplitsAlong [] d post xs t.vsplit) ∧
    (∀ {t : Tensor α} {d1 d : Nat} {post : List Nat} {xs : List α}, Rep t (d1 :: d :: post) xs → xs ≠ [] →
      SplitsAlong [d1] d post xs t.hsplit) ∧
    (∀ {t : Tensor α} {d1 d2 d : Nat} {post : List Nat} {xs : List α}, Rep t (d1 :: d2 :: d :: post) xs → xs ≠ [] →
      SplitsAlong [d1, d2] d post xs t.dsplit) := by
  refine ⟨fun {t d post xs} h hne => ?_, fun {t d1 d post xs} h hne => ?_, fun {t d1 d2 d post xs} h hne => ?_⟩
  · have hv : SplitsAlong [] d post xs t.vsplit := splitsAlong (pre := []) h hne (by simp [axisIndex])
    refine ⟨?_, hv⟩
    rw [show t.split = t.vsplit from funext (split_eq_vsplit h)]
    exact hv
  · exact splitsAlong (pre := [d1]) h hne (by simp [axisIndex]; omega)
  · exact splitsAlong (pre := [d1, d2]) h hne (by simp [axisIndex]; omega)

/-- What the methods do when the axis does not exist: `hsplit` of a vector (as in numpy), but also `dsplit` of a vector or
matrix, splits along the first axis instead of panicking. -/
theorem C30_missing_axis_violates :
    (∀ {t : Tensor α} {d : Nat} {xs : List α}, Rep t [d] xs → t.hsplit = t.vsplit ∧ t.dsplit = t.vsplit) ∧
    (∀ {t : Tensor α} {d1 d : Nat} {xs : List α}, Rep t [d1, d] xs → t.dsplit = t.vsplit) := by
  have key : ∀ {t : Tensor α} {ds : List Nat} {xs : List α}, Rep t ds xs → ∀ {a : Int}, 0 ≤ a → a ≤ 2 →
      (a.toNat + ds.length) % ds.length = 0 → ds ≠ [] → t.splitAxis (some a) = t.splitAxis (some 0) := by
    intro t ds xs h a h0 h2 hm hne
    have hl := h.adm.len
    have hp : 0 < ds.length := List.length_pos_iff.2 hne
    have : ∀ b : Int, 0 ≤ b → b ≤ 2 → Axis.axisFromRank (some b) ds.length = .ok ((b.toNat + ds.length) % ds.length) := by
      intro b hb0 hb2
      unfold Axis.axisFromRank
      simp only
      rw [iadd_small (by omega) (by omega), ok_bind, isizeAsUsize_eq (by omega) (by omega), umod_ok (by omega)]
      congr 2; omega
    funext s
    unfold Tensor.splitAxis
    rw [h.rank, this a h0 h2, this 0 (by omega) (by omega), hm]
    simp
  refine ⟨fun h => ⟨key h (by omega) (by omega) (by simp [Nat.mod_one]) (by simp),
    key h (by omega) (by omega) (by simp [Nat.mod_one]) (by simp)⟩,
    fun h => key h (by omega) (by omega) (by simp) (by simp)⟩

example : ∃ ts, (Tensor.dsplit (α := Nat) ⟨ofDims [1, 2, 2], 0, 4, [1, 2, 3, 4]⟩ (Tensor.sectionsOfUsize 2)) = .ok ts ∧
    ts.length = 2 := by
  have h : Rep (⟨ofDims [1, 2, 2], 0, 4, [1, 2, 3, 4]⟩ : Tensor Nat) [1, 2, 2] [1, 2, 3, 4] :=
    rep_fresh (ds := [1, 2, 2]) (xs := [1, 2, 3, 4]) ⟨by simp, by simp⟩ (fits_of_pos (by simp) (by simp)) rfl
  obtain ⟨ts, e, hl, _⟩ := (C30_methods.2.2 h (by simp)).1 2 (by simp)
  exact ⟨ts, e, hl⟩

/-- C18: `a.abs_sub(b)` holds at every index the positive difference of the two elements, as the element type defines it
(`g`), with the broadcast rule. -/
theorem C18_abs_sub (g : T → T → T) {a b : Tensor T} {ds es : List Nat} {xs ys : List T} (ha : Rep a ds xs)
    (hb : Rep b es ys) (hs : ds <:+ es) (hne : ys ≠ []) :
    ∃ t zs, Tensor.absSub (fun x y => .ok (g x y)) a b = .ok t ∧ Rep t es zs ∧ ∀ idx p, ravel es idx = some p → ∃ x y,
      at? ds xs (idx.drop (es.length - ds.length)) = some x ∧ at? es ys idx = some y ∧ at? es zs idx = some (g x y) :=
  opTT_pure g ha hb hs hne

/-- For the usual definition (`x - y`, or 0 if that is negative) of integers. -/
example : ∃ t zs, Tensor.absSub (fun x y : Int => .ok (max (x - y) 0)) ⟨ofDims [2], 0, 2, [5, 1]⟩
    ⟨ofDims [2], 0, 2, [3, 4]⟩ = .ok t ∧ Rep t [2] zs := by
  obtain ⟨t, zs, e, r, _⟩ := C18_abs_sub (fun x y : Int => max (x - y) 0)
    (rep_fresh (ds := [2]) (xs := [5, 1]) ⟨by simp, by simp⟩ (fits_of_pos (by simp) (by simp)) rfl)
    (rep_fresh (ds := [2]) (xs := [3, 4]) ⟨by simp, by simp⟩ (fits_of_pos (by simp) (by simp)) rfl) (List.suffix_refl _) (by simp)
  exact ⟨t, zs, e, r⟩

/-- C61: `init_default(shape)` has the given dimensions and every element equal to the default value. -/
theorem C61_init_default {s : Shape} {ds : List Nat} (hs : s.WF) (hds : s.asVec = .ok ds) (default : V) :
    (Fits ds → ∃ t, Tensor.initDefault default s = .ok t ∧ Rep t ds (List.replicate ds.prod default)) ∧
    (¬ Fits ds → Tensor.initDefault default s = .error .panic) := C61_fill hs hds default

example : ∃ t, Tensor.initDefault 0 (ofDims [2, 3]) = .ok t ∧ Rep t [2, 3] [0, 0, 0, 0, 0, 0] :=
  (C61_init_default (ds := [2, 3]) (wf_ofDims (l := [2, 3]) ⟨by simp, by simp⟩) rfl 0).1 (fits_of_pos (by simp) (by simp))

/-- C89 is false: `map2_row` and `map2_expand` are not implemented. Every call panics, whatever the operands and the
function, and without calling the function. -/
theorem C89_violates {σ U W : Type} (a : Tensor T) (b : Tensor U) (N : Nat) (f : List T → List U → Exec σ (Vector W N))
    (g : T → U → Exec σ (Vector W N)) (s : σ) :
    (a.map2Row b N f).run s = .error .panic ∧ (a.map2Expand b N g).run s = .error .panic := ⟨rfl, rfl⟩

example {t : Tensor Nat} (h : Rep t [2, 2] [1, 2, 3, 4]) : t.dsplit = t.vsplit := C30_missing_axis_violates.2 h

end Essay
