import Verif.Model.Release
import Verif.Model.Linalg
import Verif.Props.Tensor

/-!
# C60 Sizes never lie
-/

namespace Essay

open Shape Linalg

variable {α F : Type}

theorem mulU32_release {a b : Nat} : @mulU32 .release a b = .ok (a * b % 4294967296) := by
  unfold mulU32
  split
  · rw [Nat.mod_eq_of_lt (by assumption)]
  · rfl

theorem foldlM_release (l : List Nat) {a : Nat} (ha : a < 4294967296) :
    l.foldlM (@mulU32 .release) a = .ok (a * l.prod % 4294967296) := by
  induction l generalizing a with
  | nil => simp [Nat.mod_eq_of_lt ha]
  | cons b l ih =>
    rw [List.foldlM_cons, mulU32_release, ok_bind, ih (Nat.mod_lt _ (by omega)), List.prod_cons, ← Nat.mul_assoc,
      Nat.mod_mul_mod]

/-- C60 in builds with overflow checks, for dimensions below 2^32: `size` returns the true product and nothing else; it
panics if the product of some trailing group of dimensions does not fit in 32 bits. Missing: dimensions of 2^32 and more
are cut to 32 bits when the shape is built (`C60_truncation_violates`), and builds without overflow checks
(`C60_release_violates`). -/
theorem C60_checked_partial {s : Shape} {ds : List Nat} (hs : s.WF) (hv : s.asVec = .ok ds) :
    (Fits ds → s.size = .ok ds.prod) ∧ (¬ Fits ds → s.size = .error .panic) := by
  have hd : s.toDims = ds := by rw [asVec_eq hs] at hv; exact Except.ok.inj hv
  obtain ⟨ds', ha, hds', he⟩ := hs.exists_dims
  have : s = ofDims ds := by rw [← hd]; exact hs.eq_ofDims
  have ha' : Adm ds := by rw [← hd, he]; exact ha
  subst this
  constructor
  · intro hf; exact (size_ofDims_iff ha').2 ⟨hf, rfl⟩
  · intro hf
    have hu := noUB_size (ofDims ds)
    cases e : (ofDims ds).size with
    | error e' => cases e' with
      | panic => rfl
      | ub => exact absurd e hu
    | ok n => exact absurd ((size_ofDims_iff ha').1 e).1 hf

example : (ofDims [65536, 65535]).size = .ok 4294901760 :=
  (C60_checked_partial (ds := [65536, 65535]) (wf_ofDims ⟨by simp, by simp⟩) (by decide +kernel)).1 (fits_of_pos (by simp) (by simp))

/-- C60 fails for large dimensions in every build: `Shape::from([2^32 + 3])` is a shape of size 3, and three elements are
accepted for it. -/
theorem C60_truncation_violates : ∃ s, Shape.ofSlice [4294967299] = .ok s ∧ s.size = .ok 3 ∧ s.asVec = .ok [3] ∧
    ∃ t, Tensor.new [7, 8, 9] s = .ok t :=
  ⟨ofDims [3], by decide +kernel, by decide +kernel, by decide +kernel, ⟨ofDims [3], 0, 3, [7, 8, 9]⟩, by decide +kernel⟩

/-- In release builds the size is the product modulo 2^32. -/
theorem C60_release_size {s : Shape} {ds : List Nat} (hs : s.WF) (hv : s.asVec = .ok ds) :
    s.sizeRelease = .ok (ds.prod % 4294967296) := by
  have hd : s.toDims = ds := by rw [asVec_eq hs] at hv; exact Except.ok.inj hv
  obtain ⟨l, hl, rfl⟩ := hs.exists_rev
  rw [toDims_ofRev] at hd
  have := hl.len
  unfold sizeRelease size productTo
  rw [ensure_true (by simp [ofRev]), ok_bind]
  have e : ((ofRev l).dims.take (ofRev l).rank) = l := by simp [ofRev]
  rw [e, ← hd, List.prod_reverse, foldlM_release l (by omega), Nat.one_mul]

example : (ofDims [65536, 65537]).sizeRelease = .ok 65536 :=
  C60_release_size (ds := [65536, 65537]) (wf_ofDims (l := [65536, 65537]) ⟨by simp, by simp⟩) rfl

/-- In release builds a constructor accepts exactly the buffers whose length is the product modulo 2^32. -/
theorem C60_release_new {s : Shape} {ds : List Nat} (hs : s.WF) (hv : s.asVec = .ok ds) (data : List α) :
    (∃ t, Tensor.newRelease data s = .ok t) ↔ data.length = ds.prod % 4294967296 := by
  unfold Tensor.newRelease Tensor.new
  rw [show @Shape.size .release s = _ from C60_release_size hs hv, ok_bind]
  by_cases h : ds.prod % 4294967296 = data.length
  · rw [ensure_true h]; exact ⟨fun _ => h.symm, fun _ => ⟨_, rfl⟩⟩
  · rw [ensure_false h]
    exact ⟨fun ⟨_, ht⟩ => (by cases ht), fun h' => absurd h'.symm h⟩

example : ∃ t, Tensor.newRelease ([] : List Nat) (ofDims [65536, 65536]) = .ok t :=
  (C60_release_new (ds := [65536, 65536]) (wf_ofDims (l := [65536, 65536]) ⟨by simp, by simp⟩) rfl []).2 rfl

/-- The shape of 2^32 elements used below. -/
def exHuge : Tensor F := { shape := ofDims [65536, 65536], offset := 0, size := 0, data := [] }

/-- C60 fails in release builds: a `[65536, 65536]` shape is silently accepted for an empty buffer, and a product with
that matrix reads outside the buffer, from safe code. -/
theorem C60_release_violates (bl : Blas F) (xs : List F) (hx : xs.length = 65536) :
    Tensor.newRelease [] (ofDims [65536, 65536]) = .ok (exHuge : Tensor F) ∧
      Rep ({ shape := ofDims [65536, 1], offset := 0, size := 65536, data := xs } : Tensor F) [65536, 1] xs ∧
      @matmul .release F bl exHuge { shape := ofDims [65536, 1], offset := 0, size := 65536, data := xs } = .error .ub := by
  refine ⟨?_, ?_, ?_⟩
  · unfold Tensor.newRelease Tensor.new
    rw [show @Shape.size .release (ofDims [65536, 65536]) = _ from C60_release_size (ds := [65536, 65536]) (wf_ofDims ⟨by simp, by simp⟩) (by decide +kernel)]
    rfl
  · have := rep_fresh (ds := [65536, 1]) (xs := xs) ⟨by simp, by simp⟩ (fits_of_pos (by simp) (by simp))
      (by rw [hx]; simp)
    rw [hx] at this; exact this
  · have hr : (ofDims [65536, 65536]).rows = .ok 65536 := by decide +kernel
    have hc : (ofDims [65536, 65536]).cols = .ok 65536 := by decide +kernel
    have hr' : (ofDims [65536, 1]).rows = .ok 65536 := by decide +kernel
    have hc' : (ofDims [65536, 1]).cols = .ok 1 := by decide +kernel
    have hb : @sublen .release (ofDims [65536, 65536]) 0 0 = .ok 1 := by decide +kernel
    have hu : @usub .release 2 2 = .ok 0 := by decide +kernel
    have hs : (ofDims [65536, 1]).withCols 65536 = .ok (ofDims [65536, 65536]) := by decide +kernel
    have hs' : (ofDims [65536, 65536]).withRows 1 = .ok (ofDims [1, 65536]) := by decide +kernel
    have hk : (ofDims [65536, 65536]).rank = 2 := rfl
    unfold matmul matmulT exHuge
    simp only [mkn, hr, hc, hr', hc', ok_bind, hk]
    rw [ensure_true (by omega), ok_bind, ensure_true trivial]
    simp only [ok_bind, hu, hb, pure, Except.pure, hs, hs']
    unfold Tensor.unsafeInit
    dsimp only
    rw [forR_cons (by omega)]
    simp only [matmulSgemm, hr, hc, hr', hc', ok_bind]
    have hg : ∀ c : Buf F, sgemm bl 65536 65536 1 bl.one [] 0 65536 1 xs 0 1 1 c 0 1 1 = .error .ub := by
      intro c
      unfold sgemm sgemmNaive sgemmLibrary
      cases bl
      all_goals
        dsimp only
        rw [forR_cons (by omega), forR_cons (by omega), forR_cons (by omega)]
        rfl
    simp only [Nat.mul_zero, Nat.zero_add, rawAdd_ok (Nat.zero_le _), ok_bind, hg]
    rfl

example (fo : FOps F) : @matmul .release F fo exHuge
    { shape := ofDims [65536, 1], offset := 0, size := 65536, data := List.replicate 65536 fo.one } = .error .ub :=
  (C60_release_violates (.naive fo) _ List.length_replicate).2.2

end Essay
