import Std.Data.String.ToNat
import Verif.Props.Fmt

/-!
# C94: the text of `{:?}` determines the tensor
-/

namespace Essay

open Shape Fmt

variable {α : Type}

theorem split_at_space : ∀ {p q r r' : List Char}, p ++ ' ' :: r = q ++ ' ' :: r' → p.count ' ' = q.count ' ' →
    p = q ∧ r = r'
  | [], [], _, _, h, _ => by simpa using h
  | [], c :: q, _, _, h, hc => by
    simp only [List.nil_append, List.cons_append, List.cons.injEq] at h
    rw [← h.1] at hc; simp at hc
  | c :: p, [], _, _, h, hc => by
    simp only [List.nil_append, List.cons_append, List.cons.injEq] at h
    rw [h.1] at hc; simp at hc
  | c :: p, d :: q, _, _, h, hc => by
    simp only [List.cons_append, List.cons.injEq] at h
    obtain ⟨rfl, h⟩ := h
    have := split_at_space h (by simpa [List.count_cons] using hc)
    exact ⟨by rw [this.1], this.2⟩

theorem split_at_last {c : Char} : ∀ {p q r r' : List Char}, p ++ c :: r = q ++ c :: r' → c ∉ r → c ∉ r' → p = q ∧ r = r'
  | [], [], _, _, h, _, _ => by simpa using h
  | [], d :: q, _, _, h, hr, _ => by
    simp only [List.nil_append, List.cons_append, List.cons.injEq] at h
    rw [h.2] at hr; simp at hr
  | d :: p, [], _, _, h, _, hr => by
    simp only [List.nil_append, List.cons_append, List.cons.injEq] at h
    rw [← h.2] at hr; simp at hr
  | d :: p, e :: q, _, _, h, hr, hr' => by
    simp only [List.cons_append, List.cons.injEq] at h
    obtain ⟨rfl, h⟩ := h
    have := split_at_last h hr hr'
    exact ⟨by rw [this.1], this.2⟩

/-- A separator with one space, at its end. -/
def SpaceEnd (sep : String) : Prop := ∃ u : List Char, sep.toList = u ++ [' '] ∧ u.count ' ' = 0

theorem spaces_joinWith {sep : String} (hs : SpaceEnd sep) {k : Nat} : ∀ {l : List String}, (∀ s ∈ l, spaces s = k) →
    spaces (joinWith sep l) = l.length * k + (l.length - 1)
  | [], _ => by simp [joinWith, spaces]
  | [a], h => by simpa [joinWith] using h a (by simp)
  | a :: b :: l, h => by
    have ih := spaces_joinWith hs (l := b :: l) (fun s hm => h s (List.mem_cons_of_mem _ hm))
    have ha := h a (by simp)
    obtain ⟨u, hu, hu0⟩ := hs
    unfold spaces at ih ha ⊢
    rw [joinWith, String.toList_append, String.toList_append, List.count_append, List.count_append, ih, ha, hu,
      List.count_append, hu0]
    simp [Nat.succ_mul]
    omega

theorem joinWith_inj {sep : String} (hs : SpaceEnd sep) {k : Nat} : ∀ {l m : List String}, l.length = m.length →
    (∀ s ∈ l, spaces s = k) → (∀ s ∈ m, spaces s = k) → joinWith sep l = joinWith sep m → l = m
  | [], [], _, _, _, _ => rfl
  | [a], [b], _, _, _, h => by simpa [joinWith] using h
  | a :: b :: l, c :: d :: m, hl, h1, h2, h => by
    rw [joinWith, joinWith] at h
    have e := congrArg String.toList h
    have hs' := hs
    obtain ⟨u, hu, hu0⟩ := hs
    simp only [String.toList_append, hu, List.append_assoc, List.singleton_append] at e
    rw [← List.append_assoc, ← List.append_assoc] at e
    have ha := h1 a (by simp)
    have hc := h2 c (by simp)
    unfold spaces at ha hc
    have := split_at_space e (by rw [List.count_append, List.count_append, ha, hc])
    have e1 : a = c := String.toList_inj.1 (List.append_cancel_right this.1)
    have ih := joinWith_inj hs' (l := b :: l) (m := d :: m) (by simpa using hl)
      (fun s hm => h1 s (List.mem_cons_of_mem _ hm)) (fun s hm => h2 s (List.mem_cons_of_mem _ hm))
      (String.toList_inj.1 this.2)
    rw [e1, ih]

theorem debugSep_space (ds : List Nat) : SpaceEnd (debugSep ds) := by
  unfold debugSep
  split
  · exact ⟨[], by decide +kernel, by decide +kernel⟩
  · exact ⟨[',', '\n'], by decide +kernel, by decide +kernel⟩
  · exact ⟨[',', '\n', '\n'], by decide +kernel, by decide +kernel⟩

theorem spaces_brackets (s : String) : spaces ("[" ++ s ++ "]") = spaces s := by
  unfold spaces
  rw [String.toList_append, String.toList_append, List.count_append, List.count_append]
  have e1 : List.count ' ' ("[" : String).toList = 0 := by decide +kernel
  have e2 : List.count ' ' ("]" : String).toList = 0 := by decide +kernel
  omega

theorem mem_part {β : Type} {xs : List β} {a b : Nat} {x : β} (h : x ∈ (xs.drop a).take b) : x ∈ xs :=
  List.mem_of_mem_drop (List.mem_of_mem_take h)

theorem part_length {β : Type} {xs : List β} {d p j : Nat} (h : xs.length = d * p) (hj : j < d) :
    ((xs.drop (j * p)).take p).length = p := by
  rw [List.length_take, List.length_drop, h]
  have : j * p + p ≤ d * p := by rw [← Nat.succ_mul]; exact Nat.mul_le_mul_right _ hj
  omega

/-- The number of spaces in the nested text depends only on the dimensions. -/
theorem spaces_nested (k : Nat) : ∀ ds : List Nat, (∀ d ∈ ds, 0 < d) → ∃ K, ∀ xs : List String, xs.length = ds.prod →
    (∀ s ∈ xs, spaces s = k) → spaces (nested ds xs) = K
  | [], _ => ⟨k, fun xs hl h => by
      match xs, hl with
      | [x], _ => exact h x (by simp)⟩
  | d :: ds, hd => by
    obtain ⟨K, hK⟩ := spaces_nested k ds fun e he => hd e (List.mem_cons_of_mem _ he)
    refine ⟨d * K + (d - 1), fun xs hl h => ?_⟩
    rw [nested, spaces_brackets, spaces_joinWith (debugSep_space ds) (k := K)]
    · simp
    · intro s hs
      obtain ⟨j, hj, rfl⟩ := List.mem_map.1 hs
      rw [List.prod_cons] at hl
      exact hK _ (part_length hl (List.mem_range.1 hj)) fun s hm => h s (mem_part hm)

theorem parts_determine {β : Type} {p : Nat} : ∀ {d : Nat} {xs ys : List β}, xs.length = d * p → ys.length = d * p →
    (∀ j, j < d → (xs.drop (j * p)).take p = (ys.drop (j * p)).take p) → xs = ys
  | 0, xs, ys, hx, hy, _ => by
    rw [Nat.zero_mul] at hx hy
    rw [List.eq_nil_of_length_eq_zero hx, List.eq_nil_of_length_eq_zero hy]
  | d + 1, xs, ys, hx, hy, h => by
    have h0 := h 0 (by omega)
    rw [Nat.zero_mul, List.drop_zero, List.drop_zero] at h0
    have ih := parts_determine (d := d) (p := p) (xs := xs.drop p) (ys := ys.drop p)
      (by rw [List.length_drop, hx, Nat.succ_mul]; omega) (by rw [List.length_drop, hy, Nat.succ_mul]; omega)
      (fun j hj => by
        rw [List.drop_drop, List.drop_drop, Nat.add_comm p, ← Nat.succ_mul]
        exact h (j + 1) (by omega))
    rw [← List.take_append_drop p xs, ← List.take_append_drop p ys, h0, ih]

theorem nested_inj (k : Nat) : ∀ (ds : List Nat), (∀ d ∈ ds, 0 < d) → ∀ {xs ys : List String}, xs.length = ds.prod →
    ys.length = ds.prod → (∀ s ∈ xs, spaces s = k) → (∀ s ∈ ys, spaces s = k) → nested ds xs = nested ds ys → xs = ys
  | [], _, xs, ys, hx, hy, _, _, h => by
    match xs, ys, hx, hy with
    | [x], [y], _, _ => simpa [nested] using h
  | d :: ds, hd, xs, ys, hx, hy, h1, h2, h => by
    have hd' : ∀ e ∈ ds, 0 < e := fun e he => hd e (List.mem_cons_of_mem _ he)
    obtain ⟨K, hK⟩ := spaces_nested k ds hd'
    rw [List.prod_cons] at hx hy
    rw [nested, nested] at h
    have h := congrArg String.toList h
    simp only [String.toList_append] at h
    have h := String.toList_inj.1 (List.append_cancel_left (List.append_cancel_right h))
    have hj := joinWith_inj (debugSep_space ds) (k := K) (by simp) (fun s hs => by
        obtain ⟨j, hj, rfl⟩ := List.mem_map.1 hs
        exact hK _ (part_length hx (List.mem_range.1 hj)) fun s hm => h1 s (mem_part hm)) (fun s hs => by
        obtain ⟨j, hj, rfl⟩ := List.mem_map.1 hs
        exact hK _ (part_length hy (List.mem_range.1 hj)) fun s hm => h2 s (mem_part hm)) h
    refine parts_determine hx hy fun j hjd => ?_
    have := List.map_inj_left.1 hj j (List.mem_range.2 hjd)
    exact nested_inj k ds hd' (part_length hx hjd) (part_length hy hjd) (fun s hm => h1 s (mem_part hm))
      (fun s hm => h2 s (mem_part hm)) this

theorem digit_not {c : Char} {n : Nat} (h : c ∈ (toString n).toList) : c.isDigit = true := by
  have : toString n = n.repr := rfl
  rw [this, Nat.toList_repr] at h
  exact Nat.isDigit_of_mem_toDigits (by omega) (by omega) h

theorem spaces_toString (n : Nat) : spaces (toString n) = 0 := by
  unfold spaces
  rw [List.count_eq_zero]
  intro h
  have := digit_not h
  exact absurd this (by decide)

theorem joinWith_no {c : Char} {sep : String} (hs : c ∉ sep.toList) : ∀ {l : List String}, (∀ s ∈ l, c ∉ s.toList) →
    c ∉ (joinWith sep l).toList
  | [], _ => by simp [joinWith]
  | [a], h => by simpa [joinWith] using h a (by simp)
  | a :: b :: l, h => by
    rw [joinWith, String.toList_append, String.toList_append]
    have := joinWith_no hs (l := b :: l) fun s hm => h s (List.mem_cons_of_mem _ hm)
    simp only [List.mem_append, not_or]
    exact ⟨⟨h a (by simp), hs⟩, this⟩

theorem dims_text_inj {ds es : List Nat} (h : joinWith ", " (ds.map toString) = joinWith ", " (es.map toString)) :
    ds = es := by
  have hsep : SpaceEnd ", " := ⟨[','], by decide +kernel, by decide +kernel⟩
  have hk : ∀ l : List Nat, ∀ s ∈ l.map toString, spaces s = 0 := by
    intro l s hs
    obtain ⟨n, _, rfl⟩ := List.mem_map.1 hs
    exact spaces_toString n
  have hne : ∀ n : Nat, toString n ≠ "" := by
    intro n h
    have h := congrArg String.toList h
    have e : toString n = n.repr := rfl
    rw [e, Nat.toList_repr] at h
    exact Nat.toDigits_ne_nil (n := n) (b := 10) (by simpa using h)
  have hc := congrArg spaces h
  rw [spaces_joinWith hsep (hk ds), spaces_joinWith hsep (hk es)] at hc
  simp only [List.length_map] at hc
  have hl : ds.length = es.length := by
    match ds, es, h, hc with
    | [], [], _, _ => rfl
    | [], [a], h, _ => exact absurd h.symm (by simpa [joinWith] using hne a)
    | [a], [], h, _ => exact absurd h (by simpa [joinWith] using hne a)
    | [], _ :: _ :: _, _, hc => simp at hc
    | _ :: _ :: _, [], _, hc => simp at hc
    | a :: ds, b :: es, _, hc => simpa using hc
  have := joinWith_inj hsep (by simpa using hl) (hk ds) (hk es) h
  exact List.map_injective_iff.2 (fun a b hab => Nat.repr_injective hab) this

/-- The text of the dimensions is what follows the last opening bracket. -/
theorem debugText_split {name : String} {ds es : List Nat} {xs ys : List String}
    (h : debugText name ds xs = debugText name es ys) : ds = es ∧ nested ds xs = nested es ys := by
  unfold debugText at h
  have e0 : (", shape: [" : String).toList = (", shape: " : String).toList ++ ['['] := by decide +kernel
  have h := congrArg String.toList h
  simp only [String.toList_append] at h
  have h := List.append_cancel_right h
  rw [e0] at h
  simp only [← List.append_assoc, List.append_assoc _ ['['], List.singleton_append] at h
  have hno : ∀ l : List Nat, '[' ∉ (joinWith ", " (l.map toString)).toList := fun l =>
    joinWith_no (by decide +kernel) fun s hs hm => by
      obtain ⟨n, _, rfl⟩ := List.mem_map.1 hs
      exact absurd (digit_not hm) (by decide)
  obtain ⟨h1, h2⟩ := split_at_last h (hno ds) (hno es)
  have hd := dims_text_inj (String.toList_inj.1 h2)
  subst hd
  refine ⟨rfl, String.toList_inj.1 ?_⟩
  have h1 := List.append_cancel_right h1
  exact List.append_cancel_left h1

theorem debugText_inj {name : String} {k : Nat} {ds es : List Nat} {xs ys : List String} (hx : xs.length = ds.prod)
    (hy : ys.length = es.prod) (h1 : ∀ s ∈ xs, spaces s = k) (h2 : ∀ s ∈ ys, spaces s = k)
    (h : debugText name ds xs = debugText name es ys) : ds = es ∧ xs = ys := by
  obtain ⟨rfl, hn⟩ := debugText_split h
  refine ⟨rfl, ?_⟩
  by_cases h0 : ds.prod = 0
  · rw [h0] at hx hy
    rw [List.eq_nil_of_length_eq_zero hx, List.eq_nil_of_length_eq_zero hy]
  · refine nested_inj k ds (fun d hd => Nat.pos_of_ne_zero fun e => h0 ?_) hx hy h1 h2 hn
    exact prod_eq_zero (e ▸ hd)

/-- C94, dimensions: the text printed for any tensor, view or not, determines its dimensions, whatever the texts of the
elements are. -/
theorem C94_dims {t u : Tensor α} {ds es : List Nat} {xs ys : List α} (ht : Rep t ds xs) (hu : Rep u es ys)
    {fmt : α → String} {name s : String} (h1 : debug fmt name t = .ok s) (h2 : debug fmt name u = .ok s) : ds = es := by
  have key : ∀ {t : Tensor α} {ds : List Nat} {xs : List α}, Rep t ds xs → debug fmt name t = .ok s →
      ∃ zs, s = debugText name ds zs := by
    intro t ds xs h hs
    obtain ⟨ha, hb⟩ := C59_debug_actual h fmt name
    by_cases hc : 2 * t.offset + xs.length ≤ t.data.length ∨ xs = []
    · rw [ha hc] at hs; exact ⟨_, (Except.ok.inj hs).symm⟩
    · rw [not_or] at hc
      rw [hb (by omega) hc.2] at hs; cases hs
  obtain ⟨zs, e1⟩ := key ht h1
  obtain ⟨ws, e2⟩ := key hu h2
  exact (debugText_split (e1.symm.trans e2)).1

/-- C94 for tensors that start at the beginning of their buffer: if every element text has the same number of spaces (none
for numbers and booleans, six for complex numbers), two tensors printing the same text have the same dimensions and the same
element texts, so the same elements if different elements print differently. Missing: views, where it is false
(`C94_view_violates`), and element texts with differing numbers of spaces, where it is false (`C94_text_violates`). -/
theorem C94_elements_partial {t u : Tensor α} {ds es : List Nat} {xs ys : List α} (ht : Rep t ds xs) (hu : Rep u es ys)
    (h0 : t.offset = 0) (h0' : u.offset = 0) {fmt : α → String} {name s : String} {k : Nat}
    (hk : ∀ x ∈ xs ++ ys, spaces (fmt x) = k) (h1 : debug fmt name t = .ok s) (h2 : debug fmt name u = .ok s) :
    ds = es ∧ xs.map fmt = ys.map fmt ∧ (Function.Injective fmt → xs = ys ∧ t.shape = u.shape) := by
  rw [C59_debug_partial ht h0] at h1
  rw [C59_debug_partial hu h0'] at h2
  have := debugText_inj (k := k) (by rw [List.length_map, ht.length]) (by rw [List.length_map, hu.length])
    (fun s hs => by
      obtain ⟨x, hx, rfl⟩ := List.mem_map.1 hs
      exact hk x (List.mem_append_left _ hx))
    (fun s hs => by
      obtain ⟨x, hx, rfl⟩ := List.mem_map.1 hs
      exact hk x (List.mem_append_right _ hx))
    ((Except.ok.inj h1).trans (Except.ok.inj h2).symm)
  refine ⟨this.1, this.2, fun hi => ⟨List.map_injective_iff.2 hi this.2, ?_⟩⟩
  rw [ht.shape, hu.shape, this.1]

/-- C94, shapes: the text of a shape with dimensions `ds` is `Shape[d0, d1, ..]`, and it determines the dimensions. -/
theorem C94_shape {s u : Shape} (hs : s.WF) (hu : u.WF) : ∃ ds es, s.asVec = .ok ds ∧ u.asVec = .ok es ∧
    debugShape s = .ok ("Shape[" ++ joinWith ", " (ds.map toString) ++ "]") ∧
    (debugShape s = debugShape u → ds = es) := by
  have key : ∀ {s : Shape}, s.WF → ∃ ds, s.asVec = .ok ds ∧
      debugShape s = .ok ("Shape[" ++ joinWith ", " (ds.map toString) ++ "]") := by
    intro s hs
    refine ⟨_, Shape.asVec_eq hs, ?_⟩
    unfold debugShape
    rw [Shape.asVec_eq hs, ok_bind, fmtVec_eq]
    have e1 : ("Shape[" : String) = "Shape" ++ "[" := by decide +kernel
    rw [e1]
    simp only [pure, Except.pure, String.append_assoc]
  obtain ⟨ds, h1, h2⟩ := key hs
  obtain ⟨es, h3, h4⟩ := key hu
  refine ⟨ds, es, h1, h3, h2, fun h => ?_⟩
  rw [h2, h4] at h
  have h := congrArg String.toList (Except.ok.inj h)
  simp only [String.toList_append] at h
  exact dims_text_inj (String.toList_inj.1 (List.append_cancel_left (List.append_cancel_right h)))

example : debugShape (ofDims [2, 3]) = .ok "Shape[2, 3]" := by decide +kernel

/-- Integers meet the hypothesis of `C94_elements_partial`. -/
example {t u : Tensor Nat} {ds es : List Nat} {xs ys : List Nat} (ht : Rep t ds xs) (hu : Rep u es ys)
    (h0 : t.offset = 0) (h0' : u.offset = 0) {s : String} (h1 : debug toString "u32" t = .ok s)
    (h2 : debug toString "u32" u = .ok s) : ds = es ∧ xs = ys :=
  have h := C94_elements_partial ht hu h0 h0' (k := 0) (fun x _ => spaces_toString x) h1 h2
  ⟨h.1, (h.2.2 fun _ _ hab => Nat.repr_injective hab).1⟩

example : ∃ s, debug toString "i32" exCube = .ok s ∧ ∀ x ∈ [0, 1, 2, 3, 4, 5, 6, 7] ++ [0, 1, 2, 3, 4, 5, 6, 7],
    spaces (toString x) = 0 := ⟨_, C59_debug_partial exCube_rep rfl _ _, fun x _ => spaces_toString x⟩

/-- The text of a complex number has six spaces whatever its parts are. -/
example (re im : Nat) : spaces ("Complex { re: " ++ toString re ++ ", im: " ++ toString im ++ " }") = 6 := by
  have h1 := spaces_toString re
  have h2 := spaces_toString im
  unfold spaces at *
  simp only [String.toList_append, List.count_append, h1, h2]
  decide +kernel

/-- C94 is violated on views: two views with different elements print the same text. -/
theorem C94_view_violates : ∃ t u : Tensor Nat, Rep t [1] [1] ∧ Rep u [1] [9] ∧
    debug toString "i32" t = debug toString "i32" u ∧ ∃ s, debug toString "i32" t = .ok s :=
  ⟨{ shape := ofDims [1], offset := 1, size := 1, data := [0, 1, 2] },
    { shape := ofDims [1], offset := 1, size := 1, data := [0, 9, 2] },
    ⟨⟨wf_ofDims ⟨by simp, by simp⟩, by decide +kernel, by decide +kernel⟩, by decide +kernel, by decide +kernel⟩,
    ⟨⟨wf_ofDims ⟨by simp, by simp⟩, by decide +kernel, by decide +kernel⟩, by decide +kernel, by decide +kernel⟩,
    by decide +kernel, _, rfl⟩

/-- Elements are separated by a space only: element texts with spaces run together. -/
theorem C94_text_violates : ∃ t u : Tensor String, Rep t [2] ["a b", "c"] ∧ Rep u [2] ["a", "b c"] ∧
    t.offset = 0 ∧ u.offset = 0 ∧ debug id "Name" t = debug id "Name" u ∧ ∃ s, debug id "Name" t = .ok s :=
  ⟨⟨ofDims [2], 0, 2, ["a b", "c"]⟩, ⟨ofDims [2], 0, 2, ["a", "b c"]⟩,
    rep_fresh (ds := [2]) (xs := ["a b", "c"]) ⟨by simp, by simp⟩ (fits_of_pos (by simp) (by simp)) rfl,
    rep_fresh (ds := [2]) (xs := ["a", "b c"]) ⟨by simp, by simp⟩ (fits_of_pos (by simp) (by simp)) rfl, rfl, rfl, by decide +kernel, _, rfl⟩

end Essay
