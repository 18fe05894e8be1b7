import Verif.Lemmas.Tensor
import Verif.Lemmas.Exec
import Verif.Model.Map

/-! # Helper lemmas for the map and fold families (no claims here) -/

namespace Essay

open Shape

variable {σ α β T U V W S : Type}

theorem exec_lift_run (x : Res α) (s : σ) : (liftM x : Exec σ α).run s = x >>= fun a => Except.ok (a, s) := by
  cases x <;> rfl

/-- `unsafe_init` around code that is a traversal. -/
theorem unsafeInitM_eq {L : Nat} {s : Shape} {body : Buf V → Exec σ (Buf V)} {y : Exec σ (List V)}
    (h : body (Buf.uninit L) = (y >>= fun vs => pure (vs.map some))) :
    Tensor.unsafeInitM L s body = (y >>= fun vs => (liftM (Tensor.new vs s) : Exec σ (Tensor V))) := by
  unfold Tensor.unsafeInitM
  rw [h]
  simp only [bind_assoc, pure_bind]
  congr 1
  funext vs
  unfold Tensor.finish
  rw [Buf.complete_map_some]

/-- Turning an equation into a `Yields` statement. -/
theorem yields_of_eq {x : Exec σ (Tensor V)} {y : Exec σ (List V)} {ds : List Nat}
    (h : x = (y >>= fun vs => (liftM (Tensor.new vs (ofDims ds)) : Exec σ (Tensor V))))
    (hl : ∀ s vs s', y.run s = Except.ok (vs, s') → vs.length = ds.prod) (ha : Adm ds) (hf : Fits ds) :
    Yields x y ds := by
  intro s
  cases hc : y.run s with
  | error e => simp only [h, StateT.run_bind, hc]; rfl
  | ok p =>
    obtain ⟨vs, s'⟩ := p
    have hlen := hl s vs s' hc
    refine ⟨_, ?_, rep_fresh ha hf hlen⟩
    simp only [h, StateT.run_bind, hc, ok_bind, new_ok ha hf hlen]
    rfl

theorem mapM_idx (xs : List U) (f : U → Exec σ V) :
    (List.range xs.length).mapM (fun i => (liftM (idx xs i) : Exec σ U) >>= f) = xs.mapM f := by
  have : ∀ (l : List U) (k : Nat), (∀ i, i < l.length → xs[k + i]? = l[i]?) →
      (List.range' k l.length).mapM (fun i => (liftM (idx xs i) : Exec σ U) >>= f) = l.mapM f := by
    intro l
    induction l with
    | nil => intro k _; simp
    | cons a l ih =>
      intro k hk
      simp only [List.length_cons, List.range'_succ, List.mapM_cons]
      have h0 := hk 0 (by simp)
      simp at h0
      rw [idx_ok h0, lift_ok, pure_bind]
      congr 1
      funext v
      rw [ih (k + 1) (fun i hi => by
        have := hk (i + 1) (by simpa using hi)
        rw [show k + (i + 1) = k + 1 + i by omega] at this
        simpa using this)]
  rw [List.range_eq_range']
  exact this xs 0 (fun i _ => by simp)

/-- Traversals over two lists related elementwise agree. -/
theorem mapM_congr_list {γ δ : Type} {l : List γ} {m : List δ} {f : γ → Exec σ V} {g : δ → Exec σ V}
    (hl : l.length = m.length) (h : ∀ (i : Nat) a b, l[i]? = some a → m[i]? = some b → f a = g b) : l.mapM f = m.mapM g := by
  induction l generalizing m with
  | nil => cases m with
    | nil => rfl
    | cons => simp at hl
  | cons a l ih =>
    cases m with
    | nil => simp at hl
    | cons b m =>
      simp only [List.mapM_cons]
      rw [h 0 a b rfl rfl, ih (by simpa using hl) (fun i x y hx hy => h (i + 1) x y (by simpa using hx) (by simpa using hy))]

theorem map_eq {t : Tensor U} {ds : List Nat} {xs : List U} (h : Rep t ds xs) (s : Shape) (f : U → Exec σ V) :
    Tensor.mapShape s t f = (xs.mapM f >>= fun vs => (liftM (Tensor.new vs s) : Exec σ (Tensor V))) := by
  unfold Tensor.mapShape
  apply unsafeInitM_eq
  rw [h.elems, lift_ok, pure_bind, h.size, ← mapM_idx xs f, ← forR_push0]
  apply forR_congr
  intro i o _ _
  simp [bind_assoc]

theorem asWrapSlice_eq {t : Tensor U} {ds : List Nat} {xs : List U} (h : Rep t ds xs) (h0 : 0 < xs.length) (o : Nat) :
    t.asWrapSlice o = Except.ok (xs.drop (o % xs.length)) := by
  have key : ∀ c, c < xs.length → (usub t.size c >>= fun len => rawSlice t.data (t.offset + c) len) =
      Except.ok (xs.drop c) := by
    intro c hc
    rw [h.size, usub_ok (by omega), ok_bind]
    have hb := h.wf.bound
    rw [h.size] at hb
    rw [rawSlice_ok (by omega)]
    have := h.elems_eq
    unfold Tensor.elems at this
    rw [h.size] at this
    conv => rhs; rw [← this, List.drop_take, List.drop_drop]
  unfold Tensor.asWrapSlice
  split
  · rename_i hlt
    rw [h.size] at hlt
    simp only [pure_eq_ok, ok_bind]
    rw [key o hlt, Nat.mod_eq_of_lt hlt]
  · rw [umod_ok (by rw [h.size]; omega), ok_bind]
    dsimp only
    rw [h.size] at key ⊢
    rw [key (o % xs.length) (Nat.mod_lt _ h0)]

theorem mod_add_of_dvd {inner m n k : Nat} (hd : inner ∣ m) (hk : k < inner) (hm : 0 < m) :
    (n * inner) % m + k = (n * inner + k) % m := by
  obtain ⟨c, rfl⟩ := hd
  rw [Nat.mul_comm n inner, Nat.mul_mod_mul_left, ← Nat.div_add_mod (inner * n + k) inner]
  have h1 : (inner * n + k) / inner = n := by
    rw [Nat.mul_add_div (by omega), Nat.div_eq_of_lt hk]; rfl
  have h2 : (inner * n + k) % inner = k := by rw [Nat.mul_add_mod, Nat.mod_eq_of_lt hk]
  rw [h1, h2]
  have hc : 0 < c := Nat.pos_of_mul_pos_left hm
  have hlt : inner * (n % c) + k < inner * c := by
    have := Nat.mod_lt n hc
    calc inner * (n % c) + k < inner * (n % c) + inner := by omega
      _ = inner * (n % c + 1) := by rw [Nat.mul_succ]
      _ ≤ inner * c := Nat.mul_le_mul_left _ this
  conv => rhs; rw [← Nat.div_add_mod n c, Nat.mul_add, ← Nat.mul_assoc, Nat.add_assoc, Nat.mul_add_mod,
    Nat.mod_eq_of_lt hlt]

theorem wrap_idx {xs : List U} {inner n k : Nat} (hd : inner ∣ xs.length) (hk : k < inner) (hm : 0 < xs.length) {x : U}
    (hx : xs[(n * inner + k) % xs.length]? = some x) : idx (xs.drop ((n * inner) % xs.length)) k = Except.ok x := by
  apply idx_ok
  rw [List.getElem?_drop, mod_add_of_dvd hd hk hm]
  exact hx

/-- A list repeated `k` times. -/
theorem flatten_replicate_get (xs : List U) (k p : Nat) (hp : p < k * xs.length) :
    (List.replicate k xs).flatten[p]? = xs[p % xs.length]? := by
  induction k generalizing p with
  | zero => simp at hp
  | succ k ih =>
    rw [List.replicate_succ, List.flatten_cons]
    by_cases h : p < xs.length
    · rw [List.getElem?_append_left h, Nat.mod_eq_of_lt h]
    · rw [List.getElem?_append_right (by omega), ih _ (by rw [Nat.succ_mul] at hp; omega)]
      rw [Nat.mod_eq_sub_mod (a := p) (by omega)]

theorem div_add_mod' {p m : Nat} : p / m * m + p % m = p := by
  rw [Nat.mul_comm]; exact Nat.div_add_mod p m

theorem map2_eq {a : Tensor T} {b : Tensor U} {ds es : List Nat} {xs : List T} {ys : List U} (ha : Rep a ds xs)
    (hb : Rep b es ys) (hx : 0 < xs.length) (hy : 0 < ys.length)
    (hdvd : xs.length ∣ ys.length ∨ ys.length ∣ xs.length) (s : Shape) (f : T → U → Exec σ V)
    (as : List T) (bs : List U)
    (has : ∀ p, p < max xs.length ys.length → as[p]? = xs[p % xs.length]?)
    (hbs : ∀ p, p < max xs.length ys.length → bs[p]? = ys[p % ys.length]?)
    (hal : as.length = max xs.length ys.length) (hbl : bs.length = max xs.length ys.length) :
    Tensor.map2Shape s a b f =
      ((as.zip bs).mapM (fun p => f p.1 p.2) >>= fun vs => (liftM (Tensor.new vs s) : Exec σ (Tensor V))) := by
  have hmin : 0 < min xs.length ys.length := by omega
  have hd1 : min xs.length ys.length ∣ xs.length := by
    rcases hdvd with h | h
    · have := Nat.le_of_dvd hy h; rw [Nat.min_eq_left this]; exact Nat.dvd_refl _
    · have := Nat.le_of_dvd hx h; rw [Nat.min_eq_right this]; exact h
  have hd2 : min xs.length ys.length ∣ ys.length := by
    rcases hdvd with h | h
    · have := Nat.le_of_dvd hy h; rw [Nat.min_eq_left this]; exact h
    · have := Nat.le_of_dvd hx h; rw [Nat.min_eq_right this]; exact Nat.dvd_refl _
  have hd3 : min xs.length ys.length ∣ max xs.length ys.length := by
    rcases Nat.le_total xs.length ys.length with h | h
    · rw [Nat.max_eq_right h]; exact hd2
    · rw [Nat.max_eq_left h]; exact hd1
  unfold Tensor.map2Shape
  rw [ha.size, hb.size]
  simp only
  generalize hI : min xs.length ys.length = inner at *
  generalize hS : max xs.length ys.length = size at *
  rw [udiv_ok (by omega), lift_ok, pure_bind, ensure_true (Nat.div_mul_cancel hd3), lift_ok, pure_bind]
  apply unsafeInitM_eq
  have key : ∀ (n : Nat) (o : Buf V),
      (do
        let as ← liftM (a.asWrapSlice (n * inner))
        let bs ← liftM (b.asWrapSlice (n * inner))
        forR 0 inner o fun k o => do
          let x ← liftM (idx as k)
          let y ← liftM (idx bs k)
          let v ← f x y
          liftM (Buf.write o (n * inner + k) v) : Exec σ (Buf V)) =
      forR 0 inner o (fun k o => do
          let x ← liftM (idx (xs.drop ((n * inner) % xs.length)) k)
          let y ← liftM (idx (ys.drop ((n * inner) % ys.length)) k)
          let v ← f x y
          liftM (Buf.write o (n * inner + k) v)) := by
    intro n o
    rw [asWrapSlice_eq ha hx, lift_ok, pure_bind, asWrapSlice_eq hb hy, lift_ok, pure_bind]
  rw [forR_congr (fun n o _ _ => key n o), forR_nest, Nat.div_mul_cancel hd3]
  have hz : (as.zip bs).length = size := by simp [hal, hbl]
  rw [← mapM_idx (as.zip bs) (fun p => f p.1 p.2), hz, ← forR_push0]
  apply forR_congr
  intro p o _ hp
  have e1 : p / inner * inner + p % inner = p := div_add_mod'
  have hxp : xs[p % xs.length]? = some (xs[p % xs.length]'(Nat.mod_lt _ hx)) :=
    List.getElem?_eq_getElem (Nat.mod_lt _ hx)
  have hyp : ys[p % ys.length]? = some (ys[p % ys.length]'(Nat.mod_lt _ hy)) :=
    List.getElem?_eq_getElem (Nat.mod_lt _ hy)
  rw [wrap_idx hd1 (Nat.mod_lt _ hmin) hx (x := xs[p % xs.length]'(Nat.mod_lt _ hx)) (by rw [e1]; exact hxp),
    wrap_idx hd2 (Nat.mod_lt _ hmin) hy (x := ys[p % ys.length]'(Nat.mod_lt _ hy)) (by rw [e1]; exact hyp), e1]
  rw [idx_ok (x := (xs[p % xs.length]'(Nat.mod_lt _ hx), ys[p % ys.length]'(Nat.mod_lt _ hy)))]
  · simp
  · rw [List.getElem?_zip_eq_some]
    exact ⟨by rw [has p hp]; exact hxp, by rw [hbs p hp]; exact hyp⟩

theorem map3_eq {a : Tensor T} {b : Tensor U} {c : Tensor V} {ds es fs : List Nat} {xs : List T} {ys : List U}
    {zs : List V} (ha : Rep a ds xs) (hb : Rep b es ys) (hc : Rep c fs zs) (hx : 0 < xs.length) (hy : 0 < ys.length)
    (hz : 0 < zs.length) (hd1 : min (min xs.length ys.length) zs.length ∣ xs.length)
    (hd2 : min (min xs.length ys.length) zs.length ∣ ys.length)
    (hd3 : min (min xs.length ys.length) zs.length ∣ zs.length) (s : Shape) (f : T → U → V → Exec σ W)
    (as : List T) (bs : List U) (cs : List V)
    (has : ∀ p, p < max (max xs.length ys.length) zs.length → as[p]? = xs[p % xs.length]?)
    (hbs : ∀ p, p < max (max xs.length ys.length) zs.length → bs[p]? = ys[p % ys.length]?)
    (hcs : ∀ p, p < max (max xs.length ys.length) zs.length → cs[p]? = zs[p % zs.length]?)
    (hal : as.length = max (max xs.length ys.length) zs.length)
    (hbl : bs.length = max (max xs.length ys.length) zs.length)
    (hcl : cs.length = max (max xs.length ys.length) zs.length) :
    Tensor.map3Shape s a b c f =
      ((as.zip (bs.zip cs)).mapM (fun p => f p.1 p.2.1 p.2.2) >>=
        fun vs => (liftM (Tensor.new vs s) : Exec σ (Tensor W))) := by
  have hmin : 0 < min (min xs.length ys.length) zs.length := by omega
  have hd4 : min (min xs.length ys.length) zs.length ∣ max (max xs.length ys.length) zs.length := by
    rcases Nat.le_total (max xs.length ys.length) zs.length with h | h
    · rw [Nat.max_eq_right h]; exact hd3
    · rw [Nat.max_eq_left h]
      rcases Nat.le_total xs.length ys.length with h | h
      · rw [Nat.max_eq_right h]; exact hd2
      · rw [Nat.max_eq_left h]; exact hd1
  unfold Tensor.map3Shape
  rw [ha.size, hb.size, hc.size]
  simp only
  generalize hI : min (min xs.length ys.length) zs.length = inner at *
  generalize hS : max (max xs.length ys.length) zs.length = size at *
  rw [udiv_ok (by omega), lift_ok, pure_bind, ensure_true (Nat.div_mul_cancel hd4), lift_ok, pure_bind]
  apply unsafeInitM_eq
  have key : ∀ (n : Nat) (o : Buf W),
      (do
        let as ← liftM (a.asWrapSlice (n * inner))
        let bs ← liftM (b.asWrapSlice (n * inner))
        let cs ← liftM (c.asWrapSlice (n * inner))
        forR 0 inner o fun k o => do
          let x ← liftM (idx as k)
          let y ← liftM (idx bs k)
          let z ← liftM (idx cs k)
          let v ← f x y z
          liftM (Buf.write o (n * inner + k) v) : Exec σ (Buf W)) =
      forR 0 inner o (fun k o => do
          let x ← liftM (idx (xs.drop ((n * inner) % xs.length)) k)
          let y ← liftM (idx (ys.drop ((n * inner) % ys.length)) k)
          let z ← liftM (idx (zs.drop ((n * inner) % zs.length)) k)
          let v ← f x y z
          liftM (Buf.write o (n * inner + k) v)) := by
    intro n o
    rw [asWrapSlice_eq ha hx, lift_ok, pure_bind, asWrapSlice_eq hb hy, lift_ok, pure_bind, asWrapSlice_eq hc hz,
      lift_ok, pure_bind]
  rw [forR_congr (fun n o _ _ => key n o), forR_nest, Nat.div_mul_cancel hd4]
  have hzz : (as.zip (bs.zip cs)).length = size := by simp [hal, hbl, hcl]
  rw [← mapM_idx (as.zip (bs.zip cs)) (fun p => f p.1 p.2.1 p.2.2), hzz, ← forR_push0]
  apply forR_congr
  intro p o _ hp
  have e1 : p / inner * inner + p % inner = p := div_add_mod'
  have hxp : xs[p % xs.length]? = some (xs[p % xs.length]'(Nat.mod_lt _ hx)) :=
    List.getElem?_eq_getElem (Nat.mod_lt _ hx)
  have hyp : ys[p % ys.length]? = some (ys[p % ys.length]'(Nat.mod_lt _ hy)) :=
    List.getElem?_eq_getElem (Nat.mod_lt _ hy)
  have hzp : zs[p % zs.length]? = some (zs[p % zs.length]'(Nat.mod_lt _ hz)) :=
    List.getElem?_eq_getElem (Nat.mod_lt _ hz)
  rw [wrap_idx hd1 (Nat.mod_lt _ hmin) hx (x := xs[p % xs.length]'(Nat.mod_lt _ hx)) (by rw [e1]; exact hxp),
    wrap_idx hd2 (Nat.mod_lt _ hmin) hy (x := ys[p % ys.length]'(Nat.mod_lt _ hy)) (by rw [e1]; exact hyp),
    wrap_idx hd3 (Nat.mod_lt _ hmin) hz (x := zs[p % zs.length]'(Nat.mod_lt _ hz)) (by rw [e1]; exact hzp), e1]
  rw [idx_ok (x := (xs[p % xs.length]'(Nat.mod_lt _ hx), ys[p % ys.length]'(Nat.mod_lt _ hy),
    zs[p % zs.length]'(Nat.mod_lt _ hz)))]
  · simp
  · rw [List.getElem?_zip_eq_some]
    refine ⟨by rw [has p hp]; exact hxp, ?_⟩
    rw [List.getElem?_zip_eq_some]
    exact ⟨by rw [hbs p hp]; exact hyp, by rw [hcs p hp]; exact hzp⟩

/-! ### broadcast check -/

theorem checkBroadcast_ofRev {l m : List Nat} (hl : l.length ≤ 6) (hm : m.length ≤ 6) :
    checkBroadcast (ofRev l) (ofRev m) =
      if l <+: m ∨ m <+: l then Except.ok () else Except.error Err.panic := by
  unfold checkBroadcast
  simp only [rank_ofRev]
  have step : ∀ i, i < min l.length m.length → ∀ u : Unit,
      (do
        let x ← (ofRev l).rdim i
        let y ← (ofRev m).rdim i
        ensure (x = y) : Res Unit) = ensure (l[i]? = m[i]?) := by
    intro i hi u
    unfold Shape.rdim
    have h1 : i < l.length := by omega
    have h2 : i < m.length := by omega
    rw [idx_ok (x := l[i]) (by rw [ofRev_get hl, if_pos h1, List.getElem?_eq_getElem h1]), ok_bind,
      idx_ok (x := m[i]) (by rw [ofRev_get hm, if_pos h2, List.getElem?_eq_getElem h2]), ok_bind,
      List.getElem?_eq_getElem h1, List.getElem?_eq_getElem h2]
    unfold ensure
    simp
  rw [forR_congr (body' := fun i _ => ensure (l[i]? = m[i]?)) (fun i s _ hi => step i hi s)]
  have key : ∀ n, forR 0 n () (fun i _ => ensure (l[i]? = m[i]?)) =
      if ∀ i, i < n → l[i]? = m[i]? then Except.ok () else Except.error Err.panic := by
    intro n
    induction n with
    | zero => simp
    | succ n ih =>
      rw [forR_snoc (Nat.zero_le _), ih]
      by_cases h : ∀ i, i < n → l[i]? = m[i]?
      · rw [if_pos h, ok_bind]
        unfold ensure
        by_cases hn : l[n]? = m[n]?
        · rw [if_pos hn, if_pos]
          intro i hi
          by_cases hin : i < n
          · exact h i hin
          · rw [show i = n by omega]; exact hn
        · rw [if_neg hn, if_neg (fun hc => hn (hc n (by omega)))]
      · rw [if_neg h, if_neg (fun hc => h (fun i hi => hc i (by omega)))]; rfl
  rw [key]
  congr 1
  rw [eq_iff_iff]
  constructor
  · intro h
    rcases Nat.le_total l.length m.length with hle | hle
    · left
      rw [List.prefix_iff_getElem?]
      intro i hi
      rw [← h i (by omega), List.getElem?_eq_getElem hi]
    · right
      rw [List.prefix_iff_getElem?]
      intro i hi
      rw [h i (by omega), List.getElem?_eq_getElem hi]
  · rintro (h | h)
    · intro i hi
      rw [List.prefix_iff_getElem?.1 h i (by omega), List.getElem?_eq_getElem]
    · intro i hi
      rw [List.prefix_iff_getElem?.1 h i (by omega), List.getElem?_eq_getElem]

theorem checkBroadcast_ofDims {ds es : List Nat} (hl : ds.length ≤ 6) (hm : es.length ≤ 6) :
    checkBroadcast (ofDims ds) (ofDims es) =
      if ds <:+ es ∨ es <:+ ds then Except.ok () else Except.error Err.panic := by
  unfold ofDims
  rw [checkBroadcast_ofRev (by simpa using hl) (by simpa using hm)]
  simp only [List.reverse_prefix]

theorem broadcastTo_left {ds es : List Nat} (hl : ds.length ≤ 6) (hm : es.length ≤ 6) (h : ds <:+ es) :
    broadcastTo (ofDims ds) (ofDims es) = Except.ok (ofDims es) := by
  unfold broadcastTo
  rw [checkBroadcast_ofDims hl hm, if_pos (Or.inl h), ok_bind, rank_ofDims, rank_ofDims]
  split
  · rfl
  · have : ds = es := h.eq_of_length (by have := h.length_le; omega)
    rw [this]; rfl

theorem broadcastTo_right {ds es : List Nat} (hl : ds.length ≤ 6) (hm : es.length ≤ 6) (h : es <:+ ds) :
    broadcastTo (ofDims ds) (ofDims es) = Except.ok (ofDims ds) := by
  unfold broadcastTo
  rw [checkBroadcast_ofDims hl hm, if_pos (Or.inr h), ok_bind, rank_ofDims, rank_ofDims]
  have := h.length_le
  rw [if_neg (by omega)]; rfl

theorem broadcastTo_panic {ds es : List Nat} (hl : ds.length ≤ 6) (hm : es.length ≤ 6)
    (h : ¬ (ds <:+ es ∨ es <:+ ds)) : broadcastTo (ofDims ds) (ofDims es) = Except.error Err.panic := by
  unfold broadcastTo
  rw [checkBroadcast_ofDims hl hm, if_neg h]; rfl

end Essay
