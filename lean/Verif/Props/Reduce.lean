import Verif.Spec.Reduce
import Verif.Model.Reduce
import Verif.Lemmas.Pos
import Verif.Lemmas.Math
import Verif.Props.Permute

/-! # Reductions along one dimension (C42) -/

namespace Mli

open Spec

/-! ## Reordered positions -/

/-- The loop point with its coordinates reordered. -/
def swp (axis : Nat) (p : Nat × Nat × Nat × Nat) : Nat × Nat × Nat × Nat :=
  (pget p (redDim axis 0), pget p (redDim axis 1), pget p (redDim axis 2), pget p (redDim axis 3))

theorem redDim_redDim {axis k : Nat} (ha : axis < 4) (hk : k < 4) : redDim axis (redDim axis k) = k := by
  unfold redDim; split <;> split <;> (try split) <;> omega

theorem redDim_lt {axis k : Nat} (ha : axis < 4) (hk : k < 4) : redDim axis k < 4 := by
  unfold redDim; split <;> (try split) <;> omega

theorem pget_swp {axis k : Nat} (hk : k < 4) (p : Nat × Nat × Nat × Nat) : pget (swp axis p) k = pget p (redDim axis k) := by
  have : k = 0 ∨ k = 1 ∨ k = 2 ∨ k = 3 := by omega
  rcases this with rfl | rfl | rfl | rfl <;> rfl

theorem pget_ext {p q : Nat × Nat × Nat × Nat} (h : ∀ k, k < 4 → pget p k = pget q k) : p = q := by
  obtain ⟨a, b, c, d⟩ := p
  obtain ⟨a', b', c', d'⟩ := q
  have h0 : a = a' := h 0 (by omega)
  have h1 : b = b' := h 1 (by omega)
  have h2 : c = c' := h 2 (by omega)
  have h3 : d = d' := h 3 (by omega)
  rw [h0, h1, h2, h3]

theorem swp_swp {axis : Nat} (ha : axis < 4) (p : Nat × Nat × Nat × Nat) : swp axis (swp axis p) = p :=
  pget_ext fun k hk => by rw [pget_swp hk, pget_swp (redDim_lt ha hk), redDim_redDim ha hk]

theorem mem_pts_iff {t : Tensor} {p : Nat × Nat × Nat × Nat} : p ∈ t.pts ↔ ∀ k, k < 4 → pget p k < (t.gShape k).toNat := by
  rw [Tensor.pts, mem_pts4]
  constructor
  · intro h k hk
    have : k = 0 ∨ k = 1 ∨ k = 2 ∨ k = 3 := by omega
    rcases this with rfl | rfl | rfl | rfl
    · exact h.1
    · exact h.2.1
    · exact h.2.2.1
    · exact h.2.2.2
  · intro h
    exact ⟨h 0 (by omega), h 1 (by omega), h 2 (by omega), h 3 (by omega)⟩

theorem swp_mem {t : Tensor} {axis : Nat} (ha : axis < 4) {p : Nat × Nat × Nat × Nat} :
    swp axis p ∈ t.pts ↔ ∀ k, k < 4 → pget p k < (t.gShape (redDim axis k)).toNat := by
  rw [mem_pts_iff]
  constructor
  · intro h k hk
    have := h (redDim axis k) (redDim_lt ha hk)
    rwa [pget_swp (redDim_lt ha hk), redDim_redDim ha hk] at this
  · intro h k hk
    have := h (redDim axis k) (redDim_lt ha hk)
    rwa [redDim_redDim ha hk, ← pget_swp hk] at this

theorem redPos_eq {t : Tensor} (h : t.dims.length ≤ 4) {axis : Nat} {p : Nat × Nat × Nat × Nat} (hp : swp axis p ∈ t.pts) :
    t.redPos axis p.1 p.2.1 p.2.2.1 p.2.2.2 = t.addr (idx4 t.dims.length (swp axis p)) := by
  rw [← gPos_eq h hp]
  rfl

/-- Moving along the innermost loop moves along the reduced dimension. -/
theorem idx4_set {r axis : Nat} (hr : r ≤ 4) (ha : axis < r) (a b c e : Nat) :
    idx4 r (swp axis (a, b, c, e)) = (idx4 r (swp axis (a, b, c, 0))).set axis e := by
  have h1 : axis = 0 ∨ axis = 1 ∨ axis = 2 ∨ axis = 3 := by omega
  have h2 : r = 1 ∨ r = 2 ∨ r = 3 ∨ r = 4 := by omega
  rcases h1 with rfl | rfl | rfl | rfl <;> rcases h2 with rfl | rfl | rfl | rfl <;> first | omega | rfl

/-! ## The loops -/

/-- One dimension of the output has size 1, the others are those of the input. -/
theorem gShape_set {tin tout : Tensor} {axis : Nat} (ha : axis < tin.dims.length) (hs : tout.shape = tin.shape.set axis 1) (k : Nat) :
    tout.gShape k = if k = axis then 1 else tin.gShape k := by
  rw [gShape_eq, gShape_eq, hs, List.getElem?_set]
  have hl : axis < tin.shape.length := by simpa [Tensor.shape] using ha
  split
  · next h => rw [if_pos h.symm]; simp [hl]
  · next h => rw [if_neg (fun e => h e.symm)]

theorem redBound_pos {t : Tensor} (h : ∀ d ∈ t.dims, 1 ≤ d.shape) {axis k : Nat} :
    redBound t axis k = (t.gShape (redDim axis k)).toNat ∧ 1 ≤ t.gShape (redDim axis k) := by
  have : 1 ≤ t.gShape (redDim axis k) := by
    unfold Tensor.gShape
    cases hd : t.dims[redDim axis k]? with
    | none => simp
    | some d =>
      have := h d (List.mem_of_getElem? hd)
      simpa using this
  exact ⟨by unfold redBound; rw [if_neg (by omega)], this⟩

theorem redBound_eq {t : Tensor} {mem : Buf} (h : t.Valid mem) {axis k : Nat} :
    redBound t axis k = (t.gShape (redDim axis k)).toNat ∧ 1 ≤ t.gShape (redDim axis k) := redBound_pos h.shape_pos

/-- The loops store, for each position of the output, the result `fin` of the inner loop over the reduced dimension. -/
theorem reduce_laid {init : Int → Option Int} {step : Int → Int → Int} {axis : Nat} (src dst : Buf) (tin tout : Tensor) (hr : tin.dims.length ≤ 4)
    (hsh : ∀ d ∈ tin.dims, 1 ≤ d.shape) (hib : ∀ is, InShape tin.shape is → 0 ≤ tin.addr is ∧ tin.addr is < src.size)
    (hob : ∀ is, InShape tout.shape is → 0 ≤ tout.addr is ∧ tout.addr is < dst.size) (hsep : tout.Separate tout) (ha : axis < tin.dims.length) (hs : tout.shape = tin.shape.set axis 1) (v0 : (Nat → Int) → Int)
    (hinit : ∀ js, InShape tout.shape js → init (tin.addr (js.set axis 0)) = some (v0 fun i => src.get (tin.addr (js.set axis i)))) :
    ∃ dst', reduceLoops init step axis src tin tout dst = some dst' ∧
      tout.Writes (fun js => (List.range (tin.gShape axis).toNat).foldl (fun v (i : Nat) => step v (src.get (tin.addr (js.set axis i))))
        (v0 fun i => src.get (tin.addr (js.set axis i)))) dst dst' := by
  have hlen : tout.dims.length = tin.dims.length := by
    have := congrArg List.length hs
    simpa [Tensor.shape] using this
  have hro : tout.dims.length ≤ 4 := by omega
  have ha4 : axis < 4 := by omega
  have hpos : ∀ k, 1 ≤ tin.gShape (redDim axis k) := fun k => (redBound_pos hsh).2
  have hmem : ∀ p ∈ pts4 (redBound tin axis 0) (redBound tin axis 1) (redBound tin axis 2) 1,
      swp axis p ∈ tout.pts ∧ p.2.2.2 = 0 ∧ ∀ e, e < (tin.gShape axis).toNat → swp axis (p.1, p.2.1, p.2.2.1, e) ∈ tin.pts := by
    intro p hp
    rw [mem_pts4] at hp
    simp only [(redBound_pos hsh).1] at hp
    have h0 : p.2.2.2 = 0 := by omega
    refine ⟨(swp_mem ha4).mpr fun k hk => ?_, h0, fun e he => (swp_mem ha4).mpr fun k hk => ?_⟩
    · rw [gShape_set ha hs]
      have : k = 0 ∨ k = 1 ∨ k = 2 ∨ k = 3 := by omega
      rcases this with rfl | rfl | rfl | rfl
      · rw [if_neg (by unfold redDim; split <;> (try split) <;> omega)]; exact hp.1
      · rw [if_neg (by unfold redDim; split <;> (try split) <;> omega)]; exact hp.2.1
      · rw [if_neg (by unfold redDim; split <;> (try split) <;> omega)]; exact hp.2.2.1
      · rw [if_pos (by unfold redDim; rfl)]; exact hp.2.2.2
    · have : k = 0 ∨ k = 1 ∨ k = 2 ∨ k = 3 := by omega
      rcases this with rfl | rfl | rfl | rfl
      · exact hp.1
      · exact hp.2.1
      · exact hp.2.2.1
      · exact he
  have hset : ∀ p ∈ pts4 (redBound tin axis 0) (redBound tin axis 1) (redBound tin axis 2) 1, ∀ e, e < (tin.gShape axis).toNat →
      tin.redPos axis p.1 p.2.1 p.2.2.1 e = tin.addr ((idx4 tout.dims.length (swp axis p)).set axis e) := by
    intro p hp e he
    obtain ⟨h1, h2, h3⟩ := hmem p hp
    have := redPos_eq hr (h3 e he)
    rw [this, idx4_set hr ha, hlen, ← h2]
  let val : List Int → Int := fun js => (List.range (tin.gShape axis).toNat).foldl (fun v (i : Nat) => step v (src.get (tin.addr (js.set axis i))))
        (v0 fun i => src.get (tin.addr (js.set axis i)))
  have hax : 1 ≤ tin.gShape axis := hpos 3
  obtain ⟨dst', h1, h2⟩ := nest4_stores (redBound tin axis 0) (redBound tin axis 1) (redBound tin axis 2) 1
    (fun a b c _ d =>
      (init (tin.redPos axis a b c 0)).bind fun v0 =>
      (forRange (redBound tin axis 3) (fun e v => (src.rd (tin.redPos axis a b c e)).map (step v)) v0).bind fun v =>
      d.wr (tout.redPos axis a b c 0) v)
    (fun p => tout.addr (idx4 tout.dims.length (swp axis p))) (fun p => val (idx4 tout.dims.length (swp axis p))) dst
    (by
      intro p hp d' _
      obtain ⟨m1, m2, m3⟩ := hmem p hp
      have hin := (pts_inShape hro m1).1
      rw [hset p hp 0 (by omega), Nat.cast_zero, hinit _ hin, Option.bind_some]
      rw [show redBound tin axis 3 = (tin.gShape axis).toNat from (redBound_pos hsh).1]
      have key : ∀ n, n ≤ (tin.gShape axis).toNat → ∀ v, forRange n (fun e v => (src.rd (tin.redPos axis p.1 p.2.1 p.2.2.1 e)).map (step v)) v =
          some ((List.range n).foldl (fun v (i : Nat) => step v (src.get (tin.addr ((idx4 tout.dims.length (swp axis p)).set axis i)))) v) := by
        intro n
        induction n with
        | zero => intro _ v; rfl
        | succ n ih =>
          intro hn v
          rw [forRange_eq_foldlM, List.range_succ, List.foldlM_append, ← forRange_eq_foldlM, ih (by omega)]
          simp only [Option.bind_eq_bind, Option.bind_some, List.foldlM_cons, List.foldlM_nil, List.foldl_append, List.foldl_cons, List.foldl_nil]
          rw [hset p hp n (by omega), Buf.rd_some (hib _ (by
            have e := idx4_set hr ha p.1 p.2.1 p.2.2.1 n
            rw [← m2] at e
            rw [hlen, ← e]
            exact (pts_inShape hr (m3 n (by omega))).1))]
          rfl
      rw [key _ (le_refl _), Option.bind_some]
      have e := redPos_eq hro m1
      rw [m2] at e
      rw [e])
    (by
      intro p hp
      exact hob _ (pts_inShape hro (hmem p hp).1).1)
    (by
      intro p hp q hq e
      rw [hsep _ _ (pts_inShape hro (hmem p hp).1).1 (pts_inShape hro (hmem q hq).1).1 e])
  refine ⟨dst', ?_, h2.size, fun is hi => ?_, fun a hfr => h2.frame a (fun q hq => hfr _ (pts_inShape hro (hmem q hq).1).1)⟩
  · rw [← h1]
    rfl
  · obtain ⟨q, hq, rfl⟩ := pts_onto hro hi
    have hq' : swp axis q ∈ pts4 (redBound tin axis 0) (redBound tin axis 1) (redBound tin axis 2) 1 := by
      rw [mem_pts4]
      simp only [(redBound_pos hsh).1]
      have hg := (swp_mem (t := tout) ha4 (p := swp axis q)).mp (by rwa [swp_swp ha4])
      simp only [gShape_set ha hs] at hg
      refine ⟨?_, ?_, ?_, ?_⟩
      · have := hg 0 (by omega); rwa [if_neg (by unfold redDim; split <;> (try split) <;> omega)] at this
      · have := hg 1 (by omega); rwa [if_neg (by unfold redDim; split <;> (try split) <;> omega)] at this
      · have := hg 2 (by omega); rwa [if_neg (by unfold redDim; split <;> (try split) <;> omega)] at this
      · have := hg 3 (by omega); rwa [if_pos (by unfold redDim; rfl)] at this
    have := h2.hit _ hq'
    simp only [swp_swp ha4] at this
    exact this

/-- `reduce_laid` for accepted tensors. -/
theorem reduce_writes {init : Int → Option Int} {step : Int → Int → Int} {axis : Nat} (src dst : Buf) (tin tout : Tensor) (vi : tin.Valid src)
    (vo : tout.Valid dst) (ha : axis < tin.dims.length) (hs : tout.shape = tin.shape.set axis 1) (v0 : (Nat → Int) → Int)
    (hinit : ∀ js, InShape tout.shape js → init (tin.addr (js.set axis 0)) = some (v0 fun i => src.get (tin.addr (js.set axis i)))) :
    ∃ dst', reduceLoops init step axis src tin tout dst = some dst' ∧
      tout.Writes (fun js => (List.range (tin.gShape axis).toNat).foldl (fun v (i : Nat) => step v (src.get (tin.addr (js.set axis i))))
        (v0 fun i => src.get (tin.addr (js.set axis i)))) dst dst' :=
  reduce_laid src dst tin tout vi.rank vi.shape_pos (fun _ h => vi.inBounds h) (fun _ h => vo.inBounds h) (Tensor.Separate.refl tout dst vo) ha hs v0 hinit

/-! ## Reduce-max -/

theorem foldl_max (x : Nat → Int) : ∀ n, 0 < n → IsMax n x ((List.range n).foldl (fun v i => maxFx v (x i)) (x 0)) := by
  intro n
  induction n with
  | zero => intro h; omega
  | succ n ih =>
    intro _
    rw [List.range_succ, List.foldl_append]
    simp only [List.foldl_cons, List.foldl_nil]
    rcases Nat.eq_zero_or_pos n with rfl | hn
    · simp only [List.range_zero, List.foldl_nil, maxFx, lt_irrefl, if_false, gt_iff_lt]
      exact ⟨⟨0, by omega, rfl⟩, fun i hi => by rw [show i = 0 by omega]⟩
    · obtain ⟨⟨i, hi, e⟩, h2⟩ := ih hn
      generalize (List.range n).foldl (fun v i => maxFx v (x i)) (x 0) = y at *
      unfold maxFx
      split
      · exact ⟨⟨i, by omega, e⟩, fun j hj => by
          rcases Nat.lt_or_ge j n with h | h
          · exact h2 j h
          · rw [show j = n by omega]; omega⟩
      · exact ⟨⟨n, by omega, rfl⟩, fun j hj => by
          rcases Nat.lt_or_ge j n with h | h
          · have := h2 j h; omega
          · rw [show j = n by omega]⟩

theorem inShape_set {shape : List Int} : ∀ {axis : Nat} {js : List Int} {i : Int}, axis < shape.length → 0 ≤ i → i < shape.getD axis 0 →
    InShape (shape.set axis 1) js → InShape shape (js.set axis i) := by
  induction shape with
  | nil => intro axis js i h; simp at h
  | cons n ns ih =>
    intro axis js i ha h0 h1 h
    cases js with
    | nil => cases axis <;> exact h.elim
    | cons j js =>
      cases axis with
      | zero => exact ⟨⟨h0, by simpa using h1⟩, h.2⟩
      | succ k => exact ⟨h.1, ih (by simpa using ha) h0 (by simpa using h1) h.2⟩

/-- C42 (reduce-max): every element of the output is the largest element of the input along dimension `axis`. -/
theorem c42_reduce_max (es : Int) (he : es = 1 ∨ es = 2 ∨ es = 4) (axis : Nat) (src dst : Buf) (tin tout : Tensor) (vi : tin.Valid src)
    (vo : tout.Valid dst) (ha : axis < tin.dims.length) (hs : tout.shape = tin.shape.set axis 1) :
    ∃ dst' val, reduceMaxIssue es axis src tin tout dst = some (.ok, dst') ∧ tout.Writes val dst dst' ∧
      ∀ js, InShape tout.shape js → IsMax (tin.shape.getD axis 0).toNat (fun i => src.get (tin.addr (js.set axis i))) (val js) := by
  have hl : axis < tin.shape.length := by simpa [Tensor.shape] using ha
  have hg : tin.gShape axis = tin.shape.getD axis 0 := by
    rw [gShape_eq, List.getD_eq_getElem?_getD, List.getElem?_eq_getElem hl]; rfl
  have hax : 1 ≤ tin.gShape axis := (redBound_eq vi (axis := axis) (k := 3)).2
  obtain ⟨dst', h1, h2⟩ := reduce_writes (init := src.rd) (step := fun v x => maxFx v x) src dst tin tout vi vo ha hs (fun x => x 0)
    (fun js hj => vi.rd (inShape_set hl (by omega) (by omega) (by rwa [hs] at hj)) rfl)
  refine ⟨dst', _, ?_, h2, fun js hj => ?_⟩
  · unfold reduceMaxIssue krnReduceMax
    rw [if_pos (by omega), h1]; rfl
  · rw [← hg]
    exact foldl_max _ _ (by omega)

/-! ## Reduce-sum -/

theorem wrap_congr {w : Nat} {x y : Int} (h : x % (2 ^ w : Int) = y % (2 ^ w : Int)) : wrap w x = wrap w y := by
  unfold wrap
  congr 1
  apply BitVec.eq_of_toNat_eq
  simp only [BitVec.toNat_ofInt]
  have e : ((2 ^ w : Nat) : Int) = 2 ^ w := by push_cast; rfl
  rw [e, h]

theorem foldl_sum (w : Nat) (x : Nat → Int) : ∀ n, (List.range n).foldl (fun v i => wrap w (v + x i)) 0 = wrap w (∑ i ∈ Finset.range n, x i) ∨ n = 0 := by
  intro n
  induction n with
  | zero => right; rfl
  | succ n ih =>
    left
    rw [List.range_succ, List.foldl_append, Finset.sum_range_succ]
    simp only [List.foldl_cons, List.foldl_nil]
    rcases ih with ih | rfl
    · rw [ih]
      apply wrap_congr
      rw [Int.add_emod, wrap_emod, ← Int.add_emod]
    · rfl

/-- What the code computes without the condition below: the sum modulo `2^w`, as a signed number. -/
theorem reduceSum_wraps (w : Nat) (axis : Nat) (src dst : Buf) (tin tout : Tensor) (vi : tin.Valid src)
    (vo : tout.Valid dst) (ha : axis < tin.dims.length) (hs : tout.shape = tin.shape.set axis 1) :
    ∃ dst' val, krnReduceSum w axis src tin tout dst = some dst' ∧ tout.Writes val dst dst' ∧
      ∀ js, InShape tout.shape js →
        val js = wrap w (∑ i ∈ Finset.range (tin.shape.getD axis 0).toNat, src.get (tin.addr (js.set axis i))) := by
  have hl : axis < tin.shape.length := by simpa [Tensor.shape] using ha
  have hg : tin.gShape axis = tin.shape.getD axis 0 := by
    rw [gShape_eq, List.getD_eq_getElem?_getD, List.getElem?_eq_getElem hl]; rfl
  have hax : 1 ≤ tin.gShape axis := (redBound_eq vi (axis := axis) (k := 3)).2
  obtain ⟨dst', h1, h2⟩ := reduce_writes (init := fun _ => some 0) (step := fun v x => wrap w (v + x)) src dst tin tout vi vo ha hs (fun _ => 0)
    (fun js hj => rfl)
  refine ⟨dst', _, h1, h2, fun js hj => ?_⟩
  rw [← hg]
  rcases foldl_sum w (fun i => src.get (tin.addr (js.set axis i))) (tin.gShape axis).toNat with h | h
  · exact h
  · omega

/-- C42 (reduce-sum): every element of the output is the sum of the input along dimension `axis`, if that sum is a value of the
element type (the intermediate sums need not be). -/
theorem c42_reduce_sum (es : Int) (he : es = 1 ∨ es = 2 ∨ es = 4) (axis : Nat) (src dst : Buf) (tin tout : Tensor) (vi : tin.Valid src)
    (vo : tout.Valid dst) (ha : axis < tin.dims.length) (hs : tout.shape = tin.shape.set axis 1)
    (hov : ∀ js, InShape tout.shape js →
      InRange (8 * es.toNat) (∑ i ∈ Finset.range (tin.shape.getD axis 0).toNat, src.get (tin.addr (js.set axis i)))) :
    ∃ dst' val, reduceSumIssue es axis src tin tout dst = some (.ok, dst') ∧ tout.Writes val dst dst' ∧
      ∀ js, InShape tout.shape js →
        val js = ∑ i ∈ Finset.range (tin.shape.getD axis 0).toNat, src.get (tin.addr (js.set axis i)) := by
  obtain ⟨dst', val, h1, h2, h3⟩ := reduceSum_wraps (8 * es.toNat) axis src dst tin tout vi vo ha hs
  refine ⟨dst', val, ?_, h2, fun js hj => ?_⟩
  · unfold reduceSumIssue
    rcases he with rfl | rfl | rfl
    · rw [if_neg (by decide), if_neg (by decide), if_pos rfl]; exact congrArg _ h1
    · rw [if_neg (by decide), if_pos rfl]; exact congrArg _ h1
    · rw [if_pos rfl]; exact congrArg _ h1
  · rw [h3 js hj, wrap_of_inRange (by omega) (hov js hj)]

/-- 2 by 3 elements in rows of 4, reduced along the first and the second dimension. -/
def exRdIn : Tensor := { dims := [⟨2, 4⟩, ⟨3, 1⟩], cap := 14, es := 2 }
def exRdOut0 : Tensor := { dims := [⟨1, 3⟩, ⟨3, 1⟩], cap := 6, es := 2, base := 1 }
def exRdOut1 : Tensor := { dims := [⟨2, 1⟩, ⟨1, 1⟩], cap := 4, es := 2, base := 1 }
def exRdSrc : List Int := [10, -5, 7, 99, -2, 30, 32767, 99]

example : exRdIn.Valid (Buf.ofList exRdSrc) ∧ exRdOut0.Valid (Buf.ofList (List.replicate 5 77)) ∧
    exRdOut1.Valid (Buf.ofList (List.replicate 5 77)) ∧ exRdOut0.shape = exRdIn.shape.set 0 1 ∧ exRdOut1.shape = exRdIn.shape.set 1 1 ∧
    (reduceMaxIssue 2 0 (Buf.ofList exRdSrc) exRdIn exRdOut0 (Buf.ofList (List.replicate 5 77))).map (fun p => (p.1, p.2.toList)) =
      some (.ok, [77, 10, 30, 32767, 77]) ∧
    (reduceMaxIssue 2 1 (Buf.ofList exRdSrc) exRdIn exRdOut1 (Buf.ofList (List.replicate 5 77))).map (fun p => (p.1, p.2.toList)) =
      some (.ok, [77, 10, 32767, 77, 77]) ∧
    (reduceSumIssue 2 1 (Buf.ofList exRdSrc) exRdIn exRdOut1 (Buf.ofList (List.replicate 5 77))).map (fun p => (p.1, p.2.toList)) =
      some (.ok, [77, 12, -32741, 77, 77]) ∧
    (reduceSumIssue 2 0 (Buf.ofList [10, -5, 7, 99, -2, 30, 3, 99]) exRdIn exRdOut0 (Buf.ofList (List.replicate 5 77))).map
      (fun p => (p.1, p.2.toList)) = some (.ok, [77, 8, 25, 10, 77]) ∧
    (∀ j : Fin 3, InRange 16 (∑ i ∈ Finset.range 2, (Buf.ofList [10, -5, 7, 99, -2, 30, 3, 99]).get
      (exRdIn.addr ([0, (j.val : Int)].set 0 i)))) :=
  ⟨⟨by decide, by decide, by decide, by decide⟩, ⟨by decide, by decide, by decide, by decide⟩,
    ⟨by decide, by decide, by decide, by decide⟩, rfl, rfl, by decide +kernel, by decide +kernel, by decide +kernel, by decide +kernel,
    by decide⟩

end Mli
