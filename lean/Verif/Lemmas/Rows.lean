import Verif.Model.RnnCell
import Verif.Lemmas.Rnn
import Verif.Props.LutReal

/-! # Kernels on rows of a memory -/

namespace Mli

open Spec

/-- `d'` is `d` with the `n` elements from `p` on set to `v 0`, `v 1`, …. -/
structure Buf.Puts (p n : Int) (v : Int → Int) (d d' : Buf) : Prop where
  size : d'.size = d.size
  hit : ∀ i, 0 ≤ i → i < n → d'.get (p + i) = v i
  frame : ∀ x, x < p ∨ p + n ≤ x → d'.get x = d.get x

/-- Two rows of `n` elements are the same or do not share an element. -/
def RowSep (n p q : Int) : Prop := p = q ∨ p + n ≤ q ∨ q + n ≤ p

theorem forRange_puts {n p : Int} {d : Buf} (v : Int → Int) (f : Nat → Buf → Option Buf) (h0 : 0 ≤ n) (hb : 0 ≤ p ∧ p + n ≤ d.size)
    (hf : ∀ i : Nat, (i : Int) < n → ∀ d' : Buf, d'.size = d.size → (∀ x, x < p ∨ p + i ≤ x → d'.get x = d.get x) → f i d' = d'.wr (p + i) (v i)) :
    ∃ d', forRange n.toNat f d = some d' ∧ d.Puts p n v d' := by
  obtain ⟨d', h1, h2⟩ := forRange_inv (n := n.toNat) (f := f) (s := d) (fun i d' => d.Puts p i v d') ⟨rfl, fun i h1 h2 => by omega, fun _ _ => rfl⟩ (by
    intro i d' hi h
    rw [hf i (by omega) d' h.size h.frame, Buf.wr_some (by rw [h.size]; omega)]
    refine ⟨_, rfl, h.size, ?_, ?_⟩
    · intro j h1 h2
      show (if _ then _ else _) = _
      by_cases e : j = i
      · rw [if_pos (by omega), e]
      · rw [if_neg (by omega), h.hit j h1 (by push_cast at h2; omega)]
    · intro x hx
      push_cast at hx
      show (if _ then _ else _) = _
      rw [if_neg (by omega), h.frame x (by omega)])
  refine ⟨d', h1, ?_⟩
  rw [Int.toNat_of_nonneg h0] at h2
  exact h2

/-- One-dimensional element-wise operation. -/
theorem elt1D_puts {f : Int → Int → Int} {t1 : Tensor} {n p1 p2 po : Int} {d : Buf} (hn : (t1.shape.getLast?).getD 0 = n) (hp : t1.base = p1) (h0 : 0 ≤ n)
    (b1 : 0 ≤ p1 ∧ p1 + n ≤ d.size) (b2 : 0 ≤ p2 ∧ p2 + n ≤ d.size) (bo : 0 ≤ po ∧ po + n ≤ d.size)
    (s1 : RowSep n p1 po) (s2 : RowSep n p2 po) :
    ∃ d', elt1D f t1 p2 po d = some d' ∧ d.Puts po n (fun i => f (d.get (p1 + i)) (d.get (p2 + i))) d' := by
  unfold elt1D
  rw [hn, hp]
  apply forRange_puts _ _ h0 bo
  intro i hi d' hd hfr
  have r1 : d'.get (p1 + i) = d.get (p1 + i) := hfr _ (by unfold RowSep at s1; omega)
  have r2 : d'.get (p2 + i) = d.get (p2 + i) := hfr _ (by unfold RowSep at s2; omega)
  rw [Buf.rd_some (by omega), Option.bind_some, Buf.rd_some (by omega), Option.bind_some, r1, r2]

/-- A tensor that is one row of `n` elements at `p`. -/
structure RowT (t : Tensor) (n p : Int) : Prop where
  dims : t.dims = [⟨n, 1⟩] ∨ t.dims = [⟨1, n⟩, ⟨n, 1⟩]
  base : t.base = p
  es : t.es = 1 ∨ t.es = 2
  pos : 1 ≤ n
  need : n * t.es ≤ t.cap
  cap : t.cap ≤ int32Max

theorem RowT.decide {t : Tensor} {n p : Int} (h : RowT t n p) :
    t.WellTyped ∧ t.footprint = n * t.es ∧ n * t.es ≤ int32Max ∧ checkTensorPrivate t = some .ok := by
  obtain ⟨h1, -, h3, h4, h5, h6⟩ := h
  have hes : n * t.es ≤ int32Max := h5.trans h6
  have hn : n ≤ int32Max := by rcases h3 with e | e <;> rw [e] at hes <;> simp only [int32Max] at * <;> omega
  have hc : 0 ≤ t.cap := by rcases h3 with e | e <;> rw [e] at h5 <;> omega
  have hf : t.footprint = n * t.es := by
    rw [footprint_eq]
    rcases h1 with e | e <;> simp [e, span]
  have hw : t.WellTyped := by
    refine ⟨?_, hc, by simp only [int32Max] at *; omega, by omega⟩
    have i1 : InRange 32 1 := by decide
    have i2 : InRange 32 n := ⟨by simp only [lo]; omega, by simp only [int32Max, hi] at *; omega⟩
    simp only [int32Max] at hn
    rcases h1 with e | e <;> rw [e] <;> simp <;> refine ⟨?_, ?_⟩ <;> first | omega | exact ⟨by omega, i1⟩ | skip
    all_goals (try exact ⟨by omega, by omega, i1⟩)
  refine ⟨hw, hf, hes, ?_⟩
  refine (c10_check_decision_partial t hw (by omega) ?_).1.2 ⟨⟨?_, h6, ?_, ?_⟩, by omega⟩
  · intro d hd
    rcases h1 with e | e <;> rw [e] at hd <;> simp at hd
    · rw [hd]; simp; omega
    · rcases hd with rfl | rfl <;> simp <;> omega
  · rcases h1 with e | e <;> simp [e]
  · intro d hd
    rcases h1 with e | e <;> rw [e] at hd <;> simp at hd
    · rw [hd]; simp; omega
    · rcases hd with rfl | rfl <;> simp [int32Max] at * <;> omega
  · rcases h1 with e | e <;> simp [Tensor.shape, Tensor.strides, e, StridesNested]

/-- The tensor with the smallest capacity that is accepted. -/
def Tensor.trim (t : Tensor) (n : Int) : Tensor := { t with cap := n * t.es }

theorem RowT.trim {t : Tensor} {n p : Int} (h : RowT t n p) : RowT (t.trim n) n p :=
  ⟨h.dims, h.base, h.es, h.pos, le_refl _, h.need.trans h.cap⟩

theorem RowT.valid {t : Tensor} {n p : Int} (h : RowT t n p) {d : Buf} (hb : 0 ≤ p ∧ p + n ≤ d.size) : (t.trim n).Valid d := by
  obtain ⟨h1, h2, h3, h4⟩ := h.trim.decide
  refine ⟨h1, by rw [h2]; exact h3, h4, ?_⟩
  have e : (t.trim n).base = p := h.base
  unfold Tensor.Fits
  rw [e]
  refine ⟨hb.1, ?_⟩
  show p * t.es + n * t.es ≤ d.size * t.es
  rw [← Int.add_mul]
  exact mul_le_mul_of_nonneg_right hb.2 (by rcases h.es with e | e <;> omega)

theorem RowT.index {t : Tensor} {n p : Int} (h : RowT t n p) {is : List Int} (hi : InShape t.shape is) :
    0 ≤ offset t.strides is ∧ offset t.strides is < n := by
  rcases h.dims with e | e
  · simp only [Tensor.shape, e, List.map_cons, List.map_nil] at hi
    match is, hi with
    | [i], ⟨⟨a, b⟩, _⟩ => simp only [Tensor.strides, e, List.map_cons, List.map_nil, offset]; omega
  · simp only [Tensor.shape, e, List.map_cons, List.map_nil] at hi
    match is, hi with
    | [j, i], ⟨⟨c, c'⟩, ⟨a, b⟩, _⟩ =>
      obtain rfl : j = 0 := by omega
      simp only [Tensor.strides, e, List.map_cons, List.map_nil, offset]; omega

theorem RowT.onto {t : Tensor} {n p : Int} (h : RowT t n p) {i : Int} (h0 : 0 ≤ i) (h1 : i < n) :
    ∃ is, InShape t.shape is ∧ offset t.strides is = i := by
  rcases h.dims with e | e
  · refine ⟨[i], ?_, ?_⟩
    · simp only [Tensor.shape, e, List.map_cons, List.map_nil]; exact ⟨⟨h0, h1⟩, trivial⟩
    · simp only [Tensor.strides, e, List.map_cons, List.map_nil, offset]; omega
  · refine ⟨[0, i], ?_, ?_⟩
    · simp only [Tensor.shape, e, List.map_cons, List.map_nil]; exact ⟨⟨by omega, by omega⟩, ⟨h0, h1⟩, trivial⟩
    · simp only [Tensor.strides, e, List.map_cons, List.map_nil, offset]; omega

/-- A kernel that applies `g` to the `w`-bit elements of a row. -/
structure ActOk (w : Nat) (f : Kernel1) (g : Int → Int) : Prop where
  range : ∀ v, InRange w v → InRange w (g v)
  run : ∀ {ti tu : Tensor} {n pi po : Int} {d : Buf}, RowT ti n pi → RowT tu n po → ti.dims = tu.dims →
    (0 ≤ pi ∧ pi + n ≤ d.size) → (0 ≤ po ∧ po + n ≤ d.size) → RowSep n pi po →
    (∀ i, 0 ≤ i → i < n → InRange w (d.get (pi + i))) →
    ∃ d', runAct f ti tu d = some d' ∧ d.Puts po n (fun i => g (d.get (pi + i))) d'

theorem actOk_lut {m : Rnd} {l : Lut} {ci : LutIn} {co : LutOut} {fr : Int} {w : Nat} {f : Kernel1} {g : Int → Int}
    (hr : ∀ v, InRange w v → InRange w (g v)) (hg : ∀ v, InRange w v → lutElem m l ci co fr v = some (g v))
    (hf : ∀ ti tu d, chkBasicActivation ti tu = some .ok → f ti tu d = (activationLut m l ci co fr ti tu d).map fun d => (.ok, d)) :
    ActOk w f g := by
  refine ⟨hr, ?_⟩
  intro ti tu n pi po d hi ho hd bi bo hsep hel
  have hsh : ti.shape = tu.shape := by unfold Tensor.shape; rw [hd]
  have hst : ti.strides = tu.strides := by unfold Tensor.strides; rw [hd]
  have ai := hi.decide.2.2.2
  have ao := ho.decide.2.2.2
  have la : ∀ {t : Tensor} {p : Int}, RowT t n p → t.strides.getLast? = some 1 := by
    intro t p h
    rcases h.dims with e | e <;> simp [Tensor.strides, e]
  have hchk : chkBasicActivation ti tu = some .ok := by
    simp [chkBasicActivation, ai, ao, sameShape, hsh, innerOne, la hi, la ho]
  have vi := hi.valid bi
  have vo := ho.valid bo
  have sep : (ti.trim n).Separate (tu.trim n) := by
    intro is js his hjs e
    have e : ti.base + offset ti.strides is = tu.base + offset tu.strides js := e
    rw [hi.base, ho.base] at e
    have a1 := hi.index his
    have a2 := ho.index hjs
    have hpe : pi = po := by unfold RowSep at hsep; omega
    rw [← hst] at e
    exact c09_accepted_no_alias ti ai is js his (by rw [hsh]; exact hjs) (by omega)
  obtain ⟨d', h1, h2⟩ := map_unary (ti.trim n) (tu.trim n) d vi vo hsh sep (lutElem m l ci co fr) (fun is => g (d.get ((ti.trim n).addr is))) (by
    intro is his
    apply hg
    have := hi.index his
    show InRange w (d.get (ti.base + offset ti.strides is))
    rw [hi.base]
    exact hel _ this.1 this.2)
  have hrun : activationLut m l ci co fr ti tu d = some d' := by
    unfold activationLut
    rw [c33_squash_invisible ti tu hsh ai ao]
    exact h1
  refine ⟨d', ?_, h2.size, ?_, ?_⟩
  · unfold runAct
    rw [hf ti tu d hchk, hrun]
    rfl
  · intro i h0 h1
    obtain ⟨is, k1, k2⟩ := ho.onto h0 h1
    have := h2.elem is k1
    have ea : (tu.trim n).addr is = po + i := by
      show tu.base + offset tu.strides is = _
      rw [ho.base, k2]
    have eb : (ti.trim n).addr is = pi + i := by
      show ti.base + offset ti.strides is = _
      rw [hi.base, hst, k2]
    rw [ea, eb] at this
    exact this
  · intro x hx
    apply h2.frame
    intro is his e
    have := ho.index his
    have e : tu.base + offset tu.strides is = x := e
    rw [ho.base] at e
    omega

/-- What `rnn_dense_op` stores when its inputs are outside of its output row. -/
theorem rnnDenseMem_puts {aw : Nat} {ins : Buf → List RnnIn} {biasAdd store : Int → Int} {bias : Buf} {bp op m : Int} {d : Buf}
    (L : Nat) (t : Int → Nat → Int) (h0 : 0 ≤ m) (bo : 0 ≤ op ∧ op + m ≤ d.size) (bb : 0 ≤ bp ∧ bp + m ≤ bias.size)
    (hl : ∀ d', (ins d').length = L) (hz : ∀ i ∈ ins d, i.zw = 0)
    (ht : ∀ d' : Buf, d'.size = d.size → (∀ x, x < op ∨ op + m ≤ x → d'.get x = d.get x) → ∀ o : Nat, (o : Int) < m →
      ∀ k (hk : k < (ins d').length), rnnTerm aw o (if k = 0 then biasAdd (bias.get (bp + o)) else 0) 0 (ins d')[k] = some (t o k)) :
    ∃ d', rnnDenseMem aw ins biasAdd store bias bp op m d = some d' ∧
      d.Puts op m (fun o => store ((List.range L).foldl (fun s k => addFx aw s (t o k)) 0)) d' := by
  unfold rnnDenseMem
  rw [mapM_const _ 0 (ins d) fun i hi => rnnAdditive_eq aw (hz i hi), Option.bind_some]
  apply forRange_puts _ _ h0 bo
  intro o ho d' hd hfr
  have e : (ins d').zip (List.replicate (ins d).length (0 : Int)) = (ins d').zip (List.replicate (ins d').length 0) := by rw [hl, hl]
  rw [Buf.rd_some (by omega), Option.bind_some, e,
    rnnSum_eq aw o (ins d') _ 0 (t o) (ht d' hd (fun x hx => hfr x (by omega)) o ho), Option.bind_some, hl]

end Mli
